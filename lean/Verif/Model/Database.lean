import Verif.Model.Mygration

/-!
# Model of `Database` (`mygrations/core/definitions/database.py`)
and of the constructor of `Mygration`.
-/

namespace Mygrations

/-- `Database` (core/definitions/database.py:1-27).
* `schemaCache`, `parsingCache` are `_schema_errors` and `_parsing_errors`;
* `checked` lists the tables whose own caches are filled (`table._schema_errors is not None`).

The warnings about a schema are in `Model/Warnings`.  The caches of single columns are not modelled either: they matter only when a
column's check raises, the table is modified, and the errors are asked for again. -/
structure Database where
  tables : Dict Table := []
  rows : Dict (List Rows) := []
  globalErrors : List Str := []
  schemaCache : Option (List Str) := none
  parsingCache : Option (List Str) := none
  checked : List Str := []
  deriving DecidableEq, Repr

namespace Database

/-! ## Foreign keys -/

/-- `` `table`.`column` `` -/
def dotted (table column : Str) : Str := py"`" ++ table ++ py"`.`" ++ column ++ py"`"

/-- "Constraint error for foreign key `<name>`: " -/
def fkLabel (k : Constraint) : Str := py"Constraint error for foreign key `" ++ k.name ++ py"`: "

/-- `'%s' % value` for an attribute which may be `None` -/
def showOpt : Option Str → Str
  | none => py"None"
  | some s => s

/-- the message of the loop over the attributes (database.py:293-301) -/
def mismatch (k : Constraint) (attr : Str) (table ftable : Table) (fcol : Column) (v fv : Str) : Str :=
  fkLabel k ++ attr ++ py" mismatch. " ++ dotted table.name k.column ++ py" is '" ++ v ++ py"' but " ++
  dotted ftable.name fcol.name ++ py" is '" ++ fv ++ py"'"

/-- the attributes that must match, and the signedness (database.py:291-313): first mismatch -/
def attributeError (k : Constraint) (table ftable : Table) (col fcol : Column) : Option Str :=
  if col.columnType ≠ fcol.columnType then
    some (mismatch k py"column type" table ftable fcol col.columnType fcol.columnType)
  else if col.len ≠ fcol.len then
    some (mismatch k py"length" table ftable fcol col.len.format fcol.len.format)
  else if col.characterSet ≠ fcol.characterSet then
    some (mismatch k py"character set" table ftable fcol (showOpt col.characterSet) (showOpt fcol.characterSet))
  else if col.collate ≠ fcol.collate then
    some (mismatch k py"collate" table ftable fcol (showOpt col.collate) (showOpt fcol.collate))
  else if col.isUnsigned && !fcol.isUnsigned then
    some (fkLabel k ++ py"unsigned mistmatch. " ++ dotted table.name col.name ++ py" is unsigned but " ++
      dotted ftable.name fcol.name ++ py" is not")
  else if !col.isUnsigned && fcol.isUnsigned then
    some (fkLabel k ++ py"unsigned mistmatch. " ++ dotted ftable.name fcol.name ++ py" is unsigned but " ++
      dotted table.name col.name ++ py" is not")
  else none

/-- the `SET NULL` check (database.py:315-324) -/
def setNullError (k : Constraint) (table : Table) (col : Column) : Option Str :=
  if (k.onDelete = py"SET NULL" ∨ k.onUpdate = py"SET NULL") ∧ !col.null then
    some (fkLabel k ++ py"invalid SET NULL. " ++ dotted table.name col.name ++
      py" is not allowed to be null but the foreign key attempts to set the value to null " ++
      join py" and " ((if k.onDelete = py"SET NULL" then [py"ON DELETE"] else []) ++
        (if k.onUpdate = py"SET NULL" then [py"ON UPDATE"] else [])))
  else none

/-- `find_constraint_errors` (database.py:257-331).  `column_is_indexed` also fills the table's index cache;
that effect is not threaded through: it does not change any later answer of this function, and no operation
that a `Database` offers changes an index. -/
def findConstraintErrors (tables : Dict Table) (table : Table) (k : Constraint) : Except PyErr (Option Str) :=
  match tables.get? k.ftable with
  | none => .ok (some (fkLabel k ++ dotted table.name k.column ++ py" references " ++ dotted k.ftable k.fcolumn ++
      py", but table `" ++ k.ftable ++ py"` does not exist"))
  | some ftable =>
  match ftable.columns.get? k.fcolumn with
  | none => .ok (some (fkLabel k ++ dotted table.name k.column ++ py" references " ++ dotted k.ftable k.fcolumn ++
      py", but column " ++ dotted k.ftable k.fcolumn ++ py" does not exist"))
  | some fcol =>
  match table.columns.get? k.column with
  | none => .ok (some (fkLabel k ++ py"sets constraint on column " ++ dotted table.name k.column ++
      py", but this column does not exist"))
  | some col =>
  match table.columnIsIndexed col.name with
  | .error e => .error e
  | .ok (false, _) => .ok (some (fkLabel k ++ py"missing index. " ++ dotted table.name col.name ++
      py" does not have an index and therefore cannot be used in a foreign key constraint"))
  | .ok (true, _) =>
  match attributeError k table ftable col fcol with
  | some e => .ok (some e)
  | none =>
  match setNullError k table col with
  | some e => .ok (some e)
  | none =>
  match ftable.columnIsIndexed fcol.name with
  | .error e => .error e
  | .ok (false, _) => .ok (some (fkLabel k ++ py"missing index. " ++ dotted table.name col.name ++ py" references " ++
      dotted ftable.name fcol.name ++ py" but " ++ dotted ftable.name fcol.name ++
      py" does not have an index and therefore cannot be used in a foreign key constraint"))
  | .ok (true, _) => .ok none

/-- the message for a name used twice (database.py:172-175) -/
def duplicateFk (name first second : Str) : Str :=
  py"Duplicate foreign key: foreign key named '" ++ name ++ py"' exists in tables '" ++ first ++ py"' and '" ++
  second ++ py"'"

/-- one constraint (database.py:167-177); `seen` is `constraint_tables` -/
def constraintStep (tables : Dict Table) (table : Table) (seen : Dict Str) (k : Constraint) :
    Except PyErr (List Str × Dict Str) :=
  match findConstraintErrors tables table k with
  | .error e => .error e
  | .ok err =>
    match seen.get? k.name with
    | some first => .ok (err.toList ++ [duplicateFk k.name first table.name], seen)
    | none => .ok (err.toList, Dict.set seen k.name table.name)

/-- the loop over the constraints of all tables (database.py:163-177) -/
def constraintLoop (tables : Dict Table) : List (Table × Constraint) → Dict Str → Except PyErr (List Str)
  | [], _ => .ok []
  | (t, k) :: rest, seen =>
    match constraintStep tables t seen k with
    | .error e => .error e
    | .ok (errs, seen') => (constraintLoop tables rest seen').map (fun more => errs ++ more)

/-- all constraints with their tables, in the order of the loops -/
def allConstraints (tables : Dict Table) : List (Table × Constraint) :=
  tables.values.flatMap (fun t => t.constraints.values.map (fun k => (t, k)))

/-- `find_all_database_schema_errors` (database.py:155-179) -/
def fkErrors (tables : Dict Table) : Except PyErr (List Str) := constraintLoop tables (allConstraints tables) []

/-- `unfulfilled_fks` (database.py:333-360): name and message of every constraint of the table with an error -/
def unfulfilledFks (tables : Dict Table) (table : Table) : List (Str × Constraint) → Except PyErr (Dict Str)
  | [] => .ok []
  | (n, k) :: rest =>
    match findConstraintErrors tables table k with
    | .error e => .error e
    | .ok none => unfulfilledFks tables table rest
    | .ok (some m) => (unfulfilledFks tables table rest).map (fun d => (n, m) :: d)

/-! ## Tables and rows -/

/-- `hasattr(table, "schema_errors")` and then its value: an `AttributeError` counts as "no attribute"; a table
which was checked before returns what it has (database.py:138-140, core/definitions/table.py:88-97). -/
def askTable [PyNum] (part : Table.Found → List Str) (checked : List Str) (n : Str) (t : Table) : Except PyErr (List Str) :=
  if checked.contains n then .ok (part t.findAll)
  else match t.findAll.raised with
    | none => .ok (part t.findAll)
    | some (.attributeError _) => .ok []
    | some e => .error e

/-- the loop of `find_all_table_schema_errors` and `find_all_table_parsing_errors` (database.py:131-141,213-221):
the errors and the tables checked so far -/
def askTables [PyNum] (part : Table.Found → List Str) : List Str → Dict Table → Except PyErr (List Str) × List Str
  | checked, [] => (.ok [], checked)
  | checked, (n, t) :: rest =>
    match askTable part checked n t with
    | .error e => (.error e, Table.setAdd checked n)
    | .ok errs =>
      let (more, checked') := askTables part (Table.setAdd checked n) rest
      (more.map (fun m => errs ++ m), checked')

/-- one INSERT (database.py:94-114); `last` is the variable `table`, which the last branch reads although only
the branch before sets it -/
def rowsStep (tables : Dict Table) (n : Str) (r : Rows) (last : Option Table) : Except PyErr (List Str × Option Table) :=
  match tables.get? n with
  | none => .ok ([py"Insert error: found an insert for table '" ++ n ++ py"' but this table does not exist"], last)
  | some t =>
    if r.numExplicit ≠ 0 then
      .ok ((r.columns.filter (fun c => !t.columns.has c)).map (fun c =>
        py"Insert error: insert command attempts to set column '" ++ c ++ py"' for table '" ++ n ++
        py"' but the column does not exist in the table."), some t)
    else match last with
      | none => if r.rawRows = [] then .ok ([], none) else .error (.unboundLocal py"table")
      | some l => .ok ((r.rawRows.filter (fun vs => vs.length ≠ l.columns.length)).map (fun _ =>
          py"Insert error for table '" ++ n ++
          py"': insert command does not explicitly set column names and has a different number of values than the number of columns in the table"),
          some l)

/-- the loop over all INSERTs -/
def rowsLoop (tables : Dict Table) : List (Str × Rows) → Option Table → Except PyErr (List Str)
  | [], _ => .ok []
  | (n, r) :: rest, last =>
    match rowsStep tables n r last with
    | .error e => .error e
    | .ok (errs, last') => (rowsLoop tables rest last').map (fun more => errs ++ more)

/-- all INSERTs with the table name under which they are stored -/
def allRows (rows : Dict (List Rows)) : List (Str × Rows) := rows.flatMap (fun e => e.2.map (fun r => (e.1, r)))

/-- `find_all_row_schema_errors` (database.py:84-116) -/
def rowErrors (tables : Dict Table) (rows : Dict (List Rows)) : Except PyErr (List Str) :=
  rowsLoop tables (allRows rows) none

/-- `find_all_row_parsing_errors` (database.py:223-232) -/
def rowParsingErrors (rows : Dict (List Rows)) : List Str := (allRows rows).flatMap (fun e => e.2.parsingErrors)

/-! ## `errors` -/

/-- `find_schema_errors` (database.py:68-82) -/
def findSchemaErrors [PyNum] (d : Database) : Except PyErr (List Str) × Database :=
  match d.schemaCache with
  | some l => (.ok l, d)
  | none =>
    match fkErrors d.tables with
    | .error e => (.error e, d)
    | .ok fe =>
      match askTables Table.Found.schema d.checked d.tables with
      | (.error e, checked) => (.error e, { d with checked := checked })
      | (.ok te, checked) =>
        match rowErrors d.tables d.rows with
        | .error e => (.error e, { d with checked := checked })
        | .ok re => (.ok (fe ++ te ++ re), { d with checked := checked, schemaCache := some (fe ++ te ++ re) })

/-- `find_parsing_errors` (database.py:181-194) -/
def findParsingErrors [PyNum] (d : Database) : Except PyErr (List Str) × Database :=
  match d.parsingCache with
  | some l => (.ok l, d)
  | none =>
    match askTables Table.Found.parsing d.checked d.tables with
    | (.error e, checked) => (.error e, { d with checked := checked })
    | (.ok te, checked) =>
      (.ok (te ++ rowParsingErrors d.rows), { d with checked := checked, parsingCache := some (te ++ rowParsingErrors d.rows) })

/-- `errors` (database.py:29-39) -/
def errors [PyNum] (d : Database) : Except PyErr (List Str) × Database :=
  match d.findSchemaErrors with
  | (.error e, d₁) => (.error e, d₁)
  | (.ok s, d₁) =>
    match d₁.findParsingErrors with
    | (.error e, d₂) => (.error e, d₂)
    | (.ok p, d₂) => (.ok (d.globalErrors ++ p ++ s), d₂)

/-! ## Modifications -/

/-- `add_table` (database.py:362-373).  A table object handed in may have been checked already. -/
def addTable (d : Database) (t : Table) (wasChecked : Bool := false) : Except PyErr Database :=
  if d.tables.has t.name then
    .error (.valueError (py"Cannot add table " ++ t.name ++ py" to database because it already exists"))
  else .ok { d with schemaCache := none, tables := d.tables.set t.name t
                    checked := if wasChecked then Table.setAdd d.checked t.name else d.checked.filter (· ≠ t.name) }

/-- `remove_table` (database.py:375-386) -/
def removeTable (d : Database) (name : Str) : Except PyErr Database :=
  if d.tables.has name then .ok { d with schemaCache := none, tables := d.tables.erase name }
  else .error (.valueError (py"Cannot remove table " ++ name ++ py" from database because it does not exist"))

/-- `apply_operation` (database.py:388-405); every operation of a table first drops the table's caches -/
def applyOperation (d : Database) (name : Str) (op : AlterOp) : Except PyErr Database :=
  match d.tables.get? name with
  | none => .error (.valueError (py"Cannot apply operation to table " ++ name ++ py" because that table does not exist"))
  | some t =>
    match t.applyOp op with
    | .error e => .error e
    | .ok t' => .ok { d with schemaCache := none, tables := d.tables.set name t', checked := d.checked.filter (· ≠ name) }

end Database

/-! ## `Mygration` -/

namespace Mygration

/-- What `Mygration(db_to, db_from, disable_checks)` offers: `errors` and `operations`
(mygration.py:32-57; `operations` is `None` if there are errors). -/
structure Plan where
  errors : List Str
  operations : Option (List Op)
  deriving DecidableEq, Repr

/-- `Mygration.__init__` (mygration.py:32-57) -/
def new [PyNum] (to : Database) (fromT : Option Database) (disableChecks : Bool := true) : Except PyErr Plan :=
  match to.errors.1 with
  | .error e => .error e
  | .ok (e :: es) => .ok ⟨e :: es, none⟩
  | .ok [] =>
    match process to.tables (fromT.map Database.tables) disableChecks with
    | .error e => .error e
    | .ok ops => .ok ⟨[], some ops⟩

end Mygration

namespace RowMygration

/-- What `RowMygration(db_to, db_from)` offers (row_mygration.py:13-45): the errors of the target are not asked
for here. -/
def new (to : Database) (fromT : Option Database) : Except PyErr (List Op) :=
  process to.tables (fromT.map Database.tables)

end RowMygration

end Mygrations

import Verif.Model.Column

/-!
# Model of `Table` (`mygrations/core/definitions/table.py`)
and of the operations on tables (`mygrations/formats/mysql/mygrations/operations`).
-/

namespace Mygrations

/-- `Table` (core/definitions/table.py:12-61).  `indexedCache` is `_indexed_columns`, `primary` is
`_primary`; `rows` is `None` until rows are tracked.  `_schema_errors`/`_parsing_errors` caches of the
table are not part of the record: they are reset by every mutator, see `Table.findAll`. -/
structure Table where
  name : Str := []
  columns : Dict Column := []
  indexes : Dict Index := []
  constraints : Dict Constraint := []
  options : List TableOpt := []
  primary : Option Index := none
  indexedCache : Option (List Str) := none
  rows : Option (Dict Row) := none
  tracking : Bool := false
  globalErrors : List Str := []
  globalWarnings : List Str := []
  deriving DecidableEq, Repr

/-- Where a new column goes (operations/add_column.py:2-22): `None`/`False`, `True`, or a column name. -/
inductive Pos
  | last
  | first
  | after (col : Str)
  deriving DecidableEq, Repr

/-- The clauses of an `AlterTable` (operations/*.py). -/
inductive AlterOp
  | addColumn (c : Column) (p : Pos)
  | changeColumn (c : Column)
  | removeColumn (c : Column)
  | addKey (i : Index)
  | changeKey (i : Index)
  | removeKey (i : Index)
  | addConstraint (k : Constraint)
  | changeConstraint (k : Constraint)
  | removeConstraint (k : Constraint)
  deriving DecidableEq, Repr

/-- `AlterTable` (operations/alter_table.py) -/
structure Alter where
  table : Str
  ops : List AlterOp
  deriving DecidableEq, Repr

namespace AlterOp

/-- `__str__` of the operations (operations/{add,change,remove}_{column,key,constraint}.py). -/
def render : AlterOp → Str
  | addColumn c p => py"ADD " ++ c.render ++
      (match p with
       | .first => py" FIRST"
       | .after a => py" AFTER `" ++ a ++ py"`"
       | .last => [])
  | changeColumn c => py"CHANGE `" ++ c.name ++ py"` " ++ c.render
  | removeColumn c => py"DROP " ++ c.name
  | addKey i => py"ADD " ++ i.render
  | changeKey i => py"DROP KEY `" ++ i.name ++ py"`, ADD " ++ i.render
  | removeKey i => if i.indexType = py"PRIMARY" then py"DROP PRIMARY KEY" else py"DROP KEY `" ++ i.name ++ py"`"
  | addConstraint k => py"ADD " ++ k.render
  | changeConstraint k => py"DROP FOREIGN KEY `" ++ k.name ++ py"`, ADD " ++ k.render
  | removeConstraint k => py"DROP FOREIGN KEY `" ++ k.name ++ py"`"

end AlterOp

/-- `AlterTable.__str__` (operations/alter_table.py) -/
def Alter.render (a : Alter) : Str :=
  py"ALTER TABLE `" ++ a.table ++ py"` " ++ join py", " (a.ops.map AlterOp.render) ++ py";"

/-- `CreateTable.__str__` with `nice=False` or `True` (operations/create_table.py). -/
def Table.renderCreate (t : Table) (nice : Bool) : Str :=
  let newline := if nice then py"\n" else []
  let padding := if nice then py"  " else []
  let body := t.columns.values.map (fun c => padding ++ c.render) ++
    t.indexes.values.map (fun i => padding ++ i.render) ++
    t.constraints.values.map (fun k => padding ++ k.render)
  let options := if t.options.isEmpty then []
    else py" " ++ join py" " (t.options.map (fun o => o.name ++ py"=" ++ o.value))
  py"CREATE TABLE `" ++ t.name ++ py"` (" ++ newline ++ join py",\n" body ++ newline ++ py")" ++ options ++ py";"

/-- `_differences` (core/definitions/table.py:619-634): added, removed and common keys. -/
def added {A B : Type} (fromD : Dict A) (toD : Dict B) : List Str := toD.keys.filter (fun k => !fromD.has k)

/-- second component of `_differences` -/
def removed {A B : Type} (fromD : Dict A) (toD : Dict B) : List Str := fromD.keys.filter (fun k => !toD.has k)

/-- third component of `_differences` -/
def overlap {A B : Type} (fromD : Dict A) (toD : Dict B) : List Str := fromD.keys.filter (fun k => toD.has k)

namespace Table

/-! ## Columns -/

/-- the position loop of `add_column` (table.py:454-460) -/
def insertAfter {V : Type} (pos : Str) (k : Str) (v : V) : Dict V → Dict V
  | [] => []
  | (k', v') :: d => if k' = pos then (k', v') :: (k, v) :: insertAfter pos k v d else (k', v') :: insertAfter pos k v d

/-- `add_column` (table.py:429-468).  `move_to_end` exists because tables read from SQL keep their
columns in an `OrderedDict` (create_parser.py:88). -/
def addColumn (t : Table) (c : Column) (p : Pos) : Except PyErr Table :=
  if t.columns.has c.name then
    .error (.valueError (py"Cannot add column " ++ c.name ++ py" because " ++ c.name ++ py" already exists"))
  else match p with
    | .last => .ok { t with columns := t.columns ++ [(c.name, c)] }
    | .first => .ok { t with columns := (c.name, c) :: t.columns }
    | .after a =>
      if t.columns.has a then .ok { t with columns := insertAfter a c.name c t.columns }
      else .error (.valueError (py"Cannot add column " ++ c.name ++ py" after " ++ a ++ py" because " ++ a ++ py" does not exist"))

/-- `remove_column` (table.py:470-477) -/
def removeColumn (t : Table) (name : Str) : Except PyErr Table :=
  if t.columns.has name then .ok { t with columns := t.columns.erase name }
  else .error (.valueError (py"Cannot remove column " ++ name ++ py" because column " ++ name ++ py" does not exist"))

/-- `change_column` (table.py:479-487) -/
def changeColumn (t : Table) (c : Column) : Except PyErr Table :=
  if t.columns.has c.name then .ok { t with columns := t.columns.set c.name c }
  else .error (.valueError (py"Cannot modify column " ++ c.name ++ py" because column " ++ c.name ++ py" does not exist"))

/-- the loop of `column_before` (table.py:388-400): the key before `name`; `prev` is the last key seen -/
def columnBeforeAux (name : Str) : Option Str → List Str → Option Pos
  | _, [] => none
  | prev, k :: ks =>
    if k = name then some (match prev with | none => .first | some p => .after p)
    else columnBeforeAux name (some k) ks

/-- `column_before` (table.py:380-400) -/
def columnBefore (t : Table) (name : Str) : Except PyErr Pos :=
  match columnBeforeAux name none t.columns.keys with
  | some p => .ok p
  | none => .error (.valueError (py"Cannot return column before " ++ name ++ py" because " ++ name ++
      py" does not exist in table " ++ t.name))

/-! ## Indexes -/

/-- `set.add` on a set kept as a list -/
def setAdd (s : List Str) (x : Str) : List Str := if s.contains x then s else s ++ [x]

/-- `add_index` (table.py:489-500) -/
def addIndex (t : Table) (i : Index) : Except PyErr Table :=
  if t.indexes.has i.name then
    .error (.valueError (py"Cannot add index " ++ i.name ++ py" because index " ++ i.name ++ py" already exists"))
  else
    let t := { t with primary := if i.isPrimary then some i else t.primary, indexes := t.indexes.set i.name i }
    match t.indexedCache with
    | none => .ok t
    | some s =>
      match i.columns with
      | [] => .error .indexError
      | c :: _ => .ok { t with indexedCache := some (setAdd s c) }

/-- `remove_index` (table.py:502-513) -/
def removeIndex (t : Table) (name : Str) : Except PyErr Table :=
  match t.indexes.get? name with
  | none => .error (.valueError (py"Cannot remove index " ++ name ++ py" because index " ++ name ++ py" does not exist"))
  | some i =>
    match i.columns with
    | [] => .error .indexError
    | c :: _ =>
      .ok { t with indexes := t.indexes.erase name, indexedCache := t.indexedCache.map (fun s => s.filter (· ≠ c)) }

/-- `change_index` (table.py:515-529) -/
def changeIndex (t : Table) (i : Index) : Except PyErr Table :=
  match t.indexes.get? i.name with
  | none => .error (.valueError (py"Cannot modify index " ++ i.name ++ py" because index " ++ i.name ++ py" does not exist"))
  | some old =>
    match t.indexedCache with
    | none => .ok { t with indexes := t.indexes.set i.name i }
    | some s =>
      match old.columns, i.columns with
      | oc :: _, nc :: _ =>
        .ok { t with indexes := t.indexes.set i.name i, indexedCache := some (setAdd (s.filter (· ≠ oc)) nc) }
      | _, _ => .error .indexError

/-- `set([index.columns[0] for index in self._indexes.values()])` (table.py:412) -/
def firstColumns : List Index → Except PyErr (List Str)
  | [] => .ok []
  | i :: is =>
    match i.columns with
    | [] => .error .indexError
    | c :: _ => (firstColumns is).map (fun s => setAdd s c)

/-- `column_is_indexed` (table.py:402-413): the answer and the table with its cache filled. -/
def columnIsIndexed (t : Table) (col : Str) : Except PyErr (Bool × Table) :=
  if !t.columns.has col then .ok (false, t)
  else match t.indexedCache with
    | some s => .ok (s.contains col, t)
    | none => (firstColumns t.indexes.values).map (fun s => (s.contains col, { t with indexedCache := some s }))

/-! ## Constraints -/

/-- `add_constraint` (table.py:531-539) -/
def addConstraint (t : Table) (k : Constraint) : Except PyErr Table :=
  if t.constraints.has k.name then
    .error (.valueError (py"Cannot add constraint " ++ k.name ++ py" because constraint " ++ k.name ++ py" already exists"))
  else .ok { t with constraints := t.constraints.set k.name k }

/-- `remove_constraint` (table.py:541-551) -/
def removeConstraint (t : Table) (name : Str) : Except PyErr Table :=
  if t.constraints.has name then .ok { t with constraints := t.constraints.erase name }
  else .error (.valueError (py"Cannot remove constraint " ++ name ++ py" because constraint " ++ name ++ py" does not exist"))

/-- `change_constraint` (table.py:553-562) -/
def changeConstraint (t : Table) (k : Constraint) : Except PyErr Table :=
  if t.constraints.has k.name then .ok { t with constraints := t.constraints.set k.name k }
  else .error (.valueError (py"Cannot modify constraint " ++ k.name ++ py" because constraint " ++ k.name ++ py" does not exist"))

/-- `table.apply_operation(op)` (table.py:636-643) with `op.apply_to_table` of
formats/mysql/mygrations/operations.  The key operations call `add_key`, `change_key` and `remove_key`,
which `Table` does not have. -/
def applyOp (t : Table) : AlterOp → Except PyErr Table
  | .addColumn c p => t.addColumn c p
  | .changeColumn c => t.changeColumn c
  | .removeColumn c => t.removeColumn c.name
  | .addKey _ => .error (.attributeError py"add_key")
  | .changeKey _ => .error (.attributeError py"change_key")
  | .removeKey _ => .error (.attributeError py"remove_key")
  | .addConstraint k => t.addConstraint k
  | .changeConstraint k => t.changeConstraint k
  | .removeConstraint k => t.removeConstraint k.name

/-- `for op in ops: table.apply_operation(op)` -/
def applyOps : Table → List AlterOp → Except PyErr Table
  | t, [] => .ok t
  | t, op :: ops =>
    match t.applyOp op with
    | .ok t' => applyOps t' ops
    | .error e => .error e

/-! ## Rows -/

/-- `mark_tracking_rows` (table.py:227-238) -/
def markTracking (t : Table) : Table :=
  { t with tracking := true, rows := some (t.rows.getD []) }

/-- `list(zip(columns, values))` as a dictionary: `OrderedDict(zip(columns, values))` -/
def zipDict : List Str → List PyVal → Dict PyVal
  | cs, vs => (cs.zip vs).foldl (fun d e => Dict.set d e.1 e.2) []

/-- text of a row in messages.  Simplification: the Python list display is not modelled. -/
def rowText (_ : List PyVal) : Str := py"<row>"

/-- position of `"id"` in the columns: `columns.index("id")` -/
def idIndex : List Str → Option Nat
  | [] => none
  | c :: cs => if c = py"id" then some 0 else (idIndex cs).map (· + 1)

/-- One iteration of the loop of `add_rows` (table.py:319-344) -/
def addRowValues (columns : List Str) (idIdx : Nat) (explicit : Bool) (t : Table) (values : List PyVal) :
    Except PyErr Table :=
  if !explicit && values.length != columns.length then
    .ok { t with globalErrors := t.globalErrors ++
      [py"Insert values has wrong number of values for table " ++ t.name ++ py" and row " ++ rowText values] }
  else match values[idIdx]? with
    | none => .error .indexError
    | some v =>
      let rowId := v.toStr
      let rows := t.rows.getD []
      if rowId = [] then
        .ok { t with globalErrors := t.globalErrors ++
          [py"Row is missing a value for the id column for table " ++ t.name ++ py" and row " ++ rowText values] }
      else if rows.has rowId then
        .ok { t with globalErrors := t.globalErrors ++
          [py"Duplicate row id found for table " ++ t.name ++ py" and row " ++ rowText values] }
      else
        .ok { t with rows := some (Dict.set rows rowId (Dict.set (zipDict columns values) py"id" (.str rowId))) }

/-- the loop of `add_rows` -/
def addRowsLoop (columns : List Str) (idIdx : Nat) (explicit : Bool) :
    Table → List (List PyVal) → Except PyErr Table
  | t, [] => .ok t
  | t, v :: vs =>
    match addRowValues columns idIdx explicit t v with
    | .ok t' => addRowsLoop columns idIdx explicit t' vs
    | .error e => .error e

/-- `add_rows` (table.py:278-346) -/
def addRows (t : Table) (r : Rows) : Except PyErr Table :=
  let t := { t with
    globalErrors := t.globalErrors ++ r.parsingErrors
    globalWarnings := t.globalWarnings ++ r.parsingWarnings
    tracking := true
    rows := some (t.rows.getD []) }
  let columns := if r.numExplicit ≠ 0 then r.columns else t.columns.keys
  match idIndex columns with
  | none => .ok { t with globalErrors := t.globalErrors ++
      [py"A column named 'id' is required to manage rows in the table, but the id column is missing in the rows for table " ++ t.name] }
  | some i => addRowsLoop columns i (r.numExplicit ≠ 0) t r.rawRows

/-- the converted row of `add_raw_row` (table.py:370-376) -/
def convertRow (t : Table) (row : Row) (rowId : Str) : Row :=
  Dict.set (t.columns.foldl (fun d e =>
      Dict.set d e.1 (match Dict.get? row e.1 with
        | some v => v
        | none => match e.2.default with | none => PyVal.none | some s => .str s)) []) py"id" (.str rowId)

/-- `add_raw_row` (table.py:348-378); `str(row.get("id"))` is `"None"` if there is no id. -/
def addRawRow (t : Table) (row : Row) : Except PyErr Table :=
  let t := { t with tracking := true, rows := some (t.rows.getD []) }
  let rowId := match Dict.get? row py"id" with | none => py"None" | some v => v.toStr
  if rowId = [] then .error (.valueError py"Cannot manage records without an 'id' column and value")
  else if (t.rows.getD []).has rowId then .ok t
  else .ok { t with rows := some ((t.rows.getD []).set rowId (t.convertRow row rowId)) }

/-! ## Errors -/

/-- append `" in table '<name>'"` -/
def inTable (t : Table) (e : Str) : Str := e ++ py" in table '" ++ t.name ++ py"'"

/-- What `_find_all_errors` leaves in the caches, and the exception which stopped it, if any. -/
structure Found where
  schema : List Str
  parsing : List Str
  raised : Option PyErr
  deriving DecidableEq, Repr

/-- the columns part of the loop over the children (table.py:175-192): stops at the first exception -/
def columnErrors [PyNum] (t : Table) : List Column → List Str × List Str × Option PyErr
  | [] => ([], [], none)
  | c :: cs =>
    match c.schemaCheck with
    | (_, some e) => ([], [], some e)
    | (errs, none) =>
      let (s, p, r) := columnErrors t cs
      (errs.map t.inTable ++ s, c.parsingErrors.map t.inTable ++ p, r)

/-- the table-level checks after the loop (table.py:194-221) -/
def structureErrors (t : Table) : List Str :=
  let primaries := t.indexes.values.filter Index.isPrimary
  let autos := t.columns.values.filter Column.isAutoInc
  (if primaries.length > 1 then [py"Table '" ++ t.name ++ py"' has more than one PRIMARY index"] else []) ++
  (match autos with
   | [] => []
   | _ :: _ :: _ => [py"Table '" ++ t.name ++ py"' has more than one AUTO_INCREMENT column"]
   | [a] =>
     match primaries with
     | [] => [py"Table '" ++ t.name ++ py"' has an AUTO_INCREMENT column but is missing the PRIMARY index"]
     | p :: _ =>
       if p.columns.headD [] ≠ a.name then
         [py"Mismatched indexes in table '" ++ t.name ++ py"': column '" ++ a.name ++
          py"' is the AUTO_INCREMENT column but '" ++ p.columns.headD [] ++ py"' is the PRIMARY index column"]
       else []) ++
  t.indexes.values.flatMap (fun i =>
    (i.columns.filter (fun c => !t.columns.has c)).map (fun c =>
      py"Table '" ++ t.name ++ py"' has index '" ++ i.name ++ py"' that references non-existent column '" ++ c ++ py"'"))

/-- `_find_all_errors` (table.py:153-225), first evaluation.  Warnings are not modelled.
Simplification: a primary index without columns (never produced by the readers) is not treated specially. -/
def findAll [PyNum] (t : Table) : Found :=
  let head := (if t.name = [] then [py"Table missing name"] else []) ++
    (if t.columns = [] then [py"Table '" ++ t.name ++ py"' does not have any columns"] else [])
  match t.columnErrors t.columns.values with
  | (s, p, some e) => ⟨head ++ s, p, some e⟩
  | (s, p, none) =>
    ⟨head ++ s ++ (t.indexes.values.flatMap Index.schemaErrors).map t.inTable ++
      (t.constraints.values.flatMap Constraint.schemaErrors).map t.inTable ++ t.structureErrors,
     p ++ (t.constraints.values.flatMap Constraint.parsingErrors).map t.inTable, none⟩

end Table

end Mygrations

import Verif.Model.Table

/-!
# Model of the diffs: `Table.to` and `Table.to_rows`
(`mygrations/formats/mysql/definitions/table.py`)
-/

namespace Mygrations

/-- The three alters which `to` builds (definitions/table.py:70,131,136). -/
structure Diff where
  removedFks : List AlterOp
  kitchenSink : List AlterOp
  fks : List AlterOp
  deriving DecidableEq, Repr

namespace Table

/-- `for new_column in added_columns` (definitions/table.py:71-74) -/
def addedColumnOps (t : Table) : List Str → Except PyErr (List AlterOp)
  | [] => .ok []
  | k :: ks =>
    match t.columns.get? k with
    | none => .error (.keyError k)
    | some c =>
      match t.columnBefore k with
      | .error e => .error e
      | .ok p => (addedColumnOps t ks).map (fun ops => .addColumn c p :: ops)

/-- `for overlap_column in overlap_columns` (definitions/table.py:76-87) -/
def changedColumnOps [PyNum] (s t : Table) : List Str → Except PyErr (List AlterOp)
  | [] => .ok []
  | k :: ks =>
    match s.columns.get? k, t.columns.get? k with
    | some a, some b =>
      if a.render = b.render then changedColumnOps s t ks
      else match a.sameAs b with
        | .error e => .error e
        | .ok true => changedColumnOps s t ks
        | .ok false => (changedColumnOps s t ks).map (fun ops => .changeColumn b :: ops)
    | _, _ => .error (.keyError k)

/-- `for removed_column in removed_columns` (definitions/table.py:89-90) -/
def removedColumnOps (s : Table) (ks : List Str) : List AlterOp :=
  ks.filterMap (fun k => (s.columns.get? k).map .removeColumn)

/-- the inner loop of the key matching (definitions/table.py:103-111): the first added key, not yet
matched, on the same columns and of the same type, if one of the two names is a constraint name -/
def findMatch (t : Table) (cnames : List Str) (rk : Str) (ri : Index) (matchedAdded : List Str) :
    List Str → Option Str
  | [] => none
  | ak :: aks =>
    if matchedAdded.contains ak then findMatch t cnames rk ri matchedAdded aks
    else match t.indexes.get? ak with
      | none => findMatch t cnames rk ri matchedAdded aks
      | some ai =>
        if ri.columns = ai.columns ∧ ri.indexType = ai.indexType ∧ (rk ∈ cnames ∨ ak ∈ cnames) then some ak
        else findMatch t cnames rk ri matchedAdded aks

/-- the outer loop of the key matching (definitions/table.py:99-111): the pairs (removed key, added key) -/
def matchKeys (s t : Table) (cnames : List Str) (addedKeys : List Str) :
    List Str → List (Str × Str) → List (Str × Str)
  | [], acc => acc
  | rk :: rks, acc =>
    match s.indexes.get? rk with
    | none => matchKeys s t cnames addedKeys rks acc
    | some ri =>
      match findMatch t cnames rk ri (acc.map Prod.snd) addedKeys with
      | none => matchKeys s t cnames addedKeys rks acc
      | some ak => matchKeys s t cnames addedKeys rks (acc ++ [(rk, ak)])

/-- the suppressed pairs (definitions/table.py:98-111) -/
def matchedKeys (s t : Table) : List (Str × Str) :=
  matchKeys s t (s.constraints.keys ++ t.constraints.keys) (added s.indexes t.indexes)
    (removed s.indexes t.indexes) []

/-- the key operations (definitions/table.py:113-128) -/
def keyOps (s t : Table) : List AlterOp :=
  let m := matchedKeys s t
  ((added s.indexes t.indexes).filter (fun k => !(m.map Prod.snd).contains k)).filterMap
    (fun k => (t.indexes.get? k).map .addKey) ++
  ((removed s.indexes t.indexes).filter (fun k => !(m.map Prod.fst).contains k)).filterMap
    (fun k => (s.indexes.get? k).map .removeKey) ++
  (overlap s.indexes t.indexes).filterMap (fun k =>
    match s.indexes.get? k, t.indexes.get? k with
    | some a, some b =>
      if a.render = b.render then none
      else if a.columns = b.columns ∧ a.indexType = b.indexType then none
      else some (.changeKey b)
    | _, _ => none)

/-- the common constraints which differ (definitions/table.py:139-141) -/
def changedConstraints (s t : Table) : List Str :=
  (overlap s.constraints t.constraints).filter (fun k =>
    match s.constraints.get? k, t.constraints.get? k with
    | some a, some b => a.render ≠ b.render
    | _, _ => false)

/-- `removed_constraints_alter` (definitions/table.py:131-133,146) -/
def removedFkOps (s t : Table) : List AlterOp :=
  (removed s.constraints t.constraints ++ changedConstraints s t).filterMap
    (fun k => (s.constraints.get? k).map .removeConstraint)

/-- `constraints` (definitions/table.py:136-138,147) -/
def addedFkOps (s t : Table) : List AlterOp :=
  (added s.constraints t.constraints ++ changedConstraints s t).filterMap
    (fun k => (t.constraints.get? k).map .addConstraint)

/-- `source.to(target, True)` (definitions/table.py:31-167); an empty list stands for a missing key
of the returned dict. -/
def toSplit [PyNum] (s t : Table) : Except PyErr Diff :=
  match addedColumnOps t (added s.columns t.columns) with
  | .error e => .error e
  | .ok adds =>
    match changedColumnOps s t (overlap s.columns t.columns) with
    | .error e => .error e
    | .ok changes =>
      .ok { removedFks := removedFkOps s t
            kitchenSink := adds ++ changes ++ removedColumnOps s (removed s.columns t.columns) ++ keyOps s t
            fks := addedFkOps s t }

/-- an alter, if it has any operations -/
def alterIf (name : Str) (ops : List AlterOp) : List Alter := if ops = [] then [] else [⟨name, ops⟩]

/-- `source.to(target)` (definitions/table.py:158-165) -/
def to [PyNum] (s t : Table) : Except PyErr (List Alter) :=
  match toSplit s t with
  | .error e => .error e
  | .ok d => .ok (alterIf s.name d.removedFks ++ alterIf s.name (d.kitchenSink ++ d.fks))

/-! ## Rows -/

/-- `type(val1) == type(val2)` -/
def sameType : PyVal → PyVal → Bool
  | .none, .none => true
  | .str _, .str _ => true
  | .int _, .int _ => true
  | .other t _ _, .other t' _ _ => t == t'
  | _, _ => false

/-- `val1 == val2` for values of the same type -/
def pyEq : PyVal → PyVal → Bool
  | .none, .none => true
  | .str a, .str b => a == b
  | .int a, .int b => a == b
  | .other t k _, .other t' k' _ => t == t' && k == k'
  | _, _ => false

/-- `_loose_equal` (core/definitions/table.py:564-574) -/
def looseEqual (a b : PyVal) : Bool :=
  if sameType a b then pyEq a b else a.toStr == b.toStr

end Table

/-- The operations of a plan (operations/*.py). -/
inductive Op
  | disableChecks
  | enableChecks
  | createTable (t : Table)
  | alter (a : Alter)
  | removeTable (name : Str)
  | rowInsert (table : Str) (row : Row)
  | rowDelete (table : Str) (id : Str)
  | rowUpdate (table : Str) (row : Row)
  deriving DecidableEq, Repr

namespace Table

/-- is there a common column with different values (definitions/table.py:199-204)? -/
def rowDiffers (new old : Row) : Bool :=
  (overlap new old).any (fun c =>
    match Dict.get? new c, Dict.get? old c with
    | some a, some b => !looseEqual a b
    | _, _ => false)

/-- the update loop (definitions/table.py:197-207); `RowUpdate` insists on an id (row_update.py:3-4) -/
def rowUpdates (name : Str) (newRows oldRows : Dict Row) : List Str → Except PyErr (List Op)
  | [] => .ok []
  | k :: ks =>
    match newRows.get? k, oldRows.get? k with
    | some n, some o =>
      if rowDiffers n o then
        if Dict.has n py"id" then (rowUpdates name newRows oldRows ks).map (fun ops => .rowUpdate name n :: ops)
        else .error (.keyError py"Missing `id` column needed for update")
      else rowUpdates name newRows oldRows ks
    | _, _ => .error (.keyError k)

/-- `to_rows` (definitions/table.py:169-209) -/
def toRows (t : Table) (fromTable : Option Table) : Except PyErr (List Op) :=
  match fromTable with
  | some f =>
    if !f.tracking then
      .error (.valueError (py"Refusing to compare rows for table " ++ t.name ++ py" that is not tracking rows.  Technically I can, but this is probably a sign that you are doing something wrong"))
    else match t.rows, f.rows with
      | some new, some old =>
        match rowUpdates t.name new old (overlap old new) with
        | .error e => .error e
        | .ok upd =>
          .ok ((added old new).filterMap (fun k => (new.get? k).map (.rowInsert t.name)) ++
               (removed old new).map (.rowDelete t.name) ++ upd)
      | _, _ => .error .typeError
  | none =>
    match t.rows with
    | some new => .ok ((added ([] : Dict Row) new).filterMap (fun k => (new.get? k).map (.rowInsert t.name)))
    | none => .error .typeError

end Table

/-! ## Rendering of row operations -/

/-- `str(val).replace('\\', '\\\\')` (row_update.py) -/
def escapeBackslash (s : Str) : Str := replaceChar '\\' py"\\\\" s

/-- `str(val).replace('\\', '\\\\').replace("'", "\\'")` (row_insert.py) -/
def escapeInsert (s : Str) : Str := replaceChar '\'' py"\\'" (escapeBackslash s)

/-- a value in `RowInsert.__str__` (operations/row_insert.py) -/
def insertLiteral : PyVal → Str
  | .none => py"NULL"
  | v => py"'" ++ escapeInsert v.toStr ++ py"'"

/-- `RowInsert.__str__` (operations/row_insert.py) -/
def renderInsert (table : Str) (row : Row) : Str :=
  py"INSERT INTO `" ++ table ++ py"` (" ++ join py", " (row.map (fun e => py"`" ++ e.1 ++ py"`")) ++
  py") VALUES (" ++ join py", " (row.map (fun e => insertLiteral e.2)) ++ py");"

/-- an assignment in `RowUpdate.__str__` (operations/row_update.py) -/
def updateAssign (key : Str) : PyVal → Str
  | .none => py"`" ++ key ++ py"`=NULL"
  | v => py"`" ++ key ++ py"`='" ++ escapeBackslash v.toStr ++ py"'"

/-- `RowUpdate.__str__` (operations/row_update.py) -/
def renderUpdate (table : Str) (row : Row) : Str :=
  py"UPDATE `" ++ table ++ py"` SET " ++
  join py", " ((row.filter (fun e => e.1 ≠ py"id")).map (fun e => updateAssign e.1 e.2)) ++
  py" WHERE id='" ++ (match Dict.get? row py"id" with | some v => v.toStr | none => []) ++ py"';"

/-- `RowDelete.__str__` (operations/row_delete.py) -/
def renderDelete (table id : Str) : Str :=
  py"DELETE FROM `" ++ table ++ py"` WHERE id='" ++ id ++ py"';"

/-- `str(operation)` -/
def Op.render : Op → Str
  | .disableChecks => py"SET FOREIGN_KEY_CHECKS=0;"
  | .enableChecks => py"SET FOREIGN_KEY_CHECKS=1;"
  | .createTable t => t.renderCreate false
  | .alter a => a.render
  | .removeTable n => py"DROP TABLE " ++ n ++ py";"
  | .rowInsert t r => renderInsert t r
  | .rowDelete t i => renderDelete t i
  | .rowUpdate t r => renderUpdate t r

end Mygrations

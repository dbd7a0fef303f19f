import Verif.Model.Database
import Verif.Spec.Plan

/-!
# Specification: valid foreign keys and indexed columns
-/

namespace Mygrations

/-- The column exists and is the first column of some key. -/
def Table.Indexed (t : Table) (c : Str) : Prop :=
  c ∈ t.columns.keys ∧ ∃ i ∈ t.indexes.values, i.columns.head? = some c

/-- Every key of the table has at least one column. -/
def Table.IndexesHaveColumns (t : Table) : Prop := ∀ i ∈ t.indexes.values, i.columns ≠ []

/-- The set of indexed columns which the table keeps, if it keeps one, is right. -/
def Table.CacheRight (t : Table) : Prop :=
  ∀ s, t.indexedCache = some s → ∀ c, c ∈ s ↔ ∃ i ∈ t.indexes.values, i.columns.head? = some c

/-- A foreign key which MySQL can create: the referenced table and column exist, the local column exists, both
columns have an index, their types agree, and `SET NULL` is only used if the local column may be null. -/
def FkValid (tables : Dict Table) (t : Table) (k : Constraint) : Prop :=
  ∃ ft fcol col, tables.get? k.ftable = some ft ∧ ft.columns.get? k.fcolumn = some fcol ∧
    t.columns.get? k.column = some col ∧ t.Indexed k.column ∧ ft.Indexed k.fcolumn ∧
    col.columnType = fcol.columnType ∧ col.len = fcol.len ∧ col.characterSet = fcol.characterSet ∧
    col.collate = fcol.collate ∧ col.isUnsigned = fcol.isUnsigned ∧
    (k.onDelete = py"SET NULL" → col.null = true) ∧ (k.onUpdate = py"SET NULL" → col.null = true)

/-! ## Histories of a table -/

/-- What a user can do with the columns and indexes of a table; `ask` is `table.column_is_indexed(column)`. -/
inductive IndexOp
  | addColumn (c : Column) (p : Pos)
  | removeColumn (name : Str)
  | changeColumn (c : Column)
  | addIndex (i : Index)
  | removeIndex (name : Str)
  | changeIndex (i : Index)
  | ask (col : Str)
  deriving DecidableEq, Repr

/-- The table after a call which returned; a call which raises leaves the table as it is (all of them check their
arguments first). -/
def keep (t : Table) : Except PyErr Table → Table
  | .ok t' => t'
  | .error _ => t

/-- One call. -/
def IndexOp.step (t : Table) : IndexOp → Table
  | .addColumn c p => keep t (t.addColumn c p)
  | .removeColumn n => keep t (t.removeColumn n)
  | .changeColumn c => keep t (t.changeColumn c)
  | .addIndex i => keep t (t.addIndex i)
  | .removeIndex n => keep t (t.removeIndex n)
  | .changeIndex i => keep t (t.changeIndex i)
  | .ask c => keep t ((t.columnIsIndexed c).map Prod.snd)

/-- A history of calls. -/
def IndexOp.run (t : Table) (h : List IndexOp) : Table := h.foldl IndexOp.step t

/-- The indexes which are handed in have at least one column (all indexes which the readers make do). -/
def IndexOp.Sane : IndexOp → Prop
  | .addIndex i => i.columns ≠ []
  | .changeIndex i => i.columns ≠ []
  | _ => True

/-- A new table: no set of indexed columns is kept yet. -/
structure Table.Fresh (t : Table) : Prop extends t.Keyed where
  noCache : t.indexedCache = none
  idxCols : t.IndexesHaveColumns

/-- An `INSERT` which names no columns has no rows (`InsertParser` reads no other ones, `parseInsert_named`). -/
def Rows.Named (r : Rows) : Prop := r.numExplicit = 0 → r.rawRows = []

end Mygrations

namespace Mygrations

/-! ## Histories of a database -/

/-- What a user can do with a database object: modify it, or read `database.errors`.  A table which is handed in may
have been asked for its errors before. -/
inductive DbOp
  | addTable (t : Table) (wasChecked : Bool)
  | removeTable (name : Str)
  | apply (name : Str) (op : AlterOp)
  | readErrors

/-- One call; a call which raises leaves the tables as they are. -/
def DbOp.step [PyNum] (d : Database) : DbOp → Database
  | .addTable t b => match d.addTable t b with | .ok d' => d' | .error _ => d
  | .removeTable n => match d.removeTable n with | .ok d' => d' | .error _ => d
  | .apply n op =>
    match d.applyOperation n op with
    | .ok d' => d'
    | .error _ => if d.tables.has n then { d with schemaCache := none, checked := d.checked.filter (· ≠ n) } else d
  | .readErrors => d.errors.2

/-- A history of calls. -/
def DbOp.run [PyNum] (d : Database) (h : List DbOp) : Database := h.foldl DbOp.step d

/-- The same database, nothing of which has been looked at yet. -/
def Database.forget (d : Database) : Database := { d with schemaCache := none, parsingCache := none, checked := [] }

/-- No column of the database makes the checks raise an exception. -/
def Database.Quiet [PyNum] (d : Database) : Prop := ∀ t ∈ d.tables.values, ∀ c ∈ t.columns.values, c.schemaCheck.2 = none

/-! ## Columns whose check works -/

/-- A column whose check does not raise, except for the `AttributeError` of date columns, which the database swallows:
`BIT` columns need a default which is an integer or no number at all, enumerations need values if they have a default, and date columns and
enumerations cannot be `AUTO_INCREMENT`. -/
def Column.Checkable [PyNum] (c : Column) : Prop :=
  match c.cls with
  | .numeric => c.columnType = py"BIT" → ∃ d, c.default = some d ∧ (PyNum.int d ≠ none ∨ PyNum.float d = none)
  | .string => True
  | .date => c.isAutoInc = false
  | .enum => c.isAutoInc = false ∧ (c.default = none ∨ c.default = some [] ∨ c.enumValues ≠ none)

end Mygrations

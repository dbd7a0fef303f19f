import Verif.Spec.Grammar
import Verif.Spec.MySQL
import Verif.Spec.Text
import Verif.Spec.Tables
import Verif.Spec.Rows

/-!
# Specification: what a definition and an operation mean as SQL

`Spec/Grammar.lean` says how MySQL reads a text.  This file says which reading is the right one for a column, a key, a
foreign key and an operation of a plan, and for which of them there is one.
-/

namespace Mygrations
open Sql

/-- The numbers of a length. -/
def Len.numbers : Len → List Str
  | .str [] => []
  | .str (c :: s) => splitOn ',' (c :: s)
  | _ => []

/-- The length of the column is a text (possibly empty), as the parsers of columns without a list of values make it. -/
def Column.Measured (c : Column) : Prop := ∃ s, c.len = .str s

/-- A column as MySQL should see it.  A default which consists of digits is a number, any other a string. -/
def Column.sql (c : Column) : ColumnSql where
  name := c.name
  type := c.columnType
  numbers := c.len.numbers
  unsigned := c.isUnsigned
  charset := c.characterSet
  notNull := !c.null
  default := c.default.map (fun v => if isNumeric v then .number v else .text v)
  autoInc := c.isAutoInc
  collate := c.collate

/-- A key as MySQL should see it. -/
def Index.sql (i : Index) : KeySql where
  kind := if i.indexType = py"PRIMARY" then .primary else if i.indexType = py"UNIQUE" then .unique else .plain
  name := if i.rawName = [] then none else some i.rawName
  columns := i.columns

/-- A foreign key as MySQL should see it. -/
def Constraint.sql (k : Constraint) : FkSql where
  name := some k.name
  columns := [k.column]
  table := k.ftable
  refs := [k.fcolumn]
  onDelete := some k.onDelete
  onUpdate := some k.onUpdate

/-- A column which MySQL accepts: the type takes that many numbers; only numbers (other than `BIT`) are unsigned; only texts
have a character set; names of character sets and collations are words; and there is no backslash in the default. -/
structure Column.Sound (c : Column) : Prop where
  plain : c.Plain
  numbers : ∃ counts, typeNumbers.get? c.columnType = some counts ∧ c.len.numbers.length ∈ counts
  unsigned : c.isUnsigned = true → c.columnType ∈ unsignedTypes
  charset : ∀ v, c.characterSet = some v → c.columnType ∈ charTypes ∧ Ident v
  collate : ∀ v, c.collate = some v → Ident v
  default : ∀ v, c.default = some v → '\\' ∉ v

/-- A character set can be written at the end: nothing else comes in between. -/
def Column.CharsetLast (c : Column) : Prop := c.characterSet ≠ none → c.null = true ∧ c.default = none

/-- Number types. -/
def numberTypes : List Str :=
  [py"TINYINT", py"SMALLINT", py"MEDIUMINT", py"INT", py"BIGINT", py"DECIMAL", py"NUMERIC", py"FLOAT", py"DOUBLE", py"BIT"]

/-- Digits which are written as a number is: without zeros in front. -/
def NoZeros (v : Str) : Prop := v = py"0" ∨ v.head? ≠ some '0'

/-- Two ways to write the same default of a column: `DEFAULT NULL` can be left out if the column may be null; for a column
of a number type a number can be in quotes; and a text which looks like a number may lose its quotes, if the number has
no zeros in front (MySQL makes `7` of the number `007`). -/
inductive SameDefault (x : ColumnSql) : Option DefaultSql → Option DefaultSql → Prop
  | refl (d : Option DefaultSql) : SameDefault x d d
  | null : x.notNull = false → SameDefault x (some .null) none
  | number (v : Str) : x.type ∈ numberTypes → SameDefault x (some (.text v)) (some (.number v))
  | text (v : Str) : x.type ∈ charTypes → NoZeros v → SameDefault x (some (.text v)) (some (.number v))

/-- Two ways to write the same column. -/
structure ColumnSql.Same (x y : ColumnSql) : Prop where
  rest : { x with default := y.default } = y
  default : SameDefault x x.default y.default

/-- The clause is what is asked for. -/
inductive ClauseSql.Is : ClauseSql → MySQL.Clause → Prop
  | addColumn (c : Column) : Is (.addColumn c.sql) (.addCol c .last)
  | addColumnFirst (c : Column) : Is (.addColumnFirst c.sql) (.addCol c .first)
  | addColumnAfter (c : Column) (n : Str) : Is (.addColumnAfter c.sql n) (.addCol c (.after n))
  | changeColumn (c : Column) (n : Str) : Is (.changeColumn n c.sql) (.changeCol n c)
  | dropColumn (n : Str) : Is (.dropColumn n) (.dropCol n)
  | addKey (i : Index) : Is (.addKey i.sql) (.addKey i)
  | dropPrimaryKey : Is .dropPrimaryKey (.dropKey py"PRIMARY")
  | dropKey (n : Str) : Is (.dropKey n) (.dropKey n)
  | addFk (k : Constraint) : Is (.addFk k.sql) (.addFk k)
  | dropFk (n : Str) : Is (.dropFk n) (.dropFk n)

/-- A clause which MySQL can read: the definitions are sound, and a column which is dropped can be named without backticks. -/
def AlterOp.Sound : AlterOp → Prop
  | .addColumn c p => c.Sound ∧ c.CharsetLast ∧ ∀ a, p = .after a → Ident a
  | .changeColumn c => c.Sound ∧ c.CharsetLast
  | .removeColumn c => Ident c.name ∧ bareName c.name = true
  | .addKey i => i.Plain
  | .changeKey i => i.Plain
  | .removeKey i => i.Plain
  | .addConstraint k => k.Plain
  | .changeConstraint k => k.Plain
  | .removeConstraint k => k.Plain

/-- A table which MySQL can read: the definitions are sound, and the options are words. -/
structure Table.Sound (t : Table) : Prop where
  name : Ident t.name
  hasColumns : t.columns ≠ []
  columns : ∀ c ∈ t.columns.values, c.Sound ∧ c.CharsetLast
  indexes : ∀ i ∈ t.indexes.values, i.Plain
  constraints : ∀ k ∈ t.constraints.values, k.Plain
  options : ∀ o ∈ t.options, (∀ w ∈ splitOn ' ' o.name, Ident w) ∧ Ident o.value

/-- A row whose names can be put in backticks. -/
def RowNames (t : Str) (r : Row) : Prop := (t ≠ [] ∧ '`' ∉ t) ∧ ∀ c ∈ r.keys, c ≠ [] ∧ '`' ∉ c

/-- An operation which MySQL can read: see the parts; a table which is dropped can be named without backticks; something is
inserted or set; and there are no quotes in an `UPDATE` (C25). -/
def Op.Sound : Op → Prop
  | .disableChecks => True
  | .enableChecks => True
  | .createTable t => t.Sound
  | .alter a => Ident a.table ∧ a.ops ≠ [] ∧ ∀ o ∈ a.ops, o.Sound
  | .removeTable n => Ident n ∧ bareName n = true
  | .rowInsert t r => RowNames t r ∧ r ≠ []
  | .rowUpdate t r => RowNames t r ∧ (∃ c ∈ r.keys, c ≠ py"id") ∧ (∃ v, r.get? py"id" = some v ∧ '\'' ∉ v.toStr ∧ '\\' ∉ v.toStr) ∧
      ∀ c v s, (c, v) ∈ r → v.cell = some s → '\'' ∉ s
  | .rowDelete t i => (t ≠ [] ∧ '`' ∉ t) ∧ '\'' ∉ i ∧ '\\' ∉ i

/-- The statement is what the operation stands for. -/
inductive Op.Means : Op → Stmt → Prop
  | disableChecks : Means .disableChecks (.setVar py"FOREIGN_KEY_CHECKS" py"0")
  | enableChecks : Means .enableChecks (.setVar py"FOREIGN_KEY_CHECKS" py"1")
  | createTable (t : Table) : Means (.createTable t) (.createTable t.name
      (t.columns.values.map (fun c => .column c.sql []) ++ t.indexes.values.map (fun i => .key i.sql) ++ t.constraints.values.map (fun k => .fk k.sql))
      (t.options.map (fun o => (splitOn ' ' o.name, o.value))))
  | alter (a : Alter) (cs : List ClauseSql) : Paired ClauseSql.Is cs (a.ops.flatMap MySQL.clauses) → Means (.alter a) (.alterTable a.table cs)
  | removeTable (n : Str) : Means (.removeTable n) (.dropTable n)
  | rowInsert (t : Str) (r : Row) : Means (.rowInsert t r) (.insert t r.keys (r.values.map PyVal.cell))
  | rowUpdate (t : Str) (r : Row) (v : PyVal) : r.get? py"id" = some v →
      Means (.rowUpdate t r) (.update t ((r.filter (fun e => e.1 ≠ py"id")).map (fun e => ⟨e.1, e.2.cell⟩)) ⟨py"id", some v.toStr⟩)
  | rowDelete (t i : Str) : Means (.rowDelete t i) (.delete t ⟨py"id", some i⟩)

end Mygrations

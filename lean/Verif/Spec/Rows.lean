import Verif.Model.Diff

/-!
# Specification: rows

The rows of a database: for each table and id the values of the columns, a value being a text or `NULL`.
Statements on rows are executed the way MySQL does it, except that values are stored as they are given
(no conversion to the type of the column).
-/

namespace Mygrations

/-- What a Python value is in the database: `NULL` or its text. -/
def PyVal.cell : PyVal → Option Str
  | .none => Option.none
  | v => some v.toStr

/-- column ↦ value -/
abbrev Cells := Str → Option Str

/-- table ↦ id ↦ the row, if there is one -/
abbrev DbRows := Str → Str → Option Cells

namespace DbRows

/-- store a row, or remove it -/
def put (g : DbRows) (table id : Str) (r : Option Cells) : DbRows :=
  fun t i => if t = table ∧ i = id then r else g t i

/-- the values given in a row, and otherwise those of `base` -/
def fill (base : Cells) (row : Row) : Cells := fun c =>
  match Dict.get? row c with
  | some v => v.cell
  | none => base c

/-- the id given in a row -/
def givenId (row : Row) : Option Str := (Dict.get? row py"id").bind PyVal.cell

/-- Execute a statement; `dflt` are the default values of the columns of a table.  `INSERT` fails if the id is
`NULL`, missing or taken; `UPDATE ... WHERE id=` and `DELETE ... WHERE id=` do nothing if there is no such row.
Statements which are not about rows do not concern us. -/
def exec (dflt : Str → Cells) (g : DbRows) : Op → Option DbRows
  | .rowInsert t row =>
    match givenId row with
    | none => none
    | some i => if (g t i).isSome then none else some (g.put t i (some (fill (dflt t) row)))
  | .rowUpdate t row =>
    match givenId row with
    | none => none
    | some i => some (match g t i with | some r => g.put t i (some (fill r row)) | none => g)
  | .rowDelete t i => some (g.put t i none)
  | _ => some g

/-- Execute statements one after the other. -/
def execAll (dflt : Str → Cells) : DbRows → List Op → Option DbRows
  | g, [] => some g
  | g, op :: ops => (exec dflt g op).bind (fun g' => execAll dflt g' ops)

end DbRows

/-- Rows are stored once for each id, under their id, which is not empty. -/
structure RowsKeyed (rows : Dict Row) : Prop where
  nodup : rows.keys.Nodup
  id : ∀ k r, (k, r) ∈ rows → k ≠ [] ∧ Dict.get? r py"id" = some (.str k)

/-- The table row in `g` under (table, id) is the one which was read as `rows`. -/
def Live (g : DbRows) (table : Str) (rows : Dict Row) : Prop :=
  ∀ i, match rows.get? i with
    | none => g table i = none
    | some r => ∃ cells, g table i = some cells ∧ ∀ c v, Dict.get? r c = some v → cells c = v.cell

/-- The same, but only in the columns for which the row `new` with the same id has a value. -/
def LiveOn (g : DbRows) (table : Str) (new rows : Dict Row) : Prop :=
  ∀ i, match rows.get? i with
    | none => g table i = none
    | some o => ∃ cells, g table i = some cells ∧ ∀ r c v, new.get? i = some r → c ∈ Dict.keys r → Dict.get? o c = some v → cells c = v.cell

/-- Some column which both rows have has different values, in the database's sense. -/
def RowChanged (new old : Row) : Prop :=
  ∃ c a b, Dict.get? new c = some a ∧ Dict.get? old c = some b ∧ a.cell ≠ b.cell

/-- No value is the text `None`. -/
def NoNoneText (rows : Dict Row) : Prop :=
  ∀ k r c v, rows.get? k = some r → Dict.get? r c = some v → v.cell ≠ some py"None"

/-- The values are texts or `NULL`, as in rows read from files. -/
def FileValues (rows : Dict Row) : Prop :=
  ∀ k r c v, rows.get? k = some r → Dict.get? r c = some v → v = .none ∨ ∃ s, v = .str s

/-- table and id which a statement on rows is about -/
def Op.rowKey : Op → Option (Str × Str)
  | .rowInsert t row | .rowUpdate t row => (DbRows.givenId row).map (fun i => (t, i))
  | .rowDelete t i => some (t, i)
  | _ => none

end Mygrations

import Verif.Spec.Script
import Verif.Spec.Rows
import Verif.Model.Commands

/-!
# Specification: a server, and when it agrees with the files

`C62` and `C65` are about a server which answers `SHOW CREATE TABLE` with texts as MySQL does, and about files which declare
what the server has.
-/

namespace Mygrations

/-- The server has the tables: `SHOW TABLES` answers their names and `SHOW CREATE TABLE` answers, for each of them, a
`CREATE TABLE` statement without a semicolon. -/
structure Server.Has (srv : Server) (ds : List TableDecl) : Prop where
  names : srv.tableNames = ds.map (·.name)
  distinct : (ds.map (·.name)).Nodup
  ok : ∀ d ∈ ds, d.Ok
  answers : ∀ d ∈ ds, ∃ l : Layout, l.Ok ∧ srv.createText d.name = .ok (some (d.text l))

/-- A comment of a column or a key, as MySQL writes it after the definition. -/
def commentText : Option Str → Str
  | none => []
  | some c => py" COMMENT '" ++ c ++ py"'"

/-- The text of the statement when its definitions may have comments: there is one entry in `notes` for each of them. -/
def TableDecl.commentedText (d : TableDecl) (l : Layout) (notes : List (Option Str)) : Str :=
  py"CREATE TABLE `" ++ d.name ++ py"` (" ++ l.lead ++ join (py"," ++ l.sep) (List.zipWith (fun x n => x.render ++ commentText n) d.defs notes) ++
  l.trail ++ py")" ++ d.options.flatMap (fun o => py" " ++ o.name ++ py"=" ++ o.value)

/-- The server has the tables, and the definitions of the table `n` have the comments `notes n`.  The comments contain no
parentheses, commas and double dashes. -/
structure Server.HasCommented (srv : Server) (ds : List TableDecl) (notes : Str → List (Option Str)) : Prop where
  names : srv.tableNames = ds.map (·.name)
  distinct : (ds.map (·.name)).Nodup
  ok : ∀ d ∈ ds, d.Ok
  each : ∀ d ∈ ds, (notes d.name).length = d.defs.length
  comments : ∀ d ∈ ds, ∀ c, some c ∈ notes d.name → (∀ x ∈ c, x ≠ '(' ∧ x ≠ ',') ∧ NoComment c
  answers : ∀ d ∈ ds, ∃ l : Layout, l.Ok ∧ srv.createText d.name = .ok (some (d.commentedText l (notes d.name)))

/-- The same names, with values which agree. -/
def Agree {V W : Type} (R : V → W → Prop) (a : Dict V) (b : Dict W) : Prop :=
  ∀ n, match a.get? n, b.get? n with
    | none, none => True
    | some x, some y => R x y
    | _, _ => False

/-- The same foreign key. -/
structure SameConstraint (a b : Constraint) : Prop where
  name : b.name = a.name
  column : b.column = a.column
  ftable : b.ftable = a.ftable
  fcolumn : b.fcolumn = a.fcolumn
  onDelete : b.onDelete = a.onDelete
  onUpdate : b.onUpdate = a.onUpdate

/-- The same column, except that an integer may have another display width. -/
def SameButWidth (a b : Column) : Prop :=
  SameColumn a b ∨ (a.cls = .numeric ∧ a.columnType ∈ [py"TINYINT", py"SMALLINT", py"MEDIUMINT", py"INT", py"INTEGER", py"BIGINT"] ∧ SameColumn { a with len := b.len } b)

/-- The same columns up to display widths, and the same keys and foreign keys, in any order. -/
structure Table.AgreesButWidths (a b : Table) : Prop where
  columns : Agree SameButWidth a.columns b.columns
  indexes : Agree SameIndex a.indexes b.indexes
  constraints : Agree SameConstraint a.constraints b.constraints

/-- The display width of the column differs. -/
def Widened (f t : Dict Table) (table column : Str) : Prop :=
  ∃ s s' a b, f.get? table = some s ∧ t.get? table = some s' ∧ s.columns.get? column = some a ∧ s'.columns.get? column = some b ∧ ¬ SameColumn a b

/-- If there is a default, it is a number. -/
def Column.NumberDefault [PyNum] (c : Column) : Prop := ∀ v, c.default = some v → ∃ x, PyNum.float v = some x ∧ PyNum.feq x x = true

/-- The same columns, keys and foreign keys, in any order. -/
structure Table.Agrees (a b : Table) : Prop where
  columns : Agree SameColumn a.columns b.columns
  indexes : Agree SameIndex a.indexes b.indexes
  constraints : Agree SameConstraint a.constraints b.constraints

/-- The same tables, in any order. -/
structure SameSchema (as bs : List Table) : Prop where
  forth : ∀ a ∈ as, ∃ b ∈ bs, b.name = a.name ∧ a.Agrees b
  back : ∀ b ∈ bs, ∃ a ∈ as, a.name = b.name

/-- The rows which the server answers are the declared ones: they have the declared ids, and the declared values. -/
structure SameRows (answer : List Row) (declared : Dict Row) : Prop where
  ids : ∀ r ∈ answer, ∃ i, DbRows.givenId r = some i ∧ i ≠ [] ∧ i ∈ declared.keys
  all : ∀ i ∈ declared.keys, ∃ r ∈ answer, DbRows.givenId r = some i
  values : ∀ r ∈ answer, ∀ i d, DbRows.givenId r = some i → declared.get? i = some d →
    ∀ c w, Dict.get? d c = some w → ∃ v, Dict.get? r c = some v ∧ v.cell = w.cell

end Mygrations

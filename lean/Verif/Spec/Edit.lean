import Verif.Model.Edit
import Verif.Spec.Tables

/-!
# Specification: what an edit of a table means

A table has columns, keys and foreign keys, each with a name, in order.
-/

namespace Mygrations

/-- the list with the entry called `n` replaced -/
def replaced {V : Type} (n : Str) (v : V) (l : List (Str × V)) : List (Str × V) := l.map (fun e => if e.1 = n then (n, v) else e)

/-- the list without the entry called `n` -/
def without {V : Type} (n : Str) (l : List (Str × V)) : List (Str × V) := l.filter (fun e => e.1 ≠ n)

/-- `after` is `before` with a new entry at a position -/
def Placed {V : Type} (n : Str) (v : V) : Pos → List (Str × V) → List (Str × V) → Prop
  | .last, before, after => after = before ++ [(n, v)]
  | .first, before, after => after = (n, v) :: before
  | .after a, before, after => ∃ pre x post, before = pre ++ (a, x) :: post ∧ after = pre ++ (a, x) :: (n, v) :: post

/-- An edit makes sense for a table: what it adds is not there, what it removes or changes is. -/
def Edit.Possible (t : Table) : Edit → Prop
  | .addColumn c p => c.name ∉ t.columns.map Prod.fst ∧ ∀ a, p = .after a → a ∈ t.columns.map Prod.fst
  | .removeColumn n => n ∈ t.columns.map Prod.fst
  | .changeColumn c => c.name ∈ t.columns.map Prod.fst
  | .addIndex i => i.name ∉ t.indexes.map Prod.fst
  | .removeIndex n => n ∈ t.indexes.map Prod.fst
  | .changeIndex i => i.name ∈ t.indexes.map Prod.fst
  | .addConstraint k => k.name ∉ t.constraints.map Prod.fst
  | .removeConstraint n => n ∈ t.constraints.map Prod.fst
  | .changeConstraint k => k.name ∈ t.constraints.map Prod.fst

/-- `r` is `t` with the edit made, and nothing else changed: neither the other columns, keys and foreign keys nor their order, nor the
name, the options, the rows and what was noted while the table was read. -/
structure Edit.Made (t r : Table) (e : Edit) : Prop where
  columns : match e with
    | .addColumn c p => Placed c.name c p t.columns r.columns
    | .removeColumn n => r.columns = without n t.columns
    | .changeColumn c => r.columns = replaced c.name c t.columns
    | _ => r.columns = t.columns
  indexes : match e with
    | .addIndex i => r.indexes = t.indexes ++ [(i.name, i)]
    | .removeIndex n => r.indexes = without n t.indexes
    | .changeIndex i => r.indexes = replaced i.name i t.indexes
    | _ => r.indexes = t.indexes
  constraints : match e with
    | .addConstraint k => r.constraints = t.constraints ++ [(k.name, k)]
    | .removeConstraint n => r.constraints = without n t.constraints
    | .changeConstraint k => r.constraints = replaced k.name k t.constraints
    | _ => r.constraints = t.constraints
  name : r.name = t.name
  options : r.options = t.options
  rows : r.rows = t.rows ∧ r.tracking = t.tracking
  remarks : r.globalErrors = t.globalErrors ∧ r.globalWarnings = t.globalWarnings

/-- Every key of the table is on some column. -/
def Table.KeysOnColumns (t : Table) : Prop := ∀ e ∈ t.indexes, e.2.columns ≠ []

/-- A key which the edit brings is on some column. -/
def Edit.OnColumns : Edit → Prop
  | .addIndex i => i.columns ≠ []
  | .changeIndex i => i.columns ≠ []
  | _ => True

/-- The edit which takes back an edit of a table. -/
def Edit.Inverse (t : Table) : Edit → Edit → Prop
  | .addColumn c _, .removeColumn n => n = c.name
  | .removeColumn n, .addColumn c p => (n, c) ∈ t.columns ∧ Placed n c p (without n t.columns) t.columns
  | .changeColumn c, .changeColumn c' => (c.name, c') ∈ t.columns
  | .addIndex i, .removeIndex n => n = i.name
  | .changeIndex i, .changeIndex i' => (i.name, i') ∈ t.indexes
  | .addConstraint k, .removeConstraint n => n = k.name
  | .changeConstraint k, .changeConstraint k' => (k.name, k') ∈ t.constraints
  | _, _ => False

end Mygrations

import Verif.Spec.MySQL
import Verif.Spec.Tables

/-!
# Specification: what a plan does, read off its statements
-/

namespace Mygrations

/-- The tables of a database as Python keeps them: each name once, and every table stored under its own name. -/
structure KeyedTables (d : Dict Table) : Prop where
  nodup : d.keys.Nodup
  name : ∀ k t, (k, t) ∈ d → t.name = k
  keyed : ∀ k t, (k, t) ∈ d → t.Keyed

namespace Op
open MySQL

/-- The clauses of an `ALTER TABLE`; other statements have none. -/
def alterClauses : Op → List Clause
  | .alter a => a.ops.flatMap clauses
  | _ => []

/-- Foreign keys (table, name) dropped by a statement. -/
def dropsFk : Op → List (Str × Str)
  | .alter a => (droppedFks (a.ops.flatMap clauses)).map (fun n => (a.table, n))
  | _ => []

/-- Foreign keys (table, name) created by a statement. -/
def addsFk : Op → List (Str × Str)
  | .alter a => (addedFks (a.ops.flatMap clauses)).map (fun k => (a.table, k.name))
  | .createTable t => t.constraints.values.map (fun k => (t.name, k.name))
  | _ => []

/-- Does an `ALTER TABLE` add, change or drop columns or keys? -/
def changesColumnsOrKeys (o : Op) : Bool :=
  let cl := o.alterClauses
  !(droppedCols cl).isEmpty || !(changedCols cl).isEmpty || !(addedCols cl).isEmpty ||
  !(droppedKeys cl).isEmpty || !(addedKeys cl).isEmpty

/-- Does an `ALTER TABLE` add foreign keys? -/
def altersInFk (o : Op) : Bool := !(addedFks o.alterClauses).isEmpty

/-- the statements which switch foreign-key checks off and on -/
def isToggle : Op → Bool
  | .disableChecks | .enableChecks => true
  | _ => false

def isCreate : Op → Bool
  | .createTable _ => true
  | _ => false

def isDrop : Op → Bool
  | .removeTable _ => true
  | _ => false

def isAlter : Op → Bool
  | .alter _ => true
  | _ => false

end Op

end Mygrations

namespace Mygrations

/-- Two column definitions of different type, as MySQL sees it for foreign keys: type, length, signedness,
character set or collation differ. -/
def Column.TypeDiffers (a b : Column) : Prop :=
  a.columnType ≠ b.columnType ∨ a.len ≠ b.len ∨ a.isUnsigned ≠ b.isUnsigned ∨
  a.characterSet ≠ b.characterSet ∨ a.collate ≠ b.collate

/-- Migrating from `f` to `t` changes the type of column `c` of table `n`. -/
def TypeChanges (f t : Dict Table) (n c : Str) : Prop :=
  ∃ s d a b, f.get? n = some s ∧ t.get? n = some d ∧ s.columns.get? c = some a ∧ d.columns.get? c = some b ∧
    a.TypeDiffers b

/-- The foreign key `k` of table `n` uses column `c` of table `m`, as child or as parent. -/
def Uses (n : Str) (k : Constraint) (m c : Str) : Prop := (n = m ∧ k.column = c) ∨ (k.ftable = m ∧ k.fcolumn = c)

/-- Two foreign keys between the same columns. -/
def Constraint.SameColumns (k l : Constraint) : Prop :=
  k.column = l.column ∧ k.ftable = l.ftable ∧ k.fcolumn = l.fcolumn

/-- The foreign key `k` of table `n` has a counterpart in the declared tables, by name or by columns; or its
table is to be dropped. -/
def HasCounterpart (t : Dict Table) (n : Str) (k : Constraint) : Prop :=
  t.get? n = none ∨
  ∃ d, t.get? n = some d ∧ ∃ k' ∈ d.constraints.values, k'.name = k.name ∨ k'.SameColumns k

end Mygrations

import Verif.Model.Table

/-!
# Specification: sane tables

What it means for a table definition to be well-formed, independently of the tool.
-/

namespace Mygrations

/-- Every dictionary of the table is keyed by the names of its entries (and has each key once, which
Python guarantees). -/
structure Table.Keyed (t : Table) : Prop where
  colNodup : t.columns.keys.Nodup
  colName : ∀ k c, (k, c) ∈ t.columns → c.name = k
  idxNodup : t.indexes.keys.Nodup
  idxName : ∀ k i, (k, i) ∈ t.indexes → i.name = k
  fkNodup : t.constraints.keys.Nodup
  fkName : ∀ k c, (k, c) ∈ t.constraints → c.name = k

/-- A table definition which a MySQL server accepts: at least one column, at most one primary key, no other
key called `PRIMARY`, every key on at least one column, and all columns of keys and foreign keys exist. -/
structure Table.Valid (t : Table) : Prop extends t.Keyed where
  hasCols : t.columns ≠ []
  onePrimary : ∀ i j, i ∈ t.indexes.values → j ∈ t.indexes.values → i.isPrimary → j.isPrimary → i = j
  noPrimaryName : ∀ i, i ∈ t.indexes.values → i.isPrimary = false → i.name ≠ py"PRIMARY"
  idxCols : ∀ i, i ∈ t.indexes.values → i.columns ≠ [] ∧ ∀ c ∈ i.columns, c ∈ t.columns.keys
  fkCols : ∀ k, k ∈ t.constraints.values → k.column ∈ t.columns.keys

/-- A name which can be quoted with backticks as it is. -/
def PlainName (s : Str) : Prop := '`' ∉ s

/-- No identifier of the table contains a backtick. -/
structure Table.Plain (t : Table) : Prop where
  idx : ∀ i, i ∈ t.indexes.values → PlainName i.name ∧ ∀ c ∈ i.columns, PlainName c
  fk : ∀ k, k ∈ t.constraints.values → PlainName k.name ∧ PlainName k.column ∧ PlainName k.ftable ∧ PlainName k.fcolumn

/-- An `ON DELETE`/`ON UPDATE` action which MySQL knows. -/
def GoodAction (a : Str) : Prop :=
  a ∈ [py"CASCADE", py"NO ACTION", py"RESTRICT", py"SET DEFAULT", py"SET NULL"]

/-- Is this a `UNIQUE` key? -/
def Index.isUnique (i : Index) : Bool := i.indexType = py"UNIQUE"

/-- Two keys which do the same: same columns in the same order, same kind. -/
def Index.SameKey (i j : Index) : Prop :=
  i.columns = j.columns ∧ i.isPrimary = j.isPrimary ∧ i.isUnique = j.isUnique

/-- Two foreign keys with the same definition. -/
def Constraint.SameFk (k l : Constraint) : Prop :=
  k.name = l.name ∧ k.column = l.column ∧ k.ftable = l.ftable ∧ k.fcolumn = l.fcolumn ∧
  k.onDelete = l.onDelete ∧ k.onUpdate = l.onUpdate

/-- The primary key is not modified under an unchanged name, unless that name is `PRIMARY` (the tool's name of an
unnamed primary key is that of its first column). -/
def PrimaryKept (s t : Table) : Prop :=
  ∀ k a b, s.indexes.get? k = some a → t.indexes.get? k = some b → a.isPrimary →
    k = py"PRIMARY" ∨ (b.isPrimary ∧ a.columns = b.columns)

/-- Is this an operation on a key? -/
def AlterOp.onKey : AlterOp → Bool
  | .addKey _ | .changeKey _ | .removeKey _ => true
  | _ => false

/-- Two lists of the same length whose entries are related one by one. -/
inductive Paired {A B : Type} (R : A → B → Prop) : List A → List B → Prop
  | nil : Paired R [] []
  | cons {a b as bs} : R a b → Paired R as bs → Paired R (a :: as) (b :: bs)

end Mygrations

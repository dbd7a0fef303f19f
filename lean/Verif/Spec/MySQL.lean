import Verif.Model.Mygration

/-!
# Specification: what MySQL does with the statements of a plan

This file says, independently of how the tool computes its plans, what a MySQL server does with
`CREATE TABLE`, `ALTER TABLE` and `DROP TABLE`.  A statement either fails (`none`) or gives the new
state.  Rules (numbered where the theorems refer to them):

* An `ALTER TABLE` is executed as a whole: the drops refer to the old table; the remaining columns are
  changed; then the new columns are put in, one by one, each at its position; dropped columns disappear
  from the keys (a key without columns disappears); new keys are added after old keys were dropped.
* (R1) A column, key or foreign key can only be dropped or changed if it exists, and only once.
* (R2) A column, key or foreign key can only be added if there is none of that name (for a foreign key:
  in the whole database, R3); a position `AFTER c` needs a column `c`; the columns of a key and the
  child column of a foreign key must exist in the resulting table; a table keeps at least one column.
* (R4) The type of a column cannot be changed while a foreign key uses it (as child or parent).
* (R5) A column cannot be dropped while a foreign key uses it (as child or parent).
* (R6) When a foreign key is added and its parent table exists, the parent column must exist and have
  the same type and signedness; likewise when a table is created to which foreign keys already refer.

The rules are those in force with `FOREIGN_KEY_CHECKS=0`: a parent table may be missing, and parent
tables may be dropped.  Simplifications: names are compared case-sensitively; character sets do not
matter for (R6), as the default character set of a server is not known to the tool; the length does
not matter for (R6).
-/

namespace Mygrations.MySQL

/-- The structure of a table as the server sees it.  The primary key is called `PRIMARY`. -/
structure STable where
  cols : Dict Column := []
  keys : Dict Index := []
  fks : Dict Constraint := []
  deriving DecidableEq, Repr

/-- The clauses of `ALTER TABLE`. -/
inductive Clause
  | addCol (c : Column) (p : Pos)
  | changeCol (old : Str) (c : Column)
  | dropCol (name : Str)
  | addKey (i : Index)
  | dropKey (name : Str)
  | addFk (k : Constraint)
  | dropFk (name : Str)
  deriving DecidableEq, Repr

/-- The server's name of a key. -/
def keyName (i : Index) : Str := if i.isPrimary then py"PRIMARY" else i.name

/-- What the text of an operation asks for (compare `AlterOp.render`):
`DROP PRIMARY KEY` is `dropKey PRIMARY`, and ``DROP KEY `x`, ADD ...`` are two clauses. -/
def clauses : AlterOp → List Clause
  | .addColumn c p => [.addCol c p]
  | .changeColumn c => [.changeCol c.name c]
  | .removeColumn c => [.dropCol c.name]
  | .addKey i => [.addKey i]
  | .changeKey i => [.dropKey i.name, .addKey i]
  | .removeKey i => [.dropKey (keyName i)]
  | .addConstraint k => [.addFk k]
  | .changeConstraint k => [.dropFk k.name, .addFk k]
  | .removeConstraint k => [.dropFk k.name]

def droppedCols (cl : List Clause) : List Str :=
  cl.filterMap (fun | .dropCol n => some n | _ => none)

def changedCols (cl : List Clause) : List (Str × Column) :=
  cl.filterMap (fun | .changeCol n c => some (n, c) | _ => none)

def addedCols (cl : List Clause) : List (Column × Pos) :=
  cl.filterMap (fun | .addCol c p => some (c, p) | _ => none)

def droppedKeys (cl : List Clause) : List Str :=
  cl.filterMap (fun | .dropKey n => some n | _ => none)

def addedKeys (cl : List Clause) : List Index :=
  cl.filterMap (fun | .addKey i => some i | _ => none)

def droppedFks (cl : List Clause) : List Str :=
  cl.filterMap (fun | .dropFk n => some n | _ => none)

def addedFks (cl : List Clause) : List Constraint :=
  cl.filterMap (fun | .addFk k => some k | _ => none)

/-- Drop entries: all of them must exist, none may be named twice (R1). -/
def dropNames {V : Type} (names : List Str) (d : Dict V) : Option (Dict V) :=
  if names.all d.has ∧ names.Nodup then some (d.filter (fun e => !names.contains e.1)) else none

/-- `CHANGE old new-definition` -/
def changeCol (cols : Dict Column) (e : Str × Column) : Option (Dict Column) :=
  if cols.has e.1 ∧ (e.2.name = e.1 ∨ !cols.has e.2.name) then
    some (cols.map (fun x => if x.1 = e.1 then (e.2.name, e.2) else x))
  else none

/-- `ADD column [FIRST | AFTER c]` -/
def placeCol (cols : Dict Column) (e : Column × Pos) : Option (Dict Column) :=
  if cols.has e.1.name then none
  else match e.2 with
    | .last => some (cols ++ [(e.1.name, e.1)])
    | .first => some ((e.1.name, e.1) :: cols)
    | .after a =>
      if cols.has a then some (cols.flatMap (fun x => if x.1 = a then [x, (e.1.name, e.1)] else [x])) else none

/-- `ADD` something under a name which must be free -/
def addNamed {V : Type} (name : V → Str) (d : Dict V) (v : V) : Option (Dict V) :=
  if d.has (name v) then none else some (d ++ [(name v, v)])

/-- Dropped columns disappear from the keys. -/
def shrinkKeys (dropped : List Str) (keys : Dict Index) : Dict Index :=
  (keys.map (fun e => (e.1, { e.2 with columns := e.2.columns.filter (fun c => !dropped.contains c) }))).filter
    (fun e => e.2.columns ≠ [])

/-- The resulting table must make sense by itself (R2, R5). -/
def STable.ok (t : STable) : Bool :=
  !t.cols.isEmpty && t.keys.all (fun e => e.2.columns.all t.cols.has) && t.fks.all (fun e => t.cols.has e.2.column)

/-- `ALTER TABLE`, as far as one table is concerned. -/
def alterTable (t : STable) (cl : List Clause) : Option STable :=
  match dropNames (droppedCols cl) t.cols with
  | none => none
  | some cols₀ =>
  match (changedCols cl).foldlM changeCol cols₀ with
  | none => none
  | some cols₁ =>
  match (addedCols cl).foldlM placeCol cols₁ with
  | none => none
  | some cols =>
  match dropNames (droppedKeys cl) t.keys with
  | none => none
  | some keys₀ =>
  match (addedKeys cl).foldlM (addNamed keyName) (shrinkKeys (droppedCols cl) keys₀) with
  | none => none
  | some keys =>
  match dropNames (droppedFks cl) t.fks with
  | none => none
  | some fks₀ =>
  match (addedFks cl).foldlM (addNamed Constraint.name) fks₀ with
  | none => none
  | some fks =>
    if STable.ok ⟨cols, keys, fks⟩ then some ⟨cols, keys, fks⟩ else none

/-- One `ALTER TABLE` statement of the tool. -/
def execAlter (t : STable) (a : Alter) : Option STable := alterTable t (a.ops.flatMap clauses)

/-- The statements of `source.to(target)`, one after the other. -/
def execAlters (t : STable) (as : List Alter) : Option STable := as.foldlM execAlter t

/-- The server's view of a table definition. -/
def ofTable (t : Table) : STable where
  cols := t.columns.values.map (fun c => (c.name, c))
  keys := t.indexes.values.map (fun i => (keyName i, i))
  fks := t.constraints.values.map (fun k => (k.name, k))

end Mygrations.MySQL

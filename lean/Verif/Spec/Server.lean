import Verif.Spec.Plan
import Verif.Spec.Columns

/-!
# Specification: what MySQL does with the statements of a plan, for a whole database

`Spec/MySQL.lean` says what an `ALTER TABLE` does to its table.  This file adds the rules which involve several tables:

* (R3) No two foreign keys of the database have the same name.
* (R4) The type of a column cannot be changed while a foreign key uses it (as child or parent).
* (R5, R6) After every statement, every foreign key must fit: its own column exists and leads a key; and if the
  referenced table exists, then the referenced column exists there, leads a key, and has the same type and signedness.
* While `FOREIGN_KEY_CHECKS` is on, the referenced table must exist as well.

Simplifications: the rules do not look at rows, names are compared case-sensitively, and MySQL makes a key for a foreign key's
own column if there is none (here such a foreign key is refused).
-/

namespace Mygrations.MySQL

/-- A database as the server sees it: the variable `FOREIGN_KEY_CHECKS`, and the tables. -/
structure SDb where
  checks : Bool := true
  tables : Dict STable
  deriving DecidableEq, Repr

/-- The column is the first one of some key. -/
def STable.leads (t : STable) (c : Str) : Bool := t.keys.any (fun e => e.2.columns.head? = some c)

/-- Two columns which a foreign key can link. -/
def linkable (c d : Column) : Bool := c.columnType = d.columnType && c.isUnsigned = d.isUnsigned

/-- The foreign key `k` of the table `t` fits (R5, R6). -/
def fits (checks : Bool) (tables : Dict STable) (t : STable) (k : Constraint) : Bool :=
  match t.cols.get? k.column with
  | none => false
  | some c => t.leads k.column &&
    (match tables.get? k.ftable with
     | none => !checks
     | some p =>
       match p.cols.get? k.fcolumn with
       | none => false
       | some d => p.leads k.fcolumn && linkable c d)

/-- All foreign keys fit, and no two of different tables have the same name (R3). -/
def SDb.consistent (db : SDb) : Bool :=
  db.tables.all (fun e => e.2.fks.all (fun k => fits db.checks db.tables e.2 k.2)) &&
  db.tables.all (fun e => db.tables.all (fun e' => e.1 = e'.1 || e.2.fks.all (fun k => !e'.2.fks.has k.1)))

/-- The database, if it is consistent. -/
def SDb.check (db : SDb) : Option SDb := if db.consistent then some db else none

/-- The foreign key `k` of table `n` uses column `c` of table `m`. -/
def uses (n : Str) (k : Constraint) (m c : Str) : Bool := (n = m && k.column = c) || (k.ftable = m && k.fcolumn = c)

/-- The type of a column is changed. -/
def typeDiffers (a b : Column) : Bool :=
  a.columnType ≠ b.columnType || a.len ≠ b.len || a.isUnsigned ≠ b.isUnsigned || a.characterSet ≠ b.characterSet || a.collate ≠ b.collate

/-- A statement changes the type of a column which a foreign key uses (R4). -/
def SDb.breaksFk (db : SDb) (n : Str) (t : STable) (cl : List Clause) : Bool :=
  (changedCols cl).any (fun e =>
    match t.cols.get? e.1 with
    | none => false
    | some a => typeDiffers a e.2 && db.tables.any (fun o => o.2.fks.any (fun k => uses o.1 k.2 n e.1)))

/-- No name is given twice in a table. -/
def STable.distinct (t : STable) : Bool := decide t.cols.keys.Nodup && decide t.keys.keys.Nodup && decide t.fks.keys.Nodup

/-- One statement of a plan.  (Statements on rows do not change the structure.) -/
def SDb.exec (db : SDb) : Op → Option SDb
  | .disableChecks => some { db with checks := false }
  | .enableChecks => some { db with checks := true }
  | .createTable t =>
    if db.tables.has t.name || !(ofTable t).ok || !(ofTable t).distinct then none
    else ({ db with tables := db.tables ++ [(t.name, ofTable t)] } : SDb).check
  | .alter a =>
    match db.tables.get? a.table with
    | none => none
    | some t =>
      match alterTable t (a.ops.flatMap clauses) with
      | none => none
      | some t' =>
        if db.breaksFk a.table t (a.ops.flatMap clauses) then none
        else ({ db with tables := db.tables.set a.table t' } : SDb).check
  | .removeTable n =>
    if db.tables.has n then ({ db with tables := db.tables.filter (fun e => e.1 ≠ n) } : SDb).check else none
  | .rowInsert _ _ | .rowUpdate _ _ | .rowDelete _ _ => some db

/-- The statements of a plan, one after the other, until one of them fails. -/
def SDb.execAll (db : SDb) (ops : List Op) : Option SDb := ops.foldlM SDb.exec db

/-- The server's view of the tables. -/
def ofTables (d : Dict Table) : Dict STable := d.map (fun e => (e.1, ofTable e.2))

end Mygrations.MySQL

namespace Mygrations
open MySQL

/-- Tables which a server accepts (while checks are on or off): every one of them is valid, names need no escapes, the columns
are ordinary, and the foreign keys are consistent. -/
structure Accepted (checks : Bool) (d : Dict Table) : Prop extends KeyedTables d where
  valid : ∀ n t, d.get? n = some t → t.Valid ∧ t.Plain
  tidy : ∀ n t, d.get? n = some t → ∀ k c, t.columns.get? k = some c → c.Tidy
  actions : ∀ n t, d.get? n = some t → ∀ k ∈ t.constraints.values, k.name ≠ [] ∧ GoodAction k.onDelete
  consistent : SDb.consistent ⟨checks, ofTables d⟩ = true

/-- `d` says which tables the server has (in whatever order). -/
structure Describes (d : Dict Table) (db : SDb) : Prop where
  nodup : db.tables.keys.Nodup
  get : ∀ n, db.tables.get? n = (d.get? n).map ofTable

/-- The foreign key `k` of the source table `n` uses a column whose type the migration changes. -/
def Touched (f t : Dict Table) (n : Str) (k : Constraint) : Prop := ∃ m c, TypeChanges f t m c ∧ Uses n k m c

/-- The foreign key `k` of the source table `n` is declared as it is. -/
def Stays (t : Dict Table) (n : Str) (k : Constraint) : Prop := ∃ b k', t.get? n = some b ∧ b.constraints.get? k.name = some k' ∧ k.SameFk k'

/-- In the list `l`, `x` comes before `y`. -/
def Before (l : List Str) (x y : Str) : Prop := ∃ l₁ l₂ l₃, l = l₁ ++ x :: l₂ ++ y :: l₃

/-- The foreign key `k` of a table with the columns of `child` fits a parent like `parent`: the referenced column exists there, leads a key, and
has the same type and signedness. -/
def Linked (child : Table) (k : Constraint) (parent : Table) : Prop :=
  (ofTable parent).leads k.fcolumn = true ∧
  ∃ c d, child.columns.get? k.column = some c ∧ parent.columns.get? k.fcolumn = some d ∧ linkable c d = true

/-- The migration changes the column `c` of the table `n`, and its type: the two definitions are of different types, they are written
differently, and the tool does not take them for the same. -/
def Retyped [PyNum] (f t : Dict Table) (n c : Str) : Prop :=
  ∃ a b u v, f.get? n = some a ∧ t.get? n = some b ∧ a.columns.get? c = some u ∧ b.columns.get? c = some v ∧
    u.TypeDiffers v ∧ u.render ≠ v.render ∧ u.sameAs v ≠ .ok true

/-- `k'` is the first foreign key of `b` between the same columns as `k`. -/
def FirstLike (b : Table) (k k' : Constraint) : Prop :=
  ∃ l₁ l₂, b.constraints.values = l₁ ++ k' :: l₂ ∧ k'.SameColumns k ∧ ∀ j ∈ l₁, ¬ j.SameColumns k

/-- What keeps a migration from `f` to `t` out of the tool's troubles.  (C14: the statements of a plan can be executed if and only if this
holds.) -/
structure Untroubled [PyNum] (f t : Dict Table) : Prop where
  /-- no primary key is changed under an unchanged name -/
  primary : ∀ n a b, f.get? n = some a → t.get? n = some b → PrimaryKept a b
  /-- a foreign key which uses a column that changes its type is not renamed to the name of another one which does not -/
  renames : ∀ n a b k k' l, f.get? n = some a → t.get? n = some b → k ∈ a.constraints.values → Touched f t n k →
    k.name ∉ b.constraints.keys → FirstLike b k k' → a.constraints.get? k'.name = some l → Touched f t n l
  /-- the names of the foreign keys of tables which are dropped are not used again, unless the foreign key uses a column that changes its
  type -/
  dropped : ∀ n a k m b, f.get? n = some a → t.get? n = none → k ∈ a.constraints.values → t.get? m = some b → k.name ∈ b.constraints.keys →
    Touched f t n k
  /-- the names of the foreign keys of tables which are created are new -/
  created : ∀ m b, t.get? m = some b → f.get? m = none → ∀ n a, f.get? n = some a → ∀ x ∈ b.constraints.keys, x ∉ a.constraints.keys
  /-- the foreign keys of tables which are created refer to columns which are there before with a key and the declared type, or
  to tables which are created as well -/
  parents : ∀ m b k a, t.get? m = some b → f.get? m = none → k ∈ b.constraints.values → f.get? k.ftable = some a →
    Linked b k a ∧ ¬ Retyped f t k.ftable k.fcolumn
  /-- a foreign key which does not stay and refers to a column of another table which does: that column stays with a key and its
  type, or the type changes and the foreign key has a counterpart, or the foreign key's table is updated before the other one -/
  leaving : ∀ n a k b, f.get? n = some a → k ∈ a.constraints.values → ¬ Stays t n k → k.ftable ≠ n → f.get? k.ftable ≠ none →
    t.get? k.ftable = some b →
    (Linked a k b ∧ ¬ Retyped f t k.ftable k.fcolumn) ∨ (Touched f t n k ∧ HasCounterpart t n k) ∨ Before (overlap f t) n k.ftable
  /-- a foreign key which refers to a missing table, which is created, fits -/
  dangling : ∀ n a k b, f.get? n = some a → k ∈ a.constraints.values → f.get? k.ftable = none → t.get? k.ftable = some b → Linked a k b

/-- What the tool may read from the server when it has read `f` before: the tables which are there, and those which were there
before in the same order (the server lists tables by name). -/
structure Reading (f : Dict Table) (db : SDb) (d : Dict Table) : Prop where
  keyed : KeyedTables d
  describes : Describes d db
  order : ∀ x y, Before f.keys x y → x ∈ d.keys → y ∈ d.keys → Before d.keys x y

/-- A history of attempts to migrate to `t` which were interrupted: every one of them reads what the server has, makes a plan and
executes some first statements of it (`pre`), on a connection whose checks were on or off.  In the beginning the tables are `f`, on
the server `db`; after the last attempt `d`, on the server `db'`. -/
inductive Attempts [PyNum] (t : Dict Table) : Dict Table → SDb → Dict Table → SDb → Prop
  | start {f : Dict Table} {db : SDb} : Attempts t f db f db
  | again {f d d' : Dict Table} {db db' db'' : SDb} {pre post : List Op} {checks : Bool} (before : Attempts t f db d db')
      (plan : Mygration.process t (some d) true = .ok (pre ++ post)) (exec : SDb.execAll { db' with checks := checks } pre = some db'')
      (read : Reading d db'' d') : Attempts t f db d' db''

/-- A name of a key which was the name of a foreign key is one still, or is the name of a key before and after. -/
def KeyNamesSettle (a b : Table) : Prop :=
  ∀ x, x ∈ a.constraints.keys → x ∈ a.indexes.keys ∨ x ∈ b.indexes.keys →
    x ∈ b.constraints.keys ∨ (x ∈ a.indexes.keys ∧ x ∈ b.indexes.keys)

/-- The table `a` has the key `x`, the table `b` has the key `y` for it, and no other keys on these columns. -/
structure Renamed (a b : Table) (x y : Str) (i j : Index) : Prop where
  old : a.indexes.get? x = some i
  new : b.indexes.get? y = some j
  gone : x ∉ b.indexes.keys
  fresh : y ∉ a.indexes.keys
  columns : i.columns = j.columns
  type : i.indexType = j.indexType
  onlyOld : ∀ x' i', a.indexes.get? x' = some i' → i'.columns = i.columns → x' = x
  onlyNew : ∀ y' j', b.indexes.get? y' = some j' → j'.columns = j.columns → y' = y

/-- The column `c` of the table `n` is declared as it is, but not to the letter: the two definitions agree, and still their types are written
differently (another display width, or a character set or collation which one of them leaves out). -/
def LookAlike [PyNum] (f t : Dict Table) (n c : Str) : Prop :=
  ∃ a b u v, f.get? n = some a ∧ t.get? n = some b ∧ a.columns.get? c = some u ∧ b.columns.get? c = some v ∧ u.Agrees v ∧ u.TypeDiffers v

end Mygrations

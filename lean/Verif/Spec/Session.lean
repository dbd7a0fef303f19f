import Verif.Spec.Meaning
import Verif.Spec.Server

/-!
# Specification: a MySQL server which is sent texts

`Spec/Grammar.lean` says how MySQL reads a text.  This file says what it does then with the structure of its database.  It
knows the definitions only as MySQL reads them (`ColumnSql`, `KeySql`, `FkSql`), and nothing of the program.  The rules are those
of `Spec/MySQL.lean` and `Spec/Server.lean` (R1–R6), here for foreign keys of several columns as well.

Simplifications: as there; a key without a name is called like its first column (MySQL counts on if that name is taken, here the
statement fails); a foreign key must have a name (MySQL would make one up); options of tables are ignored.
-/

namespace Mygrations
namespace Sql
open MySQL (dropNames addNamed)

/-- A table: its columns, keys and foreign keys by name. -/
structure TableSql where
  cols : Dict ColumnSql := []
  keys : Dict KeySql := []
  fks : Dict FkSql := []
  deriving DecidableEq, Repr

/-- A database: the variable `FOREIGN_KEY_CHECKS` and the tables. -/
structure DbSql where
  checks : Bool := true
  tables : Dict TableSql := []
  deriving DecidableEq, Repr

/-- The name of a key: the primary key is called `PRIMARY`, a key without a name like its first column. -/
def KeySql.called (k : KeySql) : Str :=
  match k.kind, k.name with
  | .primary, _ => py"PRIMARY"
  | _, some n => n
  | _, none => k.columns.headD []

/-- The name of a foreign key. -/
def FkSql.called (k : FkSql) : Str := k.name.getD []

/-! ## One table -/

/-- The resulting table must make sense by itself: there is a column, keys and foreign keys are about columns which exist, and
foreign keys have names. -/
def TableSql.ok (t : TableSql) : Bool :=
  !t.cols.isEmpty && t.keys.all (fun e => e.2.columns.all t.cols.has) &&
  t.fks.all (fun e => e.2.name.isSome && !e.2.columns.isEmpty && e.2.columns.all t.cols.has)

/-- No name is given twice. -/
def TableSql.distinct (t : TableSql) : Bool := decide t.cols.keys.Nodup && decide t.keys.keys.Nodup && decide t.fks.keys.Nodup

/-- The columns, keys and foreign keys of a `CREATE TABLE`. -/
def ofItems (items : List ItemSql) : TableSql where
  cols := items.filterMap (fun | .column c _ => some (c.name, c) | _ => none)
  keys := items.filterMap (fun | .key k => some (k.called, k) | _ => none)
  fks := items.filterMap (fun | .fk k => some (k.called, k) | _ => none)

/-- The columns which are dropped. -/
def colsDropped (cl : List ClauseSql) : List Str := cl.filterMap (fun | .dropColumn n => some n | _ => none)

/-- The columns which are changed, with their old names. -/
def colsChanged (cl : List ClauseSql) : List (Str × ColumnSql) := cl.filterMap (fun | .changeColumn n c => some (n, c) | _ => none)

/-- The keys which are dropped. -/
def keysDropped (cl : List ClauseSql) : List Str :=
  cl.filterMap (fun | .dropKey n => some n | .dropPrimaryKey => some py"PRIMARY" | _ => none)

/-- The keys which are added. -/
def keysAdded (cl : List ClauseSql) : List KeySql := cl.filterMap (fun | .addKey k => some k | _ => none)

/-- The foreign keys which are dropped. -/
def fksDropped (cl : List ClauseSql) : List Str := cl.filterMap (fun | .dropFk n => some n | _ => none)

/-- The foreign keys which are added. -/
def fksAdded (cl : List ClauseSql) : List FkSql := cl.filterMap (fun | .addFk k => some k | _ => none)

/-- `CHANGE old new-definition` -/
def changeColumn (cols : Dict ColumnSql) (e : Str × ColumnSql) : Option (Dict ColumnSql) :=
  if cols.has e.1 ∧ (e.2.name = e.1 ∨ !cols.has e.2.name) then some (cols.map (fun x => if x.1 = e.1 then (e.2.name, e.2) else x)) else none

/-- `ADD column [FIRST | AFTER c]` (other clauses do not add columns) -/
def placeColumn (cols : Dict ColumnSql) : ClauseSql → Option (Dict ColumnSql)
  | .addColumn c => if cols.has c.name then none else some (cols ++ [(c.name, c)])
  | .addColumnFirst c => if cols.has c.name then none else some ((c.name, c) :: cols)
  | .addColumnAfter c a =>
    if cols.has c.name || !cols.has a then none
    else some (cols.flatMap (fun x => if x.1 = a then [x, (c.name, c)] else [x]))
  | _ => some cols

/-- Dropped columns disappear from the keys, and keys without columns disappear. -/
def shrink (dropped : List Str) (keys : Dict KeySql) : Dict KeySql :=
  (keys.map (fun e => (e.1, { e.2 with columns := e.2.columns.filter (fun c => !dropped.contains c) }))).filter (fun e => e.2.columns ≠ [])

/-- `ALTER TABLE`, as far as one table is concerned: the drops refer to the old table; the remaining columns are changed; then new columns
are put in, one by one. -/
def TableSql.alter (t : TableSql) (cl : List ClauseSql) : Option TableSql := do
  let cols₀ ← dropNames (colsDropped cl) t.cols
  let cols₁ ← (colsChanged cl).foldlM changeColumn cols₀
  let cols ← cl.foldlM placeColumn cols₁
  let keys₀ ← dropNames (keysDropped cl) t.keys
  let keys ← (keysAdded cl).foldlM (addNamed KeySql.called) (shrink (colsDropped cl) keys₀)
  let fks₀ ← dropNames (fksDropped cl) t.fks
  let fks ← (fksAdded cl).foldlM (addNamed FkSql.called) fks₀
  if TableSql.ok ⟨cols, keys, fks⟩ then some ⟨cols, keys, fks⟩ else none

/-! ## The whole database -/

/-- The columns are the first ones of some key. -/
def TableSql.leads (t : TableSql) (cs : List Str) : Bool := t.keys.any (fun e => cs.isPrefixOf e.2.columns)

/-- Two columns which a foreign key can link. -/
def linkable (c d : ColumnSql) : Bool := c.type = d.type && c.unsigned = d.unsigned

/-- Two columns of two tables which exist and which a foreign key can link. -/
def linked (t p : TableSql) (e : Str × Str) : Bool :=
  match t.cols.get? e.1, p.cols.get? e.2 with
  | some c, some d => linkable c d
  | _, _ => false

/-- The foreign key `k` of the table `t` fits (R5, R6): its columns exist and lead a key; and so do the columns to which it refers, if
their table exists (it must, while checks are on), with the same types. -/
def fits (checks : Bool) (tables : Dict TableSql) (t : TableSql) (k : FkSql) : Bool :=
  k.columns.all t.cols.has && t.leads k.columns && k.columns.length = k.refs.length &&
  (match tables.get? k.table with
   | none => !checks
   | some p => p.leads k.refs && (k.columns.zip k.refs).all (linked t p))

/-- All foreign keys fit, and no two of different tables have the same name (R3). -/
def DbSql.consistent (db : DbSql) : Bool :=
  db.tables.all (fun e => e.2.fks.all (fun k => fits db.checks db.tables e.2 k.2)) &&
  db.tables.all (fun e => db.tables.all (fun e' => e.1 = e'.1 || e.2.fks.all (fun k => !e'.2.fks.has k.1)))

/-- The database, if it is consistent. -/
def DbSql.check (db : DbSql) : Option DbSql := if db.consistent then some db else none

/-- The foreign key `k` of table `n` uses column `c` of table `m`. -/
def uses (n : Str) (k : FkSql) (m c : Str) : Bool := (n = m && k.columns.contains c) || (k.table = m && k.refs.contains c)

/-- The type of a column is changed. -/
def typeDiffers (a b : ColumnSql) : Bool :=
  a.type ≠ b.type || a.numbers ≠ b.numbers || a.values ≠ b.values || a.unsigned ≠ b.unsigned || a.charset ≠ b.charset || a.collate ≠ b.collate

/-- A statement changes the type of a column which a foreign key uses (R4). -/
def DbSql.breaksFk (db : DbSql) (n : Str) (t : TableSql) (cl : List ClauseSql) : Bool :=
  (colsChanged cl).any (fun e =>
    match t.cols.get? e.1 with
    | none => false
    | some a => typeDiffers a e.2 && db.tables.any (fun o => o.2.fks.any (fun k => uses o.1 k.2 n e.1)))

/-- One statement.  Statements on rows do not change the structure. -/
def DbSql.exec (db : DbSql) : Stmt → Option DbSql
  | .setVar v x => if v = py"FOREIGN_KEY_CHECKS" then some { db with checks := x ≠ py"0" } else some db
  | .createTable n items _ =>
    if db.tables.has n || !(ofItems items).ok || !(ofItems items).distinct then none
    else ({ db with tables := db.tables ++ [(n, ofItems items)] } : DbSql).check
  | .alterTable n cl => do
    let t ← db.tables.get? n
    let t' ← t.alter cl
    if db.breaksFk n t cl then none else ({ db with tables := db.tables.set n t' } : DbSql).check
  | .dropTable n => if db.tables.has n then ({ db with tables := db.tables.filter (fun e => e.1 ≠ n) } : DbSql).check else none
  | .insert .. | .update .. | .delete .. => some db

/-- A text is sent: it is read, and executed. -/
def DbSql.send (db : DbSql) (text : Str) : Option DbSql := (readStatement text).bind db.exec

/-- Texts are sent one after the other, until one of them fails. -/
def DbSql.sendAll (db : DbSql) (texts : List Str) : Option DbSql := texts.foldlM DbSql.send db

end Sql

/-! ## The database of some tables -/

open Sql

/-- A table in MySQL's terms. -/
def MySQL.STable.sql (t : MySQL.STable) : TableSql where
  cols := t.cols.map (fun e => (e.1, e.2.sql))
  keys := t.keys.map (fun e => (e.1, e.2.sql))
  fks := t.fks.map (fun e => (e.1, e.2.sql))

/-- A database in MySQL's terms. -/
def MySQL.SDb.sql (db : MySQL.SDb) : DbSql where
  checks := db.checks
  tables := db.tables.map (fun e => (e.1, e.2.sql))

end Mygrations

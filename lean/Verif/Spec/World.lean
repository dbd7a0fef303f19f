import Verif.Spec.Session

/-!
# Specification: a MySQL server with its rows

`Spec/Session.lean` says what the texts which are sent to a server do to the structure of its database.  This file adds the rows:
what happens to them when tables and columns come and go, and which statements on rows fail because of the structure.

Simplifications: rows are known by their ids (`Spec/Rows.lean`), so a condition must be about the column `id`, which is not
set by an `UPDATE`; values are stored as they are given, and kept when the type of their column changes; an `UPDATE` names a column once;
foreign keys and unique keys are not checked against the rows (the plans switch the checks of foreign keys off).
What a column contains if nothing else is said is not fixed here: `dflt` can be anything.
-/

namespace Mygrations
namespace Sql

/-- The structure of the database, and its rows. -/
structure World where
  schema : DbSql
  rows : DbRows

/-- The columns which are added. -/
def colsAdded (cl : List ClauseSql) : List ColumnSql :=
  cl.filterMap (fun | .addColumn c => some c | .addColumnFirst c => some c | .addColumnAfter c _ => some c | _ => none)

/-- A row after an `ALTER TABLE`: a new column has its default, a changed one its old value, a dropped one none. -/
def alterCells (dflt : ColumnSql → Option Str) (cl : List ClauseSql) (cells : Cells) : Cells := fun c =>
  match (colsAdded cl).find? (fun d => d.name = c) with
  | some d => dflt d
  | none =>
    match (colsChanged cl).find? (fun e => e.2.name = c) with
    | some e => cells e.1
    | none => if (colsDropped cl).contains c || (colsChanged cl).any (fun e => e.1 = c) then none else cells c

/-- The value which is given for a column. -/
def given (columns : List Str) (values : List (Option Str)) (c : Str) : Option (Option Str) := (columns.zip values).lookup c

/-- What a statement does to the rows.  It fails if a table or a column does not exist, if a column is named twice, and if an id is taken. -/
def World.rowsAfter (dflt : ColumnSql → Option Str) (w : World) : Stmt → Option DbRows
  | .setVar _ _ => some w.rows
  | .createTable n _ _ => some (fun t i => if t = n then none else w.rows t i)
  | .dropTable n => some (fun t i => if t = n then none else w.rows t i)
  | .alterTable n cl => some (fun t i => if t = n then (w.rows t i).map (alterCells dflt cl) else w.rows t i)
  | .insert n columns values =>
    match w.schema.tables.get? n with
    | none => none
    | some t =>
      if !columns.all t.cols.has || !decide columns.Nodup || columns.length ≠ values.length then none
      else match given columns values py"id" with
        | some (some i) =>
          if (w.rows n i).isSome then none
          else some (w.rows.put n i (some fun c => (given columns values c).getD ((t.cols.get? c).bind dflt)))
        | _ => none
  | .update n sets condition =>
    match w.schema.tables.get? n with
    | none => none
    | some t =>
      if !(sets.map (·.column)).all t.cols.has || !decide (sets.map (·.column)).Nodup || (sets.map (·.column)).contains py"id" ||
          condition.column ≠ py"id" || !t.cols.has py"id" then none
      else match condition.value with
        | none => some w.rows
        | some i => some (match w.rows n i with
          | none => w.rows
          | some cells => w.rows.put n i (some fun c => if c = py"id" then some i else (given (sets.map (·.column)) (sets.map (·.value)) c).getD (cells c)))
  | .delete n condition =>
    match w.schema.tables.get? n with
    | none => none
    | some t =>
      if condition.column ≠ py"id" || !t.cols.has py"id" then none
      else match condition.value with
        | none => some w.rows
        | some i => some (w.rows.put n i none)

/-- One statement. -/
def World.exec (dflt : ColumnSql → Option Str) (w : World) (st : Stmt) : Option World := do
  let schema ← w.schema.exec st
  let rows ← w.rowsAfter dflt st
  some ⟨schema, rows⟩

/-- A text is sent. -/
def World.send (dflt : ColumnSql → Option Str) (w : World) (text : Str) : Option World := (readStatement text).bind (w.exec dflt)

/-- Texts are sent one after the other, until one of them fails. -/
def World.sendAll (dflt : ColumnSql → Option Str) (w : World) (texts : List Str) : Option World := texts.foldlM (World.send dflt) w

end Sql
end Mygrations

import Verif.Model.Diff

/-!
# Model of the operations of the core package (`mygrations/core/operations`)

The library has the operations twice.  The migrations use those of `mygrations/formats/mysql/mygrations/operations` (`AlterOp.render`,
`Alter.render`, `Table.renderCreate`, `Op.render`, `Table.applyOp`); here are those of `mygrations/core/operations`, which a program can use in
their place.  They hold the same data (`AlterOp`, `Alter`, `Op`), with `AddIndex`, `ChangeIndex`, `RemoveIndex`, `AddRow`, `ChangeRow`,
`RemoveRow` for `AddKey`, `ChangeKey`, `RemoveKey`, `RowInsert`, `RowUpdate`, `RowDelete`.
-/

namespace Mygrations.Core

/-- `__str__` of the clauses (core/operations/add_column.py:34-42, change_column.py:12-13, remove_column.py:12-13, add_index.py:14-15,
change_index.py:12-13, remove_index.py:12-15, add_constraint.py:14-15, change_constraint.py:12-13, remove_constraint.py:12-13) -/
def renderOp : AlterOp → Str
  | .addColumn c p => py"ADD " ++ c.render ++
      (match p with
       | .first => py" FIRST"
       | .after a => py" AFTER `" ++ a ++ py"`"
       | .last => [])
  | .changeColumn c => py"CHANGE `" ++ c.name ++ py"` " ++ c.render
  | .removeColumn c => py"DROP `" ++ c.name ++ py"`"
  | .addKey i => py"ADD " ++ i.render
  | .changeKey i => py"DROP KEY `" ++ i.name ++ py"`, ADD " ++ i.render
  | .removeKey i => if i.indexType = py"PRIMARY" then py"DROP PRIMARY KEY" else py"DROP KEY `" ++ i.name ++ py"`"
  | .addConstraint k => py"ADD " ++ k.render
  | .changeConstraint k => py"DROP FOREIGN KEY `" ++ k.name ++ py"`, ADD " ++ k.render
  | .removeConstraint k => py"DROP FOREIGN KEY `" ++ k.name ++ py"`"

/-- `AlterTable.__str__` (core/operations/alter_table.py:21-22) -/
def renderAlter (a : Alter) : Str := py"ALTER TABLE `" ++ a.table ++ py"` " ++ join py", " (a.ops.map renderOp) ++ py";"

/-- `CreateTable.__str__` (core/operations/create_table.py:15-31) -/
def renderCreate (t : Table) (nice : Bool) : Str :=
  let newline := if nice then py"\n" else []
  let padding := if nice then py"  " else []
  let separator := if nice then py",\n" else py","
  let body := t.columns.values.map (fun c => padding ++ c.render) ++
    t.indexes.values.map (fun i => padding ++ i.render) ++
    t.constraints.values.map (fun k => padding ++ k.render)
  let options := if t.options.isEmpty then []
    else py" " ++ join py" " (t.options.map (fun o => o.name ++ py"=" ++ o.value))
  py"CREATE TABLE `" ++ t.name ++ py"` (" ++ newline ++ join separator body ++ newline ++ py")" ++ options ++ py";"

/-- `AddRow.__str__` (core/operations/add_row.py:17-23), where `str(val)` is escaped as in `renderInsert` -/
def renderAdd (table : Str) (row : Row) : Str :=
  py"INSERT INTO `" ++ table ++ py"` (" ++ join py", " (row.keys.map (fun k => py"`" ++ k ++ py"`")) ++ py") VALUES (" ++
    join py", " (row.values.map insertLiteral) ++ py");"

/-- `ChangeRow.__str__` (core/operations/change_row.py:19-24); the constructor refuses rows without an `id` (change_row.py:5-7) -/
def renderChange (table : Str) (row : Row) : Str :=
  py"UPDATE `" ++ table ++ py"` SET " ++ join py", " ((row.filter (fun e => e.1 ≠ py"id")).map (fun e => updateAssign e.1 e.2)) ++
    py" WHERE id='" ++ (match Dict.get? row py"id" with | some v => v.toStr | none => []) ++ py"';"

/-- `__str__` of the statements (core/operations/disable_checks.py:3-4, enable_checks.py:3-4, create_table.py:15-31, alter_table.py:21-22,
remove_table.py:14-15, add_row.py:17-23, change_row.py:19-24, remove_row.py:17-18) -/
def render : Op → Str
  | .disableChecks => py"SET FOREIGN_KEY_CHECKS=0;"
  | .enableChecks => py"SET FOREIGN_KEY_CHECKS=1;"
  | .createTable t => renderCreate t false
  | .alter a => renderAlter a
  | .removeTable n => py"DROP TABLE `" ++ n ++ py"`;"
  | .rowInsert t r => renderAdd t r
  | .rowUpdate t r => renderChange t r
  | .rowDelete t i => py"DELETE FROM `" ++ t ++ py"` WHERE id='" ++ i ++ py"';"

/-- `table.apply_operation(op)` (core/definitions/table.py:636-643) with `op.apply_to_table` of core/operations (add_column.py:30-32,
change_column.py:8-10, add_index.py:10-12, change_index.py:8-10, remove_index.py:8-10, add_constraint.py:10-12, change_constraint.py:8-10,
remove_constraint.py:8-10).  `RemoveColumn` reads an attribute `column` which it does not have (remove_column.py:5-10). -/
def applyOp (t : Table) : AlterOp → Except PyErr Table
  | .addColumn c p => t.addColumn c p
  | .changeColumn c => t.changeColumn c
  | .removeColumn _ => .error (.attributeError py"column")
  | .addKey i => t.addIndex i
  | .changeKey i => t.changeIndex i
  | .removeKey i => t.removeIndex i.name
  | .addConstraint k => t.addConstraint k
  | .changeConstraint k => t.changeConstraint k
  | .removeConstraint k => t.removeConstraint k.name

/-- `for op in ops: table.apply_operation(op)` -/
def applyOps : Table → List AlterOp → Except PyErr Table
  | t, [] => .ok t
  | t, op :: ops =>
    match applyOp t op with
    | .ok t' => applyOps t' ops
    | .error e => .error e

end Mygrations.Core

import Verif.Model.Database

/-!
# Model of the warnings

`Database.warnings` (`mygrations/core/definitions/database.py:42-51`).  Simplification: the first evaluation (the cache `_schema_warnings` of the
database is reset together with `_schema_errors`, which is modelled in `Model/Database`; `_parsing_warnings` is never reset, but nothing asks for
warnings before `check` does).
-/

namespace Mygrations

namespace Table

/-- `primary_column_names` (core/definitions/table.py:168-172) -/
def primaryColumns (t : Table) : List Str := (t.indexes.values.filter Index.isPrimary).flatMap Index.columns

/-- the warnings of the loop over the columns (core/definitions/table.py:175-182), up to the first exception; indexes and constraints have no
warnings (core/definitions/index.py:96-103, core/definitions/constraint.py:93-115) -/
def columnWarnings [PyNum] (t : Table) : List Column → List Str
  | [] => []
  | c :: cs =>
    match c.schemaCheck with
    | (_, some _) => []
    | (_, none) => (if t.primaryColumns.contains c.name then [] else c.schemaWarnings.map t.inTable) ++ columnWarnings t cs

/-- the warnings of the reader, collected by the loop over the columns (core/definitions/table.py:175-189), up to the first exception;
indexes and constraints have none (parsers/index_*.py, parsers/constraint_foreign.py) -/
def readerWarnings [PyNum] (t : Table) : List Column → List Str
  | [] => []
  | c :: cs =>
    match c.schemaCheck with
    | (_, some _) => []
    | (_, none) => c.parsingWarnings.map t.inTable ++ readerWarnings t cs

end Table

namespace Database

/-- `hasattr(table, "schema_warnings")` and then its value (core/definitions/database.py:150-152, core/definitions/table.py:99-107): an
`AttributeError` counts as "no attribute", a table which was checked before returns what it has -/
def askWarnings [PyNum] : List Str → Dict Table → Except PyErr (List Str)
  | _, [] => .ok []
  | checked, (n, t) :: rest =>
    match (if checked.contains n then none else t.findAll.raised) with
    | none => (askWarnings (Table.setAdd checked n) rest).map (fun more => t.columnWarnings t.columns.values ++ more)
    | some (.attributeError _) => askWarnings (Table.setAdd checked n) rest
    | some e => .error e

/-- `find_schema_warnings` (core/definitions/database.py:53-66,118-129,143-153); `INSERT`s have no warnings about the schema
(core/definitions/rows.py:69-71) -/
def schemaWarnings [PyNum] (d : Database) : Except PyErr (List Str) := askWarnings d.checked d.tables

/-- `hasattr(table, "parsing_warnings")` and then its value (core/definitions/database.py:234-243, core/definitions/table.py:123-131), for
tables which have been checked: `warnings` asks for the warnings about the schema first -/
def tableParsingWarnings [PyNum] (tables : Dict Table) : List Str := tables.values.flatMap (fun t => t.readerWarnings t.columns.values)

/-- the loop of `find_all_row_parsing_warnings` (core/definitions/database.py:245-255) -/
def rowParsingWarnings (rows : Dict (List Rows)) : List Str := rows.flatMap (fun e => e.2.flatMap Rows.parsingWarnings)

/-- `warnings` (core/definitions/database.py:42-51,196-209).  `_global_warnings` of a database is empty: nothing is ever added to the list of
the reader which it takes over (file_reader/database.py:27,95, file_reader/reader.py:11,73-79). -/
def warnings [PyNum] (d : Database) : Except PyErr (List Str) :=
  match d.schemaWarnings with
  | .error e => .error e
  | .ok sw => .ok (tableParsingWarnings d.tables ++ rowParsingWarnings d.rows ++ sw)

end Database

end Mygrations

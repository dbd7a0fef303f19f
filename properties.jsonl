{"id": "C01", "title": "Diffing a table against itself yields nothing", "statement": "table.to(table) returns no operations, in both the combined and the split form, for every table (so an up-to-date table is never altered).", "quantifier": "every table: any columns, indexes, constraints, defaults", "why_tests_cant": "the column comparison has many special cases (floats, widths, charsets); tests sample a handful of tables", "anchors": ["mygrations/formats/mysql/definitions/table.py:to", "mygrations/core/definitions/columns/column.py:is_really_the_same_as"]}
{"id": "C02", "title": "Executing table.to(target) gives the target's columns", "statement": "Running the ALTER statements produced by source.to(target) on a MySQL table with source's structure leaves exactly the target's column names, and every column then has the target's definition or one the comparison treats as equivalent.", "quantifier": "every pair of tables for which the diff does not raise", "why_tests_cant": "arbitrary sets of added/removed/changed columns in any order; unit tests try a few pairs", "anchors": ["mygrations/formats/mysql/definitions/table.py:to", "mygrations/formats/mysql/mygrations/operations/add_column.py", "mygrations/formats/mysql/mygrations/operations/change_column.py", "mygrations/formats/mysql/mygrations/operations/remove_column.py"]}
{"id": "C03", "title": "Column order matches the target after migration", "statement": "After executing source.to(target) the columns are in the target's order.", "quantifier": "every pair of tables", "why_tests_cant": "position arithmetic (FIRST / AFTER x) for arbitrary interleavings of added, removed and kept columns", "anchors": ["mygrations/formats/mysql/definitions/table.py:to", "mygrations/core/definitions/table.py:column_before", "mygrations/formats/mysql/mygrations/operations/add_column.py:__str__"]}
{"id": "C04", "title": "Executing table.to(target) gives the target's indexes", "statement": "After executing source.to(target) the table's keys are exactly the target's keys, except keys that only differ by name where one of the names is a foreign-key name.", "quantifier": "every pair of tables", "why_tests_cant": "greedy matching of renamed keys over arbitrary key sets", "anchors": ["mygrations/formats/mysql/definitions/table.py:to", "mygrations/formats/mysql/mygrations/operations/change_key.py", "mygrations/formats/mysql/mygrations/operations/remove_key.py"]}
{"id": "C05", "title": "Executing table.to(target) gives the target's foreign keys", "statement": "After executing source.to(target), the table's foreign keys are exactly the target's (same names, same definitions).", "quantifier": "every pair of tables", "why_tests_cant": "arbitrary overlap of added, removed, changed constraints", "anchors": ["mygrations/formats/mysql/definitions/table.py:to"]}
{"id": "C06", "title": "Every statement of source.to(target) is executable", "statement": "No statement produced by source.to(target) adds a column/key/foreign key that already exists, positions after a missing column, or changes or drops something that does not exist.", "quantifier": "every pair of tables", "why_tests_cant": "validity depends on the state after every previous statement, for unbounded statement lists", "anchors": ["mygrations/formats/mysql/definitions/table.py:to", "mygrations/core/definitions/table.py:column_before"]}
{"id": "C07", "title": "Replaying a diff on the in-memory table reproduces the target", "statement": "For each operation of table.to(other), table.apply_operation(operation) succeeds and in the end table has other's structure (the pseudo-code in the docstring of to()).", "quantifier": "every pair of tables", "why_tests_cant": "quantifies over all diffs", "anchors": ["mygrations/core/definitions/table.py:apply_operation", "mygrations/formats/mysql/mygrations/operations/add_key.py:apply_to_table", "mygrations/core/definitions/table.py:add_column"]}
{"id": "C08", "title": "A column left alone really is the target's column", "statement": "If source.to(target) does not change a column present on both sides, its type, nullability, signedness, AUTO_INCREMENT and default agree with the target (up to the documented false positives: integer display width, one-sided charset/collation, numerically equal defaults, defaults MySQL ignores).", "quantifier": "every pair of columns", "why_tests_cant": "the equality test combines text comparison with per-class attribute comparison", "anchors": ["mygrations/core/definitions/columns/column.py:is_really_the_same_as", "mygrations/core/definitions/columns/numeric.py:is_really_the_same_as", "mygrations/core/definitions/columns/string.py:is_really_the_same_as"]}
{"id": "C09", "title": "An up-to-date database gets an empty migration", "statement": "Mygration(db, db) has no operations (other than the FK-check toggles when requested) for every error-free database.", "quantifier": "every database", "why_tests_cant": "all databases, any number of tables and FKs", "anchors": ["mygrations/formats/mysql/mygrations/mygration.py:_process"]}
{"id": "C10", "title": "Tables are created, altered and dropped exactly as declared", "statement": "The plan creates exactly the tables declared but missing, drops exactly the tables present but not declared (each once), and alters only tables that are present; a table that is not declared only loses foreign keys before it is dropped.", "quantifier": "every pair of databases", "why_tests_cant": "arbitrary table sets", "anchors": ["mygrations/formats/mysql/mygrations/mygration.py:_process", "mygrations/formats/mysql/mygrations/mygration.py:_differences"]}
{"id": "C11", "title": "Phases of the plan are ordered safely", "statement": "In every plan: FK checks are disabled first and enabled last (when requested); temporary FK drops precede every column/key change; every column/key change precedes every FK addition; table drops come after all of these.", "quantifier": "every pair of databases", "why_tests_cant": "ordering over arbitrarily many tables", "anchors": ["mygrations/formats/mysql/mygrations/mygration.py:_process"]}
{"id": "C12", "title": "Each foreign key is dropped at most once and added at most once", "statement": "No plan drops the same foreign key of a table twice or adds the same foreign key of a table twice, even when the temporary drop/re-add of FKs overlaps with ordinary FK changes.", "quantifier": "every pair of databases", "why_tests_cant": "dedup logic between two independent generators, with renamed and duplicate FKs", "anchors": ["mygrations/formats/mysql/mygrations/mygration.py:_find_fk_ops_for_column_type_changes", "mygrations/formats/mysql/mygrations/mygration.py:_strip_cycled_fk_ops"]}
{"id": "C13", "title": "No column type is changed under a live foreign key", "statement": "Whenever a plan changes the type of a column, no foreign key that existed in the source and involves that column (as child or parent) is still in place.", "quantifier": "every pair of databases", "why_tests_cant": "needs every FK in every table in every order", "anchors": ["mygrations/formats/mysql/mygrations/mygration.py:_find_fk_ops_for_column_type_changes"]}
{"id": "C14", "title": "The plan executes and the database reaches the declared schema", "statement": "Executing the plan on the source database never hits a MySQL error (duplicate FK name, missing column, type change under a FK, ...) and ends with exactly the declared tables and foreign keys, and columns/keys as in C02/C04.", "quantifier": "every pair of databases", "why_tests_cant": "end-to-end property over all states of an unbounded statement sequence", "anchors": ["mygrations/formats/mysql/mygrations/mygration.py:_process", "mygrations/formats/mysql/definitions/table.py:to"]}
{"id": "C15", "title": "Integer display width alone never causes operations", "statement": "Databases that differ only in the display width of integer columns produce an empty plan (MySQL 8 strips display widths).", "quantifier": "every database and every choice of widths", "why_tests_cant": "all combinations of tables/FKs/widths", "anchors": ["mygrations/core/definitions/columns/numeric.py:is_really_the_same_as", "mygrations/formats/mysql/mygrations/mygration.py:_column_type_differs"]}
{"id": "C16", "title": "A schema with errors is never migrated", "statement": "If the target database reports any error, Mygration offers no operations and reports precisely those errors.", "quantifier": "every target database and source", "why_tests_cant": "all error sources at once", "anchors": ["mygrations/formats/mysql/mygrations/mygration.py:__init__", "mygrations/core/definitions/database.py:errors"]}
{"id": "C17", "title": "Row migration makes tracked rows equal to the declared rows", "statement": "Executing the row operations on the live rows of a tracked table leaves exactly the declared ids, each with the declared values.", "quantifier": "every pair of row sets", "why_tests_cant": "unbounded row sets and values", "anchors": ["mygrations/formats/mysql/definitions/table.py:to_rows", "mygrations/formats/mysql/mygrations/row_mygration.py:_process"]}
{"id": "C18", "title": "Row migration of identical rows is empty", "statement": "to_rows against a table with the same rows yields no operations.", "quantifier": "every row set", "why_tests_cant": "all values of all types", "anchors": ["mygrations/formats/mysql/definitions/table.py:to_rows", "mygrations/core/definitions/table.py:_loose_equal"]}
{"id": "C19", "title": "Only tracked tables get row operations", "statement": "Row operations only ever target tables whose rows are declared in the files; rows of any other table are untouched.", "quantifier": "every pair of databases", "why_tests_cant": "arbitrary sets of tables", "anchors": ["mygrations/formats/mysql/mygrations/row_mygration.py:_process"]}
{"id": "C20", "title": "Row operations are classified by id", "statement": "An INSERT is emitted exactly for declared ids missing live, a DELETE exactly for live ids not declared, an UPDATE only for ids on both sides, and no id gets two operations.", "quantifier": "every pair of row sets", "why_tests_cant": "unbounded sets of ids", "anchors": ["mygrations/formats/mysql/definitions/table.py:to_rows"]}
{"id": "C21", "title": "Declared values of newly added columns are written", "statement": "If a file adds a column and gives it values for existing rows, one migration run sets these values.", "quantifier": "every table, row and new column", "why_tests_cant": "quantifies over all row/column combinations", "anchors": ["mygrations/formats/mysql/definitions/table.py:to_rows"]}
{"id": "C22", "title": "NULL is distinguished from text", "statement": "A live NULL and a declared string are never considered equal (nor the other way around).", "quantifier": "every pair of values", "why_tests_cant": "all strings", "anchors": ["mygrations/core/definitions/table.py:_loose_equal"]}
{"id": "C23", "title": "Declared rows are stored once per non-empty id", "statement": "After add_rows every stored row is keyed by its own non-empty id, ids are unique, the first row with an id wins and every skipped row is reported; a row whose id is NULL is reported as missing its id.", "quantifier": "every sequence of insert statements", "why_tests_cant": "histories of arbitrary length", "anchors": ["mygrations/core/definitions/table.py:add_rows"]}
{"id": "C24", "title": "INSERT values are escaped correctly", "statement": "For every value, the SQL literal produced in an INSERT is read back by MySQL as exactly that value and ends exactly where the tool intended.", "quantifier": "every string value and every following text", "why_tests_cant": "all strings incl. quotes and backslashes", "anchors": ["mygrations/formats/mysql/mygrations/operations/row_insert.py:__str__"]}
{"id": "C25", "title": "UPDATE values are escaped correctly", "statement": "For every value, the SQL literal produced in an UPDATE (SET and WHERE) is read back by MySQL as exactly that value and ends exactly where intended.", "quantifier": "every string value", "why_tests_cant": "all strings incl. quotes and backslashes", "anchors": ["mygrations/formats/mysql/mygrations/operations/row_update.py:__str__"]}
{"id": "C26", "title": "An INSERT statement is one statement with the right columns and values", "statement": "The text of an INSERT operation tokenizes as exactly one INSERT statement with the table, columns and values of the row, for all values (no injection), provided identifiers contain no backtick.", "quantifier": "every row", "why_tests_cant": "all strings", "anchors": ["mygrations/formats/mysql/mygrations/operations/row_insert.py:__str__"]}
{"id": "C27", "title": "FK checking is exact", "statement": "find_constraint_errors returns no error exactly when the referenced table and column exist, the local column exists, both columns are indexed (first column of some index), type/length/charset/collation/signedness agree and SET NULL is only used on nullable columns.", "quantifier": "every database, table and constraint", "why_tests_cant": "decision over all schemas", "anchors": ["mygrations/core/definitions/database.py:find_constraint_errors"]}
{"id": "C28", "title": "Duplicate foreign-key names are reported", "statement": "The database reports a duplicate-FK error exactly when two constraints anywhere in the schema share a name.", "quantifier": "every database", "why_tests_cant": "any number of tables/constraints", "anchors": ["mygrations/core/definitions/database.py:find_all_database_schema_errors"]}
{"id": "C29", "title": "column_is_indexed is right after any history", "statement": "After any sequence of index/column additions, changes and removals, column_is_indexed(c) is true exactly when c exists and is the first column of some index.", "quantifier": "every history of index operations and queries", "why_tests_cant": "histories with a mutable cache", "anchors": ["mygrations/core/definitions/table.py:column_is_indexed", "mygrations/core/definitions/table.py:remove_index", "mygrations/core/definitions/table.py:change_index"]}
{"id": "C30", "title": "Errors are recomputed after modification", "statement": "After any history of add_table/remove_table/apply_operation and reads, database.errors equals what a fresh computation on the current tables gives.", "quantifier": "every history", "why_tests_cant": "cache invalidation over histories", "anchors": ["mygrations/core/definitions/database.py:errors", "mygrations/core/definitions/database.py:add_table", "mygrations/core/definitions/database.py:find_parsing_errors"]}
{"id": "C31", "title": "Two definitions of one table are reported", "statement": "Reading sources that define the same table twice yields an error, and does not hide other errors.", "quantifier": "every list of sources", "why_tests_cant": "any number/ordering of files", "anchors": ["mygrations/formats/mysql/file_reader/database.py:_read"]}
{"id": "C32", "title": "Problems found while reading a table reach database.errors", "statement": "Missing semicolons, duplicate columns/keys/constraints and duplicate or missing row ids found while reading files appear in database.errors.", "quantifier": "every source text", "why_tests_cant": "all inputs", "anchors": ["mygrations/formats/mysql/file_reader/create_parser.py:process", "mygrations/core/definitions/database.py:errors", "mygrations/core/definitions/table.py:add_rows"]}
{"id": "C33", "title": "Schema checks do not depend on unrelated columns", "statement": "If an index refers to a missing column (or there are two primary keys, or a misplaced AUTO_INCREMENT), database.errors reports it whatever other columns the table has.", "quantifier": "every table", "why_tests_cant": "all column type combinations", "anchors": ["mygrations/core/definitions/table.py:_find_all_errors", "mygrations/core/definitions/columns/date.py"]}
{"id": "C34", "title": "Every CREATE TABLE is read or reported", "statement": "For every CREATE TABLE statement in the sources, either the table is in database.tables or database.errors is non-empty - a declared table is never silently ignored (and so never scheduled for DROP).", "quantifier": "every source text", "why_tests_cant": "all inputs", "anchors": ["mygrations/formats/mysql/file_reader/database.py:_read", "mygrations/formats/mysql/file_reader/create_parser.py:process"]}
{"id": "C35", "title": "Foreign-key definitions round-trip", "statement": "Parsing the SQL text of a constraint gives back the same constraint (name, columns, tables, actions).", "quantifier": "every constraint with plain identifiers, and any following definition", "why_tests_cant": "all names and action combinations", "anchors": ["mygrations/formats/mysql/file_reader/parsers/constraint_foreign.py", "mygrations/core/definitions/constraint.py:__str__"]}
{"id": "C36", "title": "Index definitions round-trip", "statement": "Parsing the SQL text of an index gives back the same index (type, name, columns in order).", "quantifier": "every index with plain identifiers and any number of columns", "why_tests_cant": "unbounded column lists", "anchors": ["mygrations/formats/mysql/file_reader/parsers/index_key.py", "mygrations/core/definitions/index.py:__str__"]}
{"id": "C37", "title": "Column definitions round-trip", "statement": "Parsing the SQL text of a column gives back the same column.", "quantifier": "every column with plain identifiers", "why_tests_cant": "all type/length/default/null combinations", "anchors": ["mygrations/formats/mysql/file_reader/parsers/type_numeric.py", "mygrations/core/definitions/columns/column.py:__str__"]}
{"id": "C38", "title": "CREATE TABLE round-trips", "statement": "Parsing the CREATE TABLE text of a table gives back the same table, so an exported schema produces no changes.", "quantifier": "every table with plain identifiers, any number of definitions", "why_tests_cant": "unbounded definition lists; longest-match selection among 12 parsers", "anchors": ["mygrations/formats/mysql/file_reader/create_parser.py", "mygrations/formats/mysql/mygrations/operations/create_table.py"]}
{"id": "C39", "title": "Declared string values are preserved by the reader", "statement": "The value stored for a quoted string in an INSERT is the string MySQL would store.", "quantifier": "every string value", "why_tests_cant": "all strings (quotes, backslashes, whitespace runs, comment markers)", "anchors": ["mygrations/formats/mysql/file_reader/parsers/insert_values.py", "mygrations/core/parse/rule_delimited.py", "mygrations/core/parse/parser.py:parse"]}
{"id": "C40", "title": "INSERTs and tables of any size are read", "statement": "An INSERT with any number of value groups is read completely.", "quantifier": "every number of value groups", "why_tests_cant": "unbounded sizes", "anchors": ["mygrations/core/parse/rule_children.py:parse"]}
{"id": "C41", "title": "Comments are transparent", "statement": "Comments between statements do not change what is read; an unterminated block comment is rejected.", "quantifier": "every source text and every comment", "why_tests_cant": "all comment texts", "anchors": ["mygrations/formats/mysql/file_reader/comment_parser.py", "mygrations/formats/mysql/file_reader/reader.py:parse"]}
{"id": "C42", "title": "Reading never crashes on blank input", "statement": "Reading a source without statements (empty or blank) yields an empty database.", "quantifier": "every blank string", "why_tests_cant": "all whitespace strings", "anchors": ["mygrations/formats/mysql/file_reader/reader.py:parse"]}
{"id": "C43", "title": "The rule engine only consumes", "statement": "Whatever a parser matches, what is left is never longer than the (normalised) input, and a matched definition strictly consumes, so repeated matching terminates.", "quantifier": "every parser, every input", "why_tests_cant": "all strings", "anchors": ["mygrations/core/parse/parser.py:parse", "mygrations/core/parse/rule_children.py:parse"]}
{"id": "C44", "title": "Longest match wins, ties go to the first", "statement": "Among alternative definition parsers the one leaving the shortest remainder is chosen, the earliest one on ties.", "quantifier": "every list of parsers and every input", "why_tests_cant": "all inputs", "anchors": ["mygrations/core/parse/rule_children.py:parse"]}
{"id": "C45", "title": "The printed plan is bracketed by FK-check toggles", "statement": "A non-empty plan starts with SET FOREIGN_KEY_CHECKS=0, ends with SET FOREIGN_KEY_CHECKS=1 and contains no other toggle; with nothing to do it is empty; with errors and no force it is empty and the live database is not even read.", "quantifier": "every pair of file/live databases and options", "why_tests_cant": "all inputs", "anchors": ["mygrations/core/commands/plan.py:build_commands"]}
{"id": "C46", "title": "apply runs exactly the plan, in order", "statement": "apply sends exactly the statements plan prints, in that order, once each, then commits; if the k-th statement fails exactly the first k were sent and nothing is committed.", "quantifier": "every plan and every failure point", "why_tests_cant": "all crash points", "anchors": ["mygrations/core/commands/apply.py:execute", "mygrations/drivers/pymysql/pymysql.py:execute"]}
{"id": "C47", "title": "dotenv lines are read as written", "statement": "A KEY=VALUE line (bare, single- or double-quoted with escaped quotes, optional comment, '=' or ':') yields exactly key and value; malformed quoting raises DotEnvSyntaxError.", "quantifier": "every key and value", "why_tests_cant": "all strings", "anchors": ["mygrations/helpers/dotenv.py:parse_line"]}
{"id": "C48", "title": "The nearest configuration file is used", "statement": "A relative configuration file name resolves to that file in the current directory or else its nearest ancestor containing it; if none has it an error is raised.", "quantifier": "every working directory, name and file system", "why_tests_cant": "all directory trees", "anchors": ["mygrations/core/commands/base.py:_resolve_and_check_config_file_path"]}
{"id": "C49", "title": "Credentials come from the configured keys", "statement": "Each credential is the .env value under the key named in mygrate.conf; a missing key raises an error naming it.", "quantifier": "every config and env", "why_tests_cant": "all maps", "anchors": ["mygrations/helpers/db_credentials.py"]}
{"id": "C50", "title": "Every advertised command can run", "statement": "Each command accepted by the command line can be loaded.", "quantifier": "every command", "why_tests_cant": "n/a: finite, but no test loads them", "anchors": ["mygrations/core/commands/__init__.py", "mygrations/core/commands/version.py", "mygrations/core/commands/plan_export.py"]}
{"id": "C51", "title": "Generated column SQL is valid for every column read", "statement": "The SQL generated for a column that was read from a file lists the enum values as SQL strings and keeps keyword defaults unquoted.", "quantifier": "every enum/timestamp column", "why_tests_cant": "all value lists", "anchors": ["mygrations/core/definitions/columns/column.py:__str__", "mygrations/formats/mysql/file_reader/parsers/type_enum.py", "mygrations/formats/mysql/file_reader/parsers/type.py:as_definition"]}
{"id": "C52", "title": "Validation never crashes", "statement": "database.errors returns a list for every database read from files.", "quantifier": "every database", "why_tests_cant": "all column combinations", "anchors": ["mygrations/core/definitions/columns/numeric.py:_check_for_schema_errors_and_warnings"]}
{"id": "C53", "title": "Interrupted migrations can be resumed", "statement": "If executing a plan stops after any statement, planning again from the resulting state and executing reaches the declared schema.", "quantifier": "every pair of databases and every crash point", "why_tests_cant": "all crash points of all plans", "anchors": ["mygrations/formats/mysql/mygrations/mygration.py:_process", "mygrations/formats/mysql/definitions/table.py:to"]}
{"id": "C54", "title": "table.primary is the primary key", "statement": "After any history of index operations table.primary is the PRIMARY index of the table, if any.", "quantifier": "every history", "why_tests_cant": "histories", "anchors": ["mygrations/core/definitions/table.py:add_index", "mygrations/core/definitions/table.py:remove_index", "mygrations/core/definitions/table.py:change_index"]}
{"id": "C55", "title": "Unnamed foreign keys get a stable name and an index", "statement": "A FOREIGN KEY without a name is named <table>_<column>_<reftable>_fk cut to 64 characters, and its column ends up covered by an index.", "quantifier": "every table/column name", "why_tests_cant": "all names", "anchors": ["mygrations/formats/mysql/file_reader/create_parser.py:process"]}
{"id": "C56", "title": "Planning never crashes on comparable schemas", "statement": "table.to(target), Mygration and RowMygration return a plan (they do not raise) for all schemas whose numeric defaults are numbers.", "quantifier": "all pairs of tables / databases whose shared numeric columns have numeric defaults", "why_tests_cant": "A crash needs one combination of column classes, types and defaults out of infinitely many; tests show it only for the combinations they try.", "anchors": ["mygrations/formats/mysql/definitions/table.py:to", "mygrations/core/definitions/columns/numeric.py:_is_really_the_same_default", "mygrations/formats/mysql/mygrations/mygration.py:_process", "mygrations/formats/mysql/mygrations/row_mygration.py:_process"]}
{"id": "C57", "title": "Files are read as they are written", "statement": "Reading files with CREATE TABLE, INSERT and comments, in any order, layout and number, gives exactly the declared tables and, for tables with an INSERT, exactly the declared rows; nothing is raised or reported.", "quantifier": "every list of files, every number and order of statements, all white space between and inside them", "why_tests_cant": "Statements interact (a CREATE TABLE preprocesses the rest of the file), and the combinations of statements, layouts and values are unbounded.", "anchors": ["mygrations/formats/mysql/file_reader/reader.py:parse", "mygrations/formats/mysql/file_reader/database.py", "mygrations/formats/mysql/file_reader/create_parser.py:parse", "mygrations/formats/mysql/file_reader/insert_parser.py", "mygrations/core/definitions/table.py:add_rows"]}
{"id": "C58", "title": "plan and check only read", "statement": "plan sends nothing but SHOW and SELECT statements to the server and never commits, whether it comes to its end or raises; check sends nothing.", "quantifier": "every server, files and options", "why_tests_cant": "all inputs and all failure points", "anchors": ["mygrations/core/commands/plan.py:build_commands", "mygrations/core/commands/check.py:execute", "mygrations/formats/mysql/db_reader/database.py", "mygrations/drivers/pymysql/pymysql.py"]}
{"id": "C59", "title": "A refused migration is not reported as a success", "statement": "When plan or apply do nothing because the files have errors, the exit status is not 0 and nothing is committed.", "quantifier": "all files with errors and every server", "why_tests_cant": "all inputs", "anchors": ["mygrations/core/commands/plan.py:execute", "mygrations/core/commands/apply.py:execute", "mygrations/mygrate.py:execute"]}
{"id": "C60", "title": "force plans the structure too", "statement": "With the force option the plan has the structural changes although the files have errors.", "quantifier": "all files with errors and every server", "why_tests_cant": "all inputs", "anchors": ["mygrations/core/commands/plan.py:build_commands", "mygrations/formats/mysql/mygrations/mygration.py:__init__"]}
{"id": "C61", "title": "check fails exactly when plan is refused", "statement": "check ends with a failure exactly if the files have errors, that is exactly if plan without force is refused, and it prints every error.", "quantifier": "all files", "why_tests_cant": "all inputs", "anchors": ["mygrations/core/commands/check.py:execute", "mygrations/core/commands/plan.py:build_commands"]}
{"id": "C63", "title": "Applying a plan brings the rows in line with the files", "statement": "For files without errors, whatever the server holds: the statements of the plan on rows all succeed, afterwards a table whose rows are declared has exactly the declared ids with the declared values, and the rows of the other declared tables are as before.", "quantifier": "all files without errors, all servers and their rows", "why_tests_cant": "all inputs", "anchors": ["mygrations/core/commands/plan.py:build_commands", "mygrations/formats/mysql/mygrations/row_mygration.py", "mygrations/formats/mysql/db_reader/database.py:read_rows"]}
{"id": "C64", "title": "Applying a plan leaves exactly the declared tables", "statement": "For files without errors, whatever the server holds: the plan creates exactly the declared tables that are missing and drops exactly those that are not declared, every statement finds its table, and afterwards exactly the declared tables exist.", "quantifier": "all files without errors and all servers", "why_tests_cant": "all inputs", "anchors": ["mygrations/core/commands/plan.py:build_commands", "mygrations/formats/mysql/mygrations/mygration.py:_process"]}
{"id": "C62", "title": "The live database is read as it is", "statement": "For a server whose SHOW CREATE TABLE answers describe some tables, the live database object has exactly these tables under their names, each with exactly its columns, keys, foreign keys and options, however they are written down.", "quantifier": "all servers, all tables, all layouts and spellings", "why_tests_cant": "all inputs", "anchors": ["mygrations/formats/mysql/db_reader/database.py:_load_tables", "mygrations/drivers/pymysql/pymysql.py:tables"]}
{"id": "C65", "title": "Nothing is planned when the server has what the files declare", "statement": "If the server has exactly the declared tables with the declared columns, keys and foreign keys, and for tables whose rows are declared exactly the declared rows, then plan prints nothing and apply changes nothing, however files and server write the same things down and whatever their order.", "quantifier": "all servers and all files which agree", "why_tests_cant": "all inputs", "anchors": ["mygrations/core/commands/plan.py:build_commands", "mygrations/formats/mysql/mygrations/mygration.py:_process", "mygrations/formats/mysql/mygrations/row_mygration.py:_process"]}
{"id": "C66", "title": "MySQL reads every statement of a plan as it was planned", "statement": "Every statement in a plan is one MySQL statement, and what MySQL reads in its text is what the plan means: the same table, the same columns with their types and positions, the same keys and foreign keys, the same rows.", "quantifier": "all plans", "why_tests_cant": "all inputs", "anchors": ["mygrations/formats/mysql/mygrations/operations", "mygrations/formats/mysql/definitions/table.py:create_table", "mygrations/formats/mysql/mygrations/mygration.py:_process"]}
{"id": "C67", "title": "Once a plan has been applied, there is nothing left to do", "statement": "After every statement of a plan has been executed, reading the server again and planning again gives a plan which changes nothing (only the statements which switch foreign-key checks).", "quantifier": "all pairs of databases, all plans, all ways in which the tables can be read back", "why_tests_cant": "a fixpoint over two runs for all schemas", "anchors": ["mygrations/formats/mysql/mygrations/mygration.py:_process", "mygrations/formats/mysql/definitions/table.py:to"]}
{"id": "C68", "title": "The text of a plan, sent to the server, brings its structure in line with the declarations", "statement": "When the texts of the statements of a plan are sent to a MySQL server which has the tables that were read, the server can read and execute every one of them, and afterwards it has exactly the declared tables with the declared columns, keys and foreign keys.", "quantifier": "all pairs of databases, all plans, all orders in which the server keeps its tables", "why_tests_cant": "all schemas, and all texts which the renderer can produce for them", "anchors": ["mygrations/formats/mysql/mygrations/mygration.py:_process", "mygrations/formats/mysql/mygrations/operations", "mygrations/formats/mysql/definitions/table.py:create"]}
{"id": "C69", "title": "apply makes the server what the files declare", "statement": "For files without errors and a MySQL server, the command apply comes to its end; MySQL accepts every text which is sent, and afterwards the server has exactly the declared tables with the declared columns, keys and foreign keys; tables whose rows are declared have exactly the declared rows; rows of other declared tables are kept, with their values in the columns which stay; and nothing else is left.", "quantifier": "all sets of files, all servers, all rows on the server, all choices of defaults for columns which are added", "why_tests_cant": "needs a MySQL server, and all schemas and rows", "anchors": ["mygrations/core/commands/apply.py:Apply.execute", "mygrations/core/commands/plan.py:Plan.build_commands", "mygrations/drivers/pymysql/pymysql.py:PyMySQL.execute", "mygrations/formats/mysql/mygrations/mygration.py:_process", "mygrations/formats/mysql/mygrations/row_mygration.py:_process"]}
{"id": "C70", "title": "Once apply has run, there is nothing to do", "statement": "When apply has come to its end, then for the server as it is then (its tables and its rows) plan prints nothing, and another apply sends nothing but queries and changes nothing.", "quantifier": "all sets of files without errors, all servers and rows, and all servers which answer what is there after the first run", "why_tests_cant": "a fixed point of the whole tool, over all schemas and rows", "anchors": ["mygrations/core/commands/apply.py:Apply.execute", "mygrations/core/commands/plan.py:Plan.build_commands", "mygrations/formats/mysql/mygrations/mygration.py:_process", "mygrations/formats/mysql/mygrations/row_mygration.py:_process"]}
{"id": "C71", "title": "An interrupted apply can be run again, with its rows", "statement": "apply may be interrupted after any statement, however often: the server can be read again, no row of a table whose rows are not declared is lost (nor its values in columns which stay), and the next run of apply which is not interrupted comes to its end and leaves the declared tables and rows.", "quantifier": "all sets of files without errors, all servers and rows, all crash points, all histories of interrupted runs", "why_tests_cant": "all crash points of all migrations, and histories of them", "anchors": ["mygrations/core/commands/apply.py:Apply.execute", "mygrations/core/commands/plan.py:Plan.build_commands", "mygrations/drivers/pymysql/pymysql.py:PyMySQL.execute", "mygrations/formats/mysql/mygrations/mygration.py:_process", "mygrations/formats/mysql/mygrations/row_mygration.py:_process"]}
{"id": "C72", "title": "The declared rows are the rows of the INSERTs", "statement": "Every row which the files declare holds the values of a row of an INSERT into that table in one of the files; and every row of every INSERT is declared under its id (with its values, if no other row of the table has that id), or an error is reported.", "quantifier": "all sets of files, all INSERTs in them, all rows of them", "why_tests_cant": "all texts of files and all ways of spreading tables and rows over them", "anchors": ["mygrations/formats/mysql/file_reader/database.py:_read", "mygrations/formats/mysql/file_reader/database.py:_combine_tables_and_rows", "mygrations/formats/mysql/file_reader/reader.py:Reader.parse", "mygrations/core/definitions/table.py:Table.add_rows"]}
{"id": "C73", "title": "The order in which the files are read does not matter", "statement": "The directory of the files is listed in whatever order the file system has it. In every order the files are read or not, have errors or not, and declare the same tables, with the same columns, keys, foreign keys and options, and the same rows.", "quantifier": "all sets of files, all orders of them", "why_tests_cant": "a test sees the one order which the file system of the day has", "anchors": ["mygrations/formats/mysql/file_reader/database.py:_process_directory", "mygrations/formats/mysql/file_reader/database.py:_read", "mygrations/formats/mysql/file_reader/database.py:_combine_tables_and_rows", "mygrations/core/definitions/database.py:Database.errors"]}
{"id": "C74", "title": "A command works on the SQL files and the server which its configuration names", "statement": "mygrate.py finds the configuration file, the directory it names (relative to the configuration file), and in it exactly the files whose names end in .sql (hidden ones left out); it connects with the configured credentials. What it then does is what the command does for the texts of these files and that server, for every command and every combination of -f and -v.", "quantifier": "all machines, configurations, directory listings, commands and flags", "why_tests_cant": "a test has one directory with one listing", "anchors": ["mygrate.py", "mygrations/mygrate.py:mygrate", "mygrations/core/commands/base.py:Base", "mygrations/formats/mysql/file_reader/database.py:Database.process", "mygrations/formats/mysql/file_reader/database.py:_process_directory"]}
{"id": "C75", "title": "A missing directory of SQL files is reported", "statement": "If there is neither a directory nor a file where the configuration says that the SQL files are, check fails, and plan and apply send nothing to the server: the schema is not taken to be empty.", "quantifier": "all machines, configurations and paths", "why_tests_cant": "the tests give texts or existing directories; a path which is missing is parsed as SQL, which has to fail for every path", "anchors": ["mygrations/formats/mysql/file_reader/database.py:Database.process", "mygrations/formats/mysql/file_reader/reader.py:Reader.parse", "mygrations/core/commands/base.py:Base.get_sql_files"]}
{"id": "C76", "title": "Schema files which pass the check can be installed", "statement": "If check reports nothing, MySQL accepts the declared tables: every key has columns which exist, there is at most one primary key, and every foreign key refers to an existing indexed column of the same type, with a name of its own. On an empty server, apply succeeds, and afterwards the server has exactly the declared tables and exactly the declared rows with the declared values.", "quantifier": "all sets of schema files, all servers without tables", "why_tests_cant": "the checks are tested one by one; that together they leave nothing which MySQL refuses is a statement about all schemas", "anchors": ["mygrations/core/commands/check.py:Check.execute", "mygrations/core/commands/apply.py:Apply.execute", "mygrations/core/definitions/database.py:Database.errors", "mygrations/core/definitions/table.py:Table._find_all_errors", "mygrations/formats/mysql/mygrations/mygration.py:Mygration"]}
{"id": "C77", "title": "The warnings name exactly the columns which have to be given a value", "statement": "The schema warnings of a database are one line for every column which may not be null, has no default, is not counted up and is not part of the primary key, in the order of the tables and columns, and nothing else.", "quantifier": "all databases", "why_tests_cant": "the tests look at single columns; exactness over all tables, keys and columns is a statement about all schemas", "anchors": ["mygrations/core/definitions/database.py:Database.warnings", "mygrations/core/definitions/database.py:Database.find_schema_warnings", "mygrations/core/definitions/table.py:Table._find_all_errors", "mygrations/core/definitions/columns/column.py:Column._check_for_schema_errors_and_warnings"]}
{"id": "C78", "title": "The check reports exactly what is wrong", "statement": "Every message which `check` prints about the schema files names a fault which the files have: of a column, a key, a foreign key, a table, an INSERT, or noted while reading. And every fault is reported: all faults of tables, notes of the readers, duplicate names and INSERTs, and at least one for every faulty foreign key. So `check` succeeds exactly if there is no fault.", "quantifier": "all schema files which can be read", "why_tests_cant": "the tests look at single faults; that no combination of faults hides one, and that nothing is reported without a fault, is a statement about all schemas", "anchors": ["mygrations/commands/check.py:Check.execute", "mygrations/core/definitions/database.py:Database.errors", "mygrations/core/definitions/table.py:Table._find_all_errors", "mygrations/core/definitions/columns/numeric.py:Numeric._check_for_schema_errors_and_warnings", "mygrations/core/definitions/columns/string.py:String._check_for_schema_errors_and_warnings", "mygrations/core/definitions/columns/enum.py:Enum._check_for_schema_errors_and_warnings", "mygrations/core/definitions/index.py:Index.schema_errors"]}
{"id": "C79", "title": "The check has nothing against columns which MySQL accepts", "statement": "`check` reports no fault of a column whose definition MySQL accepts.", "quantifier": "all column definitions", "why_tests_cant": "the tests check single definitions; this is about all types, lengths, defaults, character sets and flags together", "anchors": ["mygrations/commands/check.py:Check.execute", "mygrations/core/definitions/columns/numeric.py:Numeric._check_for_schema_errors_and_warnings", "mygrations/core/definitions/columns/string.py:String._check_for_schema_errors_and_warnings", "mygrations/core/definitions/columns/enum.py:Enum._check_for_schema_errors_and_warnings", "mygrations/formats/mysql/file_reader/parsers/type.py:Type.as_definition"]}
{"id": "C80", "title": "The operations of the core package write SQL which MySQL reads as intended", "statement": "The text of every operation of mygrations.core.operations is read by MySQL as the change which the operation stands for, whatever the names of the tables and columns involved.", "quantifier": "all operations, and all plans if the operations are taken from the core package", "why_tests_cant": "names, definitions and values are arbitrary; the tests compare a few texts", "anchors": ["mygrations/core/operations/alter_table.py:AlterTable.__str__", "mygrations/core/operations/create_table.py:CreateTable.__str__", "mygrations/core/operations/remove_table.py:RemoveTable.__str__", "mygrations/core/operations/remove_column.py:RemoveColumn.__str__", "mygrations/core/operations/add_column.py:AddColumn.__str__", "mygrations/core/operations/row_insert.py:RowInsert.__str__"]}
{"id": "C81", "title": "Replaying a diff with the core operations gives the target", "statement": "Applying the operations of source.to(target), taken from mygrations.core.operations, to the source in memory gives a table with the columns, keys and foreign keys of the target.", "quantifier": "all pairs of valid tables", "why_tests_cant": "any combination of added, changed and dropped columns, keys and foreign keys, in any order", "anchors": ["mygrations/core/definitions/table.py:Table.apply_operation", "mygrations/core/operations/add_index.py:AddIndex.apply_to_table", "mygrations/core/operations/change_index.py:ChangeIndex.apply_to_table", "mygrations/core/operations/remove_index.py:RemoveIndex.apply_to_table", "mygrations/core/operations/remove_column.py:RemoveColumn.apply_to_table"]}
{"id": "C82", "title": "Comments and lengths of prefixes do not change what is read", "statement": "In a text which starts with a CREATE TABLE, comments from -- to the end of the line and the lengths of prefixes of columns in keys, such as the 10 in KEY k (name(10)), can be added or removed without any effect on the tables, rows and complaints which are read.", "quantifier": "all texts without such additions which start with CREATE, and any number of additions anywhere in them", "why_tests_cant": "the additions can be anywhere, any number of them, next to each other and to any other text; the tests have a few files", "anchors": ["mygrations/formats/mysql/file_reader/create_parser.py:CreateParser.parse", "mygrations/formats/mysql/file_reader/reader.py:Reader.parse"]}
{"id": "C83", "title": "The reader warns about defaults which are written in the wrong way", "statement": "When a CREATE TABLE is read, there is a warning for a column exactly if its default is text without quotes although it needs them, or, for a decimal column, a number in quotes; for an INSERT there is one warning for each missing comma between its rows.", "quantifier": "all names, types, lengths and defaults of columns in all spellings and orders of their attributes, and all rows of INSERTs", "why_tests_cant": "which of twelve parsers reads a column depends on all of its attributes, and the warning depends on the parser; the tests have a handful of columns", "anchors": ["mygrations/formats/mysql/file_reader/parsers/type_character.py:TypeCharacter.process", "mygrations/formats/mysql/file_reader/parsers/type_decimal.py:TypeDecimal.process", "mygrations/formats/mysql/file_reader/parsers/type_datetime.py:TypeDateTime.process", "mygrations/formats/mysql/file_reader/parsers/type_plain.py:TypePlain.process", "mygrations/formats/mysql/file_reader/insert_parser.py:InsertParser.process"]}
{"id": "C84", "title": "The check command prints exactly the remarks the files deserve", "statement": "For well-written files with different tables, check prints the errors under one heading and, under another, exactly one remark for each default which is written in the wrong way and for each column which has to be given a value, with the name of its table and in the order of the files; it prints that there are no problems exactly if there are no errors and no remarks.", "quantifier": "all lists of files with any number of statements, tables, columns, styles of writing, white space and comments", "why_tests_cant": "what is printed depends on which parser reads each column, on the caches which asking for the errors fills, and on the place of dates among the columns; tests have a few fixed files", "anchors": ["mygrations/core/commands/check.py:Check.execute", "mygrations/core/definitions/database.py:Database.warnings", "mygrations/core/definitions/table.py:Table._find_all_errors", "mygrations/formats/mysql/file_reader/database.py:Database"]}
{"id": "C85", "title": "Edits of a table in memory", "statement": "Each of add_column, remove_column, change_column, add_index, remove_index, change_index, add_constraint, remove_constraint and change_constraint succeeds exactly if what it adds is not there (and the column it is put after is), or what it removes or changes is there; otherwise it raises ValueError. It changes exactly what it says, keeping the order of everything else. After any history of such calls everything is found under its own name, once. Every call which adds or changes something, and every removal of a column, can be taken back. column_before says where a column stands: put back there, it is where it was.", "quantifier": "every table, every call, every history of calls", "why_tests_cant": "tests make a few calls on a few tables", "anchors": ["mygrations/core/definitions/table.py:add_column", "mygrations/core/definitions/table.py:remove_column", "mygrations/core/definitions/table.py:change_column", "mygrations/core/definitions/table.py:add_index", "mygrations/core/definitions/table.py:change_constraint", "mygrations/core/definitions/table.py:column_before"]}
{"id": "C86", "title": "configuration files in JSON", "statement": "mygrate.conf and the .env file may also be JSON objects of strings: with any white space and any escapes, every name has the last value written for it, empty values included, and there are no other names; whichever of the two files is JSON, the credentials and the directory with the SQL files are those which are written there.", "quantifier": "every JSON object of strings with any white space and any spelling of its characters; every pair of a configuration file and a .env file of either kind", "why_tests_cant": "a test reads a few documents; the text is first tried as JSON and then as lines, and both must be told apart for every file", "anchors": ["mygrations/helpers/dotenv.py:dotenv.parse", "mygrations/helpers/dotenv.py:dotenv.__init__", "mygrations/helpers/db_credentials.py:DbCredentials", "mygrations/core/commands/base.py:Base"]}
{"id": "C87", "title": "types with several names", "statement": "A column may be declared under any of the names MySQL has for its type: a BOOL or BOOLEAN column is the TINYINT(1) which MySQL makes of it, with 1 for TRUE and 0 for FALSE, and INTEGER is INT; it is then the same column as the one the server shows, so that nothing is planned for it.", "quantifier": "every name, nullability and default of a boolean column, every INTEGER column with any length, sign, default and AUTO_INCREMENT, in capital or small letters and in every style of writing, whatever follows it in the statement", "why_tests_cant": "a test reads a few columns; the reader must agree with the server for every one of them, or every migration changes the column again", "anchors": ["mygrations/formats/mysql/file_reader/parsers/type_plain.py:TypePlain", "mygrations/formats/mysql/file_reader/parsers/type.py:Type", "mygrations/core/definitions/columns/column.py:Column.is_really_the_same_as"]}
{"id": "C88", "title": "configuration files with values of any kind", "statement": "A configuration file or .env file in JSON may have values of any kind: numbers, booleans, null, arrays and objects, nested in any way. Every key has the value given last for it; settings which the tool does not use do not matter; the credentials are passed on as they are; and where a file name or the name of a key has to be a string and is not, there is an exception and no connection is made.", "quantifier": "every JSON object which is not empty, with all its ways of being written (white space, escapes, number formats, nesting of any depth), for both files, and every position of the configuration file", "why_tests_cant": "there are unboundedly many documents, and the JSON reader is recursive; a test reads a few", "anchors": ["mygrations/helpers/dotenv.py:dotenv.parse", "mygrations/helpers/db_credentials.py:DbCredentials", "mygrations/core/commands/base.py:Base._load_config", "mygrations/core/commands/base.py:Base._relative_to_config_abs_path"]}
{"id": "C89", "title": "a configuration file is read as JSON if and only if it is JSON", "statement": "A configuration file (mygrate.conf, .env) is recognised as JSON exactly when it is one JSON value (RFC 8259) with white space around it; the value read is the only one the text can mean. Every file which is no JSON is read line by line and gives strings only (so are JSON files which count as false in Python, like {} and null): a value which is no string always comes from a file which is a JSON object, or a JSON array of pairs, and the configuration is what is written there. The exceptions are Python's own: the words NaN, Infinity and -Infinity are taken for numbers, and a surrogate alone after \\u is accepted.", "quantifier": "all texts of configuration files, all JSON values of any nesting", "why_tests_cant": "The texts which are almost JSON are infinitely many; a test can only try some of them.", "anchors": ["mygrations/helpers/dotenv.py: dotenv.parse, dotenv.__init__"]}
{"id": "C90", "title": "without a configuration nothing is done, and the user is told why", "statement": "If the configuration file does not exist (at an absolute path, or under that name in the working directory and all its ancestors), does not name the directory of the SQL files or the .env file, or has a value with quotes which make no sense (never closed, inside a value which does not start with one, or with text behind the closing one), or if the name given is empty, then apply, check and plan send nothing to any server, with and without force, and end with an error which names the file, the missing key or the line.", "quantifier": "all machines (disks, servers), working directories, configuration files and options", "why_tests_cant": "The disks and the texts of configuration files are unbounded; a test fixes one of each.", "anchors": ["mygrations/core/commands/base.py: base._load_config, base._resolve_and_check_config_file_path", "mygrations/helpers/dotenv.py: dotenv.parse_line", "mygrations/mygrate.py: mygrate.execute"]}

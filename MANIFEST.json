{"claims": [
 {"property": "C01", "status": "proved", "theorems": ["Mygrations.C01", "Mygrations.C01_split"], "note": "all tables, no hypotheses"},
 {"property": "C02", "status": "proved", "theorems": ["Mygrations.C02", "Mygrations.C02_agrees"], "note": "whenever the statements execute (see C06)"},
 {"property": "C03", "status": "partial", "theorems": ["Mygrations.C03_partial", "Mygrations.C03_counterexample", "Mygrations.C03_kept", "Mygrations.C03_iff"], "note": "Kept columns are never moved; exactly the migrations between tables with the common columns in the same order get the order right (C03_iff)."},
 {"property": "C04", "status": "proved", "theorems": ["Mygrations.C04"], "note": "whenever the statements execute (see C06)"},
 {"property": "C05", "status": "proved", "theorems": ["Mygrations.C05"], "note": "whenever the statements execute (see C06)"},
 {"property": "C06", "status": "partial", "theorems": ["Mygrations.C06_partial", "Mygrations.C06_counterexample", "Mygrations.C06_iff"], "note": "Exactly the migrations which change the primary key under an unchanged name fail (C06_iff)."},
 {"property": "C07", "status": "partial", "theorems": ["Mygrations.C07_partial", "Mygrations.C07_counterexample", "Mygrations.C07_refuted"], "note": "Proved: a plan without key operations replays onto the table objects and reaches the target; with a key operation the replay raises AttributeError, so for every pair of tables one of which has a key like none of the other's (C07_refuted). Missing: plans with key operations, which the code cannot replay."},
 {"property": "C08", "status": "partial", "theorems": ["Mygrations.C08_partial", "Mygrations.C08_counterexample", "Mygrations.C08_autoIncrement_ignored", "Mygrations.C08_refuted"], "note": "AUTO_INCREMENT is not compared: refuted for every table (C08_refuted)"},
 {"property": "C09", "status": "proved", "theorems": ["Mygrations.C09"], "note": "any database without errors"},
 {"property": "C10", "status": "proved", "theorems": ["Mygrations.C10"], "note": "a table about to be dropped may lose foreign keys before (stated in the property)"},
 {"property": "C11", "status": "proved", "theorems": ["Mygrations.C11"], "note": ""},
 {"property": "C12", "status": "proved", "theorems": ["Mygrations.C12"], "note": "foreign keys of declared tables have non-empty names"},
 {"property": "C13", "status": "partial", "theorems": ["Mygrations.C13_partial", "Mygrations.Examples.C13_counterexample", "Mygrations.C13_iff", "Mygrations.C13_refuted"], "note": "Exact (C13_iff): a foreign key is out of the way exactly if it belongs to the table itself, has a counterpart (or its table is dropped), or its table is listed earlier. Refuted for every other one."},
 {"property": "C14", "status": "partial", "theorems": ["Mygrations.C14_iff", "Mygrations.C14_partial", "Mygrations.C14_refuted", "Mygrations.C14_executed", "Mygrations.Examples.C14_counterexample_primary", "Mygrations.Examples.C14_counterexample_renames", "Mygrations.Examples.C14_counterexample_dropped", "Mygrations.Examples.C14_counterexample_created", "Mygrations.Examples.C14_counterexample_parents", "Mygrations.Examples.C14_counterexample_leaving", "Mygrations.Examples.C14_counterexample_dangling"], "note": "Exactly characterised (C14_iff): between two databases a server accepts, the statements of a plan execute and bring about what is declared if and only if the migration is Untroubled (seven conditions, each shown by a counterexample to be independent of the others). C14_refuted: every other plan is refused at some statement, on every server with these tables. C14_executed: whenever all statements execute, the database is as declared. The server does not look at rows and expects a key under every foreign key."},
 {"property": "C15", "status": "partial", "theorems": ["Mygrations.C15_partial", "Mygrations.C15_nothing_partial", "Mygrations.C15_refuted"], "note": "Tables which differ only in integer display widths: the whole plan consists of dropping and adding again foreign keys that use such a column, and it is empty exactly if there is no such foreign key (C15_partial). The same for the whole command, from SHOW CREATE TABLE texts and files: plan prints nothing and apply sends nothing but reads (C15_nothing_partial). C15_refuted: a self-reference whose columns differ in width is dropped and added again."},
 {"property": "C16", "status": "proved", "theorems": ["Mygrations.C16"], "note": ""},
 {"property": "C17", "status": "partial", "theorems": ["Mygrations.C17_partial", "Mygrations.C21_counterexample", "Mygrations.C22_counterexample"], "note": "fails for rows whose only change is a new column, and for NULL against the text None"},
 {"property": "C18", "status": "proved", "theorems": ["Mygrations.C18"], "note": ""},
 {"property": "C19", "status": "proved", "theorems": ["Mygrations.C19"], "note": ""},
 {"property": "C20", "status": "proved", "theorems": ["Mygrations.C20"], "note": ""},
 {"property": "C21", "status": "partial", "theorems": ["Mygrations.C21_counterexample", "Mygrations.C17_partial", "Mygrations.C21_iff"], "note": "A statement about an existing row is planned exactly if a column which the row has already changes (C21_iff); then all declared values are written (C17_partial)."},
 {"property": "C22", "status": "partial", "theorems": ["Mygrations.C22_partial", "Mygrations.C22_counterexample", "Mygrations.C22_plan_partial", "Mygrations.C22_refuted"], "note": "An UPDATE is planned for every NULL against every text but None; refuted for None, for every row."},
 {"property": "C23", "status": "partial", "theorems": ["Mygrations.C23_partial", "Mygrations.C23_returns", "Mygrations.C23_history_partial", "Mygrations.C23_counterexample", "Mygrations.C23_refuted"], "note": "a NULL id is stored as None"},
 {"property": "C24", "status": "proved", "theorems": ["Mygrations.C24"], "note": ""},
 {"property": "C25", "status": "partial", "theorems": ["Mygrations.C25_partial", "Mygrations.C25_set_partial", "Mygrations.C25_counterexample", "Mygrations.C25_iff"], "note": "true exactly for values without quotes; ids are not escaped"},
 {"property": "C26", "status": "proved", "theorems": ["Mygrations.C26"], "note": ""},
 {"property": "C27", "status": "proved", "theorems": ["Mygrations.C27", "Mygrations.C27_unfulfilled"], "note": "A foreign key is reported exactly if it is not valid (FkValid); unfulfilled_fks names exactly the invalid ones of a table."},
 {"property": "C28", "status": "proved", "theorems": ["Mygrations.C28", "Mygrations.C28_iff"], "note": "A name used by two foreign keys is reported, and only such names."},
 {"property": "C29", "status": "partial", "theorems": ["Mygrations.C29_partial", "Mygrations.C29_sound", "Mygrations.C29_counterexample", "Mygrations.C29_refuted"], "note": "Proved: a column reported as indexed is first column of an index after any history (C29_sound); equivalence for histories in which no two indexes share a first column. Missing: removing one of two indexes with the same first column, where the code is wrong (counterexample)."},
 {"property": "C30", "status": "partial", "theorems": ["Mygrations.C30_partial", "Mygrations.C30_schema_partial", "Mygrations.Examples.C30_counterexample", "Mygrations.Examples.C30_counterexample_date", "Mygrations.C30_iff"], "note": "Proved: schema errors are right after every history. After a first read, all errors are right exactly if the errors found while reading files are those of the first read (C30_iff). Date columns swallow errors (counterexample)."},
 {"property": "C31", "status": "partial", "theorems": ["Mygrations.C31_refuted", "Mygrations.C31_examples", "Mygrations.C31_hides_refuted", "Mygrations.C31_unchecked_refuted", "Mygrations.C31_check_refuted", "Mygrations.C31_last_refuted"], "note": "Fails: for every readable file no error is noted however often a table is defined, the last definition counts, and so across files (C31_last_refuted). Across files nothing which is read after a second definition is checked, whatever it is (C31_unchecked_refuted, C31_check_refuted). Nothing of the property holds beyond that."},
 {"property": "C32", "status": "partial", "theorems": ["Mygrations.C32_rows_partial", "Mygrations.C32_refuted", "Mygrations.C32_examples"], "note": "Rows with the wrong number of values are reported, for every file. Refuted in general: nothing noted about a table ever has an effect on errors."},
 {"property": "C33", "status": "partial", "theorems": ["Mygrations.C33_partial", "Mygrations.Examples.C33_counterexample", "Mygrations.C33_refuted"], "note": "Proved for tables without date columns. Refuted for every table with a date column: its errors are swallowed."},
 {"property": "C34", "status": "partial", "theorems": ["Mygrations.C34_reported_partial", "Mygrations.C34_unknown", "Mygrations.C34_refuted", "Mygrations.C34_key_refuted", "Mygrations.C34_lost_refuted"], "note": "Proved for all files which raise nothing and share no table: without errors, every statement the reader gets to was understood and its table is in the database. Fails when a ValueError is printed: for every table with such a key (C34_key_refuted), everything in the file is lost (C34_lost_refuted); C34_refuted shows the DROP TABLE plan."},
 {"property": "C35", "status": "proved", "theorems": ["Mygrations.C35_foreign_key_roundtrip", "Mygrations.C35_foreign_key_actions"], "note": "Every foreign key with plain identifiers and one of the five actions, followed by nothing, a comma and any text, or a closing parenthesis and any text. Also with one or both actions left out of the text, which then are RESTRICT."},
 {"property": "C36", "status": "partial", "theorems": ["Mygrations.C36_index_roundtrip_partial", "Mygrations.C36_unnamed_refuted", "Mygrations.C36_written_partial"], "note": "Every plain index with any number of columns, except non-unique keys without a name: the text of such a key is never read, whatever its columns and whatever follows it (refuted for every such key)."},
 {"property": "C37", "status": "partial", "theorems": ["Mygrations.C37_column_roundtrip_partial", "Mygrations.C37_blank_default_refuted", "Mygrations.C37_renamed_types_refuted", "Mygrations.C37_column_text_partial", "Mygrations.C37_single_blank_refuted", "Mygrations.C37_blank_refuted"], "note": "Every plain numeric, date and string column. Missing: defaults with blanks on columns with a length, INTEGER/BOOL/BOOLEAN (refuted) and enumerations (C51). Also for every other way of writing the column: letter case, quotes, NULL and DEFAULT NULL, place of character set and collation."},
 {"property": "C38", "status": "partial", "theorems": ["Mygrations.C38_dump_roundtrip_partial", "Mygrations.C38_exported_schema_unchanged_partial", "Mygrations.C38_dashes_refuted"], "note": "Whole files of CREATE TABLE statements, any number of files, are read back as the tables written, and the migration between them is empty. Missing: enum/set columns, types the reader renames, quoted defaults with blanks or dashes, 1000 or more definitions in one table. Two dashes in a default are refuted."},
 {"property": "C39", "status": "partial", "theorems": ["Mygrations.C39_values_partial", "Mygrations.C39_literal", "Mygrations.C39_values_refuted", "Mygrations.C39_quotes_refuted"], "note": "Proved: every value of every INSERT of every readable file is stored under its table, id and column as written, and MySQL reads the literal as the same value. Refuted for runs of white space, line breaks, quoted 'NULL', escape sequences and quotes."},
 {"property": "C40", "status": "partial", "theorems": ["Mygrations.C40_small_partial", "Mygrations.C40_refuted", "Mygrations.C40_lost_refuted"], "note": "Proved: fewer than 1000 rows are read completely. Refuted in general from 1000 rows on: nothing is read and the file counts as empty."},
 {"property": "C41", "status": "partial", "theorems": ["Mygrations.C41_transparent_partial", "Mygrations.C41_line_refuted", "Mygrations.C41_block_refuted", "Mygrations.C41_unterminated_refuted", "Mygrations.C41_insert_refuted", "Mygrations.C41_create_refuted", "Mygrations.C41_slash_refuted"], "note": "Proved: comments of any kind before the first statement and harmless block comments anywhere are transparent. Refuted: line comments after a statement swallow the rest of the file; block comments with '=' after a CREATE; every unterminated block comment is silently accepted."},
 {"property": "C42", "status": "partial", "theorems": ["Mygrations.C42_empty_partial", "Mygrations.C42_blank_refuted"], "note": "The empty source gives an empty database; every other blank source raises IndexError (refuted in general)."},
 {"property": "C43", "status": "proved", "theorems": ["Mygrations.C43_rest_is_suffix", "Mygrations.C43_required", "Mygrations.C43_statements", "Mygrations.C43_match_consumes", "Mygrations.C43_repeated_matching", "Mygrations.C43_statement_consumes", "Mygrations.C43_no_match_no_progress"], "note": "For any list of rules and any text; the statement readers and the repetition of children included; a match has a value for every required rule. When nothing matches nothing need be consumed (last theorem)."},
 {"property": "C44", "status": "proved", "theorems": ["Mygrations.C44_longest_match", "Mygrations.C44_no_match"], "note": "For any list of alternatives: an exact characterisation of the alternative taken."},
 {"property": "C45", "status": "proved", "theorems": ["Mygrations.C45", "Mygrations.C45_refused", "Mygrations.C45_complete"], "note": "plan prints nothing, or a bracketed list with no other toggle; with errors and no force it is empty and no query is sent; without errors it is empty only if neither migration has an operation."},
 {"property": "C46", "status": "proved", "theorems": ["Mygrations.C46", "Mygrations.C46_failure", "Mygrations.C46_raises", "Mygrations.C46_program"], "note": "The events of apply are those of plan, the printed statements, one commit; on failure at a statement exactly the statements up to it were sent and nothing was committed. C46_program: of whole runs of mygrate.py, on any machine. MySQL's own implicit commits on DDL are outside the model."},
 {"property": "C47", "status": "partial", "theorems": ["Mygrations.C47_line_partial", "Mygrations.C47_file_partial", "Mygrations.C47_malformed_partial", "Mygrations.C47_refuted", "Mygrations.C47_comment_refuted", "Mygrations.C47_empty_refuted"], "note": "Lines in the grammar of Spec/Env are read as written and the last value of a key wins. False in general, for every value: a missing closing quote after an escaped quote raises ValueError instead of DotEnvSyntaxError; an empty value leaves no trace in the file; a quoted value with blanks at its start and a comment behind it loses the blanks and keeps the quote."},
 {"property": "C48", "status": "partial", "theorems": ["Mygrations.C48_partial", "Mygrations.C48_absolute", "Mygrations.C48_root_refuted", "Mygrations.C48_directory_refuted"], "note": "Proved for file names without directory parts and files outside the root directory. The root directory is never searched, and of a name with a directory part only the last component is looked for in the ancestors (C48_directory_refuted says exactly which file is found)."},
 {"property": "C49", "status": "partial", "theorems": ["Mygrations.C49_credentials", "Mygrations.C49_missing", "Mygrations.C49_files_partial", "Mygrations.C49_no_file_partial", "Mygrations.C49_empty_refuted", "Mygrations.C49_no_file_program_partial", "Mygrations.C49_missing_program_partial", "Mygrations.C49_refused_program_partial"], "note": "Every credential is the value under its configured key, a missing one raises and is named; from the text of the two files on for files in the grammar of Spec/Env, found by absolute path or by search; a missing .env file is an error. An empty password counts as missing, whatever else the files hold. For the program: without the .env file, or without one of its keys, apply sends nothing and ends with an error which names the file or the key; so does plan (for SQL files on which the reader itself does not fail). If the server refuses the credentials, the error is the server's."},
 {"property": "C50", "status": "partial", "theorems": ["Mygrations.C50_refuted", "Mygrations.C50_partial", "Mygrations.C50_empty", "Mygrations.C50_unknown", "Mygrations.C50_default_refuted"], "note": "False: import, plan_export and version cannot be loaded, so -v fails as well, and so does the program without a command. apply, check and plan can; anything else is refused."},
 {"property": "C51", "status": "partial", "theorems": ["Mygrations.C51_partial", "Mygrations.C51_enum_refuted", "Mygrations.C51_keyword_refuted", "Mygrations.C51_charset_refuted", "Mygrations.C51_zeros_refuted", "Mygrations.C51_iff"], "note": "Stated with an independent reader for MySQL's column definitions (Spec/Grammar.lean). C51_partial: for plain columns, however they are written in the file, MySQL reads the generated text as it reads the file. It fails for every enumeration, for CURRENT_TIMESTAMP, for every column with a character set that is NOT NULL or has a default, and for texts with a default like '007'."},
 {"property": "C52", "status": "partial", "theorems": ["Mygrations.C52_partial", "Mygrations.Examples.C52_counterexample", "Mygrations.C52_iff"], "note": "Exact for databases which have not been looked at: errors raises if and only if some column cannot be checked (BIT without a default, ENUM with a default, AUTO_INCREMENT on a date or enum) and no date column comes before it."},
 {"property": "C53", "status": "partial", "theorems": ["Mygrations.C53_partial", "Mygrations.Examples.C53_counterexample", "Mygrations.C53_iff", "Mygrations.C53_refuted"], "note": "Exact: every history of interrupted attempts (any number, each after any statement) can be completed if and only if the migration is Untroubled (C53_iff); otherwise every attempt stops at a refused statement (C53_refuted)."},
 {"property": "C54", "status": "partial", "theorems": ["Mygrations.C54_partial", "Mygrations.C54_counterexample", "Mygrations.C54_refuted"], "note": "The primary attribute is right if no primary key is removed or changed; after that it is stale (counterexample)."},
 {"property": "C55", "status": "partial", "theorems": ["Mygrations.C55_bare_partial", "Mygrations.C55_length", "Mygrations.C55_shadow_refuted", "Mygrations.C55_first_refuted"], "note": "Proved for every readable file with CREATE TABLE statements whose definitions come in any order. Fails if an unrelated key is called like the column, and whenever keys have the column but none has it first (both for every such declaration)."},
 {"property": "C56", "status": "partial", "theorems": ["Mygrations.C56", "Mygrations.C56_table", "Mygrations.C56_rows", "Mygrations.Examples.C56_counterexample", "Mygrations.C56_table_iff", "Mygrations.C56_iff"], "note": "Exact: planning raises if and only if two columns of the same name clash (Column.Clash: same type, both with defaults, one of them no number). Row planning returns for known rows."},
 {"property": "C57", "status": "partial", "theorems": ["Mygrations.C57_files_partial", "Mygrations.C57_following_refuted"], "note": "Proved for files of readable tables, INSERTs and comments in any number, order and layout. Refuted for '=', lengths in parentheses or '--' after a CREATE TABLE."},
 {"property": "C58", "status": "proved", "theorems": ["Mygrations.C58", "Mygrations.C58_program", "Mygrations.C58_program_check"], "note": "Every event of plan is a SHOW or SELECT, there is no commit; check has no events. C58_program says so of whole runs of mygrate.py, on any machine, for every command but apply."},
 {"property": "C59", "status": "partial", "theorems": ["Mygrations.C59_refuted", "Mygrations.C59_program_refuted"], "note": "False for every faulty set of files: both commands end with status 0, and apply commits. C59_program_refuted: so do runs of mygrate.py; plan does not even connect."},
 {"property": "C60", "status": "partial", "theorems": ["Mygrations.C60_refuted"], "note": "False for every faulty set of files: the plan has no create, alter or drop."},
 {"property": "C61", "status": "proved", "theorems": ["Mygrations.C61", "Mygrations.C61_exit", "Mygrations.C61_program_partial"], "note": "check fails exactly for faulty files, and prints every error. C61_program_partial: the exit status of mygrate.py check, from the files on the disk on; missing there: paths with wildcards (C74). It needs no server and no .env file."},
 {"property": "C62", "status": "partial", "theorems": ["Mygrations.C62_live_partial", "Mygrations.C62_comments_iff", "Mygrations.C62_comment_refuted", "Mygrations.C62_updates_iff", "Mygrations.C62_update_refuted", "Mygrations.C62_update_unique_refuted", "Mygrations.C62_refuted"], "note": "For every server which answers CREATE TABLE statements in any style and layout (Spec/Live, Server.Has). With comments (Server.HasCommented) a table is found exactly if no column or key has one. Likewise with ON UPDATE CURRENT_TIMESTAMP (Server.HasUpdated), if a column, the primary key or nothing follows it; a unique key after it makes the reader raise."},
 {"property": "C63", "status": "partial", "theorems": ["Mygrations.C63_rows_partial", "Mygrations.C63_returns"], "note": "From the text of the files and the answers of the server to the rows after all statements, for every clean set of files and every server. Missing: rows with values for new columns only (C21_counterexample), the text None (C22_counterexample); structural statements are taken to keep rows here, see C69 for what they do."},
 {"property": "C64", "status": "proved", "theorems": ["Mygrations.C64"], "note": "From the text of the files and the answers of the server: tables created, dropped, and the set of tables afterwards."},
 {"property": "C65", "status": "partial", "theorems": ["Mygrations.C65_structure_partial", "Mygrations.C65_nothing_partial"], "note": "From the text of the files and the answers of the server to the plan. Missing: tables which the readers do not understand (C62_comment_refuted, C62_update_refuted, C62_refuted)."},
 {"property": "C66", "status": "partial", "theorems": ["Mygrations.C66_partial", "Mygrations.C66_plan_partial", "Mygrations.C66_rows_partial", "Mygrations.C66_dropTable_refuted", "Mygrations.C66_dropColumn_refuted", "Mygrations.C66_plan_refuted", "Mygrations.C66_plan_iff", "Mygrations.C66_plan_column_refuted"], "note": "For every statement and for every whole plan whose declared columns are sound (C51): exact for plans, read as planned if and only if no table or column whose name is a reserved word is dropped (C66_plan_iff; they are dropped without backticks). Missing: what C51 and C25 refute."},
 {"property": "C67", "status": "partial", "theorems": ["Mygrations.C67_partial", "Mygrations.C67_twice_partial", "Mygrations.Examples.C67_counterexample_keys", "Mygrations.Examples.C67_counterexample_widths", "Mygrations.C67_iff", "Mygrations.C67_refuted", "Mygrations.C67_keys_refuted"], "note": "For migrations which are Untroubled (as C14): the next plan touches no table, column or key (if no key is left under the name of a foreign key which goes; the plan after next does not need this), and is empty if no foreign key uses a column declared in other words than it is. Exact under KeyNamesSettle: C67_iff. Refuted for every foreign key on an integer column declared with another display width (C67_refuted) and for every key renamed together with its foreign key (C67_keys_refuted)."},
 {"property": "C68", "status": "partial", "theorems": ["Mygrations.C68_partial", "Mygrations.C68_refuted", "Mygrations.C68_iff", "Mygrations.C68_troubled"], "note": "Exact between tables that MySQL can read (C66): the texts are executed and bring about what is declared if and only if the migration is Untroubled (C14) and nothing whose name is a reserved word is dropped (C68_iff)."},
 {"property": "C69", "status": "partial", "theorems": ["Mygrations.C69_partial", "Mygrations.C69_fits", "Mygrations.C69_refuted", "Mygrations.C69_iff", "Mygrations.C69_troubled", "Mygrations.C69_program_partial", "Mygrations.C69_program_iff"], "note": "From the texts of the files and the answers of the server to the structure and rows after apply. Exact for a server which fails where MySQL does: apply ends normally if and only if the tables are Migratable (C69_iff); otherwise it fails and commits nothing (C69_troubled). Missing: column order and table options (C14), rows involving the text None or with values for new columns only (RowWritten), quotes where they are not escaped (C25). The rules of MySQL for rows do not include foreign keys and unique keys. C69_fits: declared rows fit to the declared columns if no table is declared in two files; refuted otherwise. C69_program_partial: the same for a run of mygrate.py, from the files on the disk and the configured server on. C69_program_iff: exactly when mygrate.py apply exits with 0, and that otherwise nothing is committed."},
 {"property": "C70", "status": "partial", "theorems": ["Mygrations.C70_partial", "Mygrations.C70_twice_partial", "Mygrations.C70_iff", "Mygrations.C70_program_partial"], "note": "From the texts of the files and the answers of the servers before and after. After one run nothing is left to do, under KeyNamesSettle and RowWritten; after two runs, without them. C70_iff says exactly when one run is enough. Missing: columns which look alike (LookAlike, refuted in C67), and what is missing in C69. C70_program_partial: the same for runs of mygrate.py, from the files on the disk and the configured server on."},
 {"property": "C71", "status": "partial", "theorems": ["Mygrations.C71_partial", "Mygrations.C71_crash_partial", "Mygrations.C71_iff", "Mygrations.C71_program_partial"], "note": "Every crash point of every history of interrupted runs, for the structure and the rows. Statements on rows which the server rolls back are covered: the crash point is then the one before them. Exact: every history can be completed if and only if the tables are Migratable (C71_iff). Missing: what is missing in C69; MySQL's statements are taken to be atomic. C71_program_partial: the same for mygrate.py apply, from the files on the disk and the configured server on."},
 {"property": "C72", "status": "partial", "theorems": ["Mygrations.C72_only_partial", "Mygrations.C72_stored_partial", "Mygrations.C72_partial", "Mygrations.C72_refuted", "Mygrations.C72_lost_refuted", "Mygrations.C72_first_partial"], "note": "C72_only_partial is for whatever files. The other half is for files which are read to their ends, with no table declared twice, and rows with an id. Of rows with the same id the first one which is inserted is declared (C72_first_partial). Refuted without ids: for every table whose INSERTs leave the id out, the rows are lost without an error (C72_lost_refuted), and apply deletes the rows of the server (C72_refuted, a witness)."},
 {"property": "C73", "status": "partial", "theorems": ["Mygrations.C73_partial", "Mygrations.C73_refuted", "Mygrations.C73_twice_refuted", "Mygrations.C73_rows_refuted"], "note": "For files which are read to their ends, with no table declared twice; the values of a row for ids which are inserted once (or with the same values). Refuted without these: the result depends on the order for every two files which declare a table differently (C73_twice_refuted) and for every id whose first rows differ (C73_rows_refuted), and no error is reported (C73_refuted)."},
 {"property": "C74", "status": "partial", "theorems": ["Mygrations.C74_partial", "Mygrations.C74_listing_partial", "Mygrations.C74_directory_partial", "Mygrations.C74_default_config", "Mygrations.C74_refuted", "Mygrations.C74_strings_partial", "Mygrations.C74_brackets_refuted", "Mygrations.C74_dropped_refuted", "Mygrations.C69_program_partial"], "note": "For directories without *, ? and [ in their path, and configuration files in the grammar of Spec/Env. Refuted for every directory with [x] in its path (unless its namesake without the brackets is beside it): no file is found, check succeeds and the plan drops every table of the server."},
 {"property": "C75", "status": "partial", "theorems": ["Mygrations.C75_partial", "Mygrations.C75_refuted"], "note": "For every path which does not start with /*; for those which do, the schema is read as empty without an error."},
 {"property": "C76", "status": "partial", "theorems": ["Mygrations.C76_accepted_partial", "Mygrations.C76_partial", "Mygrations.C76_dated_refuted", "Mygrations.C76_primary_refuted"], "note": "For files read without exceptions in which no table is declared twice and no second key is called PRIMARY; tables whose check raises (date columns) have to be right by themselves, for all others a clean check is enough. From there to the server's tables and rows. Refuted for tables with date columns and for keys called PRIMARY."},
 {"property": "C77", "status": "partial", "theorems": ["Mygrations.C77_partial", "Mygrations.C77_refuted", "Mygrations.C77_fresh", "Mygrations.C77_after_errors", "Mygrations.C77_iff", "Mygrations.C77_after_iff"], "note": "Exact for every database in which no check raises, and for every database whose columns can be checked (C77_fresh, C77_after_errors): tables with a date are left out at first, and only what comes after the date once the errors have been asked for. C77_iff and C77_after_iff say exactly when the warnings are complete. Warnings of the readers are the subject of C83."},
 {"property": "C78", "status": "partial", "theorems": ["Mygrations.C78_column", "Mygrations.C78_table", "Mygrations.C78_partial", "Mygrations.C78_passes_partial", "Mygrations.C78_check_partial", "Mygrations.Examples.C78_date_refuted", "Mygrations.C78_iff", "Mygrations.C78_check_iff"], "note": "Soundness for all files whose columns can be checked; completeness for tables without date columns, and one message per faulty foreign key. Refuted for tables with date columns; C78_iff and C78_check_iff say exactly which faults are seen then. Columns whose check raises an uncaught exception (BIT without default, enumerations with a default) are excluded: C52."},
 {"property": "C79", "status": "partial", "theorems": ["Mygrations.C79_partial", "Mygrations.C79_columns_partial", "Mygrations.C79_enum_refuted", "Mygrations.Examples.C79_refuted", "Mygrations.Examples.C79_missed_refuted", "Mygrations.C79_messages_partial", "Mygrations.C79_iff", "Mygrations.C79_alarm_refuted", "Mygrations.C79_check_refuted", "Mygrations.C79_lengthless_refuted", "Mygrations.C79_bit_refuted"], "note": "Only five kinds of false alarms are possible for numbers and texts, and all five exist; C79_iff says exactly which columns are reported. Enumerations are always reported. Dates: their check never comes to an end (C78). The converse fails for every VARCHAR or VARBINARY without a length and for every unsigned BIT."},
 {"property": "C80", "status": "partial", "theorems": ["Mygrations.C80_partial", "Mygrations.C80_plan_partial", "Mygrations.C80_rows", "Mygrations.C80_update_refuted"], "note": "The definitions must be such that MySQL can read them (C51). Row updates do not escape quotes."},
 {"property": "C81", "status": "partial", "theorems": ["Mygrations.C81_partial", "Mygrations.C81_refuted"], "note": "Holds if and only if no column has to be dropped."},
 {"property": "C82", "status": "proved", "theorems": ["Mygrations.C82", "Mygrations.C82_files", "Mygrations.C82_lengths_lost", "Mygrations.C82_name_refuted"], "note": "C82_lengths_lost says what it costs: a change of the length of a prefix is never planned. C82_name_refuted is a limit: a name in backticks which ends like a length loses its end, too."},
 {"property": "C83", "status": "partial", "theorems": ["Mygrations.C83_partial", "Mygrations.C83_text_partial", "Mygrations.C83_decimal_partial", "Mygrations.C83_unsigned_partial", "Mygrations.C83_commas_partial", "Mygrations.C83_number_refuted", "Mygrations.C83_date_refuted", "Mygrations.C83_text_refuted", "Mygrations.C83_commas_refuted"], "note": "False for negative integers, dates with a time, texts without a character set, and rows of the wrong length; each refutation holds for all columns of the kind. Missing: columns with ENUM values."},
 {"property": "C84", "status": "partial", "theorems": ["Mygrations.C84_partial", "Mygrations.C84_clean_partial", "Mygrations.C84_date_refuted", "Mygrations.C84_iff"], "note": "Exact, for files written in the ways of C57, with different tables and rows which can be stored, and columns whose check does not raise another exception than that of dates. Columns at or after the first date of a table are never remarked upon, which is what the refutation shows (its exact extent is part of C84_partial). What is missing: files with the same table twice, and statements which are not read."},
 {"property": "C85", "status": "proved", "theorems": ["Mygrations.C85_possible", "Mygrations.C85_made", "Mygrations.C85_history", "Mygrations.C85_undo", "Mygrations.C85_before"], "note": "The nine methods and column_before, for tables whose dictionaries are keyed by name and whose keys are on some column."},
 {"property": "C86", "status": "partial", "theorems": ["Mygrations.C86_object_partial", "Mygrations.C86_credentials_partial", "Mygrations.C86_empty_refuted"], "note": "Objects of strings with any white space, escapes and surrogate pairs are read as written, and so are credentials and directory from files of either kind. The empty object is a syntax error (C86_empty_refuted). Values which are no strings, and arrays: C88."},
 {"property": "C87", "status": "partial", "theorems": ["Mygrations.C87_boolean", "Mygrations.C87_integer", "Mygrations.C87_shown", "Mygrations.C87_numeric_refuted"], "note": "Booleans with every default they can have, INTEGER columns with plain names, lengths and defaults. Refuted for NUMERIC, another name of DECIMAL: the column read from the file differs from the one of the server for ever."},
 {"property": "C88", "status": "partial", "theorems": ["Mygrations.C88_values", "Mygrations.C88_credentials_partial", "Mygrations.C88_kinds", "Mygrations.C88_same", "Mygrations.Json.loads_text"], "note": "Every JSON value of any nesting is read as it is meant (Json.loads_text), every key has its last value (C88_values), and the credentials and the directory are the ones given, whatever else is in the files. If credentials are found, file names and key names are strings (C88_kinds). C88_same: the model agrees with the one of C47-C49, C74 and C86. Documents are objects or arrays of pairs. Missing: the path made of an array, and the empty object (C86_empty_refuted)."},
 {"property": "C89", "status": "proved", "theorems": ["Mygrations.C89", "Mygrations.C89_plain", "Mygrations.C89_unique", "Mygrations.C89_lines", "Mygrations.C89_values", "Mygrations.C89_refuted"], "note": "C89: for texts without NaN, Infinity, \\u and U+FFFD the reader accepts exactly the JSON texts, with exactly their value. C89_plain: the same for all texts and all values which JSON can express. C89_lines, C89_values: what is no JSON is read line by line, values which are no strings come from JSON objects and arrays of pairs only. C89_refuted: without the condition it is false of every file which is one of Python's extra words."},
 {"property": "C90", "status": "partial", "theorems": ["Mygrations.C90_partial"], "note": "A missing file (absolute, or searched for in the ancestors, with or without directories in its name), an empty name, a missing files_directory or env_file, and a line with an unclosed quote, a quote inside a bare value or text behind the closing quote: apply, check and plan send nothing and raise the error which names it. Missing: other faults of files outside the grammar of Spec/Env."}
]}

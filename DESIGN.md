# Formal model of cmancone/mygrations

## Approach
`/repo` is modelled function by function in Lean 4 (`lean/Verif/Model`, Python basics in `lean/Verif/Py`).
Python values become plain data: strings are `List Char`, dicts are insertion-ordered association lists,
exceptions are values of `Except PyErr`, objects with mutable caches are records threaded through functions.
What users mean by a property lives in small independent files (`lean/Verif/Spec`: MySQL ALTER semantics,
MySQL literal lexer, row-set semantics, FK validity, ...). Helper lemmas are in `lean/Verif/Proofs`, and the
property theorems with their non-vacuity examples in `lean/Verif/Props`.

Where the code violates a property, the property is refuted by a kernel-checked counterexample
(`Cxx_counterexample...`) and the part that does hold is proved as `Cxx..._partial`.

## Plan per property
- **C01 Diffing a table against itself yields nothing** - Model `Table.to`; unfold, show all three alters empty because overlap comparison is reflexive (text equality is tested first).
- **C02 Executing table.to(target) gives the target's columns** - Independent MySQL ALTER semantics (Spec/MySQL) over a table state; induct over the generated clause list.
- **C03 Column order matches the target after migration** - Same semantics; induction over the target order with the invariant 'processed prefix is in target order'. General claim is false (kept columns are never moved): counterexample + `_partial` under 'kept columns have the same relative order'.
- **C04 Executing table.to(target) gives the target's indexes** - Same semantics on keys; matching loop invariant (injective pairing of same-column keys).
- **C05 Executing table.to(target) gives the target's foreign keys** - Same semantics on FKs, both modes.
- **C06 Every statement of source.to(target) is executable** - The semantics returns an error for invalid clauses; prove it never does for generated clauses (primary-key changes are the exception: counterexample).
- **C07 Replaying a diff on the in-memory table reproduces the target** - Model `apply_operation`; key operations raise AttributeError (counterexample); prove the property for diffs without key changes; refuted for all tables with different keys (`C07_refuted`).
- **C08 A column left alone really is the target's column** - Injectivity of the rendered text on well-formed columns + attribute analysis of `is_really_the_same_as`; AUTO_INCREMENT is not compared (counterexample).
- **C09 An up-to-date database gets an empty migration** - From C01 for each table and `_column_type_differs` reflexive.
- **C10 Tables are created, altered and dropped exactly as declared** - Characterise the operations of the model of `_process` by membership.
- **C11 Phases of the plan are ordered safely** - Phase function on operations; show the plan is sorted by phase.
- **C12 Each foreign key is dropped at most once and added at most once** - Count FK drop/add clauses in the plan, using uniqueness of FK names in a table.
- **C13 No column type is changed under a live foreign key** - Execution semantics of the plan; false when the FK has no counterpart in the target (counterexample), partial otherwise. Exact condition: `C13_iff` (dropped before exactly if it is the table's own FK, has a counterpart, or its table is listed earlier by the server); `C13_refuted` for every FK of a later table.
- **C14 The plan executes and the database reaches the declared schema** - `Spec/Server.lean` gives the rules of a server for whole databases (duplicate foreign key names, type changes below foreign keys, foreign keys that do not fit) and executes plans statement by statement; `Proofs/States.lean` names the states a plan goes through, and `Proofs/Phases.lean`, `Proofs/Phases2.lean` show that every statement succeeds and leads to the next state. `C14_partial` is for migrations which are `Untroubled`; for each of the seven conditions a theorem `C14_counterexample_*` shows a migration which meets all others and fails. `Proofs/Trouble.lean` goes the other way: from a plan which executes it computes the table states between the parts of the plan and reads the seven conditions off the server's rules, so `C14_iff` is exact: a plan executes if and only if the migration is `Untroubled`.
- **C15 Integer display width alone never causes operations** - False when a foreign key uses such a column (`C15_refuted`). Proved (Props/C15.lean): the plan holds nothing but dropping and adding foreign keys that use such a column and is empty exactly if there is none (`C15_partial`, from `Proofs/Widths.lean`); for the commands, `C15_nothing_partial`. `Spec/Live.lean` says what differing in widths only means (`SameButWidth`, `Widened`).
- **C16 A schema with errors is never migrated** - Decision logic of Mygration.__init__.
- **C17 Row migration makes tracked rows equal to the declared rows** - Row-set semantics of INSERT/UPDATE/DELETE; partial: same column sets and loosely equal values.
- **C18 Row migration of identical rows is empty** - Unfold `to_rows`; loose equality is reflexive.
- **C19 Only tracked tables get row operations** - Membership in the operation list of RowMygration.
- **C20 Row operations are classified by id** - Membership characterisation and Nodup of ids.
- **C21 Declared values of newly added columns are written** - False: general counterexample family.
- **C22 NULL is distinguished from text** - False: NULL vs 'None'; exact characterisation of the collisions.
- **C23 Declared rows are stored once per non-empty id** - Invariant over histories of add_rows; NULL id counterexample.
- **C24 INSERT values are escaped correctly** - Independent MySQL string-literal lexer; induction over the value.
- **C25 UPDATE values are escaped correctly** - Same lexer; true exactly when no value has a quote (`C25_iff`).
- **C26 An INSERT statement is one statement with the right columns and values** - Independent SQL tokenizer; induction over the row.
- **C27 FK checking is exact** - Spec predicate ValidFK, iff by case analysis.
- **C28 Duplicate foreign-key names are reported** - Induction over tables/constraints.
- **C29 column_is_indexed is right after any history** - State machine with the cache; counterexample; partial: no two indexes share a first column, invariant by induction on histories.
- **C30 Errors are recomputed after modification** - State machine with caches; counterexample for parsing errors; schema part by induction on histories.
- **C31 Two definitions of one table are reported** - Model `_read`; refuted for all readable files; across files the errors are cached by the second definition and never looked for again (`Asked`, an invariant of everything which is read later), so that no later file is checked (`C31_unchecked_refuted`, `C31_check_refuted`), and the last definition counts (`C31_last_refuted`).
- **C32 Problems found while reading a table reach database.errors** - Model `_read`/`errors`; refuted for all databases (errors do not depend on what tables note); errors of INSERTs are proved to be reported.
- **C33 Schema checks do not depend on unrelated columns** - Refuted for every table with a date column (`C33_refuted`); proved for all others.
- **C34 Every CREATE TABLE is read or reported** - `Reaches` says what the reader gets to; proved by induction over the loop and the files that without exceptions and errors every statement is understood. Refuted for every table with a key named like the first column of its primary key: the file is as good as absent (`C34_key_refuted`, `C34_lost_refuted`).
- **C35 Foreign-key definitions round-trip** - Model of the rule engine and rules; symbolic execution of the rule list on the rendered text.
- **C36 Index definitions round-trip** - Same; induction over the column list for the delimited rule. A non-unique key without a name is not read, for every list of columns and every following text (`C36_unnamed_refuted`). Every other spelling of an index is read as well: `KEY` or `INDEX`, in small or capital letters, and `UNIQUE` without either word (`C36_written_partial`); files may use any of them (`Src.index`).
- **C37 Column definitions round-trip** - Same, per type parser. C37_blank_refuted (Props/C37Blank): of a default with a blank, in a column with a length, only the part before the blank is read, quote included, for all names, types, lengths and defaults in which a digit follows the blank. INTEGER and booleans are the subject of C87.
- **C38 CREATE TABLE round-trips** - Compose C35-C37 with the children loop, the preprocessing and the statement loop, for whole files; then show that the migration between the two descriptions is empty. Fails for `--` in a default.
- **C39 Declared string values are preserved by the reader** - Delimited-rule loop + normalisation; counterexamples; partial for values without quote-affecting characters/whitespace runs.
- **C40 INSERTs and tables of any size are read** - Loop counter analysis: exact limit. Beyond it the file is as good as absent for every command (`C40_lost_refuted`).
- **C41 Comments are transparent** - CommentParser model; induction on the comment text. C41_insert_refuted and C41_create_refuted: a comment to the end of the line after a statement removes all that follows, whatever it is, because the parsers join the lines of what they leave. C41_slash_refuted: what follows `/*/` is read as though it was not in a comment, for every text.
- **C42 Reading never crashes on blank input** - Reader model; counterexample for blank non-empty input.
- **C43 The rule engine only consumes** - Induction over rules; length lemmas.
- **C44 Longest match wins, ties go to the first** - Fold invariant.
- **C45 The printed plan is bracketed by FK-check toggles** - Plan.build_commands model.
- **C46 apply runs exactly the plan, in order** - Execution trace model with failure point.
- **C47 dotenv lines are read as written** - parse_line model; symbolic execution on rendered lines; counterexample for exception type.
- **C48 The nearest configuration file is used** - Search loop induction; root directory counterexample.
- **C49 Credentials come from the configured keys** - Lookup model. `Props/C49Program` says what becomes of a whole run of `mygrate.py` without credentials: nothing is sent, and the error names the file or the key.
- **C50 Every advertised command can run** - Table of import outcomes read off the source; counterexample.
- **C51 Generated column SQL is valid for every column read** - `Spec/Grammar.lean` is a reader for MySQL's column definitions, keys, foreign keys and statements, written from the manual and independent of the program; `Spec/Meaning.lean` says which reading is right. `C51_partial`: what MySQL reads in the file and in the generated text is the same, for plain columns in any style. `C51_iff` says for which defaults exactly the meaning is kept. Refuted in general for enumerations, `CURRENT_TIMESTAMP`, late character sets and texts or dates such as `'007'`.
- **C52 Validation never crashes** - Characterised (`C52_iff`): the check of a database which has not been looked at raises exactly if some table has a column which cannot be checked and no date column before it.
- **C53 Interrupted migrations can be resumed** - `Attempts` (`Spec/Server.lean`) are histories of plans of which only some first statements are executed. `Proofs/Resume.lean` shows that at every intermediate state the conditions of C14 hold again (`Mid.accepted`, `Mid.untroubled`), `Proofs/Reading.lean` that the state can be read and the next plan can be made. `C53_partial` is by induction on the history. `C53_iff`: completable after every history exactly when the migration is `Untroubled`.
- **C54 table.primary is the primary key** - State machine; counterexample; partial for histories without removal/change of the primary key.
- **C55 Unnamed foreign keys get a stable name and an index** - `Spec/Declare.lean` has statements with definitions in any order; CreateParser.process is followed by induction over the definitions. Refuted for every table with a key for something else which is called like the column (`C55_shadow_refuted`), and for keys which do not help (`C55_first_refuted`).
- **C56 Planning never crashes on comparable schemas** - Structural induction over the loops of `to`, `Mygration._process` and `RowMygration._process`; needed because the other plan theorems speak about plans that were returned.
- **C57 Files are read as they are written** - Statement texts as an inductive `Script` (any layout); an interface `Item` for what each kind of statement needs from its neighbours; induction over the statements, then over the files, then over the rows when they are added to the tables. Fails when the text after a CREATE TABLE looks like one of its options or contains `--`.
- **C58 plan and check only read** - The commands are a small writer of events (statements sent, commits) with exceptions, `Run`; a predicate on all events goes through `bind`. `Props/C58Program` has the same (and C46) for whole runs of `mygrate.py`, with no hypothesis on configuration, files or server.
- **C59 A refused migration is not reported as a success** - False in general, proved for all faulty files.
- **C60 force plans the structure too** - False in general: `Mygration` has no operations when there are errors.
- **C61 check fails exactly when plan is refused** - Case analysis of `Check.execute`. `Props/C61Program`: the exit status of whole runs of `mygrate.py` for C59 and C61 (`C61_program_partial`, `C59_program_refuted`).
- **C63 Applying a plan brings the rows in line with the files** - Invariants of every database which is read (`KeptTables`, `NoRows`) connect `buildCommands` with C17-C22; a server's rows are related to its answers by `ServerRows`.
- **C64 Applying a plan leaves exactly the declared tables** - The same invariants and C10; the set of names is replayed statement by statement.
- **C62 The live database is read as it is** - `Spec/Live.lean` says what a server answers (`Server.Has`): `CREATE TABLE` statements without a semicolon, columns in any `Style` (spelling, quotes, place of the character set, `DEFAULT NULL`), foreign keys with `Actions` left out. The reader's lemmas of C37/C55/C57 are used for a statement which ends at its last parenthesis or option. False of comments: `C62_comments_iff` (Props/C62.lean) says that a table is found exactly if none of its columns and keys has a `COMMENT` (`Server.HasCommented`), and `C62_comment_refuted` that the plan then creates the existing table and drops one without a name. The same is proved of `ON UPDATE CURRENT_TIMESTAMP` when a column, the primary key or nothing follows (`Spec/Updated.lean`, `C62_updates_iff` and `C62_update_refuted` in Props/C62Update.lean: the reader takes `ON UPDATE` for a column and gets stuck after it); when a unique key follows, reading raises and no table is found at all (`C62_update_unique_refuted`).
- **C65 Nothing is planned when the server has what the files declare** - C62 and C57 give tables which agree by name (`Agree`), the planner is shown to see no difference between such tables, and C18's lemmas do the same for rows.
- **C66 MySQL reads every statement of a plan as it was planned** - the reader of `Spec/Grammar.lean` (`readStatement`) is run on the rendered text of an operation; `Op.Means` of `Spec/Meaning.lean` says which reading is right (alterations are compared clause by clause with `MySQL.clauses`, the semantics in which C01-C06 execute them). `C66_partial` is for single operations, `C66_plan_partial` and `C66_rows_partial` for whole plans. Refuted in general for dropped tables and columns whose names are reserved words (`C66_plan_iff`: exactly then).
- **C67 Once a plan has been applied, there is nothing left to do** - the database in which a plan ends (C14) is read back, and the plan for it is shown to be empty: `Proofs/Converge.lean` runs the matching of keys a second time (`matchKeys_again`). Two findings: a key which the first plan leaves under the name of a foreign key that goes is replaced by the second plan (`C67_counterexample_keys`), and foreign keys on columns which are declared in other words are dropped and added again by every plan (`C67_counterexample_widths`). `C67_partial` excludes the first; `C67_twice_partial` shows that two runs are enough without this condition; `C67_iff` says exactly when the second plan is empty, and both findings are refutations in general (`C67_keys_refuted`, `C67_refuted`).
- **C68 The text of a plan, sent to the server, brings its structure in line with the declarations** - `Spec/Session.lean` is a server which only knows what MySQL reads in a text (`readStatement`), and executes it. `Proofs/Session.lean` shows that it follows the server of C14 (which is given operations) step by step, if the texts mean the operations (C66). Refuted where C66 is: `DROP TABLE groups;`. `Proofs/Refused.lean` has the converse, that it refuses what the server of C14 refuses, so that `C68_iff` is exact.
- **C69 apply makes the server what the files declare** - `Spec/World.lean` is a server which reads texts and has both a structure and rows. `Proofs/World.lean` follows the rows through the statements on tables (kept, reset, lost columns) and shows that the texts on rows do what C17 says. The theorem starts at the command `apply` and ends at the rows and tables of the server; it joins C14, C17, C46, C63, C66 and C68. `C69_iff`: exactly when `apply` comes to its end. `Props/C69Program` joins it with C74 and C46: the same from the command line, the configuration files and the SQL files on the disk on (`C69_program_partial`). `C69_program_iff` (in `Props/C71Program`): exactly when `mygrate.py apply` exits with 0.
- **C70 once apply has run, there is nothing to do** - joins C67 (the second plan of the structure is empty) and C69 (what is there after the first run): rows with the declared ids and values give no statements (`rows_settled`), and a plan without statements prints nothing. `C70_iff` says exactly when: iff no declared foreign key uses a column whose type is declared in other words than the server has it. `Props/C70Program`: the same for two runs of `mygrate.py` with the same files on the disk (`C70_program_partial`).
- **C71 an interrupted apply can be run again, with its rows** - `Interrupted` is a history of runs each of which stops after any of its statements. By induction over it the conditions of C69 hold again (`Ready`): the structure by `Mid` (C53), the names and ids by `Proofs/Again.lean`, the rows by following them through a prefix of the texts (`world_prefix`). `C71_iff` (Props/C71Iff.lean): every history can be completed if and only if the tables are `Migratable`. `Props/C71Program`: the same for `mygrate.py apply` (`C71_program_partial`).
- **C72 the declared rows are the rows of the INSERTs** - the loop of the reader is followed both ways: what it keeps is from an `INSERT` it got to (`loop_rows_from`), and the other way round (`loop_reaches`); then the rows are followed through the files and through `_combine_tables_and_rows` (`RowsFrom`, `Stores`) with C23 for each `INSERT`. It is false of rows without an id: they are not reported (C32), and the rows of the server are deleted: for all files without errors and every table all of whose `INSERT`s leave out `id`, every plan leaves the table empty (`C72_lost_refuted`).
- **C73 order of the files** - what comes of files with different tables is written down in closed form (`readAll_filed`, `new_shape`); `errors` being empty is characterised without regard to the order of tables and rows (`errors_flawless`), for a database from which the rows in the tables have been taken (`outline_errors`: they have no part in it); the rows are followed exactly (`StoredAs`, `Exactly`) and meet C72. It is false, silently, of every table which two files declare in different ways (`C73_twice_refuted`) and of rows with the same id: the first one which is inserted is declared (`FirstOf`, `C72_first_partial`, `C73_rows_refuted`).
- **C74 from the command line** - `Model/Disk` has `os.path.isdir`, `glob` and `fnmatch` over a disk, `Model/Main` the program from its arguments on. `glob` of `dir/*.sql` is computed for every directory without wildcards in its path, C48/C49 give configuration and credentials, and the whole program is then equal to the command on the texts found. False for a path with `[`: the pattern matches nothing, no error is reported and every table is dropped; `C74_brackets_refuted` and `C74_dropped_refuted` (Props/C74Glob) are this for every directory `u[x]v` without a neighbour `uxv`, everything below it, and every server. `C74_strings_partial` is the same for the reader as a library: directories, files and SQL in one list.
- **C75 a missing directory** - the path itself is read as SQL (`read_path`); one which starts with a slash is no statement, which is an error, so C61 and C45 apply. False for a path which starts with `/*`: by induction over the loop it is an open comment, whose `ValueError` is swallowed.
- **C76 installing from scratch** - the errors of a database are characterised without regard to order (`errors_flawless`), the foreign keys by C27, and tables as the readers make them have an empty index cache (`new_uncached`); together they give the rules of MySQL (`Accepted`). C69 then applies to a server without tables, where every side condition about the server is empty. False for a table with a date column (its errors are swallowed) and for a second key called `PRIMARY`.
- **C77 warnings** - `Model/Warnings` models the warnings about a schema; by induction on the tables and on their columns they are compared with a filter written from the English text (`needy`). False for a table with a date column: its warnings are missing until the errors have been asked for. `C77_iff` and `C77_after_iff` say exactly for which databases the warnings are right, before and after (by comparing lengths). The warnings of the readers about the way defaults are written are the subject of C83.
- **C78 exactly the faults** - `Spec/Faults` lists the faults of columns, keys, foreign keys, tables and databases with their texts, without regard to the order and the way they are looked for. Membership in the messages is compared with it in both directions: by cases for columns, by induction over columns, keys, tables, foreign keys (with the names seen so far as the invariant) and `INSERT`s; the readers never make a key without columns (`Proofs/KeyCols`). False for tables with date columns: their faults are not reported; `C78_iff` and `C78_check_iff` say exactly which faults are enough to fail (`SeenFault`). Of the faults of one foreign key the first is reported.
- **C79 no false alarms** - from C78 for columns: for a column which MySQL accepts (`Column.Sound`, `Column.Fitting`), each kind of fault is excluded by cases on the type, or is one of five false alarms (`FalseAlarm`). `C79_messages_partial`/`C79_iff`: what is reported about such a column are exactly the false alarms. Refuted for these five for every column in every file (`C79_check_refuted`), and by texts which MySQL reads; refuted for every `ENUM` and `SET` column of every file, since the readers do not keep the values (invariant of the readers). The converse is refuted for every `VARCHAR`/`VARBINARY` column without a length (`C79_lengthless_refuted`) and for every unsigned `BIT` (`C79_bit_refuted`), with a text for each.
- **C80 core operations** - `Model/CoreOps` models the second family of operations, in mygrations/core/operations. Their texts are read with the SQL reader of C66, clause by clause. Unlike C66 there is no hypothesis about reserved words among what is dropped, since these operations quote names. Refuted for `UPDATE` with a quote, as in C25.
- **C81 core replay** - as C07, with the operations of the core package, which can change keys. Induction on the added, dropped and changed keys gives the dictionary of keys at the end; it is a permutation of the keys which MySQL ends up with, so that C04 says what they are. Refuted for every diff which drops a column: `RemoveColumn.apply_to_table` reads an attribute which does not exist.
- **C82 what the reader leaves out** - `Spec/Annotate` says what it is to add comments and lengths to a text. The two substitutions of `CreateParser.parse` undo the additions (induction on them; no match of the pattern of lengths appears because of a length next to it), also after white space at the end is stripped. Corollary: a schema with a different length of a prefix is the same schema, so that such a change is never planned. `C82_name_refuted`: a column name in backticks which itself ends in a number in parentheses is read without it.
- **C83 warnings of the reader** - The parsers of columns in `Model/Parsers` add their warnings to the columns which they read. For each shape of a column (one number, two numbers, none, with or without a character set) the parser which wins is known for every spelling (`Proofs/ReadColumn`), and with it the warnings. True for types with a length, for texts with a character set or collation and for decimals; false for negative numbers (they are told to be in quotes), for dates with a time (in quotes, and told to be), and for texts without a character set (never warned about).
- **C84 what check prints** - The remark on a default is a function of the column and the style in which it is written (`Spec/Remarks`). `column_read` gets it as a further conclusion, and it is carried through the reading of a statement, of a file and of all files, so that the warnings of the database are those remarks, up to the first date of each table, followed by the columns of C77. False for what comes after a date; `C84_iff` says exactly for which files all remarks are printed.
- **C85** Model/Edit puts the nine methods which edit a table together; Spec/Edit says with plain lists when an edit makes sense, what it means and how it is taken back. `C85_possible`, `C85_made`, `C85_history` (induction over the history), `C85_undo` and `C85_before` hold for every table whose dictionaries are keyed by name; for the first and the fourth every key must be on some column (`index.columns[0]` is read).
- **C86 configuration files in JSON** - `Model/Json` is Python's `json.loads`, which `dotenv.parse` tries first; `Proofs/Json` shows that files made of lines are never taken for JSON, unless a key begins with `{`, `[` or a double quote; `Proofs/JsonRead` reads rendered objects back. False for the empty object, which is a syntax error. Values which are no strings: C88.
- **C87 types with several names** - the parser of columns without a length on all texts of boolean columns (`read_bool`), and a lemma that only the normalised type counts (`normalized_read`), which carries C37 over to `INTEGER`. Refuted for `NUMERIC`: it is read as itself, while the server shows `DECIMAL`.
- **C88 configuration files with values of any kind** - `Model/Settings` is the configuration once more, with the values which `json.loads` returns; `C88_same` proves that it agrees with `Model/Dotenv` wherever that one follows the code. `Spec/JsonValue` says how JSON values are written (RFC 8259), and `Json.loads_text` (Proofs/JsonValue), by mutual induction over it, that the reader reads every value as it is meant. `C88_kinds`: which kinds of values have to be strings. Documents may also be arrays of pairs (`dict` of a list; `PairsOf`). Not modelled: the path which is made of an array.
- **C89 JSON exactly** - `Spec/JsonPlain.lean` says which values JSON can express (`Json.Plain`), which texts use none of Python's extensions (`OnlyRfc`) and when a text is JSON (`IsJson`). `Proofs/JsonOnly.lean` shows by induction on the fuel, over values, members and elements together, that whatever the reader accepts is JSON; `Proofs/JsonClean.lean` that texts without the extensions give plain values; `C89_values` needs that `dict` of an array succeeds for arrays of pairs only. `C89`, `C89_plain`, `C89_unique`, `C89_lines`, `C89_values`; `C89_refuted` for the three words.
- **C90 Without a configuration nothing is done** - `Props/C90`: the ways in which a configuration cannot be used are listed as a relation between disk, name and message (`Unusable`), and every run of the program of `Model/Main` under it is shown to have no events and that error.

## Trusted base
- Lean 4.33.0's kernel. Axioms: at most `propext`, `Classical.choice`, `Quot.sound` (see MANIFEST/`#print axioms`). No own axioms,
  no `sorry`, no `native_decide`/`bv_decide`.
- The faithfulness of the hand-written model to `/repo` (each definition cites the lines it models).
- The specifications in `lean/Verif/Spec` (what MySQL does with a statement).

## Modelled / not modelled
Modelled, function by function (each definition cites its lines):
- `core/parse` (rule engine, all rules), `formats/mysql/file_reader/parsers/*`, `create_parser`, `insert_parser`,
  `comment_parser`, `reader`, `file_reader/database` - `Model/Parse`, `Model/Parsers`, `Model/Reader`.
- `core/definitions` (columns and their subclasses, index, constraint, option, table, rows, database), with the error
  caches of tables and databases - `Model/Column`, `Model/Table`, `Model/Database`; the warnings - `Model/Warnings`.
- `formats/mysql/definitions/table.py`, `mygrations/operations/*` - `Model/Diff`; `core/operations/*` - `Model/CoreOps`.
- `mygrations/mygration.py`, `mygrations/row_mygration.py` - `Model/Mygration`.
- `helpers/dotenv.py`, `helpers/db_credentials.py`, `core/commands/base.py` - `Model/Dotenv`, and `Model/Settings` for values which are no strings; `json.loads` - `Model/Json`.
- `db_reader/database.py`, `drivers/pymysql/pymysql.py`, `core/commands/{__init__,plan,apply,check}.py` - `Model/Commands`; `os.path`, `glob` and `fnmatch` - `Model/Disk`; `mygrate.py` - `Model/Main`;
  the server is a record of answers, and of which statement fails after which history.

Simplifications (also stated at the definitions):
- `\d`, `\w`, `upper`, `lower` are ASCII only; white space is Python's `str.isspace`.
- Numbers: `float`/`int` conversions are a parameter (`PyNum`); theorems hold for every instance.
- The error caches of columns and the filling of the index cache inside `find_constraint_errors` are not threaded;
  a step of a history which raises leaves the table unchanged.
- File names in messages, and the display of Python lists in messages are not modelled.
- The disk is two maps, from paths to contents and from directories to their listings (`Model/Disk`); links, permissions and encodings are not modelled. `glob` and `fnmatch` are modelled after their documentation.
- In `Model/Dotenv`, JSON configuration files which are arrays, or have members other than strings (they are in `Model/Settings`); lone surrogates, and the limits of `json.loads` on depth and digits are not modelled.
- Messages to `stderr` and `import_files`, `plan_export`, `version` (which cannot be loaded) are not modelled.

Specifications (`Spec/*`): names are case-sensitive; values are stored as given (no type conversion); FK checks are off
while a plan runs; character sets play no role in FK compatibility; the SQL tokenizer ignores comments and double quotes.

Conformance: the expectations in `/repo`'s tests were transcribed (read as text, nothing was run) into `#eval`s of the
model. Of 505 translatable expectations 502 agree; the other 3 are artefacts of the transcription (upper-cased index
types); 105 assertions are not translatable (mocks, printing).

## Tests against wrong programs

`seeded/LOG.jsonl` has one line per edit of the model in a scratch copy. `failed` names the first declarations which the edited
model no longer proves. Often these are helper lemmas (in `Proofs/`): the property theorems which rest on them are then not built
at all, so they are not listed. An edit which does not compile tests nothing; such attempts are marked by a `note` and were repeated
later. Where an edit survived, `tightened` names the theorem which was added or strengthened because of it, or `note` says why the
edited program is the same program (for instance because a value is never used).

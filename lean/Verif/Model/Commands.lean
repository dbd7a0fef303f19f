import Verif.Model.Reader
import Verif.Model.Warnings

/-!
# Model of the live database and of the commands
(`mygrations/formats/mysql/db_reader/database.py`, `mygrations/drivers/pymysql/pymysql.py`,
`mygrations/core/commands/{__init__,plan,apply,check}.py`, `mygrations/mygrate.py`)

What the commands do to the outside world is recorded: the statements sent to the server and the commits.
-/

namespace Mygrations

/-- What a command does which can be seen on the server. -/
inductive Event
  | sent (sql : Str)
  | committed
  deriving DecidableEq, Repr

/-- A computation which may talk to the server and may raise an exception. -/
structure Run (α : Type) where
  events : List Event
  result : Except PyErr α
  deriving Repr

namespace Run

variable {α β : Type}

def pure (a : α) : Run α := ⟨[], .ok a⟩

def raise (e : PyErr) : Run α := ⟨[], .error e⟩

/-- a computation without any events -/
def of (r : Except PyErr α) : Run α := ⟨[], r⟩

/-- one after the other; an exception ends it -/
def bind (x : Run α) (f : α → Run β) : Run β :=
  match x.result with
  | .error e => ⟨x.events, .error e⟩
  | .ok a => ⟨x.events ++ (f a).events, (f a).result⟩

end Run

/-- The server, as the driver sees it: what it answers to the queries of the driver, and whether it fails on a statement,
given the statements which were executed before.  Simplification: `SHOW TABLES` does not fail. -/
structure Server where
  tableNames : List Str
  createText : Str → Except PyErr (Option Str)
  select : Str → Except PyErr (List Row)
  fails : List Str → Str → Option PyErr

namespace Driver

/-- the loop of `tables` (pymysql.py:49-55): nothing found is a `ValueError` -/
def showCreates (srv : Server) : List Str → Run (Dict Str)
  | [] => .pure []
  | n :: ns =>
    Run.bind ⟨[.sent (py"SHOW CREATE TABLE " ++ n)], srv.createText n⟩ fun answer =>
      match answer with
      | none => .raise (.valueError (py"Failed to execute SHOW CREATE TABLE command on table " ++ n))
      | some text => Run.bind (showCreates srv ns) fun more => .pure ((n, text) :: more)

/-- `tables` (pymysql.py:30-59).  Simplification: the server names no table twice. -/
def tables (srv : Server) : Run (Dict Str) :=
  Run.bind ⟨[.sent py"SHOW TABLES"], .ok ()⟩ fun _ => showCreates srv srv.tableNames

/-- `rows` (pymysql.py:61-76) -/
def rows (srv : Server) (table : Str) : Run (List Row) := ⟨[.sent (py"SELECT * FROM " ++ table)], srv.select table⟩

/-- the loop of `execute` (pymysql.py:84-85) -/
def sendAll (srv : Server) : List Str → List Str → Run Unit
  | _, [] => .pure ()
  | done, q :: qs =>
    Run.bind ⟨[.sent q], match srv.fails done q with | some e => .error e | none => .ok ()⟩ fun _ => sendAll srv (done ++ [q]) qs

/-- `execute` (pymysql.py:78-88) for a list of queries -/
def execute (srv : Server) (queries : List Str) : Run Unit :=
  Run.bind (sendAll srv [] queries) fun _ => ⟨[.committed], .ok ()⟩

end Driver

namespace LiveDatabase

/-- the inner loop of `_load_tables` (db_reader/database.py:37-49) -/
def storeTables : Database → List Table → Database
  | d, [] => d
  | d, t :: ts =>
    let d := if d.tables.has t.name then { d with globalErrors := d.globalErrors ++ [py"Found two definitions for table " ++ t.name] } else d
    storeTables { d with tables := d.tables.set t.name t } ts

/-- the loop of `_load_tables` (db_reader/database.py:29-49): a `ValueError` is only printed, what was read before it is
kept -/
def loadTables : Database → List Str → Except PyErr Database
  | d, [] => .ok d
  | d, text :: texts =>
    match readSource text with
    | (st, exc) =>
      match exc.filter (fun e => !e.isValueError) with
      | some e => .error e
      | none => loadTables (storeTables d st.tables.values) texts

/-- `Database(conn)` (db_reader/database.py:6-19) -/
def new (srv : Server) : Run Database :=
  Run.bind (Driver.tables srv) fun ts => .of (loadTables {} ts.values)

/-- the loop of `read_rows` (db_reader/database.py:72-73) -/
def addRawRows : Table → List Row → Except PyErr Table
  | t, [] => .ok t
  | t, r :: rs =>
    match t.addRawRow r with
    | .error e => .error e
    | .ok t' => addRawRows t' rs

/-- `read_rows` (db_reader/database.py:51-77); the driver is asked once the table is known to exist -/
def readRows (srv : Server) (d : Database) (name : Str) : Run Database :=
  match d.tables.get? name with
  | none => .raise (.valueError py"Cannot read rows for table %s because that table is not found in the database object")
  | some t =>
    Run.bind (Driver.rows srv name) fun rs =>
      match addRawRows t rs with
      | .error e => .raise e
      | .ok t' => .pure { d with tables := d.tables.set name t'.markTracking, checked := d.checked.filter (· ≠ name) }

end LiveDatabase

namespace Command

/-- the loop over the tables which are tracked (plan.py:47-54) -/
def readTracked (srv : Server) : Database → List Table → Run Database
  | live, [] => .pure live
  | live, t :: ts =>
    if t.tracking ∧ live.tables.has t.name then Run.bind (LiveDatabase.readRows srv live t.name) fun live => readTracked srv live ts
    else readTracked srv live ts

/-- the operations of both migrations (plan.py:56-64) -/
def allOps [PyNum] (files live : Database) : Except PyErr (List Op) :=
  match Mygration.new files (some live) false with
  | .error e => .error e
  | .ok plan =>
    match RowMygration.new files (some live) with
    | .error e => .error e
    | .ok rows => .ok (plan.operations.getD [] ++ rows)

/-- `Plan.build_commands` (plan.py:23-73).  `sources` are the contents of the files which `get_sql_files` names, `force` is
`options.get('force')`.  Messages to `stderr` are not modelled.  Simplification: the errors are computed once more by
`Mygration`, from the caches filled here. -/
def buildCommands [PyNum] (srv : Server) (sources : List Str) (force : Bool) : Run (List Op) :=
  match FileDatabase.new sources with
  | .error e => .raise e
  | .ok files =>
    match files.errors with
    | (.error e, _) => .raise e
    | (.ok errs, files) =>
      if errs ≠ [] ∧ !force then .pure []
      else
        Run.bind (LiveDatabase.new srv) fun live =>
        Run.bind (readTracked srv live files.tables.values) fun live =>
          match allOps files live with
          | .error e => .raise e
          | .ok [] => .pure []
          | .ok (op :: ops) => .pure (.disableChecks :: (op :: ops) ++ [.enableChecks])

/-- What a command leaves behind: its output, and whether it says that it succeeded. -/
structure Outcome where
  output : List Str
  success : Bool
  deriving DecidableEq, Repr

/-- `Plan.execute` (plan.py:16-21) -/
def plan [PyNum] (srv : Server) (sources : List Str) (force : Bool) : Run Outcome :=
  Run.bind (buildCommands srv sources force) fun ops => .pure ⟨ops.map Op.render, true⟩

/-- `Apply.execute` (apply.py:9-21).  The second connection is the first one: `get_driver` keeps it. -/
def apply [PyNum] (srv : Server) (sources : List Str) (force : Bool) : Run Outcome :=
  Run.bind (buildCommands srv sources force) fun ops =>
    Run.bind (Driver.execute srv (ops.map Op.render)) fun _ => .pure ⟨ops.map Op.render, true⟩

/-- what `Check.execute` collects (check.py:14-24): the errors and the warnings, without their headings.  Both are asked for twice: the second
time the caches answer. -/
def problems [PyNum] (sources : List Str) : Except PyErr (List Str × List Str) :=
  match FileDatabase.new sources with
  | .error e => .error e
  | .ok files =>
    match files.errors with
    | (.error e, _) => .error e
    | (.ok errs, files) =>
      match files.warnings with
      | .error e => .error e
      | .ok warns => .ok (errs, warns)

/-- a list with a heading, unless it is empty (check.py:16-24) -/
def headed (heading : Str) (l : List Str) : List Str := if l = [] then [] else heading :: l

/-- `Check.execute` (check.py:12-33): the errors which are returned, and whether there are none -/
def check [PyNum] (sources : List Str) : Run Outcome :=
  match problems sources with
  | .error e => .raise e
  | .ok (errs, _) => .pure ⟨headed py"Errors found in *.sql files:" errs, errs.isEmpty⟩

/-- the lines which `Check.execute` prints (check.py:26-32); what reading the files prints about a `ValueError` (file_reader/database.py:85-86) is
not part of them -/
def checkPrints [PyNum] (sources : List Str) : Except PyErr (List Str) :=
  match problems sources with
  | .error e => .error e
  | .ok (errs, warns) =>
    if errs = [] ∧ warns = [] then .ok [py"No problems found"]
    else .ok (headed py"Errors found in *.sql files:" errs ++ headed py"Warnings found in *.sql files:" warns)

/-- the commands and their modules (commands/__init__.py:3-11) -/
def modules : List (Str × Str) :=
  [(py"apply", py"apply"), (py"check", py"check"), (py"import", py"import_files"), (py"plan", py"plan"),
   (py"plan_export", py"plan_export"), (py"version", py"version")]

/-- what importing a module of the package does (read off the sources).  There is no `import_files.py`; `plan_export.py:9`
imports `mygrations.drivers.mysqldb`, which does not exist; `version.py:1` imports the name `base` from `base.py`, which
has a class `Base` only. -/
def importModule (m : Str) : Except PyErr Unit :=
  if m = py"apply" ∨ m = py"check" ∨ m = py"plan" then .ok ()
  else if m = py"plan_export" then .error (.importError py"mygrations.drivers.mysqldb")
  else if m = py"version" then .error (.importError py"base")
  else .error (.importError m)

/-- `commands.execute` (commands/__init__.py:15-22) -/
def execute [PyNum] (srv : Server) (sources : List Str) (force : Bool) (command : Str) : Run Outcome :=
  match Dict.get? modules command with
  | none => .raise (.valueError (py"Unknown command " ++ command))
  | some m =>
    match importModule m with
    | .error e => .raise e
    | .ok () =>
      if m = py"apply" then apply srv sources force
      else if m = py"check" then check sources
      else plan srv sources force

/-- `mygrate(command, options).execute()` (mygrate.py:10-26): the exit status.  `version` is `options['version']`. -/
def mygrate [PyNum] (srv : Server) (sources : List Str) (force version : Bool) (command : Str) : Run Nat :=
  let command := if version then py"version" else if command = [] then py"check" else command
  if Dict.has modules command then Run.bind (execute srv sources force command) fun o => .pure (if o.success then 0 else 1)
  else .raise (.valueError (py"Unknown command " ++ command))

end Command

end Mygrations

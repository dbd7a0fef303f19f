import Verif.Model.Commands
import Verif.Model.Disk

/-!
# Model of the program: the commands with their configuration
(`mygrate.py`, `mygrations/mygrate.py`, `mygrations/core/commands/{base,plan,apply,check}.py`)
-/

namespace Mygrations

/-- The machine on which the program runs: its disk, and what becomes of a connection with credentials
(`pymysql.connect`, pymysql.py:17-25). -/
structure Machine where
  disk : Disk
  connect : Credentials.Creds → Except PyErr Server

/-- the exceptions of the configuration among all; `DotEnvSyntaxError` (dotenv.py:9-10) is a kind of its own in Python.  Simplification: JSON documents
which the model does not follow count as a `TypeError`. -/
def Dotenv.Err.toPy : Dotenv.Err → PyErr
  | .syntaxError line => .syntaxError line
  | .python e => e
  | .notText => .typeError

namespace Program

/-- `get_sql_files` (base.py:22-26), and the texts found there -/
def withFiles {α : Type} (m : Machine) (config : Str) (f : List Str → Run α) : Run α :=
  match Config.sqlFiles m.disk.toFiles config with
  | .error e => .raise e.toPy
  | .ok dir => f (m.disk.process dir)

/-- `get_driver` (base.py:13-20) -/
def withDriver {α : Type} (m : Machine) (config : Str) (f : Server → Run α) : Run α :=
  match Config.credentials m.disk.toFiles config with
  | .error e => .raise e.toPy
  | .ok creds =>
    match m.connect creds with
    | .error e => .raise e
    | .ok srv => f srv

/-- `Plan.build_commands` (plan.py:23-73): the connection is made once the files turn out to have no errors (or `force`).
The rest is `Command.buildCommands`, which looks at the files once more. -/
def build [PyNum] (m : Machine) (config : Str) (force : Bool) : Run (List Op) :=
  withFiles m config fun sources =>
    match FileDatabase.new sources with
    | .error e => .raise e
    | .ok files =>
      match files.errors.1 with
      | .error e => .raise e
      | .ok errs =>
        if errs ≠ [] ∧ !force then .pure []
        else withDriver m config fun srv => Command.buildCommands srv sources force

/-- `Plan.execute` (plan.py:16-21) -/
def plan [PyNum] (m : Machine) (config : Str) (force : Bool) : Run Command.Outcome :=
  Run.bind (build m config force) fun ops => .pure ⟨ops.map Op.render, true⟩

/-- `Apply.execute` (apply.py:9-22): the connection is needed in any case -/
def apply [PyNum] (m : Machine) (config : Str) (force : Bool) : Run Command.Outcome :=
  Run.bind (build m config force) fun ops =>
    withDriver m config fun srv =>
      Run.bind (Driver.execute srv (ops.map Op.render)) fun _ => .pure ⟨ops.map Op.render, true⟩

/-- `Check.execute` (check.py:12-33) -/
def check [PyNum] (m : Machine) (config : Str) : Run Command.Outcome := withFiles m config Command.check

/-- `commands.execute` (commands/__init__.py:15-22) -/
def execute [PyNum] (m : Machine) (config : Str) (force : Bool) (command : Str) : Run Command.Outcome :=
  match Dict.get? Command.modules command with
  | none => .raise (.valueError (py"Unknown command " ++ command))
  | some mod =>
    match Command.importModule mod with
    | .error e => .raise e
    | .ok () =>
      if mod = py"apply" then apply m config force
      else if mod = py"check" then check m config
      else plan m config force

/-- `mygrate(command, options).execute()` (mygrations/mygrate.py:10-26): the exit status -/
def mygrate [PyNum] (m : Machine) (config : Str) (force version : Bool) (command : Str) : Run Nat :=
  let command := if version then py"version" else if command = [] then py"check" else command
  if Dict.has Command.modules command then Run.bind (execute m config force command) fun o => .pure (if o.success then 0 else 1)
  else .raise (.valueError (py"Unknown command " ++ command))

/-- The command line, after `argparse` (mygrate.py:7-20). -/
structure Args where
  command : Option Str := none
  config : Option Str := none
  force : Bool := false
  version : Bool := false
  deriving DecidableEq, Repr

/-- `mygrate.py:7-26`.  `argparse` exits with status 2 if the command is none of its choices. -/
def main [PyNum] (m : Machine) (args : Args) : Run Nat :=
  let command := args.command.getD py"version"
  if [py"version", py"apply", py"check", py"import", py"plan", py"plan_export"].contains command then
    mygrate m (args.config.getD py"mygrate.conf") args.force args.version command
  else .pure 2

end Program

end Mygrations

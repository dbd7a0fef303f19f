import Verif.Model.Dotenv

/-!
# Model of the configuration with values of any kind (`mygrations/helpers/{dotenv,db_credentials}.py`, `mygrations/core/commands/base.py`)

`Model/Dotenv.lean` follows configuration files in JSON only if all values are strings.  Here the values are whatever `json.loads` returns.
`Props/C88.lean` proves that this is the same wherever `Model/Dotenv.lean` follows the code.
-/

namespace Mygrations
namespace Settings
open Dotenv

/-- what `iter` runs over (called by `dict`, dotenv.py:33): the characters of a string, the elements of an array and the names of an object.  Numbers,
booleans and `null` raise a `TypeError`. -/
def iterated : Json → Except PyErr (List Json)
  | .str s => .ok (s.map (fun c => .str [c]))
  | .arr items => .ok items
  | .obj members => .ok ((Dict.keys (members.foldl (fun d e => Dict.set d e.1 e.2) ([] : Dict Json))).map .str)
  | _ => .error .typeError

/-- arrays and objects cannot be keys (called by `dict`, dotenv.py:33) -/
def hashable : Json → Bool
  | .arr _ => false
  | .obj _ => false
  | _ => true

/-- `dict` of an array (dotenv.py:33): every element has to be a pair of a key and a value.  `i` is the number of the element.  Simplification: keys
which are no strings are left out, because only strings are looked up (base.py:44-56, db_credentials.py). -/
def ofItems : Nat → Dict Json → List Json → Except Err (Dict Json)
  | _, d, [] => .ok d
  | i, d, j :: js =>
    match iterated j with
    | .error e => .error (.python e)
    | .ok [k, v] =>
      if hashable k then ofItems (i + 1) (match k with | .str name => d.set name v | _ => d) js
      else .error (.python .typeError)
    | .ok l => .error (.python (.valueError (py"dictionary update sequence element #" ++ (toString i).toList ++ py" has length " ++
        (toString l.length).toList ++ py"; 2 is required")))

/-- `super().__init__(parsed)` (dotenv.py:33) for a JSON document which counts as true -/
def ofJson : Json → Except Err (Dict Json)
  | .obj members => .ok (members.foldl (fun d e => d.set e.1 e.2) [])
  | .arr items => ofItems 0 [] items
  | .str _ => .error (.python (.valueError py"dictionary update sequence element #0 has length 1; 2 is required"))
  | _ => .error (.python .typeError)

/-- the values of lines are strings -/
def ofTexts (d : Dict Str) : Dict Json := d.map (fun e => (e.1, .str e.2))

/-- `parse` (dotenv.py:65-96) -/
def parse (text : Str) (comment : Char := '#') : Except Err (Dict Json) :=
  match Json.loads text with
  | some j => if j.truthy then ofJson j else (parseLines comment [] (splitOn '\n' text)).map ofTexts
  | none => (parseLines comment [] (splitOn '\n' text)).map ofTexts

/-- `dotenv(filename)` (dotenv.py:17-33).  What is no string is refused (dotenv.py:52-55); only arrays and strings come here. -/
def dotenv (fs : Files) : Json → Except Err (Dict Json)
  | .str name => parse ((fs.contents name).getD name)
  | _ => .error (.python (.valueError py"Unknown type for filename: must be an ascii string, a filename, file pointer, or StringIO"))

/-- `_relative_to_config_abs_path` (base.py:89-99): `relative_path[0]` of an empty array is an `IndexError`, of an object a `KeyError`, and of
everything else but strings a `TypeError`.  Not modelled: the path which is made of an array (with Python's way of writing it), if the array does not
begin with `"/"`. -/
def relativeTo (relative : Json) (config : Str) : Except Err Json :=
  match relative with
  | .str s =>
    match Config.relativeTo s config with
    | .error e => .error (.python e)
    | .ok p => .ok (.str p)
  | .arr [] => .error (.python .indexError)
  | .arr (.str ['/'] :: items) => .ok (.arr (.str ['/'] :: items))
  | .arr _ => .error .notText
  | .obj _ => .error (.python (.keyError py"0"))
  | _ => .error (.python .typeError)

/-- `_load_config` (base.py:28-60) -/
def load (fs : Files) (path : Str) : Except Err (Dict Json) :=
  match Config.resolve fs path with
  | .error e => .error (.python e)
  | .ok abs =>
    match dotenv fs (.str abs) with
    | .error e => .error e
    | .ok config =>
      match config.get? py"files_directory" with
      | none => .error (.python (.valueError py"Configuration file is missing 'files_directory' configuration, which should point to the directory containing your *.sql files"))
      | some fd =>
        match relativeTo fd abs with
        | .error e => .error e
        | .ok fd' =>
          let config := config.set py"files_directory" fd'
          match config.get? py"env_file" with
          | none => .error (.python (.valueError py"Configuration file is missing 'env_file' configuration, which should point to the .env file for your application (so mygrations can fetch database credentials"))
          | some ef =>
            match relativeTo ef abs with
            | .error e => .error e
            | .ok ef' => .ok (config.set py"env_file" ef')

/-- `get_sql_files` (base.py:22-26) -/
def sqlFiles (fs : Files) (path : Str) : Except Err Json :=
  match load fs path with
  | .error e => .error e
  | .ok config =>
    match config.get? py"files_directory" with
    | none => .error (.python (.keyError py"files_directory"))
    | some d => .ok d

/-- what `DbCredentials` offers (db_credentials.py:3-32), which `pymysql.connect` gets as it is (pymysql.py:17-25) -/
structure Creds where
  host : Json
  database : Json
  user : Json
  password : Json

/-- the first loop (db_credentials.py:17-19) -/
def missingKey (config : Dict Json) : Option Str :=
  [py"hostname_key", py"username_key", py"password_key", py"database_key"].find? (fun k => !config.has k)

/-- one round of the second loop (db_credentials.py:23-29).  An array or an object cannot be looked up (`TypeError`); the keys of `env` are strings, so
numbers, booleans and `None` are not found.  Simplification: the message does not show what was looked for, if it is no string. -/
def fetch (config env : Dict Json) (key val : Str) : Except PyErr Json :=
  match config.get? key with
  | none => .error (.keyError key)
  | some (.str name) =>
    match env.get? name with
    | none => .error (.valueError (py"Failed to fulfill " ++ val ++ py": key " ++ name ++ py" not found in .env"))
    | some v => .ok v
  | some (.arr _) => .error .typeError
  | some (.obj _) => .error .typeError
  | some _ => .error (.valueError (py"Failed to fulfill " ++ val))

/-- `DbCredentials(env, config)` (db_credentials.py:8-29) -/
def new (env config : Dict Json) : Except PyErr Creds :=
  match missingKey config with
  | some k => .error (.valueError (py"Cannot find required key " ++ k ++ py" in mygrate.conf"))
  | none =>
    match fetch config env py"hostname_key" py"host" with
    | .error e => .error e
    | .ok h =>
      match fetch config env py"database_key" py"database" with
      | .error e => .error e
      | .ok d =>
        match fetch config env py"username_key" py"user" with
        | .error e => .error e
        | .ok u =>
          match fetch config env py"password_key" py"password" with
          | .error e => .error e
          | .ok p => .ok { host := h, database := d, user := u, password := p }

/-- the credentials of `get_driver` (base.py:13-20) -/
def credentials (fs : Files) (path : Str) : Except Err Creds :=
  match load fs path with
  | .error e => .error e
  | .ok config =>
    match config.get? py"env_file" with
    | none => .error (.python (.keyError py"env_file"))
    | some p =>
      match dotenv fs p with
      | .error e => .error e
      | .ok env =>
        match new env config with
        | .error e => .error (.python e)
        | .ok c => .ok c

end Settings
end Mygrations

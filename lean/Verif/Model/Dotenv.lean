import Verif.Model.Json

/-!
# Model of the configuration: `dotenv`, `DbCredentials` and `Base`
(`mygrations/helpers/{dotenv,db_credentials}.py`, `mygrations/core/commands/base.py`)
-/

namespace Mygrations

namespace Dotenv

/-- The exceptions of `dotenv`: its own `DotEnvSyntaxError` (dotenv.py:9-10), or one of Python's. -/
inductive Err
  | syntaxError (line : Str)
  | python (e : PyErr)
  /-- no exception: the model does not follow JSON documents which are arrays, or objects with values other than strings -/
  | notText
  deriving DecidableEq, Repr

/-- `s.index(c, from)` where `s` is given from `from` on; `i` is `from` -/
def indexFrom (c : Char) : Nat → Str → Option Nat
  | _, [] => none
  | i, x :: xs => if x = c then some i else indexFrom c (i + 1) xs

/-- `s.index(c, from)`; `none` is a `ValueError` -/
def index (c : Char) (s : Str) (i : Nat) : Option Nat := indexFrom c i (s.drop i)

/-- `re.match('^([^=:]+)[=:](.*)', clean)` (dotenv.py:117): `[^=:]+` takes all it can, and what follows must be a
separator.  There is no line break in a line, so `.*` is the rest. -/
def splitLine (clean : Str) : Option (Str × Str) :=
  match clean.takeWhile (fun c => c ≠ '=' ∧ c ≠ ':'), clean.dropWhile (fun c => c ≠ '=' ∧ c ≠ ':') with
  | [], _ => none
  | _, [] => none
  | k, _ :: v => some (k, v)

/-- `value[:value.index(comment)]` (dotenv.py:143-144) -/
def cutAt (c : Char) (s : Str) : Str := s.takeWhile (fun x => x ≠ c)

/-- the search for the closing quote (dotenv.py:166-171) and what is done with it (dotenv.py:173-184).  `fuel` is at
least the number of characters left: every round moves `index` forward.  After the first round `value.count(quote, index)`
counts the quote at `index` itself, so the loop is left only through `return` and exceptions. -/
def closing (comment quote : Char) (line key value : Str) : Nat → Nat → Except Err (Str × Str)
  | 0, _ => .error (.syntaxError line)
  | fuel + 1, i =>
    if index quote value i = none then .error (.syntaxError line)
    else match index quote value (i + 1) with
      | none => .error (.python (.valueError py"substring not found"))
      | some j =>
        if value[j - 1]? = some '\\' then closing comment quote line key value fuel j
        else
          let value := match index comment value j with
            | some k => strip (value.take k)
            | none => value
          if value.length > j + 1 ∧ strip (value.drop (j + 1)) ≠ py";" then .error (.syntaxError line)
          else .ok (key, replacePair '\\' quote [quote] (value.take j))

/-- `parse_line` (dotenv.py:98-187).  `[False, False]`, which is returned for blank lines and comments, is `([], [])`:
the caller only asks whether key and value are empty.  Simplification: the comment sign is one character (it is always
`#`). -/
def parseLine (line : Str) (comment : Char) : Except Err (Str × Str) :=
  let clean := strip line
  if clean.head? = some comment then .ok ([], [])
  else if clean = [] then .ok ([], [])
  else match splitLine clean with
    | none => .error (.syntaxError line)
    | some (k, v) =>
      let key := strip k
      match strip v with
      | [] => .ok (key, [])
      | q :: value =>
        if q ≠ '\'' ∧ q ≠ '"' then
          let value := if hasChar comment (q :: value) then strip (cutAt comment (q :: value)) else q :: value
          if hasChar '"' value ∨ hasChar '\'' value then .error (.syntaxError line)
          else .ok (key, value)
        else if !hasChar q value then .error (.syntaxError line)
        else if value.head? = some q then .ok (key, [])
        else closing comment q line key value value.length 0

/-- the loop of `parse` (dotenv.py:81-93) -/
def parseLines (comment : Char) : Dict Str → List Str → Except Err (Dict Str)
  | d, [] => .ok d
  | d, l :: ls =>
    match parseLine l comment with
    | .error e => .error e
    | .ok (k, v) => parseLines comment (if k = [] ∨ v = [] then d else d.set k v) ls

/-- `super().__init__(parsed)` (dotenv.py:33) for a JSON document which counts as true: members given twice have the last
value.  A string is a sequence of strings of length 1, and a number is no sequence.  Not modelled: arrays, and values
which are no strings. -/
def ofJson : Json → Except Err (Dict Str)
  | .obj members =>
    match Json.texts members with
    | some es => .ok (es.foldl (fun d e => d.set e.1 e.2) [])
    | none => .error .notText
  | .arr _ => .error .notText
  | .str _ => .error (.python (.valueError py"dictionary update sequence element #0 has length 1; 2 is required"))
  | _ => .error (.python .typeError)

/-- `parse` (dotenv.py:65-96) and what `dict` makes of its result (dotenv.py:33): a JSON document which counts as true is
taken as it is (dotenv.py:67-76), and everything else is read line by line. -/
def parse (text : Str) (comment : Char := '#') : Except Err (Dict Str) :=
  match Json.loads text with
  | some j => if j.truthy then ofJson j else parseLines comment [] (splitOn '\n' text)
  | none => parseLines comment [] (splitOn '\n' text)

end Dotenv

/-- What the commands see of the world: the working directory and the files. -/
structure Files where
  cwd : Str
  contents : Str → Option Str

namespace Files

/-- `os.path.isfile` -/
def isFile (fs : Files) (p : Str) : Bool := (fs.contents p).isSome

/-- `dotenv(filename)` (dotenv.py:17-33) for a name which is not empty: a name which is not the name of a file is taken
as the contents (dotenv.py:42-50). -/
def dotenv (fs : Files) (name : Str) : Except Dotenv.Err (Dict Str) := Dotenv.parse ((fs.contents name).getD name)

end Files

namespace Credentials

/-- what `DbCredentials` offers (db_credentials.py:3-32) -/
structure Creds where
  host : Str
  database : Str
  user : Str
  password : Str
  deriving DecidableEq, Repr

/-- the first loop (db_credentials.py:17-19) -/
def missingKey (config : Dict Str) : Option Str :=
  [py"hostname_key", py"username_key", py"password_key", py"database_key"].find? (fun k => !config.has k)

/-- one round of the second loop (db_credentials.py:23-29) -/
def fetch (config env : Dict Str) (key val : Str) : Except PyErr Str :=
  match config.get? key with
  | none => .error (.keyError key)
  | some name =>
    match env.get? name with
    | none => .error (.valueError (py"Failed to fulfill " ++ val ++ py": key " ++ name ++ py" not found in .env"))
    | some v => .ok v

/-- `DbCredentials(env, config)` (db_credentials.py:8-29), for dictionaries -/
def new (env config : Dict Str) : Except PyErr Creds :=
  match missingKey config with
  | some k => .error (.valueError (py"Cannot find required key " ++ k ++ py" in mygrate.conf"))
  | none =>
    match fetch config env py"hostname_key" py"host" with
    | .error e => .error e
    | .ok h =>
      match fetch config env py"database_key" py"database" with
      | .error e => .error e
      | .ok d =>
        match fetch config env py"username_key" py"user" with
        | .error e => .error e
        | .ok u =>
          match fetch config env py"password_key" py"password" with
          | .error e => .error e
          | .ok p => .ok { host := h, database := d, user := u, password := p }

end Credentials

namespace Config

/-- the candidates of the search (base.py:82-83), for `ndirectories = n`, from `i` on -/
def candidates (directories : List Str) (filename : Str) : List Str :=
  (List.range directories.length).map (fun i =>
    py"/" ++ join py"/" (directories.take (directories.length - i)) ++ py"/" ++ filename)

/-- `_resolve_and_check_config_file_path` (base.py:65-87) -/
def resolve (fs : Files) (filePath : Str) : Except PyErr Str :=
  match filePath with
  | [] => .error (.valueError py"Missing path to configuration file")
  | '/' :: _ =>
    if fs.isFile filePath then .ok filePath
    else .error (.valueError (py"Specified configuration file '" ++ filePath ++ py"' does not exist"))
  | _ =>
    let parts := splitOn '/' (stripChars (· == '/') (fs.cwd ++ py"/" ++ filePath))
    match (candidates parts.dropLast (parts.getLast?.getD [])).find? fs.isFile with
    | some p => .ok p
    | none => .error (.valueError (py"Could not find configuration file '" ++ filePath ++ py"' in current directory or parents"))

/-- `os.path.dirname` of an absolute path: what is before the last slash, without trailing slashes unless it is nothing
but slashes -/
def dirname (p : Str) : Str :=
  let head := (p.reverse.dropWhile (· ≠ '/')).reverse
  if head.all (· = '/') then head else (head.reverse.dropWhile (· = '/')).reverse

/-- `_relative_to_config_abs_path` (base.py:89-99) -/
def relativeTo (relative config : Str) : Except PyErr Str :=
  match relative with
  | [] => .error .indexError
  | '/' :: _ => .ok relative
  | _ => .ok (dirname config ++ py"/" ++ relative)

/-- `_load_config` (base.py:28-60) with `options['config'] = path` -/
def load (fs : Files) (path : Str) : Except Dotenv.Err (Dict Str) :=
  match resolve fs path with
  | .error e => .error (.python e)
  | .ok abs =>
    match fs.dotenv abs with
    | .error e => .error e
    | .ok config =>
      match config.get? py"files_directory" with
      | none => .error (.python (.valueError py"Configuration file is missing 'files_directory' configuration, which should point to the directory containing your *.sql files"))
      | some fd =>
        match relativeTo fd abs with
        | .error e => .error (.python e)
        | .ok fd' =>
          let config := config.set py"files_directory" fd'
          match config.get? py"env_file" with
          | none => .error (.python (.valueError py"Configuration file is missing 'env_file' configuration, which should point to the .env file for your application (so mygrations can fetch database credentials"))
          | some ef =>
            match relativeTo ef abs with
            | .error e => .error (.python e)
            | .ok ef' => .ok (config.set py"env_file" ef')

/-- `get_sql_files` (base.py:22-26) without `options['sql_files']` -/
def sqlFiles (fs : Files) (path : Str) : Except Dotenv.Err Str :=
  match load fs path with
  | .error e => .error e
  | .ok config =>
    match config.get? py"files_directory" with
    | none => .error (.python (.keyError py"files_directory"))
    | some d => .ok d

/-- the credentials of `get_driver` (base.py:13-20) without `options['driver']` and `options['connection']` -/
def credentials (fs : Files) (path : Str) : Except Dotenv.Err Credentials.Creds :=
  match load fs path with
  | .error e => .error e
  | .ok config =>
    match config.get? py"env_file" with
    | none => .error (.python (.keyError py"env_file"))
    | some p =>
      match fs.dotenv p with
      | .error e => .error e
      | .ok env =>
        match Credentials.new env config with
        | .error e => .error (.python e)
        | .ok c => .ok c

end Config

end Mygrations

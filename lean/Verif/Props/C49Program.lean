import Verif.Props.C74

/-!
# C49 for the program: what a run of `mygrate.py` does if the credentials cannot be found
-/

namespace Mygrations
open Dotenv Config

/-- the files on which the program works: the configuration file `dir/name` names the directory `sqlDir` and the file
`dotenvFile` -/
structure Located (m : Machine) (given dir name : Str) (conf : List EnvItem) (sqlDir dotenvFile : Str) : Prop where
  absolute : dir.head? = some '/'
  no_slash : dir.getLast? ≠ some '/'
  file : FileName name
  found : Found m.disk.toFiles given (dir ++ py"/" ++ name)
  conf_text : m.disk.contents (dir ++ py"/" ++ name) = some (envText conf)
  conf_ok : ∀ i ∈ conf, i.Ok
  files : lastValue (EnvItem.entries conf) py"files_directory" = some sqlDir
  dotenv : lastValue (EnvItem.entries conf) py"env_file" = some dotenvFile

theorem Located.dir_ok {m : Machine} {given dir name sqlDir dotenvFile : Str} {conf : List EnvItem}
    (h : Located m given dir name conf sqlDir dotenvFile) : dir.head? = some '/' ∧ ∀ c, dir.getLast? = some c → c ≠ '/' :=
  ⟨h.absolute, fun _ hc e => h.no_slash (e ▸ hc)⟩

theorem Located.sqlFiles {m : Machine} {given dir name sqlDir dotenvFile : Str} {conf : List EnvItem}
    (h : Located m given dir name conf sqlDir dotenvFile) : Config.sqlFiles m.disk.toFiles given = .ok (besides dir sqlDir) :=
  C74_directory_partial _ _ _ _ _ _ _ h.dir_ok h.file h.found h.conf_text h.conf_ok h.files h.dotenv

/-- `apply` and `plan` without credentials -/
theorem stopped [PyNum] {m : Machine} {given p : Str} {e : PyErr} {files : Database} {errs : List Str} (force : Bool)
    (hp : Config.sqlFiles m.disk.toFiles given = .ok p) (hd : ∀ {α : Type} (f : Server → Run α), Program.withDriver m given f = .raise e)
    (hread : FileDatabase.new (m.disk.process p) = .ok files) (herrs : files.errors.1 = .ok errs) :
    Program.main m { command := some py"apply", config := some given, force := force } = .raise e ∧
    (errs = [] ∨ force = true → Program.main m { command := some py"plan", config := some given, force := force } = .raise e) := by
  have hb : Program.build m given force = (if errs ≠ [] ∧ !force then .pure [] else .raise e) := by
    unfold Program.build Program.withFiles
    simp only [hp, hread, herrs, hd]
  have hr : ∀ {α β : Type} (f : α → Run β), Run.bind (.raise e) f = .raise e := fun _ => rfl
  constructor
  · have : Program.main m { command := some py"apply", config := some given, force := force } =
        Run.bind (Program.apply m given force) (fun o => .pure (if o.success then 0 else 1)) := rfl
    rw [this]
    unfold Program.apply
    simp only [hb, hd]
    split <;> rfl
  · intro hg
    have : Program.main m { command := some py"plan", config := some given, force := force } =
        Run.bind (Program.plan m given force) (fun o => .pure (if o.success then 0 else 1)) := rfl
    rw [this]
    unfold Program.plan
    rw [hb, if_neg (by rintro ⟨h1, h2⟩; rcases hg with h | h <;> simp_all)]
    rfl

theorem no_driver {m : Machine} {given : Str} {e : Dotenv.Err} (hc : Config.credentials m.disk.toFiles given = .error e) {α : Type}
    (f : Server → Run α) : Program.withDriver m given f = .raise e.toPy := by
  unfold Program.withDriver
  rw [hc]

/-- **C49**, for the program: if the `.env` file which the configuration names does not exist, `apply` sends nothing to any
server and ends with an error which names that file; so does `plan`, unless it stops before at the errors of the SQL files.
Missing: paths with line breaks, `=` or `:`, and SQL files on which the reader itself fails. -/
theorem C49_no_file_program_partial [PyNum] (m : Machine) (given dir name : Str) (conf : List EnvItem) (sqlDir dotenvFile : Str)
    (files : Database) (errs : List Str) (force : Bool) (h : Located m given dir name conf sqlDir dotenvFile)
    (hnone : m.disk.contents (besides dir dotenvFile) = none)
    (hplain : ∀ c ∈ besides dir dotenvFile, c ≠ '=' ∧ c ≠ ':' ∧ c ≠ '\n')
    (hread : FileDatabase.new (m.disk.process (besides dir sqlDir)) = .ok files) (herrs : files.errors.1 = .ok errs) :
    Program.main m { command := some py"apply", config := some given, force := force } =
      { events := [], result := .error (.syntaxError (besides dir dotenvFile)) } ∧
    (errs = [] ∨ force = true → Program.main m { command := some py"plan", config := some given, force := force } =
      { events := [], result := .error (.syntaxError (besides dir dotenvFile)) }) :=
  stopped force h.sqlFiles
    (no_driver (C49_no_file_partial _ _ _ _ _ _ _ h.dir_ok h.file h.found h.conf_text h.conf_ok h.files h.dotenv hnone hplain)) hread herrs

/-- **C49**, for the program: if a key of the four credentials is named by the configuration and missing in the `.env` file,
`apply` sends nothing to any server and ends with an error which names a key which is missing; so does `plan`, unless it stops
before at the errors of the SQL files.  Missing: SQL files on which the reader itself fails. -/
theorem C49_missing_program_partial [PyNum] (m : Machine) (given dir name : Str) (conf env : List EnvItem) (sqlDir dotenvFile : Str)
    (files : Database) (errs : List Str) (force : Bool) (h : Located m given dir name conf sqlDir dotenvFile)
    (henv : m.disk.contents (besides dir dotenvFile) = some (envText env)) (henvOk : ∀ i ∈ env, i.Ok)
    (kh ku kp kd : Str) (h1 : lastValue (EnvItem.entries conf) py"hostname_key" = some kh)
    (h2 : lastValue (EnvItem.entries conf) py"username_key" = some ku) (h3 : lastValue (EnvItem.entries conf) py"password_key" = some kp)
    (h4 : lastValue (EnvItem.entries conf) py"database_key" = some kd)
    (k : Str) (hk : k ∈ [kh, ku, kp, kd]) (hmiss : lastValue (EnvItem.entries env) k = none)
    (hread : FileDatabase.new (m.disk.process (besides dir sqlDir)) = .ok files) (herrs : files.errors.1 = .ok errs) :
    ∃ k' what, k' ∈ [kh, ku, kp, kd] ∧ lastValue (EnvItem.entries env) k' = none ∧
      Program.main m { command := some py"apply", config := some given, force := force } =
        { events := [], result := .error (.valueError (py"Failed to fulfill " ++ what ++ py": key " ++ k' ++ py" not found in .env")) } ∧
      (errs = [] ∨ force = true → Program.main m { command := some py"plan", config := some given, force := force } =
        { events := [], result := .error (.valueError (py"Failed to fulfill " ++ what ++ py": key " ++ k' ++ py" not found in .env")) }) := by
  have hget : ∀ key v, key ≠ py"files_directory" → key ≠ py"env_file" → lastValue (EnvItem.entries conf) key = some v →
      (Dict.set (Dict.set (conf.foldl add []) py"files_directory" (besides dir sqlDir)) py"env_file" (besides dir dotenvFile)).get? key = some v := by
    intro key v n1 n2 h
    rw [Dict.get?_set, if_neg (Ne.symm n2), Dict.get?_set, if_neg (Ne.symm n1), get_items]
    exact h
  have henv' : m.disk.toFiles.dotenv (besides dir dotenvFile) = .ok (env.foldl add []) := by
    unfold Files.dotenv
    rw [henv, Option.getD_some]
    exact parse_items _ henvOk
  have e1 := hget _ _ (by decide) (by decide) h1
  have e2 := hget _ _ (by decide) (by decide) h2
  have e3 := hget _ _ (by decide) (by decide) h3
  have e4 := hget _ _ (by decide) (by decide) h4
  obtain ⟨k', what, hk', hm', hnew⟩ := (C49_missing (env.foldl add [])
    (Dict.set (Dict.set (conf.foldl add []) py"files_directory" (besides dir sqlDir)) py"env_file" (besides dir dotenvFile))).2
    kh ku kp kd e1 e2 e3 e4 k hk ((get_items env k).trans hmiss)
  have hc : Config.credentials m.disk.toFiles given =
      .error (.python (.valueError (py"Failed to fulfill " ++ what ++ py": key " ++ k' ++ py" not found in .env"))) := by
    unfold Config.credentials
    rw [load_items h.dir_ok h.file h.found h.conf_text h.conf_ok h.files h.dotenv]
    simp only [Dict.get?_set _ py"env_file" _ py"env_file", if_true, henv', hnew]
  exact ⟨k', what, hk', (get_items env k').symm.trans hm', stopped force h.sqlFiles (no_driver hc) hread herrs⟩

/-- **C49**, for the program: the credentials which are used are those of the files, and if no connection can be made with them,
`apply` ends with the error of the connection and sends nothing; so does `plan`, unless it stops before at the errors of the SQL
files.  Missing: SQL files on which the reader itself fails. -/
theorem C49_refused_program_partial [PyNum] (m : Machine) (given dir name : Str) (conf env : List EnvItem) (sqlDir dotenvFile : Str)
    (c : Credentials.Creds) (e : PyErr) (files : Database) (errs : List Str) (force : Bool)
    (h : Configured m given dir name conf env sqlDir dotenvFile c) (hs : m.connect c = .error e)
    (hread : FileDatabase.new (m.disk.process (besides dir sqlDir)) = .ok files) (herrs : files.errors.1 = .ok errs) :
    Program.main m { command := some py"apply", config := some given, force := force } = { events := [], result := .error e } ∧
    (errs = [] ∨ force = true → Program.main m { command := some py"plan", config := some given, force := force } =
      { events := [], result := .error e }) := by
  have hd : dir.head? = some '/' ∧ ∀ c, dir.getLast? = some c → c ≠ '/' := ⟨h.absolute, fun c hc e => h.no_slash (e ▸ hc)⟩
  obtain ⟨k1, a1, b1⟩ := h.host
  obtain ⟨k2, a2, b2⟩ := h.database
  obtain ⟨k3, a3, b3⟩ := h.user
  obtain ⟨k4, a4, b4⟩ := h.password
  have h1 := C74_directory_partial _ _ _ _ _ _ _ hd h.file h.found h.conf_text h.conf_ok h.files h.dotenv
  have h2 := C49_files_partial _ _ _ _ _ _ _ _ k1 k2 k3 k4 c hd h.file h.found h.conf_text h.conf_ok
    h.files h.dotenv h.env_text h.env_ok a1 b1 a2 b2 a3 b3 a4 b4
  refine stopped force h1 (fun f => ?_) hread herrs
  unfold Program.withDriver
  simp only [h2, hs]

/-! ## Examples -/

section Examples
attribute [local instance] exactNum
open Examples

/-- the machine with another `.env` file, or none -/
def withEnv (m : Machine) (text : Option Str) : Machine :=
  { m with disk := { m.disk with contents := fun p => if p = py"/srv/.env" then text else m.disk.contents p } }

theorem withEnv_located (text : Option Str) : Located (withEnv (machineAt py"/srv" listing) text) py"mygrate.conf" py"/srv" py"mygrate.conf"
    (confEntries.map plainEntry) py"database" py".env" where
  absolute := rfl
  no_slash := by decide
  file := ⟨by decide, by decide⟩
  found := .nearest (dirs := [py"srv", py"src"]) (by rfl) (by simp only [FileName]; decide) ⟨by decide, by decide⟩ (by decide)
    ⟨1, by decide, by rfl, by rfl, by simp [withEnv, machineAt, pathIn, join, Files.isFile]⟩ (by decide)
  conf_text := by rfl
  conf_ok := plainEntry_ok (by decide)
  files := by decide
  dotenv := by decide

theorem withEnv_text (text : Option Str) : (withEnv (machineAt py"/srv" listing) text).disk.contents (besides py"/srv" py".env") = text := by
  have h : besides py"/srv" py".env" = py"/srv/.env" := by decide
  rw [h]
  simp [withEnv]

/-- the SQL files are read, without an error -/
theorem withEnv_files (text : Option Str) : ∃ files, FileDatabase.new ((withEnv (machineAt py"/srv" listing) text).disk.process
    (besides py"/srv" py"database")) = .ok files ∧ files.errors.1 = .ok [] := by
  have h : (withEnv (machineAt py"/srv" listing) text).disk.process (besides py"/srv" py"database") = exSources := by rfl
  rw [h]
  have key : (match FileDatabase.new exSources with | .ok f => (match f.errors.1 with | .ok l => l.isEmpty | .error _ => false) | .error _ => false) = true := by
    decide +kernel
  cases hf : FileDatabase.new exSources with
  | error e => rw [hf] at key; cases key
  | ok f =>
    refine ⟨f, rfl, ?_⟩
    rw [hf] at key
    cases he : f.errors.1 with
    | error e => simp only [he] at key; cases key
    | ok l => simp only [he, List.isEmpty_iff] at key; rw [key]

/-- there is no `.env` file -/
example : Program.main (withEnv (machineAt py"/srv" listing) none) { command := some py"apply", config := some py"mygrate.conf" } =
    { events := [], result := .error (.syntaxError py"/srv/.env") } := by
  obtain ⟨files, h1, h2⟩ := withEnv_files none
  exact (C49_no_file_program_partial _ _ _ _ _ _ _ _ _ false (withEnv_located none) (by decide) (by decide) h1 h2).1

/-- the password is missing in the `.env` file -/
example : ∃ k' what, Program.main (withEnv (machineAt py"/srv" listing) (some (envText ((envEntries.take 3).map plainEntry))))
    { command := some py"plan", config := some py"mygrate.conf" } =
      { events := [], result := .error (.valueError (py"Failed to fulfill " ++ what ++ py": key " ++ k' ++ py" not found in .env")) } := by
  obtain ⟨files, h1, h2⟩ := withEnv_files (some (envText ((envEntries.take 3).map plainEntry)))
  obtain ⟨k', what, _, _, _, h⟩ := C49_missing_program_partial _ _ _ _ _ ((envEntries.take 3).map plainEntry) _ _ files [] false
    (withEnv_located _) (withEnv_text _) (plainEntry_ok (by decide)) py"H" py"U" py"P" py"D"
    (by decide) (by decide) (by decide) (by decide) py"P" (by decide) (by decide) h1 h2
  exact ⟨k', what, h (Or.inl rfl)⟩

/-- a machine whose server lets nobody in -/
def refusing (m : Machine) : Machine := { m with connect := fun _ => .error (.valueError py"Access denied") }

theorem refusing_configured : Configured (refusing (machineAt py"/srv" listing)) py"mygrate.conf" py"/srv" py"mygrate.conf"
    (confEntries.map plainEntry) (envEntries.map plainEntry) py"database" py".env"
    { host := py"db.local", database := py"shop", user := py"me", password := py"secret" } :=
  { machineAt_configured py"/srv" (by decide) (by decide) (srv_found listing) with }

example : Program.main (refusing (machineAt py"/srv" listing)) { command := some py"apply", config := some py"mygrate.conf" } =
    { events := [], result := .error (.valueError py"Access denied") } := by
  obtain ⟨files, h1, h2⟩ := withEnv_files ((machineAt py"/srv" listing).disk.contents py"/srv/.env")
  exact (C49_refused_program_partial _ _ _ _ _ _ _ _ _ _ _ _ false refusing_configured rfl h1 h2).1

end Examples

end Mygrations

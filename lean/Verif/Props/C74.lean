import Verif.Model.Main
import Verif.Props.C48
import Verif.Proofs.Kept
import Verif.Props.C45

/-!
# C74: the SQL files of the configured directory are read; C75: a directory which does not exist is reported

`Program.main m args` is a run of `mygrate.py` with the command line `args` on the machine `m`.
-/

namespace Mygrations
open Dotenv Config Glob

/-! ## Specification -/

/-- the name of a file with SQL: it ends in `.sql` and is not hidden -/
def SqlName (name : Str) : Prop := py".sql" <:+ name ∧ ∀ rest, name ≠ '.' :: rest

instance (name : Str) : Decidable (SqlName name) :=
  decidable_of_iff (py".sql" <:+ name ∧ name.head? ≠ some '.') (by
    unfold SqlName
    cases name with
    | nil => simp
    | cons c cs =>
      simp only [List.head?_cons, ne_eq, Option.some.injEq, List.cons.injEq, not_and, forall_eq', and_congr_right_iff]
      exact fun _ => ⟨fun h rest hc => absurd hc h, fun h hc => h cs hc rfl⟩)

/-- a path without the characters which `glob` treats specially -/
def PlainPath (p : Str) : Prop := ∀ c ∈ p, c ≠ '*' ∧ c ≠ '?' ∧ c ≠ '['

/-- the texts of the SQL files of a directory, given by the names in it -/
def sqlTexts (disk : Disk) (dir : Str) (names : List Str) : List Str :=
  (names.filter (fun n => decide (SqlName n))).map (fun n => (disk.contents (dir ++ py"/" ++ n)).getD (dir ++ py"/" ++ n))

/-- The configuration `given` of the machine: the file `dir/name`, made of the lines `conf`, says that the SQL files are in
`sqlDir` and that the credentials are in the file `dotenvFile`, which is made of the lines `env`. -/
structure Configured (m : Machine) (given dir name : Str) (conf env : List EnvItem) (sqlDir dotenvFile : Str) (c : Credentials.Creds) : Prop where
  absolute : dir.head? = some '/'
  no_slash : dir.getLast? ≠ some '/'
  file : FileName name
  found : Found m.disk.toFiles given (dir ++ py"/" ++ name)
  conf_text : m.disk.contents (dir ++ py"/" ++ name) = some (envText conf)
  conf_ok : ∀ i ∈ conf, i.Ok
  files : lastValue (EnvItem.entries conf) py"files_directory" = some sqlDir
  dotenv : lastValue (EnvItem.entries conf) py"env_file" = some dotenvFile
  env_text : m.disk.contents (besides dir dotenvFile) = some (envText env)
  env_ok : ∀ i ∈ env, i.Ok
  host : ∃ k, lastValue (EnvItem.entries conf) py"hostname_key" = some k ∧ lastValue (EnvItem.entries env) k = some c.host
  database : ∃ k, lastValue (EnvItem.entries conf) py"database_key" = some k ∧ lastValue (EnvItem.entries env) k = some c.database
  user : ∃ k, lastValue (EnvItem.entries conf) py"username_key" = some k ∧ lastValue (EnvItem.entries env) k = some c.user
  password : ∃ k, lastValue (EnvItem.entries conf) py"password_key" = some k ∧ lastValue (EnvItem.entries env) k = some c.password

/-- the name of a directory without the slash at its end -/
def bareDir (p : Str) : Str := if p.getLast? = some '/' then p.dropLast else p

/-! ## Proofs -/

theorem mem_tails {s x : Str} : x ∈ tails s ↔ x <:+ s := by
  induction s with
  | nil => simp [tails]
  | cons c cs ih => rw [tails, List.mem_cons, ih, List.suffix_cons_iff]

theorem matches_sql (s : Str) : matches? [.lit '.', .lit 's', .lit 'q', .lit 'l'] s = true ↔ s = py".sql" := by
  constructor
  · intro h
    match s, h with
    | [], h => cases h
    | [a], h => simp [matches?] at h
    | [a, b], h => simp [matches?] at h
    | [a, b, c], h => simp [matches?] at h
    | [a, b, c, d], h =>
      simp only [matches?, Bool.and_eq_true, beq_iff_eq] at h
      rw [h.1, h.2.1, h.2.2.1, h.2.2.2.1]
    | a :: b :: c :: d :: e :: r, h => simp [matches?] at h
  · rintro rfl
    rfl

theorem fnmatch_sql (n : Str) : fnmatch n py"*.sql" = true ↔ py".sql" <:+ n := by
  have : translate (py"*.sql").length py"*.sql" = [.star, .lit '.', .lit 's', .lit 'q', .lit 'l'] := rfl
  unfold fnmatch
  rw [this]
  simp only [matches?.eq_2, List.any_eq_true]
  constructor
  · rintro ⟨x, hx, hm⟩
    rw [matches_sql] at hm
    rw [← hm]
    exact mem_tails.mp hx
  · intro h
    exact ⟨_, mem_tails.mpr h, (matches_sql _).mpr rfl⟩

theorem hasMagic_plain {p : Str} (h : PlainPath p) : hasMagic p = false := by
  unfold hasMagic
  rw [List.any_eq_false]
  intro c hc
  obtain ⟨h1, h2, h3⟩ := h c hc
  simp [h1, h2, h3]

theorem splitPath_file {dir name : Str} (hd : dir ≠ []) (hl : dir.getLast? ≠ some '/') (hn : '/' ∉ name) :
    splitPath (dir ++ py"/" ++ name) = (dir, name) := by
  have h1 := dirname_file (dir := dir) (name := name) (fun c hc e => hl (by rw [hc, e])) hd hn
  have h2 : (List.takeWhile (fun x => decide (x ≠ '/')) (dir ++ py"/" ++ name).reverse).reverse = name := by
    rw [List.reverse_append, List.takeWhile_append_of_pos (fun x hx => by
      rw [List.mem_reverse] at hx
      rw [decide_eq_true_iff]
      exact fun e => hn (e ▸ hx))]
    rw [List.reverse_append]
    simp
  unfold splitPath
  unfold dirname at h1
  simp only at h1 ⊢
  rw [h1, h2]

theorem glob_directory {disk : Disk} {dir : Str} {names : List Str} (hd : dir ≠ []) (hl : dir.getLast? ≠ some '/') (hp : PlainPath dir)
    (hnames : disk.listdir dir = some names) :
    disk.glob (dir ++ py"/" ++ py"*.sql") = (names.filter (fun n => decide (SqlName n))).map (fun n => dir ++ py"/" ++ n) := by
  have hm : hasMagic (dir ++ py"/" ++ py"*.sql") = true := by
    unfold hasMagic
    rw [List.any_append]
    simp
  have hjoin : ∀ n, joinPath dir n = dir ++ py"/" ++ n := by
    intro n
    unfold joinPath
    rw [if_neg (fun h => h.elim hd hl)]
  unfold Disk.glob Disk.iglob
  rw [splitPath_file hd hl (by decide)]
  simp only [hm, Bool.not_true, Bool.false_eq_true, if_false, hd, hasMagic_plain hp, and_false, List.flatMap_cons, List.flatMap_nil, List.append_nil]
  rw [if_pos (show hasMagic py"*.sql" = true by decide)]
  unfold Disk.glob1
  rw [hnames, Option.getD_some]
  have hf : names.filter (fun n => (!false || disk.isDir (joinPath dir n)) && (hidden py"*.sql" || !hidden n) && fnmatch n py"*.sql") = names.filter (fun n => decide (SqlName n)) := by
    congr 1
    funext n
    rw [show hidden py"*.sql" = false by decide]
    simp only [Bool.not_false, Bool.true_or, Bool.true_and, Bool.false_or]
    rw [Bool.eq_iff_iff, Bool.and_eq_true, fnmatch_sql, decide_eq_true_iff]
    unfold hidden SqlName
    cases n with
    | nil => simp
    | cons c cs => simp [and_comm]
  rw [hf]
  exact List.map_congr_left (fun n _ => hjoin n)

theorem process_directory {disk : Disk} {p : Str} {names : List Str} (hd : bareDir p ≠ []) (hl : (bareDir p).getLast? ≠ some '/')
    (hp : PlainPath p) (hdir : disk.isDir p = true) (hnames : disk.listdir (bareDir p) = some names) :
    disk.process p = sqlTexts disk (bareDir p) names := by
  have hb : (if p.getLast? = some '/' then p else p ++ py"/") = bareDir p ++ py"/" := by
    unfold bareDir
    split
    · rename_i h
      obtain ⟨hne, hlast⟩ := List.getLast?_eq_some_iff.mp h
      rw [hlast, List.dropLast_concat]
    · rfl
  have hpb : PlainPath (bareDir p) := by
    unfold bareDir
    split
    · exact fun c hc => hp c (List.dropLast_subset p hc)
    · exact hp
  unfold Disk.process
  rw [if_pos hdir]
  simp only [hb]
  rw [glob_directory hd hl hpb hnames, List.map_map]
  rfl

/-! ## C74 -/

/-- **C74.**  What is read of a directory are the texts of the files in it whose names end in `.sql`, all of them and no
others, in the order of the listing.  Missing: paths with `*`, `?` or `[`. -/
theorem C74_listing_partial (disk : Disk) (p : Str) (names : List Str) (hd : bareDir p ≠ []) (hl : (bareDir p).getLast? ≠ some '/')
    (hp : PlainPath p) (hdir : disk.isDir p = true) (hnames : disk.listdir (bareDir p) = some names) :
    disk.process p = sqlTexts disk (bareDir p) names := process_directory hd hl hp hdir hnames

/-- what a string stands for: the texts of the SQL files of the directory of that name, the text of the file of that name, or
itself -/
inductive StandsFor (disk : Disk) : Str → List Str → Prop
  | directory {p : Str} {names : List Str} : bareDir p ≠ [] → (bareDir p).getLast? ≠ some '/' → PlainPath p → disk.isDir p = true →
      disk.listdir (bareDir p) = some names → StandsFor disk p (sqlTexts disk (bareDir p) names)
  | file {p text : Str} : disk.isDir p = false → disk.contents p = some text → StandsFor disk p [text]
  | sql {text : Str} : disk.isDir text = false → disk.contents text = none → StandsFor disk text [text]

/-- what several strings stand for -/
inductive AllStandFor (disk : Disk) : List Str → List Str → Prop
  | nil : AllStandFor disk [] []
  | cons {s : Str} {texts : List Str} {ss all : List Str} : StandsFor disk s texts → AllStandFor disk ss all → AllStandFor disk (s :: ss) (texts ++ all)

/-- **C74**, for the reader itself: given several strings, it reads what each of them stands for, a directory, a file or SQL,
all of them, in their order.  Missing: paths with `*`, `?` or `[`. -/
theorem C74_strings_partial [PyNum] (disk : Disk) (strings texts : List Str) (h : AllStandFor disk strings texts) :
    disk.database strings = FileDatabase.new texts := by
  have key : strings.flatMap disk.process = texts := by
    induction h with
    | nil => rfl
    | cons h _ ih =>
      rw [List.flatMap_cons, ih]
      congr 1
      cases h with
      | directory h1 h2 h3 h4 h5 => exact C74_listing_partial disk _ _ h1 h2 h3 h4 h5
      | file h1 h2 => unfold Disk.process Disk.unpack; rw [h1, h2]; rfl
      | sql h1 h2 => unfold Disk.process Disk.unpack; rw [h1, h2]; rfl
  unfold Disk.database
  rw [key]

theorem build_eq [PyNum] {m : Machine} {given : Str} {p : Str} {c : Credentials.Creds} {srv : Server} (force : Bool)
    (hp : Config.sqlFiles m.disk.toFiles given = .ok p) (hc : Config.credentials m.disk.toFiles given = .ok c) (hs : m.connect c = .ok srv) :
    Program.build m given force = Command.buildCommands srv (m.disk.process p) force := by
  unfold Program.build Program.withFiles Program.withDriver
  simp only [hp, hc, hs]
  cases hn : FileDatabase.new (m.disk.process p) with
  | error e => simp only [Command.buildCommands, hn]
  | ok files =>
    simp only
    cases he : files.errors with
    | mk r files' =>
      cases r with
      | error e => simp only [Command.buildCommands, hn, he]
      | ok errs =>
        simp only
        split
        · rename_i h
          simp only [Command.buildCommands, hn, he]
          rw [if_pos h]
        · rfl

theorem mygrate_eq [PyNum] {m : Machine} {given : Str} {p : Str} {c : Credentials.Creds} {srv : Server} (force version : Bool) (command : Str)
    (hp : Config.sqlFiles m.disk.toFiles given = .ok p) (hc : Config.credentials m.disk.toFiles given = .ok c) (hs : m.connect c = .ok srv) :
    Program.mygrate m given force version command = Command.mygrate srv (m.disk.process p) force version command := by
  have hb := build_eq force hp hc hs
  have hplan : Program.plan m given force = Command.plan srv (m.disk.process p) force := by
    unfold Program.plan Command.plan
    rw [hb]
  have happly : Program.apply m given force = Command.apply srv (m.disk.process p) force := by
    unfold Program.apply Command.apply Program.withDriver
    rw [hb]
    simp only [hc, hs]
  have hcheck : Program.check m given = Command.check (m.disk.process p) := by
    unfold Program.check Program.withFiles
    rw [hp]
  have hexec : ∀ cmd, Program.execute m given force cmd = Command.execute srv (m.disk.process p) force cmd := by
    intro cmd
    unfold Program.execute Command.execute
    rw [hplan, happly, hcheck]
    rfl
  unfold Program.mygrate Command.mygrate
  simp only [hexec]

/-- **C74.**  Every command of the program is that command for the texts of the SQL files of the directory which the
configuration names, and for the server which the credentials of the configuration lead to.  Missing: a path of that
directory with `*`, `?` or `[`. -/
theorem C74_partial [PyNum] (m : Machine) (given dir name : Str) (conf env : List EnvItem) (sqlDir dotenvFile : Str) (c : Credentials.Creds)
    (srv : Server) (names : List Str) (h : Configured m given dir name conf env sqlDir dotenvFile c) (hs : m.connect c = .ok srv)
    (hl : (bareDir (besides dir sqlDir)).getLast? ≠ some '/') (hne : bareDir (besides dir sqlDir) ≠ []) (hp : PlainPath (besides dir sqlDir))
    (hdir : m.disk.isDir (besides dir sqlDir) = true) (hnames : m.disk.listdir (bareDir (besides dir sqlDir)) = some names)
    (command : Str) (hc : command ∈ [py"apply", py"check", py"plan", py"import", py"plan_export", py"version"]) (force version : Bool) :
    Program.main m { command := some command, config := some given, force := force, version := version } =
      Command.mygrate srv (sqlTexts m.disk (bareDir (besides dir sqlDir)) names) force version command := by
  have h1 := C74_directory_partial _ _ _ _ _ _ _ ⟨h.absolute, fun c hc e => h.no_slash (e ▸ hc)⟩ h.file h.found h.conf_text h.conf_ok h.files h.dotenv
  obtain ⟨k1, a1, b1⟩ := h.host
  obtain ⟨k2, a2, b2⟩ := h.database
  obtain ⟨k3, a3, b3⟩ := h.user
  obtain ⟨k4, a4, b4⟩ := h.password
  have h2 := C49_files_partial _ _ _ _ _ _ _ _ k1 k2 k3 k4 c ⟨h.absolute, fun c hc e => h.no_slash (e ▸ hc)⟩ h.file h.found h.conf_text h.conf_ok
    h.files h.dotenv h.env_text h.env_ok a1 b1 a2 b2 a3 b3 a4 b4
  unfold Program.main
  simp only [Option.getD_some]
  rw [if_pos (by
    simp only [List.mem_cons, List.not_mem_nil, or_false] at hc
    rcases hc with rfl | rfl | rfl | rfl | rfl | rfl <;> decide)]
  rw [mygrate_eq force version command h1 h2 hs, process_directory hne hl hp hdir hnames]

/-- **C74.**  `mygrate.conf` is the configuration if none is given. -/
theorem C74_default_config [PyNum] (m : Machine) (command : Option Str) (force version : Bool) :
    Program.main m { command := command, config := none, force := force, version := version } =
    Program.main m { command := command, config := some py"mygrate.conf", force := force, version := version } := rfl

/-- **C50 is false**: without a command, the program fails whatever the machine is. -/
theorem C50_default_refuted [PyNum] (m : Machine) (config : Option Str) (force : Bool) :
    ∃ e, Program.main m { command := none, config := config, force := force } = .raise (.importError e) := ⟨_, rfl⟩

/-! ## C75 -/

theorem read_path {p : Str} (hp : p.head? = some '/') (hs : ∀ rest, p ≠ '/' :: '*' :: rest) :
    readSource p = ({ globalErrors := [py"Unrecognized MySQL command: " ++ strip p] }, none) := by
  obtain ⟨xs, rfl⟩ : ∃ xs, p = '/' :: xs := by
    cases p with
    | nil => cases hp
    | cons x xs => exact ⟨xs, by rw [Option.some.inj hp]⟩
  have hstrip : strip ('/' :: xs) = '/' :: rstrip xs := by
    rw [strip_cons_char (by decide), rstrip_cons, if_neg (fun h => absurd h.2 (by decide))]
  have hlow : ∀ (t w : Str) (d : Char), lower ('/' :: t) = d :: w → d = '/' := by
    intro t w d h
    have : lower ('/' :: t) = '/' :: lower t := rfl
    rw [this] at h
    exact (List.cons.inj h).1.symm
  unfold readSource
  rw [show (10000 : Nat) = 9999 + 1 from rfl, readLoop_unknown 9999 {} hstrip (by simp) ?_ ?_ ?_]
  · rw [hstrip]; rfl
  · have hstar : (rstrip xs).head? ≠ some '*' := by
      intro e
      cases xs with
      | nil => cases e
      | cons y ys =>
        rw [rstrip_cons] at e
        split at e
        · cases e
        · rw [List.head?_cons, Option.some.injEq] at e
          exact hs ys (by rw [e])
    cases hr : rstrip xs with
    | nil => decide
    | cons y ys =>
      rw [hr] at hstar
      have hy : y ≠ '*' := fun e => hstar (by rw [e]; rfl)
      simp [startsComment, hy]
  · intro e; exact absurd (hlow _ _ _ e) (by decide)
  · intro e; exact absurd (hlow _ _ _ e) (by decide)

theorem new_path [PyNum] {p : Str} (hp : p.head? = some '/') (hs : ∀ rest, p ≠ '/' :: '*' :: rest) :
    FileDatabase.new [p] = .ok { globalErrors := [py"Unrecognized MySQL command: " ++ strip p] } := by
  unfold FileDatabase.new FileDatabase.readAll FileDatabase.read
  rw [read_path hp hs]
  rfl

theorem faulty_path [PyNum] {p : Str} (hp : p.head? = some '/') (hs : ∀ rest, p ≠ '/' :: '*' :: rest) : Faulty [p] := by
  exact ⟨{ globalErrors := [py"Unrecognized MySQL command: " ++ strip p] }, [py"Unrecognized MySQL command: " ++ strip p], new_path hp hs, rfl, by simp⟩

/-- **C75.**  If there is nothing where the configuration says that the SQL files are, `check` fails, `plan` and `apply`
send no statement to the server.  Missing: a path which starts with `/*`. -/
theorem C75_partial [PyNum] (m : Machine) (given dir name : Str) (conf : List EnvItem) (dotenvFile sqlDir : Str)
    (hdir : dir.head? = some '/' ∧ ∀ c, dir.getLast? = some c → c ≠ '/') (hname : FileName name)
    (hfound : Found m.disk.toFiles given (dir ++ py"/" ++ name))
    (hconf : m.disk.contents (dir ++ py"/" ++ name) = some (envText conf)) (hconfOk : ∀ i ∈ conf, i.Ok)
    (hsql : lastValue (EnvItem.entries conf) py"files_directory" = some sqlDir)
    (hfile : lastValue (EnvItem.entries conf) py"env_file" = some dotenvFile)
    (hnodir : m.disk.listdir (besides dir sqlDir) = none) (hnofile : m.disk.contents (besides dir sqlDir) = none)
    (hstar : ∀ rest, besides dir sqlDir ≠ '/' :: '*' :: rest) (version : Bool) (hv : version = false) :
    (Program.main m { command := some py"check", config := some given, version := version }).result = .ok 1 ∧
    (Program.main m { command := some py"check", config := some given, version := version }).events = [] ∧
    (Program.main m { command := some py"plan", config := some given, version := version }).events = [] ∧
    (∀ e ∈ (Program.main m { command := some py"apply", config := some given, version := version }).events, e = .committed) := by
  subst hv
  have hd := C74_directory_partial _ _ _ _ _ _ _ hdir hname hfound hconf hconfOk hsql hfile
  have hhead : (besides dir sqlDir).head? = some '/' := by
    unfold besides
    split
    · assumption
    · cases dir with
      | nil => cases hdir.1
      | cons x xs => exact hdir.1
  have hproc : m.disk.process (besides dir sqlDir) = [besides dir sqlDir] := by
    unfold Disk.process Disk.isDir Disk.unpack
    rw [hnodir, hnofile]
    rfl
  have hfaulty : Faulty (m.disk.process (besides dir sqlDir)) := hproc ▸ faulty_path hhead hstar
  have hwith : ∀ {α : Type} (f : List Str → Run α), Program.withFiles m given f = f (m.disk.process (besides dir sqlDir)) := by
    intro α f
    unfold Program.withFiles
    rw [hd]
  have hcheck : Program.main m { command := some py"check", config := some given } =
      Run.bind (Program.check m given) (fun o => .pure (if o.success then 0 else 1)) := rfl
  have hplan : Program.main m { command := some py"plan", config := some given } =
      Run.bind (Program.plan m given false) (fun o => .pure (if o.success then 0 else 1)) := rfl
  have happly : Program.main m { command := some py"apply", config := some given } =
      Run.bind (Program.apply m given false) (fun o => .pure (if o.success then 0 else 1)) := rfl
  obtain ⟨files, errs, h1, h2, h3⟩ := hfaulty
  have hnone : files.tables = [] := by
    rw [hproc, new_path hhead hstar] at h1
    cases h1
    rfl
  have hb : Program.build m given false = .pure [] := by
    unfold Program.build
    rw [hwith]
    simp only [h1, h2]
    rw [if_pos ⟨h3, rfl⟩]
  rw [hcheck, hplan, happly]
  have hc : Program.check m given = .pure ⟨py"Errors found in *.sql files:" :: errs, false⟩ := by
    unfold Program.check
    rw [hwith]
    rcases hd : files.errors with ⟨r, files'⟩
    have ht := Database.errors_tables files
    rw [hd] at h2 ht
    simp only at h2 ht
    subst h2
    rw [check_of (problems_of h1 hd (warns := [] ++ Database.rowParsingWarnings files'.rows ++ []) (by
      unfold Database.warnings Database.schemaWarnings
      rw [ht, hnone]
      rfl))]
    unfold Command.headed
    rw [if_neg h3]
    cases errs with
    | nil => exact absurd rfl h3
    | cons _ _ => rfl
  refine ⟨?_, ?_, ?_, ?_⟩
  · rw [hc]; rfl
  · rw [hc]; rfl
  · unfold Program.plan
    rw [hb]; rfl
  · unfold Program.apply
    rw [hb]
    have : Run.bind (Run.pure ([] : List Op)) (fun ops => Program.withDriver m given fun srv =>
        Run.bind (Driver.execute srv (ops.map Op.render)) fun _ => .pure (⟨ops.map Op.render, true⟩ : Command.Outcome)) =
        Program.withDriver m given fun srv => Run.bind (Driver.execute srv []) fun _ => .pure ⟨[], true⟩ := rfl
    rw [this]
    unfold Program.withDriver
    split
    · intro e he; cases he
    · split
      · intro e he; cases he
      · intro e he
        simpa [Run.bind, Run.pure, Driver.execute, Driver.sendAll] using he

theorem afterClose_open {s : Str} (h : ¬ py"*/" <:+: s) : afterClose s = none := by
  induction s with
  | nil => rfl
  | cons c cs ih =>
    have hcs : ¬ py"*/" <:+: cs := fun e => h (e.trans (List.suffix_cons c cs).isInfix)
    unfold afterClose
    split
    · rfl
    · rename_i heq
      injection heq with h1 h2
      subst h1 h2
      exact absurd ⟨[], _, rfl⟩ h
    · rename_i heq
      injection heq with h1 h2
      subst h1 h2
      exact ih hcs

theorem loop_open {data : Str} (hs : strip data = data) (h2 : data.take 2 = py"/*") (hno : ¬ py"*/" <:+: data) : ∀ (n : Nat) (st : ReaderState),
    readLoop n st data = (st, some (.valueError py"Exceeded max parse depth"))
  | 0, st => readLoop_zero st (fun e => by rw [e] at h2; cases h2)
  | n + 1, st => by
    have hne : data ≠ [] := fun e => by rw [e] at h2; cases h2
    have hpc : parseComment data = data := by
      unfold parseComment
      simp only [hs, h2, afterClose_open hno]
      rw [if_neg]
      rintro (e | e)
      · cases data with
        | nil => exact hne rfl
        | cons x xs =>
          rw [List.head?_cons, Option.some.injEq] at e
          subst e
          cases xs <;> cases h2
      · exact absurd e (by decide)
    rw [readLoop_comment n st hs hne (by simp [startsComment, h2]), hpc]
    exact loop_open hs h2 hno n st

/-- **C75 is false** for a path which starts with `/*`: it is taken for a comment without an end, and nothing is
reported. -/
theorem C75_refuted [PyNum] (p : Str) (hs : strip p = p) (h2 : p.take 2 = py"/*") (hno : ¬ py"*/" <:+: p) :
    FileDatabase.new [p] = .ok {} ∧ ¬ Faulty [p] := by
  have hn : FileDatabase.new [p] = .ok {} := by
    unfold FileDatabase.new FileDatabase.readAll FileDatabase.read readSource
    rw [loop_open hs h2 hno]
    rfl
  refine ⟨hn, ?_⟩
  rintro ⟨files, errs, h1, h2, h3⟩
  rw [hn] at h1
  cases h1
  have : ({} : Database).errors.1 = .ok [] := rfl
  rw [this] at h2
  cases h2
  exact h3 rfl

/-! ## Examples -/

section Examples
attribute [local instance] exactNum
open Examples

/-- a machine whose project is in the directory `root` -/
def machineAt (root : Str) (names : List Str) : Machine where
  disk :=
    { cwd := root ++ py"/src"
      contents := fun p =>
        if p = root ++ py"/mygrate.conf" then some (envText (confEntries.map plainEntry))
        else if p = root ++ py"/.env" then some (envText (envEntries.map plainEntry))
        else if p = root ++ py"/database/roles.sql" then exSources[0]?
        else if p = root ++ py"/database/users.sql" then exSources[1]?
        else if p = root ++ py"/database/users.sql~" ∨ p = root ++ py"/database/.old.sql" then some py"CREATE TABLE old (id INT);"
        else none
      listdir := fun p =>
        if p = root ++ py"/database" ∨ p = root ++ py"/database/" then some names
        else if p = root then some [py"database", py"src", py"mygrate.conf", py".env"] else none }
  connect c := if c.host = py"db.local" ∧ c.user = py"me" then .ok (exServer fun _ _ => none) else .error (.valueError py"Access denied")

/-- the names in the directory -/
def listing : List Str := [py"users.sql~", py"roles.sql", py".old.sql", py"users.sql"]

theorem machineAt_configured (root : Str) (h1 : root.head? = some '/') (h2 : root.getLast? ≠ some '/')
    (hfound : Found (machineAt root listing).disk.toFiles py"mygrate.conf" (root ++ py"/mygrate.conf")) :
    Configured (machineAt root listing) py"mygrate.conf" root py"mygrate.conf" (confEntries.map plainEntry) (envEntries.map plainEntry)
      py"database" py".env" { host := py"db.local", database := py"shop", user := py"me", password := py"secret" } where
  absolute := h1
  no_slash := h2
  file := ⟨by decide, by decide⟩
  found := by rw [List.append_assoc]; exact hfound
  conf_text := by rw [List.append_assoc]; exact if_pos rfl
  conf_ok := plainEntry_ok (by decide)
  files := by decide
  dotenv := by decide
  env_text := by
    have : besides root py".env" = root ++ py"/.env" := by rw [besides, if_neg (by decide), List.append_assoc]; rfl
    rw [this]
    refine (if_neg ?_).trans (if_pos rfl)
    intro e
    exact absurd (List.append_cancel_left e) (by decide)
  env_ok := plainEntry_ok (by decide)
  host := ⟨py"H", by decide, by decide⟩
  database := ⟨py"D", by decide, by decide⟩
  user := ⟨py"U", by decide, by decide⟩
  password := ⟨py"P", by decide, by decide⟩

/-- a directory, a file and SQL -/
example : AllStandFor (machineAt py"/srv" listing).disk [py"/srv/database/", py"/srv/database/.old.sql", py"CREATE TABLE t (id INT);"]
    (sqlTexts (machineAt py"/srv" listing).disk py"/srv/database" listing ++ ([py"CREATE TABLE old (id INT);"] ++ ([py"CREATE TABLE t (id INT);"] ++ []))) :=
  .cons (.directory (p := py"/srv/database/") (by decide) (by decide) (by unfold PlainPath; decide) (by decide) (by decide)) (.cons (.file (by decide) (by decide)) (.cons (.sql (by decide) (by decide)) .nil))

theorem srv_found (n : List Str) : Found (machineAt py"/srv" n).disk.toFiles py"mygrate.conf" py"/srv/mygrate.conf" :=
  .nearest (dirs := [py"srv", py"src"]) (by rfl) (by simp only [FileName]; decide) ⟨by decide, by decide⟩ (by decide)
    ⟨1, by decide, by rfl, by rfl, by simp [machineAt, pathIn, join, Files.isFile]⟩ (by decide)

/-- the program reads `roles.sql` and `users.sql`, and nothing else -/
example : (Program.main (machineAt py"/srv" listing) { command := some py"apply", config := some py"mygrate.conf" }) =
    Command.mygrate (exServer fun _ _ => none) exSources false false py"apply" :=
  C74_partial (machineAt py"/srv" listing) _ _ _ _ _ _ _ _ (exServer fun _ _ => none) listing
    (machineAt_configured py"/srv" (by decide) (by decide) (srv_found listing)) rfl (by decide) (by decide) (by unfold PlainPath; decide) rfl rfl _ (by decide) false false

example : (Program.main (machineAt py"/srv" listing) { command := some py"apply" }).result = .ok 0 ∧
    (Program.main (machineAt py"/srv" listing) { command := some py"apply" }).events =
      [.sent py"SHOW TABLES", .sent py"SHOW CREATE TABLE logs", .sent py"SHOW CREATE TABLE roles", .sent py"SELECT * FROM roles"] ++
      exPlan.map .sent ++ [.committed] := by
  refine ⟨?_, ?_⟩ <;> decide +kernel

/-- the same machine without its directory -/
def emptied (m : Machine) : Machine := { m with disk := { m.disk with listdir := fun _ => none } }

example : (Program.main (emptied (machineAt py"/srv" listing)) { command := some py"check", config := some py"mygrate.conf" }).result = .ok 1 :=
  (C75_partial (emptied (machineAt py"/srv" listing)) py"mygrate.conf" py"/srv" py"mygrate.conf" (confEntries.map plainEntry) py".env" py"database"
    ⟨by decide, by simp⟩ ⟨by decide, by decide⟩ (srv_found listing) rfl (plainEntry_ok (by decide)) (by decide) (by decide) rfl (by decide)
    (by intro rest e; exact absurd (List.cons.inj (List.cons.inj e).2).1 (by decide)) false rfl).1

example : FileDatabase.new [py"/*/database"] ≠ .ok {} ∧ FileDatabase.new [py"/*db"] = .ok {} :=
  ⟨fun e => absurd (congrArg (fun r => r.toOption.map (fun d => d.globalErrors.length)) e) (by decide +kernel),
    (C75_refuted py"/*db" (by decide) (by decide) (by decide)).1⟩

/-- **C74 is false** for a project in the directory `/srv[1]`: none of the files is found, this is not reported, and every
table of the server is dropped. -/
theorem C74_refuted :
    sqlTexts (machineAt py"/srv[1]" listing).disk py"/srv[1]/database" listing = exSources ∧
    (machineAt py"/srv[1]" listing).disk.process py"/srv[1]/database" = [] ∧
    (Program.main (machineAt py"/srv[1]" listing) { command := some py"check" }).result = .ok 0 ∧
    (Program.plan (machineAt py"/srv[1]" listing) py"mygrate.conf" false).result =
      .ok ⟨[py"SET FOREIGN_KEY_CHECKS=0;", py"DROP TABLE logs;", py"DROP TABLE roles;", py"SET FOREIGN_KEY_CHECKS=1;"], true⟩ := by
  refine ⟨?_, ?_, ?_, ?_⟩ <;> decide +kernel

end Examples

end Mygrations

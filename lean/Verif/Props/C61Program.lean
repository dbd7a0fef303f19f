import Verif.Props.C49Program

/-!
# C61 and C59 for the program: the exit status of `mygrate.py` and the errors of the SQL files
-/

namespace Mygrations
open Dotenv Config

theorem withFiles_directory {m : Machine} {given dir name : Str} {conf : List EnvItem} {sqlDir dotenvFile : Str} {names : List Str}
    (h : Located m given dir name conf sqlDir dotenvFile)
    (hlast : (bareDir (besides dir sqlDir)).getLast? ≠ some '/') (hne : bareDir (besides dir sqlDir) ≠ []) (hplain : PlainPath (besides dir sqlDir))
    (hdir : m.disk.isDir (besides dir sqlDir) = true) (hnames : m.disk.listdir (bareDir (besides dir sqlDir)) = some names) {α : Type}
    (f : List Str → Run α) : Program.withFiles m given f = f (sqlTexts m.disk (bareDir (besides dir sqlDir)) names) := by
  unfold Program.withFiles
  rw [h.sqlFiles]
  simp only
  rw [process_directory hne hlast hplain hdir hnames]

/-- **C61**, for the program: if `mygrate.py check` comes to its end, its exit status is 0 exactly if the SQL files of the configured directory
have no errors, and it prints all errors.  No server and no `.env` file is needed.  Missing: as in `C74_partial`. -/
theorem C61_program_partial [PyNum] (m : Machine) (given dir name : Str) (conf : List EnvItem) (sqlDir dotenvFile : Str) (names : List Str)
    (h : Located m given dir name conf sqlDir dotenvFile)
    (hlast : (bareDir (besides dir sqlDir)).getLast? ≠ some '/') (hne : bareDir (besides dir sqlDir) ≠ []) (hplain : PlainPath (besides dir sqlDir))
    (hdir : m.disk.isDir (besides dir sqlDir) = true) (hnames : m.disk.listdir (bareDir (besides dir sqlDir)) = some names) (force : Bool)
    (n : Nat) (hn : (Program.main m { command := some py"check", config := some given, force := force }).result = .ok n) :
    (n = 0 ↔ ¬ Faulty (sqlTexts m.disk (bareDir (besides dir sqlDir)) names)) ∧
    ∃ o, (Program.check m given).result = .ok o ∧
      ∀ files errs, FileDatabase.new (sqlTexts m.disk (bareDir (besides dir sqlDir)) names) = .ok files → files.errors.1 = .ok errs →
        ∀ e ∈ errs, e ∈ o.output := by
  have hm : Program.main m { command := some py"check", config := some given, force := force } =
      Run.bind (Program.check m given) (fun o => .pure (if o.success then 0 else 1)) := rfl
  have hc : Program.check m given = Command.check (sqlTexts m.disk (bareDir (besides dir sqlDir)) names) :=
    withFiles_directory h hlast hne hplain hdir hnames _
  rw [hm, hc] at hn
  obtain ⟨o, ho, hn⟩ := Run.bind_result hn
  obtain ⟨h1, h2⟩ := C61 _ o ho
  refine ⟨?_, o, by rw [hc]; exact ho, h2⟩
  simp only [Run.pure, Except.ok.injEq] at hn
  subst hn
  rw [← h1]
  cases o.success <;> simp

/-- **C59 is false** of the program: if the SQL files of the configured directory have errors, `mygrate.py plan` exits with 0 and does not even
connect; and `mygrate.py apply` exits with 0 as well, if only it can connect, and commits. -/
theorem C59_program_refuted [PyNum] (m : Machine) (given dir name : Str) (conf : List EnvItem) (sqlDir dotenvFile : Str) (names : List Str)
    (h : Located m given dir name conf sqlDir dotenvFile)
    (hlast : (bareDir (besides dir sqlDir)).getLast? ≠ some '/') (hne : bareDir (besides dir sqlDir) ≠ []) (hplain : PlainPath (besides dir sqlDir))
    (hdir : m.disk.isDir (besides dir sqlDir) = true) (hnames : m.disk.listdir (bareDir (besides dir sqlDir)) = some names)
    (hbad : Faulty (sqlTexts m.disk (bareDir (besides dir sqlDir)) names)) :
    Program.main m { command := some py"plan", config := some given } = { events := [], result := .ok 0 } ∧
    ∀ c srv, Config.credentials m.disk.toFiles given = .ok c → m.connect c = .ok srv →
      Program.main m { command := some py"apply", config := some given } = { events := [.committed], result := .ok 0 } := by
  obtain ⟨files, errs, h1, h2, h3⟩ := hbad
  have hb : Program.build m given false = .pure [] := by
    unfold Program.build
    rw [withFiles_directory h hlast hne hplain hdir hnames]
    simp only [h1, h2]
    rw [if_pos ⟨h3, rfl⟩]
  have hp : Program.main m { command := some py"plan", config := some given } =
      Run.bind (Program.plan m given false) (fun o => .pure (if o.success then 0 else 1)) := rfl
  have ha : Program.main m { command := some py"apply", config := some given } =
      Run.bind (Program.apply m given false) (fun o => .pure (if o.success then 0 else 1)) := rfl
  constructor
  · rw [hp]
    unfold Program.plan
    rw [hb]
    rfl
  · intro c srv hc hs
    rw [ha]
    unfold Program.apply
    rw [hb]
    have : Run.bind (Run.pure ([] : List Op)) (fun ops => Program.withDriver m given fun srv =>
        Run.bind (Driver.execute srv (ops.map Op.render)) fun _ => .pure (⟨ops.map Op.render, true⟩ : Command.Outcome)) =
        Program.withDriver m given fun srv => Run.bind (Driver.execute srv []) fun _ => .pure ⟨[], true⟩ := rfl
    rw [this]
    unfold Program.withDriver
    simp only [hc, hs]
    rfl

/-! ## Examples -/

section Examples
attribute [local instance] exactNum
open Examples

/-- `check` without a `.env` file -/
example (n : Nat) (hn : (Program.main (withEnv (machineAt py"/srv" listing) none) { command := some py"check", config := some py"mygrate.conf" }).result = .ok n) :
    n = 0 ↔ ¬ Faulty exSources :=
  (C61_program_partial (withEnv (machineAt py"/srv" listing) none) _ _ _ _ _ _ listing (withEnv_located none) (by decide) (by decide)
    (by unfold PlainPath; decide) rfl rfl false n hn).1

example : (Program.main (withEnv (machineAt py"/srv" listing) none) { command := some py"check", config := some py"mygrate.conf" }).result = .ok 0 := by
  decide +kernel

/-- a machine whose only SQL file declares a table with a foreign key to a table which is missing -/
def faultyMachine : Machine where
  disk :=
    { cwd := py"/srv/src"
      contents := fun p =>
        if p = py"/srv/database/notes.sql" then
          some py"CREATE TABLE notes (id INT(10) NOT NULL, user_id INT(10), PRIMARY KEY (id), KEY by_user (user_id), CONSTRAINT notes_user FOREIGN KEY (user_id) REFERENCES users (id));"
        else (machineAt py"/srv" [py"notes.sql"]).disk.contents p
      listdir := (machineAt py"/srv" [py"notes.sql"]).disk.listdir }
  connect := (machineAt py"/srv" [py"notes.sql"]).connect

theorem faultyMachine_located : Located faultyMachine py"mygrate.conf" py"/srv" py"mygrate.conf" (confEntries.map plainEntry) py"database" py".env" where
  absolute := rfl
  no_slash := by decide
  file := ⟨by decide, by decide⟩
  found := .nearest (dirs := [py"srv", py"src"]) (by rfl) (by simp only [FileName]; decide) ⟨by decide, by decide⟩ (by decide)
    ⟨1, by decide, by rfl, by rfl, by simp [faultyMachine, machineAt, pathIn, join, Files.isFile]⟩ (by decide)
  conf_text := by rfl
  conf_ok := plainEntry_ok (by decide)
  files := by decide
  dotenv := by decide

theorem faultyMachine_faulty : Faulty (sqlTexts faultyMachine.disk py"/srv/database" [py"notes.sql"]) := by
  generalize hs : sqlTexts faultyMachine.disk py"/srv/database" [py"notes.sql"] = s
  have key : (match FileDatabase.new (sqlTexts faultyMachine.disk py"/srv/database" [py"notes.sql"]) with
      | .ok f => (match f.errors.1 with | .ok l => !l.isEmpty | .error _ => false) | .error _ => false) = true := by decide +kernel
  rw [hs] at key
  cases hf : FileDatabase.new s with
  | error e => rw [hf] at key; cases key
  | ok f =>
    rw [hf] at key
    cases he : f.errors.1 with
    | error e => simp only [he] at key; cases key
    | ok l =>
      refine ⟨f, l, hf, he, ?_⟩
      rintro rfl
      simp only [he] at key
      cases key

example : Program.main faultyMachine { command := some py"plan", config := some py"mygrate.conf" } = { events := [], result := .ok 0 } ∧
    Program.main faultyMachine { command := some py"apply", config := some py"mygrate.conf" } = { events := [.committed], result := .ok 0 } := by
  obtain ⟨h1, h2⟩ := C59_program_refuted faultyMachine _ _ _ _ _ _ [py"notes.sql"] faultyMachine_located (by decide) (by decide)
    (by unfold PlainPath; decide) rfl rfl faultyMachine_faulty
  exact ⟨h1, h2 { host := py"db.local", database := py"shop", user := py"me", password := py"secret" } (exServer fun _ _ => none)
    (by decide +kernel) rfl⟩

end Examples

end Mygrations

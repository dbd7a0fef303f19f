import Verif.Props.C70Program
import Verif.Props.C71

/-!
# C69 and C71 for the program: when `mygrate.py apply` exits with 0, and that it does after interrupted runs
-/

namespace Mygrations
open Dotenv Config Sql MySQL Mygration Table Command

/-- what a run of `apply` from the command line does, if its command ends well -/
theorem main_apply [PyNum] (m : Machine) (given : Str) (force : Bool) : Program.main m { command := some py"apply", config := some given, force := force } =
    Run.bind (Program.apply m given force) (fun o => .pure (if o.success then 0 else 1)) := rfl

/-- an `apply` which comes to its end has succeeded -/
theorem apply_success [PyNum] {srv : Server} {sources : List Str} {force : Bool} {o : Outcome} (h : (Command.apply srv sources force).result = .ok o) :
    o.success = true := by
  obtain ⟨hp, _⟩ := C46 srv _ force o h
  obtain ⟨ops, _, h'⟩ := Run.bind_result hp
  cases h'
  rfl

/-- **C69, exactly, for the program.**  The project is as in `C69_program_partial`, and the server fails where MySQL does and nowhere else.  Then
`mygrate.py apply` exits with 0 if and only if the tables are `Migratable`; otherwise it ends with an exception and nothing is committed. -/
theorem C69_program_iff [PyNum] (m : Machine) (given dir name : Str) (conf env : List EnvItem) (sqlDir dotenvFile : Str) (cr : Credentials.Creds)
    (srv : Server) (names : List Str) (h : Configured m given dir name conf env sqlDir dotenvFile cr) (hs : m.connect cr = .ok srv)
    (hlast : (bareDir (besides dir sqlDir)).getLast? ≠ some '/') (hne : bareDir (besides dir sqlDir) ≠ []) (hplain : PlainPath (besides dir sqlDir))
    (hdir : m.disk.isDir (besides dir sqlDir) = true) (hnames : m.disk.listdir (bareDir (besides dir sqlDir)) = some names)
    (force : Bool) (files live : Database) (g : DbRows) (db : SDb) (c : Bool) (dflt : ColumnSql → Option Str)
    (hf : FileDatabase.new (sqlTexts m.disk (bareDir (besides dir sqlDir)) names) = .ok files) (he : files.errors.1 = .ok [])
    (hl : (LiveDatabase.new srv).result = .ok live)
    (hdb : Describes live.tables db) (hch : db.checks = true) (hg : ServerRows srv live g) (hsrc : Accepted c live.tables) (htgt : Accepted true files.tables)
    (hnamed : ∀ x ∈ live.tables.values, x.Named) (hsound : ∀ x ∈ files.tables.values, x.Sound)
    (htl : ∀ x ∈ files.tables.values, ∀ c ∈ x.columns.values, c.Measured) (hfl : ∀ x ∈ live.tables.values, ∀ c ∈ x.columns.values, c.Measured)
    (hfit : RowsFit live.tables files.tables) (hq : RowsQuiet g files.tables)
    (hc : ∀ n a b, live.tables.get? n = some a → files.tables.get? n = some b → a.Comparable b)
    (hsrv : srv.Follows dflt ⟨db.sql, g⟩) (hstrict : srv.Strict dflt ⟨db.sql, g⟩) :
    ((Program.main m { command := some py"apply", config := some given, force := force }).result = .ok 0 ↔ Migratable c live.tables files.tables) ∧
    (¬ Migratable c live.tables files.tables →
      (∃ e, (Program.main m { command := some py"apply", config := some given, force := force }).result = .error e) ∧
      .committed ∉ (Program.main m { command := some py"apply", config := some given, force := force }).events) := by
  obtain ⟨_, ha⟩ := program_eq h hs hlast hne hplain hdir hnames force
  have hbad : ¬ Migratable c live.tables files.tables →
      (∃ e, (Program.main m { command := some py"apply", config := some given, force := force }).result = .error e) ∧
      .committed ∉ (Program.main m { command := some py"apply", config := some given, force := force }).events := by
    intro hb
    obtain ⟨o, _, _, ⟨e, h1⟩, h2⟩ := C69_troubled srv _ force files live g db c dflt hf he hl hdb hg hsrc htgt hnamed hsound htl hfl hc hb hstrict
    rw [main_apply, ha, Run.bind_error h1]
    exact ⟨⟨e, rfl⟩, h2⟩
  refine ⟨⟨fun h0 => ?_, fun hm => ?_⟩, hbad⟩
  · apply Classical.byContradiction
    intro hb
    obtain ⟨⟨e, h1⟩, _⟩ := hbad hb
    rw [h0] at h1
    cases h1
  · exact (C69_program_partial m given dir name conf env sqlDir dotenvFile cr srv names h hs hlast hne hplain hdir hnames force files live g db c dflt
      hf he hl hdb hch hg hm hfit hq hc hsrv).1

/-- **C71**, for the program.  In a project as in `C69_program_partial`, `apply` was interrupted, however often, each time after any of its
statements.  On every server which has what is there then and fails on nothing which MySQL accepts, `mygrate.py apply` exits with 0; MySQL accepts
each of the texts which `mygrate.py plan` prints, and after them the server has the declared tables and rows, and rows of tables whose rows are not
declared are the same as before the first run, in the columns which stay.  Missing: as in `C71_partial` and `C74_partial`. -/
theorem C71_program_partial [PyNum] (m : Machine) (given dir name : Str) (conf env : List EnvItem) (sqlDir dotenvFile : Str) (cr : Credentials.Creds)
    (names : List Str) (h : Configured m given dir name conf env sqlDir dotenvFile cr)
    (hlast : (bareDir (besides dir sqlDir)).getLast? ≠ some '/') (hne : bareDir (besides dir sqlDir) ≠ []) (hplain : PlainPath (besides dir sqlDir))
    (hdir : m.disk.isDir (besides dir sqlDir) = true) (hnames : m.disk.listdir (bareDir (besides dir sqlDir)) = some names)
    (files live : Database) (g : DbRows) (db : SDb) (c : Bool) (dflt : ColumnSql → Option Str)
    (hf : FileDatabase.new (sqlTexts m.disk (bareDir (besides dir sqlDir)) names) = .ok files) (he : files.errors.1 = .ok [])
    (hdb : Describes live.tables db) (hg : ∀ n, n ∉ live.tables.keys → ∀ i, g n i = none)
    (hm : Migratable c live.tables files.tables) (hfit : RowsFit live.tables files.tables) (hq : QuietRows g files.tables)
    (hc : ∀ n a b, live.tables.get? n = some a → files.tables.get? n = some b → a.Comparable b)
    (live' : Database) (db' : SDb) (g' : DbRows)
    (hi : Interrupted (sqlTexts m.disk (bareDir (besides dir sqlDir)) names) dflt live db g live' db' g')
    (srv : Server) (hs : m.connect cr = .ok srv) (force : Bool) (hl : (LiveDatabase.new srv).result = .ok live') (hr : ServerRows srv live' g')
    (hsrv : srv.Follows dflt ⟨({ db' with checks := true } : SDb).sql, g'⟩) :
    (Program.main m { command := some py"apply", config := some given, force := force }).result = .ok 0 ∧
    ∃ o db'' g'', (Program.plan m given force).result = .ok o ∧
      World.sendAll dflt ⟨({ db' with checks := true } : SDb).sql, g'⟩ o.output = some ⟨db''.sql, g''⟩ ∧
      Migrated live'.tables files.tables db'' ∧ RowsMigrated live'.tables files.tables g' g'' ∧ OthersKept live.tables files.tables g g'' := by
  obtain ⟨o, db'', g'', h1, h2, h3, h4, h5⟩ := C71_partial _ files live g db c dflt hf he hdb hg hm hfit hq hc live' db' g' hi srv force hl hr hsrv
  obtain ⟨hp, ha⟩ := program_eq h hs hlast hne hplain hdir hnames force
  obtain ⟨hp1, _⟩ := C46 srv _ force o h1
  refine ⟨?_, o, db'', g'', by rw [hp]; exact hp1, h2, h3, h4, h5⟩
  rw [main_apply, ha, Run.bind_ok h1]
  simp [Run.pure, apply_success h1]

/-! ## Examples -/

section Examples
attribute [local instance] exactNum
open Examples

/-- the machine of `C69_program_partial` with another server -/
def allMachineOn (srv : Server) : Machine := { allMachine with connect := fun _ => .ok srv }

theorem allMachineOn_configured (srv : Server) : Configured (allMachineOn srv) py"mygrate.conf" py"/srv" py"mygrate.conf" (confEntries.map plainEntry)
    (envEntries.map plainEntry) py"database" py".env" { host := py"db.local", database := py"shop", user := py"me", password := py"secret" } :=
  { allMachine_configured with }

/-- for `C71_program_partial`: a run which is interrupted after any number of statements -/
example (dflt : ColumnSql → Option Str) (k : Nat) : ∃ live' db' g', Interrupted allSources dflt allLive allDb allRows live' db' g' ∧
    ∀ srv, (LiveDatabase.new srv).result = .ok live' → ServerRows srv live' g' → srv.Follows dflt ⟨({ db' with checks := true } : SDb).sql, g'⟩ →
      (Program.main (allMachineOn srv) { command := some py"apply", config := some py"mygrate.conf" }).result = .ok 0 := by
  have hrows : ServerRows allServer allLive allRows := answeredRows_server (by decide +kernel)
  have hcomp := Examples.comparableTables_of_check (f := allLive.tables) (t := allFiles.tables) (by decide +kernel)
  have hdb := describes_ofTables all_migratable.source.toKeyedTables true
  obtain ⟨p, hp⟩ := C56 allFiles.tables (some allLive.tables) false all_migratable.target.toKeyedTables hcomp
  obtain ⟨_, rows, _, _, _, _, hb⟩ := planned allFiles_eq allFiles_errors allLive_eq hrows hp
  have hb := hb false
  generalize (if p ++ rows = [] then [] else Op.disableChecks :: (p ++ rows) ++ [Op.enableChecks]) = ops at hb
  rw [← List.take_append_drop k ops] at hb
  obtain ⟨db', g', h1, h2, ⟨d, h3⟩, _⟩ := C71_crash_partial allSources allFiles allLive allRows allDb true dflt allFiles_eq allFiles_errors hdb all_others all_migratable
    all_rowsFit all_quietRows hcomp allLive allDb allRows .start allServer false allLive_eq hrows _ _ hb
  refine ⟨{ tables := d }, db', g', .again .start allLive_eq hrows hb h1 h2 h3, fun srv hl hr hs => ?_⟩
  exact (C71_program_partial (allMachineOn srv) _ _ _ _ _ _ _ _ allNames (allMachineOn_configured srv)
    (by decide) (by decide) (by unfold PlainPath; decide) rfl rfl allFiles allLive allRows allDb true dflt
    (show FileDatabase.new allSources = .ok allFiles from allFiles_eq) allFiles_errors hdb all_others all_migratable
    all_rowsFit all_quietRows hcomp { tables := d } db' g' (.again .start allLive_eq hrows hb h1 h2 h3) srv rfl false hl hr hs).1

/-- a project in which a foreign key goes and the column to which it refers gets another type -/
def leavingMachine : Machine where
  disk :=
    { cwd := py"/srv/src"
      contents := fun p =>
        if p = py"/srv/mygrate.conf" then some (envText (confEntries.map plainEntry))
        else if p = py"/srv/.env" then some (envText (envEntries.map plainEntry))
        else if p = py"/srv/database/users.sql" then leavingSources[0]?
        else if p = py"/srv/database/notes.sql" then leavingSources[1]?
        else none
      listdir := fun p => if p = py"/srv/database" ∨ p = py"/srv/database/" then some [py"users.sql", py"notes.sql"] else none }
  connect _ := .ok (strictly leavingServer ⟨leavingDb.sql, leavingRows⟩)

theorem leavingMachine_configured : Configured leavingMachine py"mygrate.conf" py"/srv" py"mygrate.conf" (confEntries.map plainEntry)
    (envEntries.map plainEntry) py"database" py".env" { host := py"db.local", database := py"shop", user := py"me", password := py"secret" } where
  absolute := rfl
  no_slash := by decide
  file := ⟨by decide, by decide⟩
  found := .nearest (dirs := [py"srv", py"src"]) (by rfl) (by simp only [FileName]; decide) ⟨by decide, by decide⟩ (by decide)
    ⟨1, by decide, by rfl, by rfl, by simp [leavingMachine, pathIn, join, Files.isFile]⟩ (by decide)
  conf_text := by rfl
  conf_ok := plainEntry_ok (by decide)
  files := by decide
  dotenv := by decide
  env_text := by rfl
  env_ok := plainEntry_ok (by decide)
  host := ⟨py"H", by decide, by decide⟩
  database := ⟨py"D", by decide, by decide⟩
  user := ⟨py"U", by decide, by decide⟩
  password := ⟨py"P", by decide, by decide⟩

/-- for `C69_program_iff`: there `mygrate.py apply` ends with an exception and nothing is committed -/
example : (∃ e, (Program.main leavingMachine { command := some py"apply", config := some py"mygrate.conf" }).result = .error e) ∧
    .committed ∉ (Program.main leavingMachine { command := some py"apply", config := some py"mygrate.conf" }).events := by
  have hl : (LiveDatabase.new (strictly leavingServer ⟨leavingDb.sql, leavingRows⟩)).result = .ok leavingLive := by decide +kernel
  have htr : ∀ t ∈ leavingFiles.tables.values, ¬ t.tracking = true := by decide +kernel
  have hlive : ∀ x ∈ leavingLive.tables.values, Examples.easyTable x = true := by decide +kernel
  have hfile : ∀ x ∈ leavingFiles.tables.values, Examples.easyTable x = true := by decide +kernel
  exact (C69_program_iff leavingMachine _ _ _ _ _ _ _ _ (strictly leavingServer ⟨leavingDb.sql, leavingRows⟩) [py"users.sql", py"notes.sql"]
    leavingMachine_configured rfl (by decide) (by decide) (by unfold PlainPath; decide) rfl rfl false leavingFiles leavingLive leavingRows leavingDb true
    (fun _ => none) (show FileDatabase.new leavingSources = .ok leavingFiles by decide +kernel) (by decide +kernel) hl
    (describes_ofTables leaving_source.toKeyedTables true) rfl
    (answeredRows_server (srv := strictly leavingServer ⟨leavingDb.sql, leavingRows⟩) (by decide +kernel)) leaving_source leaving_target
    (fun x hx => (Examples.sound_of_easyTable (hlive x hx)).2) (fun x hx => (Examples.sound_of_easyTable (hfile x hx)).1)
    (Examples.measured_of_check (by decide +kernel)) (Examples.measured_of_check (by decide +kernel))
    ⟨fun t ht h => absurd h (htr t ht), fun t ht h => absurd h (htr t ht), fun t ht h => absurd h (htr t ht)⟩
    ⟨fun t ht h => absurd h (htr t ht), fun t ht h => absurd h (htr t ht)⟩
    (Examples.comparableTables_of_check (by decide +kernel)) (strictly_follows _ _).1 (strictly_follows _ _).2).2 leaving_troubled

end Examples

end Mygrations

import Verif.Props.C69
import Verif.Props.C58Program

/-!
# C69 for the program: from the command line, the files on the disk and the server on

`Program.main m args` is a run of `mygrate.py` with the command line `args` on the machine `m`.
-/

namespace Mygrations
open Dotenv Config Sql MySQL Command

/-- **C69**, for the program.  The configuration file which is found names a directory and a `.env` file, the latter has the credentials of a
server (C74), and for the SQL files of that directory and that server the hypotheses of `C69_partial` hold.  Then `mygrate.py apply` exits
with 0; it sends what `mygrate.py plan` sends, then the texts which that prints, and commits once; MySQL accepts each of the texts; and
afterwards the server has the declared tables and rows.  Missing: as in `C69_partial` and `C74_partial`. -/
theorem C69_program_partial [PyNum] (m : Machine) (given dir name : Str) (conf env : List EnvItem) (sqlDir dotenvFile : Str) (cr : Credentials.Creds)
    (srv : Server) (names : List Str) (h : Configured m given dir name conf env sqlDir dotenvFile cr) (hs : m.connect cr = .ok srv)
    (hlast : (bareDir (besides dir sqlDir)).getLast? ≠ some '/') (hne : bareDir (besides dir sqlDir) ≠ []) (hplain : PlainPath (besides dir sqlDir))
    (hdir : m.disk.isDir (besides dir sqlDir) = true) (hnames : m.disk.listdir (bareDir (besides dir sqlDir)) = some names)
    (force : Bool) (files live : Database) (g : DbRows) (db : SDb) (c : Bool) (dflt : ColumnSql → Option Str)
    (hf : FileDatabase.new (sqlTexts m.disk (bareDir (besides dir sqlDir)) names) = .ok files) (he : files.errors.1 = .ok [])
    (hl : (LiveDatabase.new srv).result = .ok live)
    (hdb : Describes live.tables db) (hch : db.checks = true) (hg : ServerRows srv live g)
    (hm : Migratable c live.tables files.tables) (hfit : RowsFit live.tables files.tables) (hq : RowsQuiet g files.tables)
    (hc : ∀ n a b, live.tables.get? n = some a → files.tables.get? n = some b → a.Comparable b)
    (hsrv : srv.Follows dflt ⟨db.sql, g⟩) :
    (Program.main m { command := some py"apply", config := some given, force := force }).result = .ok 0 ∧
    ∃ o db' g', (Program.plan m given force).result = .ok o ∧
      (Program.main m { command := some py"apply", config := some given, force := force }).events =
        (Program.main m { command := some py"plan", config := some given, force := force }).events ++ o.output.map .sent ++ [.committed] ∧
      World.sendAll dflt ⟨db.sql, g⟩ o.output = some ⟨db'.sql, g'⟩ ∧
      Migrated live.tables files.tables db' ∧ RowsMigrated live.tables files.tables g g' := by
  obtain ⟨o, db', g', h1, h2, h3, h4, h5⟩ := C69_partial srv _ force files live g db c dflt hf he hl hdb hch hg hm hfit hq hc hsrv
  have ea := C74_partial m given dir name conf env sqlDir dotenvFile cr srv names h hs hlast hne hplain hdir hnames py"apply" (by simp) force false
  have ep := C74_partial m given dir name conf env sqlDir dotenvFile cr srv names h hs hlast hne hplain hdir hnames py"plan" (by simp) force false
  have ha : ∀ s, Command.mygrate srv s force false py"apply" = Run.bind (Command.apply srv s force) fun o => .pure (if o.success then 0 else 1) :=
    fun _ => rfl
  have hp : ∀ s, Command.mygrate srv s force false py"plan" = Run.bind (Command.plan srv s force) fun o => .pure (if o.success then 0 else 1) :=
    fun _ => rfl
  obtain ⟨hp1, _⟩ := C46 srv _ force o h1
  have hok : o.success = true := by
    obtain ⟨ops, _, h'⟩ := Run.bind_result hp1
    cases h'
    rfl
  have key : (Program.main m { command := some py"apply", config := some given, force := force }).result = .ok 0 ∧
      (Program.main m { command := some py"apply", config := some given, force := force }).events =
        (Program.main m { command := some py"plan", config := some given, force := force }).events ++ o.output.map .sent ++ [.committed] := by
    rw [ea, ep, ha, hp, Run.bind_ok h1, Run.bind_ok hp1]
    refine ⟨by simp [Run.pure, hok], ?_⟩
    simp only [Run.pure, List.append_nil]
    exact h2
  obtain ⟨_, _, o', hplan, hev⟩ := (C46_program m (some given) force).1 0 key.1
  have hsame : o.output = o'.output := by
    have := key.2.symm.trans hev
    exact (List.map_inj_right (fun _ _ e => Event.sent.inj e)).mp (List.append_cancel_left (List.append_cancel_right this))
  rw [hsame] at h3
  exact ⟨key.1, o', db', g', hplan, hev, h3, h4, h5⟩

/-! ## Examples -/

section Examples
attribute [local instance] exactNum
open Examples

/-- the names in the directory of the project -/
def allNames : List Str := [py"users.sql", py"README", py"notes.sql", py"levels.sql"]

/-- a machine with the files and the server of the example of C69 -/
def allMachine : Machine where
  disk :=
    { cwd := py"/srv/src"
      contents := fun p =>
        if p = py"/srv/mygrate.conf" then some (envText (confEntries.map plainEntry))
        else if p = py"/srv/.env" then some (envText (envEntries.map plainEntry))
        else if p = py"/srv/database/users.sql" then allSources[0]?
        else if p = py"/srv/database/notes.sql" then allSources[1]?
        else if p = py"/srv/database/levels.sql" then allSources[2]?
        else none
      listdir := fun p => if p = py"/srv/database" ∨ p = py"/srv/database/" then some allNames else none }
  connect c := if c.user = py"me" then .ok allServer else .error (.valueError py"Access denied")

theorem allMachine_configured : Configured allMachine py"mygrate.conf" py"/srv" py"mygrate.conf" (confEntries.map plainEntry) (envEntries.map plainEntry)
    py"database" py".env" { host := py"db.local", database := py"shop", user := py"me", password := py"secret" } where
  absolute := rfl
  no_slash := by decide
  file := ⟨by decide, by decide⟩
  found := .nearest (dirs := [py"srv", py"src"]) (by rfl) (by simp only [FileName]; decide) ⟨by decide, by decide⟩ (by decide)
    ⟨1, by decide, by rfl, by rfl, by simp [allMachine, pathIn, join, Files.isFile]⟩ (by decide)
  conf_text := by rfl
  conf_ok := plainEntry_ok (by decide)
  files := by decide
  dotenv := by decide
  env_text := by rfl
  env_ok := plainEntry_ok (by decide)
  host := ⟨py"H", by decide, by decide⟩
  database := ⟨py"D", by decide, by decide⟩
  user := ⟨py"U", by decide, by decide⟩
  password := ⟨py"P", by decide, by decide⟩

example (dflt : ColumnSql → Option Str) : (Program.main allMachine { command := some py"apply", config := some py"mygrate.conf" }).result = .ok 0 ∧
    ∃ o, ∃ db' : SDb, ∃ g', (Program.plan allMachine py"mygrate.conf" false).result = .ok o ∧
      World.sendAll dflt ⟨allDb.sql, allRows⟩ o.output = some ⟨db'.sql, g'⟩ ∧
      ∀ n, n ∈ db'.tables.keys ↔ n ∈ [py"users", py"notes", py"levels"] := by
  obtain ⟨h0, o, db', g', h1, _, h2, h3, _⟩ := C69_program_partial allMachine _ _ _ _ _ _ _ _ allServer allNames allMachine_configured rfl
    (by decide) (by decide) (by unfold PlainPath; decide) rfl rfl false allFiles allLive allRows allDb true dflt
    (show FileDatabase.new allSources = .ok allFiles from allFiles_eq) allFiles_errors allLive_eq
    (describes_ofTables all_migratable.source.toKeyedTables true) rfl (answeredRows_server (by decide +kernel)) all_migratable all_rowsFit all_rowsQuiet
    (Examples.comparableTables_of_check (by decide +kernel)) (fun _ _ _ => rfl)
  have hkeys : allFiles.tables.keys = [py"users", py"notes", py"levels"] := by decide +kernel
  exact ⟨h0, o, db', g', h1, h2, fun n => by rw [h3.names, hkeys]⟩

end Examples

end Mygrations

import Verif.Props.C69Program
import Verif.Props.C70

/-!
# C70 for the program: once `mygrate.py apply` has run, `mygrate.py plan` prints nothing
-/

namespace Mygrations
open Dotenv Config Sql MySQL Mygration Table Command

/-- `plan` and `apply` of the program are those of the configured server and the SQL files of the configured directory -/
theorem program_eq [PyNum] {m : Machine} {given dir name : Str} {conf env : List EnvItem} {sqlDir dotenvFile : Str} {cr : Credentials.Creds}
    {srv : Server} {names : List Str} (h : Configured m given dir name conf env sqlDir dotenvFile cr) (hs : m.connect cr = .ok srv)
    (hlast : (bareDir (besides dir sqlDir)).getLast? ≠ some '/') (hne : bareDir (besides dir sqlDir) ≠ []) (hplain : PlainPath (besides dir sqlDir))
    (hdir : m.disk.isDir (besides dir sqlDir) = true) (hnames : m.disk.listdir (bareDir (besides dir sqlDir)) = some names) (force : Bool) :
    Program.plan m given force = Command.plan srv (sqlTexts m.disk (bareDir (besides dir sqlDir)) names) force ∧
    Program.apply m given force = Command.apply srv (sqlTexts m.disk (bareDir (besides dir sqlDir)) names) force := by
  have hd : dir.head? = some '/' ∧ ∀ c, dir.getLast? = some c → c ≠ '/' := ⟨h.absolute, fun c hc e => h.no_slash (e ▸ hc)⟩
  obtain ⟨k1, a1, b1⟩ := h.host
  obtain ⟨k2, a2, b2⟩ := h.database
  obtain ⟨k3, a3, b3⟩ := h.user
  obtain ⟨k4, a4, b4⟩ := h.password
  have h1 := C74_directory_partial _ _ _ _ _ _ _ hd h.file h.found h.conf_text h.conf_ok h.files h.dotenv
  have h2 := C49_files_partial _ _ _ _ _ _ _ _ k1 k2 k3 k4 cr hd h.file h.found h.conf_text h.conf_ok
    h.files h.dotenv h.env_text h.env_ok a1 b1 a2 b2 a3 b3 a4 b4
  have hb := build_eq force h1 h2 hs
  rw [process_directory hne hlast hplain hdir hnames] at hb
  constructor
  · unfold Program.plan Command.plan
    rw [hb]
  · unfold Program.apply Command.apply Program.withDriver
    rw [hb]
    simp only [h2, hs]

/-- **C70**, for the program.  `mygrate.py apply` runs in a project as in `C69_program_partial`, and every declared row is written.  Whatever the
server with the tables and rows that are there afterwards answers: for the same files on the disk `mygrate.py plan` prints nothing, and
`mygrate.py apply` comes to its end and sends nothing but queries.  Missing: as in `C70_partial` and `C74_partial`. -/
theorem C70_program_partial [PyNum] (m : Machine) (given dir name : Str) (conf env : List EnvItem) (sqlDir dotenvFile : Str) (cr : Credentials.Creds)
    (srv : Server) (names : List Str) (h : Configured m given dir name conf env sqlDir dotenvFile cr) (hs : m.connect cr = .ok srv)
    (hlast : (bareDir (besides dir sqlDir)).getLast? ≠ some '/') (hne : bareDir (besides dir sqlDir) ≠ []) (hplain : PlainPath (besides dir sqlDir))
    (hdir : m.disk.isDir (besides dir sqlDir) = true) (hnames : m.disk.listdir (bareDir (besides dir sqlDir)) = some names)
    (force : Bool) (files live : Database) (g : DbRows) (db : SDb) (c : Bool) (dflt : ColumnSql → Option Str)
    (hf : FileDatabase.new (sqlTexts m.disk (bareDir (besides dir sqlDir)) names) = .ok files) (he : files.errors.1 = .ok [])
    (hl : (LiveDatabase.new srv).result = .ok live)
    (hdb : Describes live.tables db) (hch : db.checks = true) (hg : ServerRows srv live g)
    (hm : Migratable c live.tables files.tables) (hfit : RowsFit live.tables files.tables) (hq : RowsQuiet g files.tables)
    (hc : ∀ n a b, live.tables.get? n = some a → files.tables.get? n = some b → a.Comparable b)
    (hk : ∀ n a b, live.tables.get? n = some a → files.tables.get? n = some b → KeyNamesSettle a b)
    (hlook : ∀ n b k m x, files.tables.get? n = some b → k ∈ b.constraints.values → Uses n k m x → ¬ LookAlike live.tables files.tables m x)
    (hw : ∀ t ∈ files.tables.values, t.tracking = true → ∀ new i r, t.rows = some new → new.get? i = some r → RowWritten g live.tables t.name new i r)
    (hsrv : srv.Follows dflt ⟨db.sql, g⟩) :
    (Program.main m { command := some py"apply", config := some given, force := force }).result = .ok 0 ∧
    ∃ o, ∃ db' : SDb, ∃ g', (Program.plan m given force).result = .ok o ∧ World.sendAll dflt ⟨db.sql, g⟩ o.output = some ⟨db'.sql, g'⟩ ∧
      ∀ (m' : Machine) (srv' : Server) live', m'.disk = m.disk → m'.connect cr = .ok srv' → (LiveDatabase.new srv').result = .ok live' →
        Describes live'.tables db' → ServerRows srv' live' g' → ∀ force',
          (Program.plan m' given force').result = .ok ⟨[], true⟩ ∧
          (Program.main m' { command := some py"apply", config := some given, force := force' }).result = .ok 0 ∧
          ∀ e ∈ (Program.main m' { command := some py"apply", config := some given, force := force' }).events, OnlyReads e ∨ e = .committed := by
  have main_eq : ∀ (m : Machine) (f : Bool), Program.main m { command := some py"apply", config := some given, force := f } =
      Run.bind (Program.apply m given f) (fun o => .pure (if o.success then 0 else 1)) := fun _ _ => rfl
  obtain ⟨o, db', g', h1, h2, h3⟩ := C70_partial srv _ force files live g db c dflt hf he hl hdb hch hg hm hfit hq hc hk hlook hw hsrv
  obtain ⟨hp, ha⟩ := program_eq h hs hlast hne hplain hdir hnames force
  obtain ⟨hp1, _⟩ := C46 srv _ force o h1
  have hok : o.success = true := by
    obtain ⟨ops, _, h'⟩ := Run.bind_result hp1
    cases h'
    rfl
  refine ⟨?_, o, db', g', by rw [hp]; exact hp1, h2, ?_⟩
  · rw [main_eq, ha, Run.bind_ok h1]
    simp [Run.pure, hok]
  · intro m' srv' live' hdisk hs' hl' hd' hg' force'
    obtain ⟨d', connect'⟩ := m'
    simp only at hdisk
    subst hdisk
    have h' : Configured ⟨m.disk, connect'⟩ given dir name conf env sqlDir dotenvFile cr := { h with }
    obtain ⟨hp', ha'⟩ := program_eq h' hs' hlast hne hplain hdir hnames force'
    obtain ⟨k1, k2, k3⟩ := h3 srv' live' hl' hd' hg' force'
    refine ⟨by rw [hp']; exact k1, ?_, ?_⟩
    · rw [main_eq, ha', Run.bind_ok k2]
      rfl
    · rw [main_eq, ha', Run.bind_ok k2]
      simpa [Run.pure] using k3

/-! ## Examples -/

section Examples
attribute [local instance] exactNum
open Examples

/-- for the machine of `C69_program_partial` -/
example (dflt : ColumnSql → Option Str) : ∃ o, ∃ db' : SDb, ∃ g', (Program.plan allMachine py"mygrate.conf" false).result = .ok o ∧
    World.sendAll dflt ⟨allDb.sql, allRows⟩ o.output = some ⟨db'.sql, g'⟩ ∧
    ∀ (srv' : Server) live', (LiveDatabase.new srv').result = .ok live' → Describes live'.tables db' → ServerRows srv' live' g' →
      (Program.plan { allMachine with connect := fun _ => .ok srv' } py"mygrate.conf" false).result = .ok ⟨[], true⟩ := by
  obtain ⟨_, o, db', g', h1, h2, h3⟩ := C70_program_partial allMachine _ _ _ _ _ _ _ _ allServer allNames allMachine_configured rfl
    (by decide) (by decide) (by unfold PlainPath; decide) rfl rfl false allFiles allLive allRows allDb true dflt
    (show FileDatabase.new allSources = .ok allFiles from allFiles_eq) allFiles_errors allLive_eq
    (describes_ofTables all_migratable.source.toKeyedTables true) rfl (answeredRows_server (by decide +kernel)) all_migratable all_rowsFit all_rowsQuiet
    (Examples.comparableTables_of_check (by decide +kernel)) (Examples.keyNamesSettle_of_check (by decide +kernel))
    (Examples.noLookAlike_of_check (by decide +kernel)) all_rowsWritten (fun _ _ _ => rfl)
  exact ⟨o, db', g', h1, h2, fun srv' live' a b c => (h3 { allMachine with connect := fun _ => .ok srv' } srv' live' rfl rfl a b c false).1⟩

end Examples

end Mygrations

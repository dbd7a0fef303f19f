import Verif.Props.C71

/-! # C71, exactly: which migrations can be completed after every interruption -/

namespace Mygrations
open Sql MySQL Mygration Table Command

section
variable [PyNum]

/-- **C71, exactly.**  The declared schema has no errors, MySQL can read the definitions, the declared rows fit to it, and some server (`srv₀`), which
fails where MySQL does, has the tables and rows of the beginning.  Then the next run of `apply` comes to its end after every history of interrupted
runs (the empty one included), on every server which fails where MySQL does and nowhere else, if and only if the tables are `Migratable`.  (What it
leads to then: `C71_partial`.) -/
theorem C71_iff (sources : List Str) (files live : Database) (g : DbRows) (db : SDb) (c : Bool) (dflt : ColumnSql → Option Str)
    (hf : FileDatabase.new sources = .ok files) (he : files.errors.1 = .ok []) (hdb : Describes live.tables db)
    (hg : ∀ n, n ∉ live.tables.keys → ∀ i, g n i = none) (hsrc : Accepted c live.tables) (htgt : Accepted true files.tables)
    (hnamed : ∀ x ∈ live.tables.values, x.Named) (hsound : ∀ x ∈ files.tables.values, x.Sound)
    (htl : ∀ x ∈ files.tables.values, ∀ c ∈ x.columns.values, c.Measured) (hfl : ∀ x ∈ live.tables.values, ∀ c ∈ x.columns.values, c.Measured)
    (hfit : RowsFit live.tables files.tables) (hq : QuietRows g files.tables)
    (hc : ∀ n a b, live.tables.get? n = some a → files.tables.get? n = some b → a.Comparable b)
    (srv₀ : Server) (hl₀ : (LiveDatabase.new srv₀).result = .ok live) (hr₀ : ServerRows srv₀ live g)
    (hs₀ : srv₀.Follows dflt ⟨({ db with checks := true } : SDb).sql, g⟩) (ht₀ : srv₀.Strict dflt ⟨({ db with checks := true } : SDb).sql, g⟩) :
    (∀ live' db' g', Interrupted sources dflt live db g live' db' g' → ∀ srv force, (LiveDatabase.new srv).result = .ok live' →
      ServerRows srv live' g' → srv.Follows dflt ⟨({ db' with checks := true } : SDb).sql, g'⟩ →
      srv.Strict dflt ⟨({ db' with checks := true } : SDb).sql, g'⟩ → ∃ o, (Command.apply srv sources force).result = .ok o) ↔
    Migratable c live.tables files.tables := by
  constructor
  · intro h
    exact (C69_iff srv₀ sources false files live g { db with checks := true } c dflt hf he hl₀ (describes_checks hdb true) rfl hr₀ hsrc htgt hnamed hsound
      htl hfl hfit hq.now hc hs₀ ht₀).mp (h live db g .start srv₀ false hl₀ hr₀ hs₀ ht₀)
  · intro hm live' db' g' hi srv force hl hr hs _
    obtain ⟨o, _, _, h1, _⟩ := C71_partial sources files live g db c dflt hf he hdb hg hm hfit hq hc live' db' g' hi srv force hl hr hs
    exact ⟨o, h1⟩

end

/-! ## Examples -/

section Examples
attribute [local instance] exactNum

/-- for `C71_iff`: the migration in which a foreign key goes and the column to which it refers gets another type cannot be completed after every
history -/
example : ¬ ∀ live' db' g', Interrupted leavingSources (fun _ => none) leavingLive leavingDb leavingRows live' db' g' → ∀ srv force,
    (LiveDatabase.new srv).result = .ok live' → ServerRows srv live' g' → srv.Follows (fun _ => none) ⟨({ db' with checks := true } : SDb).sql, g'⟩ →
    srv.Strict (fun _ => none) ⟨({ db' with checks := true } : SDb).sql, g'⟩ → ∃ o, (Command.apply srv leavingSources force).result = .ok o := by
  have hl : (LiveDatabase.new (strictly leavingServer ⟨leavingDb.sql, leavingRows⟩)).result = .ok leavingLive := by decide +kernel
  have htr : ∀ t ∈ leavingFiles.tables.values, ¬ t.tracking = true := by decide +kernel
  have e : ({ leavingDb with checks := true } : SDb) = leavingDb := by simp only [leavingDb]
  intro h
  refine leaving_troubled ((C71_iff leavingSources leavingFiles leavingLive leavingRows leavingDb true (fun _ => none) (by decide +kernel) (by decide +kernel)
    (describes_ofTables leaving_source.toKeyedTables true) (fun n hn i => by simp only [leavingRows, answeredRows, if_neg hn]) leaving_source leaving_target
    ?_ ?_ (Examples.measured_of_check (by decide +kernel)) (Examples.measured_of_check (by decide +kernel))
    ⟨fun t ht h => absurd h (htr t ht), fun t ht h => absurd h (htr t ht), fun t ht h => absurd h (htr t ht)⟩
    ⟨fun t ht h => absurd h (htr t ht), fun t ht h => absurd h (htr t ht)⟩
    (Examples.comparableTables_of_check (by decide +kernel)) (strictly leavingServer ⟨leavingDb.sql, leavingRows⟩) hl
    (answeredRows_server (srv := strictly leavingServer ⟨leavingDb.sql, leavingRows⟩) (by decide +kernel))
    (by rw [e]; exact (strictly_follows _ _).1) (by rw [e]; exact (strictly_follows _ _).2)).mp h)
  · have : ∀ x ∈ leavingLive.tables.values, Examples.easyTable x = true := by decide +kernel
    exact fun x hx => (Examples.sound_of_easyTable (this x hx)).2
  · have : ∀ x ∈ leavingFiles.tables.values, Examples.easyTable x = true := by decide +kernel
    exact fun x hx => (Examples.sound_of_easyTable (this x hx)).1

end Examples

end Mygrations

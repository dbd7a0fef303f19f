import Verif.Proofs.World
import Verif.Proofs.RowCols
import Verif.Props.C63
import Verif.Props.C64
import Verif.Props.C68

/-! # C69: `apply` makes the server what the files declare -/

namespace Mygrations
open Sql MySQL Mygration Table Command

/-! ## Specification -/

/-- The declared rows fit to the declared tables: a table whose rows are declared has a column `id` (on the server too, if it is there), and its
rows give values for declared columns only. -/
structure RowsFit (live files : Dict Table) : Prop where
  id : ∀ t ∈ files.values, t.tracking = true → py"id" ∈ t.columns.keys
  idLive : ∀ t ∈ files.values, t.tracking = true → ∀ x, live.get? t.name = some x → py"id" ∈ x.columns.keys
  columns : ∀ t ∈ files.values, t.tracking = true → ∀ new, t.rows = some new → ∀ i r, new.get? i = some r → ∀ c ∈ Dict.keys r, c ∈ t.columns.keys

/-- There are no quotes and backslashes where the tool does not escape them (C25): in the ids of rows which are there, and in the
values which are declared for them. -/
structure RowsQuiet (g : DbRows) (files : Dict Table) : Prop where
  ids : ∀ t ∈ files.values, t.tracking = true → ∀ i, (g t.name i).isSome = true → '\'' ∉ i ∧ '\\' ∉ i
  values : ∀ t ∈ files.values, t.tracking = true → ∀ new, t.rows = some new → ∀ i r, (g t.name i).isSome = true → new.get? i = some r →
    ∀ c v s, (c, v) ∈ r → v.cell = some s → '\'' ∉ s

/-- Tables which the tool can migrate and whose definitions MySQL reads as they are meant. -/
structure Migratable [PyNum] (c : Bool) (live files : Dict Table) : Prop where
  source : Accepted c live
  target : Accepted true files
  untroubled : Untroubled live files
  named : ∀ x ∈ live.values, x.Named
  sound : ∀ x ∈ files.values, x.Sound
  tables : ∀ n ∈ live.keys, n ∉ files.keys → Sql.bareName n = true
  columns : ∀ n a b, live.get? n = some a → files.get? n = some b → ∀ c ∈ a.columns.keys, c ∉ b.columns.keys → Sql.bareName c = true

/-- The rows `g'` after a migration of a server with the tables `live` and the rows `g`. -/
structure RowsMigrated (live files : Dict Table) (g g' : DbRows) : Prop where
  /-- tables whose rows are declared have exactly the declared ids -/
  ids : ∀ t ∈ files.values, t.tracking = true → ∃ new, t.rows = some new ∧ ∀ i, (g' t.name i).isSome = true ↔ i ∈ new.keys
  /-- and the declared values (for the rows for which the tool sees that there is something to do) -/
  values : ∀ t ∈ files.values, t.tracking = true → ∀ new i r, t.rows = some new → new.get? i = some r → RowWritten g live t.name new i r →
    ∃ cells, g' t.name i = some cells ∧ ∀ c v, Dict.get? r c = some v → cells c = v.cell
  /-- the rows of other declared tables stay, with their values in the columns which stay -/
  kept : ∀ t ∈ files.values, t.tracking = false → ∀ i cells, g t.name i = some cells →
    ∃ cells', g' t.name i = some cells' ∧ ∀ x, live.get? t.name = some x → ∀ c ∈ x.columns.keys, c ∈ t.columns.keys → cells' c = cells c
  /-- and there are no others -/
  fresh : ∀ t ∈ files.values, t.tracking = false → ∀ i, g t.name i = none → g' t.name i = none
  /-- what is not declared is gone -/
  gone : ∀ n, n ∉ files.keys → ∀ i, g' n i = none

/-- The server fails only where `Spec/World.lean` says that MySQL does. -/
def Server.Follows (srv : Server) (dflt : ColumnSql → Option Str) (w : World) : Prop :=
  ∀ before q, (w.sendAll dflt (before ++ [q])).isSome = true → srv.fails before q = none

/-- The server fails where `Spec/World.lean` says that MySQL does, as long as everything before was executed. -/
def Server.Strict (srv : Server) (dflt : ColumnSql → Option Str) (w : World) : Prop :=
  ∀ before q, (w.sendAll dflt before).isSome = true → w.sendAll dflt (before ++ [q]) = none → srv.fails before q ≠ none

/-! ## Proofs -/

theorem row_ops {t : Dict Table} {from? : Option (Dict Table)} {ops : List Op} (ht : KeyedTables t) (h : RowMygration.process t from? = .ok ops) :
    ∀ op ∈ ops, ∃ x ∈ t.values, x.tracking = true ∧ ∃ new, x.rows = some new ∧
      ((∃ i r, new.get? i = some r ∧ op = .rowInsert x.name r) ∨ (∃ i, op = .rowDelete x.name i) ∨ ∃ i r, new.get? i = some r ∧ op = .rowUpdate x.name r) := by
  intro op hop
  have hm : ∀ x ∈ t.values.filter Table.tracking, x ∈ t.values := fun x hx => (List.mem_filter.mp hx).1
  obtain ⟨h1, h2⟩ := processLoop_eq ht hm h
  rw [h1] at hop
  obtain ⟨x, hx, hop⟩ := List.mem_flatMap.mp hop
  obtain ⟨new, hnr⟩ := Option.isSome_iff_exists.mp (h2 x hx)
  rw [hnr, Option.getD_some] at hop
  refine ⟨x, hm x hx, (List.mem_filter.mp hx).2, new, hnr, ?_⟩
  unfold rowOps at hop
  simp only [List.mem_append, List.mem_filterMap, Option.map_eq_some_iff, List.mem_map] at hop
  rcases hop with (⟨k, _, r, hr, rfl⟩ | ⟨k, hk, rfl⟩) | ⟨k, hkm, hop⟩
  · exact .inl ⟨k, r, hr, rfl⟩
  · exact .inr (.inl ⟨k, rfl⟩)
  · split at hop
    · rename_i n o hn ho
      split at hop
      · cases hop
        exact .inr (.inr ⟨k, n, hn, rfl⟩)
      · cases hop
    · cases hop

/-- the columns of a table after the migration -/
theorem Migrated.columns [PyNum] {f t : Dict Table} {db : SDb} (h : Migrated f t db) (ht : KeyedTables t) {n : Str} {b : Table} (hb : t.get? n = some b) :
    ∃ T, db.sql.tables.get? n = some T ∧ ∀ c, c ∈ T.cols.keys ↔ c ∈ b.columns.keys := by
  obtain ⟨st, hst⟩ := Dict.exists_get? ((h.names n).mpr (Dict.mem_keys_of_get? hb))
  refine ⟨st.sql, by rw [SDb.sql_eq, mapped_get?, hst]; rfl, fun c => ?_⟩
  have hk : st.sql.cols.keys = st.cols.keys := mapped_keys _ _
  rw [hk]
  cases hf : f.get? n with
  | none =>
    have := h.created n b hf hb
    rw [hst] at this
    cases this
    rw [ofTable_cols (ht.keyed n b (Dict.mem_of_get? hb))]
  | some a => exact (h.cols n a b st hf hb hst).2.1 c

section
variable [PyNum]

/-- the plan of the structure -/
theorem process_toggles {t : Dict Table} {from? : Option (Dict Table)} {ops : List Op} (h : process t from? false = .ok ops) :
    process t from? true = .ok (.disableChecks :: ops ++ [.enableChecks]) := by
  simp only [process] at h ⊢
  split at h
  · cases h
  · rename_i hu
    simp only [Except.ok.injEq, Bool.false_eq_true, if_false, List.nil_append, List.append_nil] at h
    simp only [hu, Except.ok.injEq, if_true]
    rw [← h]
    simp

theorem world_checks (dflt : ColumnSql → Option Str) (db : SDb) (g : DbRows) (op : Op) (b : Bool) (h : op = if b then .enableChecks else .disableChecks) :
    World.send dflt ⟨db.sql, g⟩ op.render = some ⟨({ db with checks := b } : SDb).sql, g⟩ := by
  cases b
  · rw [h]
    obtain ⟨st, h1, h2⟩ := C66_partial .disableChecks trivial
    have : World.send dflt ⟨db.sql, g⟩ (Op.render .disableChecks) = World.exec dflt ⟨db.sql, g⟩ st := by
      unfold World.send; rw [h1]; rfl
    show World.send dflt ⟨db.sql, g⟩ (Op.render .disableChecks) = _
    rw [this]
    cases h2
    rfl
  · rw [h]
    obtain ⟨st, h1, h2⟩ := C66_partial .enableChecks trivial
    have : World.send dflt ⟨db.sql, g⟩ (Op.render .enableChecks) = World.exec dflt ⟨db.sql, g⟩ st := by
      unfold World.send; rw [h1]; rfl
    show World.send dflt ⟨db.sql, g⟩ (Op.render .enableChecks) = _
    rw [this]
    cases h2
    rfl

theorem get?_own_name {d : Dict Table} (h : KeyedTables d) {t : Table} (ht : t ∈ d.values) : d.get? t.name = some t := by
  obtain ⟨k, hk⟩ := Dict.mem_values.mp ht
  have := Dict.get?_of_mem h.nodup hk
  rwa [← h.name k t hk] at this

/-- a plan is made if there is one for the structure -/
theorem planned {sources : List Str} {srv : Server} {files live : Database} {g : DbRows} {structure' : List Op}
    (hf : FileDatabase.new sources = .ok files) (he : files.errors.1 = .ok []) (hl : (LiveDatabase.new srv).result = .ok live) (hg : ServerRows srv live g)
    (hp : process files.tables (some live.tables) false = .ok structure') :
    ∃ live' rows, (readTracked srv live files.tables.values).result = .ok live' ∧ KeptTables live'.tables ∧
      process files.tables (some live'.tables) false = .ok structure' ∧ RowMygration.process files.tables (some live'.tables) = .ok rows ∧
      ∀ force, (buildCommands srv sources force).result =
        .ok (if structure' ++ rows = [] then [] else .disableChecks :: (structure' ++ rows) ++ [.enableChecks]) := by
  have hkf := FileDatabase.new_kept hf
  have hk0 := (LiveDatabase.new_kept hl).1
  obtain ⟨live', hr⟩ := readTracked_returns (srv := srv) files.tables.values live (by
    intro t _ _ hin
    obtain ⟨x, hx⟩ := Dict.exists_get? hin
    obtain ⟨rs, hrs, ha⟩ := hg.tables t.name x hx
    refine ⟨rs, hrs, fun r hr => ?_⟩
    obtain ⟨i, hi, hne⟩ := ha.id r hr
    rw [givenId_rawId hi]
    exact hne)
  have hkl := readTracked_kept _ _ _ hk0 hr
  have hp' : process files.tables (some live'.tables) false = .ok structure' := by
    rw [← process_bare, readTracked_bare _ _ _ hr, process_bare]
    exact hp
  obtain ⟨_, htracked⟩ := readTracked_get _ _ _ hkf.names_nodup hr
  obtain ⟨rows, hrows⟩ := C56_rows files.tables (some live'.tables) hkf.toKeyedTables (by
    intro t htm htt
    have hk := hkf.values t htm
    have hkn := hk.known
    rw [htt] at hkn
    obtain ⟨rows, hrows⟩ := Option.isSome_iff_exists.mp hkn.symm
    have hkr := hk.rowsKeyed
    rw [hrows] at hkr
    exact ⟨htt, rows, hrows, hkr⟩) (by
    intro t htm htt y hy
    simp only [Option.getD_some] at hy
    obtain ⟨h1, h2⟩ := htracked t htm htt
    cases hx : live.tables.get? t.name with
    | none => rw [h1 hx] at hy; cases hy
    | some x =>
      obtain ⟨rs, x', _, _, hget⟩ := h2 x hx
      have hk := hkl.kept _ _ (Dict.mem_of_get? hget)
      rw [hget] at hy
      cases hy
      exact ⟨rfl, _, rfl, hk.rowsKeyed⟩)
  exact ⟨live', rows, hr, hkl, hp', hrows, fun force => buildCommands_ok force hf he hl hr hp' hrows⟩

/-- the statements on rows, after those on the structure -/
theorem rows_ready {sources : List Str} {srv : Server} {files live live' : Database} {g : DbRows} (dflt : ColumnSql → Option Str)
    (hf : FileDatabase.new sources = .ok files) (hl : (LiveDatabase.new srv).result = .ok live) (hg : ServerRows srv live g)
    (hsound : ∀ x ∈ files.tables.values, x.Sound) (hfit : RowsFit live.tables files.tables) (hq : RowsQuiet g files.tables)
    (hr : (readTracked srv live files.tables.values).result = .ok live') (hkf : KeptTables files.tables) (hkl : KeptTables live'.tables)
    {rows : List Op} (hrows : RowMygration.process files.tables (some live'.tables) = .ok rows) {s : DbSql} {g1 : DbRows}
    (hcols : ∀ n b, files.tables.get? n = some b → ∃ T, s.tables.get? n = some T ∧ ∀ c, c ∈ T.cols.keys ↔ c ∈ b.columns.keys)
    (hnone : ∀ n i, g n i = none → g1 n i = none)
    (hsome : ∀ n a b i cells, live.tables.get? n = some a → files.tables.get? n = some b → g n i = some cells →
      ∃ cells', g1 n i = some cells' ∧ ∀ k, k ∈ a.columns.keys → k ∈ b.columns.keys → cells' k = cells k) :
    (∀ op ∈ rows, ∃ st, readStatement op.render = some st ∧ op.Means st) ∧ (∀ op ∈ rows, RowFits s op) ∧
    ∃ g2, DbRows.execAll (defaults dflt s) g1 rows = some g2 ∧ (∀ n i, (∀ op ∈ rows, op.rowKey ≠ some (n, i)) → g2 n i = g1 n i) ∧
      ∀ t ∈ files.tables.values, t.tracking = true → ∃ new, t.rows = some new ∧ (∀ i, (g2 t.name i).isSome = true ↔ i ∈ new.keys) ∧
        ∀ i r, new.get? i = some r → RowWritten g live.tables t.name new i r →
          ∃ cells, g2 t.name i = some cells ∧ ∀ c v, Dict.get? r c = some v → cells c = v.cell := by
  have hlive : ∀ t ∈ files.tables.values, t.tracking = true → _ := fun t htm htt => tracked_live hkf hl hg hr htm htt
  have hrok := rows_ok hkf hkl
  have hon : ∀ t ∈ files.tables.values, t.tracking = true →
      LiveOn g1 t.name (t.rows.getD []) (oldRows (((some live'.tables).getD []).get? t.name)) := by
    intro t htm htt i
    obtain ⟨hl1, hl2⟩ := hlive t htm htt
    simp only [Option.getD_some]
    have hi := hl1 i
    cases ho : (oldRows (live'.tables.get? t.name)).get? i with
    | none =>
      rw [ho] at hi
      exact hnone _ _ hi
    | some o =>
      rw [ho] at hi
      obtain ⟨cells, hc, hcells⟩ := hi
      have hname := get?_own_name hkf.toKeyedTables htm
      cases hx : live.tables.get? t.name with
      | none => rw [hg.others _ hx] at hc; cases hc
      | some x =>
        obtain ⟨cells1, hc1, hcells1⟩ := hsome _ x t i cells hx hname hc
        refine ⟨cells1, hc1, ?_⟩
        intro r k v hr hk hv
        rw [← hcells k v hv]
        refine hcells1 k ?_ ?_
        · rcases (hl2 x i o hx ho).2.1 k (Dict.mem_keys_of_get? hv) with rfl | h
          · exact hfit.idLive t htm htt x hx
          · exact h
        · cases hn : t.rows with
          | none => rw [hn] at hr; cases hr
          | some new =>
            rw [hn] at hr
            exact hfit.columns t htm htt new hn i r hr k hk
  obtain ⟨g2, hexr, hsame, hres⟩ := rows_exec files.tables (some live'.tables) rows hkf.toKeyedTables hrok hrows (defaults dflt s) g1 hon
  have hshape := row_ops hkf.toKeyedTables hrows
  have hfits : ∀ op ∈ rows, RowFits s op := by
    intro op hop
    obtain ⟨x, hx, hxt, new, hnew, hcase⟩ := hshape op hop
    obtain ⟨T, hT, hTc⟩ := hcols x.name x (get?_own_name hkf.toKeyedTables hx)
    have hplain : ∀ i r, new.get? i = some r → (Dict.keys r).Nodup := by
      intro i r hr
      obtain ⟨k, hk⟩ := Dict.mem_values.mp hx
      have := FileDatabase.new_plain hf k x hk
      rw [hnew] at this
      exact (this i r (Dict.mem_of_get? hr)).1
    rcases hcase with ⟨i, r, hr, rfl⟩ | ⟨i, rfl⟩ | ⟨i, r, hr, rfl⟩
    · exact ⟨T, hT, hplain i r hr, fun c hc => (hTc c).mpr (hfit.columns x hx hxt new hnew i r hr c hc)⟩
    · exact ⟨T, hT, (hTc _).mpr (hfit.id x hx hxt)⟩
    · exact ⟨T, hT, hplain i r hr, fun c hc => (hTc c).mpr (hfit.columns x hx hxt new hnew i r hr c hc)⟩
  have hold : ∀ x ∈ files.tables.values, x.tracking = true → ∀ i ∈ (oldRows (live'.tables.get? x.name)).keys, (g x.name i).isSome = true := by
    intro x hx hxt i hi
    obtain ⟨o, ho⟩ := Dict.exists_get? hi
    have := (hlive x hx hxt).1 i
    rw [ho] at this
    obtain ⟨cells, hc, _⟩ := this
    rw [hc]; rfl
  have hrmeans := C66_rows_partial files.tables (some live'.tables) rows hkf.toKeyedTables
    (fun x hx _ => ⟨(hsound x hx).name.1, (ident_noTick (hsound x hx).name)⟩)
    (by
      intro x hx hxt new hnew
      have hk := (hkf.values x hx).rowsKeyed
      rw [hnew] at hk
      refine ⟨hk, fun i r hr k hk => ?_⟩
      obtain ⟨col, hcol⟩ := Dict.exists_get? (hfit.columns x hx hxt new hnew i r hr k hk)
      have := ((hsound x hx).columns col (values_of_get? hcol)).1.plain.name
      rw [(hkf.values x hx).toKeyed.colName k col (Dict.mem_of_get? hcol)] at this
      exact ⟨this.1, ident_noTick this⟩)
    (by
      intro x hx hxt
      simp only [Option.getD_some]
      refine ⟨?_, fun i hi => hq.ids x hx hxt i (hold x hx hxt i hi)⟩
      cases hy : live'.tables.get? x.name with
      | none => exact rowsKeyed_nil
      | some y => exact (hkl.kept _ _ (Dict.mem_of_get? hy)).rowsKeyed)
    (fun x hx hxt new hnew i hi r hr => hq.values x hx hxt new hnew i r (hold x hx hxt i hi) hr)
    hrows
  refine ⟨hrmeans, hfits, g2, hexr, hsame, ?_⟩
  intro t htm htt
  obtain ⟨new, hnew, hids, hvals⟩ := hres t htm htt
  refine ⟨new, hnew, hids, fun i r hir hw => hvals i r hir ?_⟩
  simp only [Option.getD_some]
  obtain ⟨hl1, hl2⟩ := hlive t htm htt
  exact RowWritten.read hw hir hl1 (fun x i r hx hr => (hl2 x i r hx hr).1) (file_values hf htm hnew)

/-- tables which a plan neither creates nor drops -/
theorem process_resets {f t : Dict Table} {c : Bool} {ops : List Op} (hf : KeyedTables f) (ht : KeyedTables t) (h : process t (some f) c = .ok ops) {n : Str}
    (h1 : n ∈ f.keys) (h2 : n ∈ t.keys) : ¬ ∃ op ∈ ops, op.resets n := by
  obtain ⟨hcreate, hdrop, _⟩ := C10 t (some f) c ops ht hf h
  rintro ⟨op, ho, hr⟩
  cases op <;> simp only [Op.resets] at hr
  · rename_i x
    obtain ⟨k, hk, hkn⟩ := (hcreate x).mp ho
    have := ht.name k x (Dict.mem_of_get? hk)
    rw [← hr, this] at h1
    exact hkn h1
  · subst hr
    exact ((hdrop _).mp ho).2 h2

/-- statements on declared rows do not touch other tables -/
theorem rows_untouched {t : Dict Table} {from? : Option (Dict Table)} {ops : List Op} (ht : KeyedTables t) (h : RowMygration.process t from? = .ok ops) {n i : Str}
    (hn : ∀ x ∈ t.values, x.tracking = true → x.name ≠ n) : ∀ op ∈ ops, op.rowKey ≠ some (n, i) := by
  intro op hop hk
  obtain ⟨x, hx, hxt, new, hnew, hcase⟩ := row_ops ht h op hop
  have : x.name = n := by
    rcases hcase with ⟨j, r, _, rfl⟩ | ⟨j, rfl⟩ | ⟨j, r, _, rfl⟩ <;> simp only [Op.rowKey, Option.map_eq_some_iff, Option.some.injEq, Prod.mk.injEq] at hk
    · obtain ⟨_, _, h, _⟩ := hk; exact h
    · exact hk.1
    · obtain ⟨_, _, h, _⟩ := hk; exact h
  exact hn x hx hxt this

theorem untracked_name {d : Dict Table} (hd : KeyedTables d) {t : Table} (ht : t ∈ d.values) (htt : t.tracking = false) :
    ∀ x ∈ d.values, x.tracking = true → x.name ≠ t.name := by
  intro t2 ht2 htt2 e
  have e1 := get?_own_name hd ht
  have e2 := get?_own_name hd ht2
  rw [e, e1] at e2
  cases e2
  rw [htt] at htt2
  cases htt2

/-- the structure, then the rows -/
theorem world_migrated {sources : List Str} {srv : Server} {files live live' : Database} {g : DbRows} {db : SDb} {c : Bool} (dflt : ColumnSql → Option Str)
    (hf : FileDatabase.new sources = .ok files) (hl : (LiveDatabase.new srv).result = .ok live) (hg : ServerRows srv live g)
    (hdb : Describes live.tables db) (hm : Migratable c live.tables files.tables) (hfit : RowsFit live.tables files.tables) (hq : RowsQuiet g files.tables)
    (hr : (readTracked srv live files.tables.values).result = .ok live') (hkf : KeptTables files.tables) (hkl : KeptTables live'.tables)
    {structure' rows : List Op} (hp : process files.tables (some live'.tables) false = .ok structure')
    (hrows : RowMygration.process files.tables (some live'.tables) = .ok rows) :
    ∃ db' g', World.sendAll dflt ⟨({ db with checks := false } : SDb).sql, g⟩ ((structure' ++ rows).map Op.render) = some ⟨db'.sql, g'⟩ ∧
      process files.tables (some live.tables) false = .ok structure' ∧ SDb.execAll { db with checks := false } structure' = some db' ∧
      Migrated live.tables files.tables { db' with checks := true } ∧ RowsMigrated live.tables files.tables g g' := by
  have hp' : process files.tables (some live.tables) false = .ok structure' := by
    rw [← process_bare, ← readTracked_bare _ _ _ hr, process_bare]
    exact hp
  have hpt := process_toggles hp'
  obtain ⟨db2, hex, hmig⟩ := C14_partial live.tables files.tables (some live.tables) rfl c hm.source hm.target hm.untroubled _ hpt db hdb
  have hmeans := C66_plan_partial files.tables (some live.tables) false structure' hm.target.toKeyedTables hm.source.toKeyedTables hm.sound hm.named hm.tables hm.columns hp'
  obtain ⟨_, hdrop, _, _, _, hstruct⟩ := C10 files.tables (some live.tables) false structure' hm.target.toKeyedTables hm.source.toKeyedTables hp'
  simp only [SDb.execAll, List.cons_append, List.foldlM_cons, List.foldlM_append, List.foldlM_nil, Option.bind_eq_bind, Option.bind_eq_some_iff, SDb.exec,
    Option.some.injEq, Option.pure_def] at hex
  obtain ⟨_, rfl, db1, hex1, _, rfl, rfl⟩ := hex
  obtain ⟨g1, hs1, hkept⟩ := world_sendAll dflt hmeans hstruct hex1 g
  have hresets : ∀ n, n ∈ live.tables.keys → n ∈ files.tables.keys → ¬ ∃ op ∈ structure', op.resets n :=
    fun n h1 h2 => process_resets hm.source.toKeyedTables hm.target.toKeyedTables hp' h1 h2
  have hmoves : ∀ n a b k, live.tables.get? n = some a → files.tables.get? n = some b → k ∈ a.columns.keys → k ∈ b.columns.keys →
      ¬ ∃ op ∈ structure', op.moves n k :=
    fun n a b k ha hb h1 h2 => process_spares (from? := some live.tables) hm.target.toKeyedTables hm.source.toKeyedTables hp' ha hb h1 h2
  have hsome : ∀ n a b i cells, live.tables.get? n = some a → files.tables.get? n = some b → g n i = some cells →
      ∃ cells', g1 n i = some cells' ∧ ∀ k, k ∈ a.columns.keys → k ∈ b.columns.keys → cells' k = cells k := by
    intro n a b i cells ha hb hc
    obtain ⟨cells1, hc1, hcells1⟩ := hkept.some n i cells (hresets n (Dict.mem_keys_of_get? ha) (Dict.mem_keys_of_get? hb)) hc
    exact ⟨cells1, hc1, fun k h1 h2 => hcells1 k (hmoves n a b k ha hb h1 h2)⟩
  obtain ⟨hrmeans, hfits, g2, hexr, hsame, hres⟩ := rows_ready dflt hf hl hg hm.sound hfit hq hr hkf hkl hrows (s := db1.sql) (g1 := g1)
    (fun n b hb => hmig.columns hkf.toKeyedTables hb) (fun n i h => hkept.none n i h) hsome
  have hsr := world_rows dflt hrmeans hfits hexr
  have huntouched : ∀ n i, (∀ t ∈ files.tables.values, t.tracking = true → t.name ≠ n) → g2 n i = g1 n i :=
    fun n i hn => hsame n i (rows_untouched hkf.toKeyedTables hrows hn)
  have huntracked : ∀ t ∈ files.tables.values, t.tracking = false → ∀ t2 ∈ files.tables.values, t2.tracking = true → t2.name ≠ t.name :=
    fun t htm htt => untracked_name hkf.toKeyedTables htm htt
  refine ⟨db1, g2, ?_, hp', hex1, hmig, ⟨?_, ?_, ?_, ?_, ?_⟩⟩
  · rw [List.map_append, world_append dflt hs1]
    exact hsr
  · intro t htm htt
    obtain ⟨new, hnew, hids, _⟩ := hres t htm htt
    exact ⟨new, hnew, hids⟩
  · intro t htm htt new i r hnew hr hw
    obtain ⟨new', hnew', _, hvals⟩ := hres t htm htt
    rw [hnew] at hnew'
    cases hnew'
    exact hvals i r hr hw
  · intro t htm htt i cells hc
    rw [huntouched t.name i (huntracked t htm htt)]
    have hname := get?_own_name hkf.toKeyedTables htm
    cases hx : live.tables.get? t.name with
    | none => rw [hg.others _ hx] at hc; cases hc
    | some x =>
      obtain ⟨cells1, hc1, hcells1⟩ := hsome _ x t i cells hx hname hc
      refine ⟨cells1, hc1, ?_⟩
      intro y hy k h1 h2
      cases hy
      exact hcells1 k h1 h2
  · intro t htm htt i hn
    rw [huntouched t.name i (huntracked t htm htt)]
    exact hkept.none _ _ hn
  · intro n hn i
    rw [huntouched n i (fun t ht _ e => hn (e ▸ Dict.mem_keys_of_get? (get?_own_name hkf.toKeyedTables ht)))]
    by_cases hin : n ∈ live.tables.keys
    · exact hkept.reset n i ⟨.removeTable n, (hdrop n).mpr ⟨hin, hn⟩, rfl⟩
    · exact hkept.none _ _ (hg.others n (Dict.get?_eq_none.mpr hin) i)

theorem sendAll_prefix (dflt : ColumnSql → Option Str) {w : World} {l l' : List Str} (h : (w.sendAll dflt (l ++ l')).isSome = true) :
    (w.sendAll dflt l).isSome = true := by
  cases hl : w.sendAll dflt l with
  | some _ => rfl
  | none =>
    simp only [World.sendAll, List.foldlM_append] at h hl
    rw [hl] at h
    exact h

/-- what `apply` does to the server -/
theorem apply_world (srv : Server) (sources : List Str) (force : Bool) (files live : Database) (g : DbRows) (db : SDb) (c : Bool)
    (dflt : ColumnSql → Option Str)
    (hf : FileDatabase.new sources = .ok files) (he : files.errors.1 = .ok []) (hl : (LiveDatabase.new srv).result = .ok live)
    (hdb : Describes live.tables db) (hch : db.checks = true) (hg : ServerRows srv live g)
    (hm : Migratable c live.tables files.tables) (hfit : RowsFit live.tables files.tables) (hq : RowsQuiet g files.tables)
    {structure' : List Op} (hplan : process files.tables (some live.tables) false = .ok structure')
    (hsrv : srv.Follows dflt ⟨db.sql, g⟩) :
    ∃ o db' g', (Command.apply srv sources force).result = .ok o ∧
      (Command.apply srv sources force).events = (plan srv sources force).events ++ o.output.map .sent ++ [.committed] ∧
      World.sendAll dflt ⟨db.sql, g⟩ o.output = some ⟨db'.sql, g'⟩ ∧
      (∃ ops, process files.tables (some live.tables) true = .ok ops ∧ db.execAll ops = some db') ∧
      Migrated live.tables files.tables db' ∧ RowsMigrated live.tables files.tables g g' := by
  have hkf := FileDatabase.new_kept hf
  obtain ⟨live', rows, hr, hkl, hp, hrows, hb⟩ := planned hf he hl hg hplan
  have hops := hb force
  generalize hopse : (if structure' ++ rows = [] then [] else Op.disableChecks :: (structure' ++ rows) ++ [Op.enableChecks]) = ops at hops
  clear hb
  obtain ⟨db1, g', hs, hps, hex, hmig, hrm⟩ := world_migrated dflt hf hl hg hdb hm hfit hq hr hkf hkl hp hrows
  have hsend : World.sendAll dflt ⟨db.sql, g⟩ (ops.map Op.render) = some ⟨({ db1 with checks := true } : SDb).sql, g'⟩ := by
    rw [← hopse]
    split
    · rename_i hemp
      obtain ⟨h1, h2⟩ := List.append_eq_nil_iff.mp hemp
      rw [hemp] at hs
      have hw : (⟨({ db with checks := false } : SDb).sql, g⟩ : World) = ⟨db1.sql, g'⟩ := Option.some.inj hs
      have hg' : g = g' := congrArg World.rows hw
      have hnil : db1 = { db with checks := false } := by
        rw [h1] at hex
        cases hex
        rfl
      rw [hnil, ← hg']
      have : ({ db with checks := true } : SDb) = db := by cases db; simp only at hch; rw [hch]
      show some _ = some (World.mk (SDb.sql { db with checks := true }) g)
      rw [this]
    · have hd := world_checks dflt db g .disableChecks false rfl
      have hen := world_checks dflt db1 g' .enableChecks true rfl
      have h0 : World.sendAll dflt ⟨db.sql, g⟩ [Op.render .disableChecks] = some ⟨({ db with checks := false } : SDb).sql, g⟩ := by
        simp only [World.sendAll, List.foldlM_cons, List.foldlM_nil, hd]
        rfl
      have h2 : World.sendAll dflt ⟨db1.sql, g'⟩ [Op.render .enableChecks] = some ⟨({ db1 with checks := true } : SDb).sql, g'⟩ := by
        simp only [World.sendAll, List.foldlM_cons, List.foldlM_nil, hen]
        rfl
      have : (Op.disableChecks :: (structure' ++ rows) ++ [Op.enableChecks]).map Op.render =
          [Op.render .disableChecks] ++ ((structure' ++ rows).map Op.render ++ [Op.render .enableChecks]) := by simp
      rw [this, world_append dflt h0, world_append dflt hs, h2]
  have hpl : (plan srv sources force).result = .ok ⟨ops.map Op.render, true⟩ := by
    unfold plan
    rw [Run.bind_ok hops]
    rfl
  cases ha : (Command.apply srv sources force).result with
  | error e =>
    obtain ⟨before, q, after, ho, hfail, _⟩ := C46_failure srv sources force _ e hpl ha
    have : srv.fails before q = none := by
      refine hsrv before q (sendAll_prefix dflt (l' := after) ?_)
      rw [List.append_assoc, List.singleton_append, ← ho, hsend]
      rfl
    rw [this] at hfail
    cases hfail
  | ok o =>
    obtain ⟨h1, h2⟩ := C46 srv sources force o ha
    rw [hpl] at h1
    cases h1
    refine ⟨_, _, g', rfl, h2, hsend, ⟨_, process_toggles hps, ?_⟩, hmig, hrm⟩
    simp only [SDb.execAll] at hex
    simp only [SDb.execAll, List.cons_append, List.foldlM_cons, List.foldlM_append, List.foldlM_nil, Option.bind_eq_bind, SDb.exec, Option.bind_some, hex,
      Option.pure_def]

/-- **C69.**  The declared schema has no errors and can be migrated to, and the declared rows fit to it.  The server has the tables and rows
which it answers, foreign keys are checked, and it fails on nothing which MySQL accepts.  Then `apply` comes to its end: it sends what `plan`
prints and commits once; MySQL accepts each of the texts; and afterwards the server has the declared tables, with the declared columns, keys and
foreign keys, and the declared rows; rows of tables whose rows are not declared are kept.

What is missing (`_partial`): the column order and the table options are not compared (C14), and rows may not be written if the text `None` is
involved (`RowWritten`). -/
theorem C69_partial (srv : Server) (sources : List Str) (force : Bool) (files live : Database) (g : DbRows) (db : SDb) (c : Bool)
    (dflt : ColumnSql → Option Str)
    (hf : FileDatabase.new sources = .ok files) (he : files.errors.1 = .ok []) (hl : (LiveDatabase.new srv).result = .ok live)
    (hdb : Describes live.tables db) (hch : db.checks = true) (hg : ServerRows srv live g)
    (hm : Migratable c live.tables files.tables) (hfit : RowsFit live.tables files.tables) (hq : RowsQuiet g files.tables)
    (hc : ∀ n a b, live.tables.get? n = some a → files.tables.get? n = some b → a.Comparable b)
    (hsrv : srv.Follows dflt ⟨db.sql, g⟩) :
    ∃ o db' g', (Command.apply srv sources force).result = .ok o ∧
      (Command.apply srv sources force).events = (plan srv sources force).events ++ o.output.map .sent ++ [.committed] ∧
      World.sendAll dflt ⟨db.sql, g⟩ o.output = some ⟨db'.sql, g'⟩ ∧
      Migrated live.tables files.tables db' ∧ RowsMigrated live.tables files.tables g g' := by
  obtain ⟨p, hp⟩ := C56 files.tables (some live.tables) false hm.target.toKeyedTables hc
  obtain ⟨o, db', g', h1, h2, h3, _, h4, h5⟩ := apply_world srv sources force files live g db c dflt hf he hl hdb hch hg hm hfit hq hp hsrv
  exact ⟨o, db', g', h1, h2, h3, h4, h5⟩

/-- the structure does not depend on the rows: what is refused without them is refused with them -/
theorem world_schema (dflt : ColumnSql → Option Str) : ∀ {texts : List Str} {w w' : World}, w.sendAll dflt texts = some w' →
    w.schema.sendAll texts = some w'.schema
  | [], w, w', h => by cases h; rfl
  | x :: texts, w, w', h => by
    simp only [World.sendAll, DbSql.sendAll, List.foldlM_cons, Option.bind_eq_bind, Option.bind_eq_some_iff] at h ⊢
    obtain ⟨m, h1, h2⟩ := h
    refine ⟨m.schema, ?_, world_schema dflt h2⟩
    simp only [World.send, DbSql.send, Option.bind_eq_some_iff] at h1 ⊢
    obtain ⟨st, h3, h4⟩ := h1
    refine ⟨st, h3, ?_⟩
    simp only [World.exec, Option.bind_eq_bind, Option.bind_eq_some_iff, Option.some.injEq] at h4
    obtain ⟨sch, h5, r, _, h6⟩ := h4
    rw [h5, ← h6]

/-- where texts fail -/
theorem world_fails (dflt : ColumnSql → Option Str) : ∀ {texts : List Str} (done : List Str) {w w₁ : World}, w.sendAll dflt done = some w₁ →
    w₁.sendAll dflt texts = none → ∃ before q after, texts = before ++ q :: after ∧ (w.sendAll dflt (done ++ before)).isSome = true ∧
      w.sendAll dflt (done ++ before ++ [q]) = none
  | [], done, w, w₁, _, h => by cases h
  | x :: texts, done, w, w₁, hd, h => by
    have hx : w.sendAll dflt (done ++ [x]) = w₁.send dflt x := by
      rw [world_append dflt hd]
      simp [World.sendAll]
    cases hs : w₁.send dflt x with
    | none => exact ⟨[], x, texts, rfl, by simp [hd], by simp [hx, hs]⟩
    | some w₂ =>
      rw [hs] at hx
      have h' : w₂.sendAll dflt texts = none := by
        simpa [World.sendAll, hs] using h
      obtain ⟨before, q, after, h1, h2, h3⟩ := world_fails dflt (done ++ [x]) hx h'
      exact ⟨x :: before, q, after, by rw [h1]; rfl, by simpa using h2, by simpa using h3⟩

/-- **C69 is false** of everything else: if the migration is not `Untroubled`, or if a table or a column has to be dropped whose name is a reserved
word, then MySQL refuses one of the texts which `plan` prints; so `apply` fails, and nothing is committed. -/
theorem C69_troubled (srv : Server) (sources : List Str) (force : Bool) (files live : Database) (g : DbRows) (db : SDb) (c : Bool)
    (dflt : ColumnSql → Option Str)
    (hf : FileDatabase.new sources = .ok files) (he : files.errors.1 = .ok []) (hl : (LiveDatabase.new srv).result = .ok live)
    (hdb : Describes live.tables db) (hg : ServerRows srv live g) (hsrc : Accepted c live.tables) (htgt : Accepted true files.tables)
    (hnamed : ∀ x ∈ live.tables.values, x.Named) (hsound : ∀ x ∈ files.tables.values, x.Sound)
    (htl : ∀ x ∈ files.tables.values, ∀ c ∈ x.columns.values, c.Measured) (hfl : ∀ x ∈ live.tables.values, ∀ c ∈ x.columns.values, c.Measured)
    (hc : ∀ n a b, live.tables.get? n = some a → files.tables.get? n = some b → a.Comparable b)
    (hbad : ¬ Migratable c live.tables files.tables) (hsrv : srv.Strict dflt ⟨db.sql, g⟩) :
    ∃ o, (plan srv sources force).result = .ok o ∧ World.sendAll dflt ⟨db.sql, g⟩ o.output = none ∧
      (∃ e, (Command.apply srv sources force).result = .error e) ∧ .committed ∉ (Command.apply srv sources force).events := by
  obtain ⟨p, hp⟩ := C56 files.tables (some live.tables) false htgt.toKeyedTables hc
  obtain ⟨live', rows, hr, hkl, hp', hrows, hb⟩ := planned hf he hl hg hp
  have htog := process_toggles hp
  have hnone : db.sql.sendAll ((Op.disableChecks :: p ++ [Op.enableChecks]).map Op.render) = none := by
    cases hs : db.sql.sendAll ((Op.disableChecks :: p ++ [Op.enableChecks]).map Op.render) with
    | none => rfl
    | some x =>
      exfalso
      have hall : ∀ op ∈ Op.disableChecks :: p ++ [Op.enableChecks], ∃ st, readStatement op.render = some st ∧ op.Means st := by
        apply (C66_plan_iff files.tables (some live.tables) true _ htgt.toKeyedTables hsrc.toKeyedTables hsound hnamed htog).mpr
        refine ⟨?_, ?_⟩
        · intro n hn' hgone
          cases hr : Sql.bareName n with
          | true => rfl
          | false =>
            obtain ⟨a, ha⟩ := Dict.exists_get? hn'
            have hi : Ident n := hsrc.name n a (Dict.mem_of_get? ha) ▸ (hnamed a (values_of_get? ha)).name
            rw [C68_refuted files.tables (some live.tables) true _ hsrc.toKeyedTables n hn' hgone hi hr htog db.sql] at hs
            cases hs
        · intro n a b ha hb k hk hgone
          cases hr : Sql.bareName k with
          | true => rfl
          | false =>
            obtain ⟨op, h1, h2⟩ := C66_plan_column_refuted files.tables (some live.tables) true _ htgt.toKeyedTables hsrc.toKeyedTables hsound hnamed n a b ha hb k
              hk hgone hr htog
            rw [sendAll_none h2 db.sql (List.mem_map_of_mem h1)] at hs
            cases hs
      have hbare := (C66_plan_iff files.tables (some live.tables) true _ htgt.toKeyedTables hsrc.toKeyedTables hsound hnamed htog).mp hall
      have hu : ¬ Untroubled live.tables files.tables := fun hu => hbad ⟨hsrc, htgt, hu, hnamed, hsound, hbare.1, hbare.2⟩
      rw [C68_troubled live.tables files.tables (some live.tables) rfl c hsrc htgt hu hsound hnamed htl hfl _ htog db hdb] at hs
      cases hs
  have hpre : db.sql.sendAll ((Op.disableChecks :: p).map Op.render) = none := by
    cases hs : db.sql.sendAll ((Op.disableChecks :: p).map Op.render) with
    | none => rfl
    | some x =>
      exfalso
      have hen : x.send (Op.render .enableChecks) ≠ none := by
        unfold DbSql.send
        rw [show readStatement (Op.render .enableChecks) = some (.setVar py"FOREIGN_KEY_CHECKS" py"1") by decide +kernel]
        simp [DbSql.exec]
      apply hen
      rw [List.map_append] at hnone
      simp only [DbSql.sendAll, List.foldlM_append] at hs hnone
      rw [hs] at hnone
      simpa using hnone
  have hne : p ≠ [] := by
    rintro rfl
    simp only [DbSql.sendAll, List.map_cons, List.map_nil, List.foldlM_cons, List.foldlM_nil, DbSql.send,
      show readStatement (Op.render .disableChecks) = some (.setVar py"FOREIGN_KEY_CHECKS" py"0") by decide +kernel, Option.bind_some, DbSql.exec] at hpre
    cases hpre
  have hops := hb force
  rw [if_neg (by simp [hne])] at hops
  have hpl : (plan srv sources force).result = .ok ⟨(Op.disableChecks :: (p ++ rows) ++ [Op.enableChecks]).map Op.render, true⟩ := by
    unfold plan
    rw [Run.bind_ok hops]
    rfl
  have hw : World.sendAll dflt ⟨db.sql, g⟩ ((Op.disableChecks :: (p ++ rows) ++ [Op.enableChecks]).map Op.render) = none := by
    have e : (Op.disableChecks :: (p ++ rows) ++ [Op.enableChecks]).map Op.render =
        (Op.disableChecks :: p).map Op.render ++ (rows ++ [Op.enableChecks]).map Op.render := by simp
    rw [e]
    cases hs : World.sendAll dflt ⟨db.sql, g⟩ ((Op.disableChecks :: p).map Op.render) with
    | some w' =>
      rw [world_schema dflt hs] at hpre
      cases hpre
    | none =>
      simp only [World.sendAll, List.foldlM_append] at hs ⊢
      rw [hs]
      rfl
  refine ⟨_, hpl, hw, ?_⟩
  cases ha : (Command.apply srv sources force).result with
  | error e =>
    obtain ⟨before, q, after, h1, h2, h3, h4, h5⟩ := C46_failure srv sources force _ e hpl ha
    exact ⟨⟨e, rfl⟩, h5⟩
  | ok o =>
    exfalso
    obtain ⟨h1, h2⟩ := C46 srv sources force o ha
    obtain ⟨before, q, after, h3, h4, h5⟩ := world_fails dflt [] (w := ⟨db.sql, g⟩) rfl hw
    refine hsrv before q h4 h5 ?_
    unfold Command.apply at ha
    rw [Run.bind_ok hops] at ha
    obtain ⟨u, hu, _⟩ := Run.bind_result ha
    obtain ⟨u', hu', _⟩ := Run.bind_result hu
    rcases Driver.sendAll_events srv ((Op.disableChecks :: (p ++ rows) ++ [Op.enableChecks]).map Op.render) [] with ⟨e, k, he, _⟩ | ⟨_, hall, _⟩
    · rw [he] at hu'
      cases hu'
    · rw [h3] at hall
      have := hall before.length q (by simp)
      simpa using this

/-- **C69, exactly.**  The declared schema has no errors, MySQL can read the definitions, and the declared rows fit to it; the server fails where
MySQL does and nowhere else.  Then `apply` comes to its end if and only if the tables are `Migratable`: the migration is `Untroubled`, and no table
and no column whose name is a reserved word has to be dropped.  (What it leads to then: `C69_partial`.) -/
theorem C69_iff (srv : Server) (sources : List Str) (force : Bool) (files live : Database) (g : DbRows) (db : SDb) (c : Bool)
    (dflt : ColumnSql → Option Str)
    (hf : FileDatabase.new sources = .ok files) (he : files.errors.1 = .ok []) (hl : (LiveDatabase.new srv).result = .ok live)
    (hdb : Describes live.tables db) (hch : db.checks = true) (hg : ServerRows srv live g) (hsrc : Accepted c live.tables) (htgt : Accepted true files.tables)
    (hnamed : ∀ x ∈ live.tables.values, x.Named) (hsound : ∀ x ∈ files.tables.values, x.Sound)
    (htl : ∀ x ∈ files.tables.values, ∀ c ∈ x.columns.values, c.Measured) (hfl : ∀ x ∈ live.tables.values, ∀ c ∈ x.columns.values, c.Measured)
    (hfit : RowsFit live.tables files.tables) (hq : RowsQuiet g files.tables)
    (hc : ∀ n a b, live.tables.get? n = some a → files.tables.get? n = some b → a.Comparable b)
    (hsrv : srv.Follows dflt ⟨db.sql, g⟩) (hstrict : srv.Strict dflt ⟨db.sql, g⟩) :
    (∃ o, (Command.apply srv sources force).result = .ok o) ↔ Migratable c live.tables files.tables := by
  constructor
  · rintro ⟨o, ho⟩
    apply Classical.byContradiction
    intro hbad
    obtain ⟨_, _, _, ⟨e, he'⟩, _⟩ := C69_troubled srv sources force files live g db c dflt hf he hl hdb hg hsrc htgt hnamed hsound htl hfl hc hbad hstrict
    rw [ho] at he'
    cases he'
  · intro hm
    obtain ⟨o, _, _, h1, _⟩ := C69_partial srv sources force files live g db c dflt hf he hl hdb hch hg hm hfit hq hc hsrv
    exact ⟨o, h1⟩

end

/-- **C69, rows fit.**  If there are no errors and no table is declared in two files, then declared rows give values for declared columns only. -/
theorem C69_fits [PyNum] (sources : List Str) (files : Database) (hf : FileDatabase.new sources = .ok files) (he : files.errors.1 = .ok [])
    (hn : (sources.flatMap (fun f => Dict.keys (readSource f).1.tables)).Nodup) :
    ∀ t ∈ files.tables.values, ∀ new, t.rows = some new → ∀ i r, new.get? i = some r → ∀ c ∈ Dict.keys r, c ∈ t.columns.keys := by
  intro t ht new hnew i r hr
  have hname := get?_own_name (FileDatabase.new_kept hf).toKeyedTables ht
  exact files_rows_fit hf he (new_cache hf hn) hname (by rw [hnew]; exact Dict.mem_of_get? hr)

/-! ## Examples -/

section Examples
attribute [local instance] exactNum

/-- the rows which a server answers, as `DbRows` -/
def answeredRows (srv : Server) (tables : List Str) : DbRows := fun n i =>
  if n ∈ tables then
    match srv.select n with
    | .ok rs => (rs.find? (fun r => decide (DbRows.givenId r = some i))).map (fun r c => (Dict.get? r c).bind PyVal.cell)
    | .error _ => none
  else none

/-- they are what is there, if they are full and no two have the same id -/
theorem answeredRows_server {srv : Server} {live : Database}
    (h : live.tables.all (fun e => match srv.select e.1 with
      | .ok rs => decide (rs.map DbRows.givenId).Nodup && rs.all (fun r => (DbRows.givenId r).any (fun i => decide (i ≠ [])) && (Dict.keys e.2.columns).all (Dict.keys r).contains)
      | .error _ => false) = true) : ServerRows srv live (answeredRows srv (Dict.keys live.tables)) := by
  refine ⟨?_, ?_⟩
  · intro n x hx
    have hn := Dict.mem_keys_of_get? hx
    have := List.all_eq_true.mp h _ (Dict.mem_of_get? hx)
    simp only at this
    cases hs : srv.select n with
    | error e => rw [hs] at this; cases this
    | ok rs =>
      rw [hs] at this
      simp only [Bool.and_eq_true, decide_eq_true_eq, List.all_eq_true] at this
      obtain ⟨hnd, hall⟩ := this
      refine ⟨rs, rfl, ⟨?_, ?_, ?_, ?_⟩⟩
      · intro r hr
        have := (hall r hr).1
        cases hi : DbRows.givenId r with
        | none => rw [hi] at this; cases this
        | some i =>
          rw [hi] at this
          exact ⟨i, rfl, of_decide_eq_true this⟩
      · intro r hr c hc
        exact List.contains_iff_mem.mp ((hall r hr).2 c hc)
      · intro r hr i hi
        have hfind : rs.find? (fun r => decide (DbRows.givenId r = some i)) = some r := by
          clear hs hall
          induction rs with
          | nil => cases hr
          | cons q rs ih =>
            rw [List.map_cons, List.nodup_cons] at hnd
            rw [List.find?_cons]
            by_cases hq : DbRows.givenId q = some i
            · rw [decide_eq_true hq]
              simp only [Option.some.injEq]
              rcases List.mem_cons.mp hr with e | hr
              · exact e.symm
              · exact absurd (List.mem_map.mpr ⟨r, hr, hi.trans hq.symm⟩) hnd.1
            · rw [decide_eq_false hq]
              simp only
              rcases List.mem_cons.mp hr with e | hr
              · exact absurd (e ▸ hi) hq
              · exact ih hnd.2 hr
        refine ⟨_, by simp only [answeredRows, if_pos hn, hs, hfind, Option.map_some]; rfl, ?_⟩
        intro c v hv
        simp only [hv, Option.bind_some]
      · intro i hi
        simp only [answeredRows, if_pos hn, hs, Option.map_eq_none_iff, List.find?_eq_none, decide_eq_true_eq]
        exact hi
  · intro n hn i
    simp only [answeredRows, if_neg (Dict.get?_eq_none.mp hn)]

/-- the rows of `levels` are declared; `notes` is a new table with foreign keys, and `users` gets a column and loses one -/
def allSources : List Str :=
  [py"CREATE TABLE users (id INT(10) NOT NULL, email VARCHAR(255), PRIMARY KEY (id));",
   py"CREATE TABLE notes (id INT(10) NOT NULL, user_id INT(10), level_id INT(10), PRIMARY KEY (id), KEY by_user (user_id), KEY by_level (level_id), CONSTRAINT notes_user FOREIGN KEY (user_id) REFERENCES users (id) ON DELETE CASCADE ON UPDATE CASCADE, CONSTRAINT notes_level FOREIGN KEY (level_id) REFERENCES levels (id));",
   py"CREATE TABLE levels (id INT(10) NOT NULL, name VARCHAR(50), weight INT(10), PRIMARY KEY (id)); INSERT INTO levels (id, name, weight) VALUES (1, 'low', 10), (2, 'mid', 20), (4, 'top', 40);"]

/-- a server with other columns, another table, and other rows -/
def allServer : Server where
  tableNames := [py"levels", py"logs", py"users"]
  createText n :=
    if n = py"logs" then .ok (some py"CREATE TABLE `logs` (`id` int(10) NOT NULL, PRIMARY KEY (`id`));")
    else if n = py"levels" then .ok (some py"CREATE TABLE `levels` (`id` int(10) NOT NULL, `name` varchar(20), `old` int(10), PRIMARY KEY (`id`));")
    else if n = py"users" then .ok (some py"CREATE TABLE `users` (`id` int(10) NOT NULL, `phone` varchar(20), PRIMARY KEY (`id`));")
    else .ok none
  select n :=
    if n = py"levels" then .ok [[(py"id", .int 1), (py"name", .str py"tiny"), (py"old", .none)], [(py"id", .int 3), (py"name", .str py"gone"), (py"old", .int 7)]]
    else if n = py"users" then .ok [[(py"id", .int 9), (py"phone", .str py"555")]]
    else if n = py"logs" then .ok [[(py"id", .int 1)]]
    else .ok []
  fails _ _ := none

def allFiles : Database := match FileDatabase.new allSources with | .ok d => d | .error _ => {}
def allLive : Database := match (LiveDatabase.new allServer).result with | .ok d => d | .error _ => {}

theorem allFiles_eq : FileDatabase.new allSources = .ok allFiles := by decide +kernel
theorem allLive_eq : (LiveDatabase.new allServer).result = .ok allLive := by decide +kernel
theorem allFiles_errors : allFiles.errors.1 = .ok [] := by decide +kernel


/-- the rows of the server -/
def allRows : DbRows := answeredRows allServer (Dict.keys allLive.tables)

/-- its structure -/
def allDb : SDb := ⟨true, ofTables allLive.tables⟩

theorem all_migratable : Migratable true allLive.tables allFiles.tables where
  source := accepted_of_check (by decide +kernel)
  target := accepted_of_check (by decide +kernel)
  untroubled := untroubled_of_check (accepted_of_check (checks := true) (by decide +kernel)).toKeyedTables (by decide +kernel)
  named := by
    have : ∀ x ∈ allLive.tables.values, Examples.easyTable x = true := by decide +kernel
    exact fun x hx => (Examples.sound_of_easyTable (this x hx)).2
  sound := by
    have : ∀ x ∈ allFiles.tables.values, Examples.easyTable x = true := by decide +kernel
    exact fun x hx => (Examples.sound_of_easyTable (this x hx)).1
  tables := by
    have : ∀ n ∈ allLive.tables.keys, Sql.bareName n = true := by decide +kernel
    exact fun n hn _ => this n hn
  columns := by
    have : ∀ x ∈ allLive.tables.values, ∀ c ∈ x.columns.keys, Sql.bareName c = true := by decide +kernel
    exact fun n a b ha _ c hc _ => this a (Dict.mem_values.mpr ⟨n, Dict.mem_of_get? ha⟩) c hc

theorem all_rowsFit : RowsFit allLive.tables allFiles.tables := by
  have h : ∀ t ∈ allFiles.tables.values, py"id" ∈ t.columns.keys := by decide +kernel
  have hl : ∀ x ∈ allLive.tables.values, py"id" ∈ x.columns.keys := by decide +kernel
  refine ⟨fun t ht _ => h t ht, fun t _ _ x hx => hl x (Dict.mem_values.mpr ⟨_, Dict.mem_of_get? hx⟩), fun t ht _ new hnew i r hr => ?_⟩
  exact C69_fits allSources allFiles allFiles_eq allFiles_errors (by decide +kernel) t ht new hnew i r hr

theorem all_rowsQuiet : RowsQuiet allRows allFiles.tables := by
  have h : ∀ t ∈ allFiles.tables.values, t.tracking = true → t.name = py"levels" ∧
      ∀ e ∈ t.rows.getD [], ∀ f ∈ e.2, '\'' ∉ f.2.cell.getD [] := by decide +kernel
  refine ⟨?_, ?_⟩
  · intro t ht htt i hi
    rw [(h t ht htt).1] at hi
    have hin : py"levels" ∈ Dict.keys allLive.tables := by decide +kernel
    unfold allRows answeredRows at hi
    rw [if_pos hin] at hi
    by_cases h1 : i = py"1"
    · subst h1; decide
    by_cases h3 : i = py"3"
    · subst h3; decide
    exfalso
    have e1 : DbRows.givenId [(py"id", PyVal.int 1), (py"name", .str py"tiny"), (py"old", .none)] = some py"1" := by decide
    have e3 : DbRows.givenId [(py"id", PyVal.int 3), (py"name", .str py"gone"), (py"old", .int 7)] = some py"3" := by decide
    simp only [allServer, if_true, List.find?_cons, e1, e3, List.find?_nil] at hi
    simp [Ne.symm h1, Ne.symm h3] at hi
  · intro t ht htt new hnew i r _ hr c v s hcv hv
    have := (h t ht htt).2
    rw [hnew] at this
    have := this _ (Dict.mem_of_get? hr) _ hcv
    simp only [hv, Option.getD_some] at this
    exact this

/-- for `C69_partial`: a table goes, one comes, columns come and go and change, and rows too; after it `levels` has the declared rows, and the row
of `users` has been kept -/
example (dflt : ColumnSql → Option Str) : ∃ o, ∃ db' : SDb, ∃ g', (Command.apply allServer allSources false).result = .ok o ∧
    World.sendAll dflt ⟨allDb.sql, allRows⟩ o.output = some ⟨db'.sql, g'⟩ ∧
    (∀ n, n ∈ db'.tables.keys ↔ n ∈ [py"users", py"notes", py"levels"]) ∧
    (∀ i, (g' py"levels" i).isSome = true ↔ i ∈ [py"1", py"2", py"4"]) ∧ (g' py"users" py"9").isSome = true ∧ g' py"logs" py"1" = none := by
  obtain ⟨o, db', g', h1, _, h2, h3, h4⟩ := C69_partial allServer allSources false allFiles allLive allRows allDb true dflt allFiles_eq allFiles_errors allLive_eq
    (describes_ofTables all_migratable.source.toKeyedTables true) rfl (answeredRows_server (by decide +kernel)) all_migratable all_rowsFit all_rowsQuiet
    (Examples.comparableTables_of_check (by decide +kernel)) (fun _ _ _ => rfl)
  have hkeys : allFiles.tables.keys = [py"users", py"notes", py"levels"] := by decide +kernel
  obtain ⟨t, ht, htn, htt, htr⟩ : ∃ t ∈ allFiles.tables.values, t.name = py"levels" ∧ t.tracking = true ∧ t.rows.map Dict.keys = some [py"1", py"2", py"4"] := by decide +kernel
  obtain ⟨u, hu, hun, hut⟩ : ∃ t ∈ allFiles.tables.values, t.name = py"users" ∧ t.tracking = false := by decide +kernel
  refine ⟨o, db', g', h1, h2, fun n => by rw [h3.names, hkeys], ?_, ?_, h4.gone _ (by rw [hkeys]; decide) _⟩
  · obtain ⟨new, hnew, hids⟩ := h4.ids t ht htt
    rw [hnew] at htr
    simp only [Option.map_some, Option.some.injEq] at htr
    rw [htn, htr] at hids
    exact hids
  · have h9 : (allRows py"users" py"9").isSome = true := by decide +kernel
    obtain ⟨cells, hc⟩ := Option.isSome_iff_exists.mp h9
    obtain ⟨cells', hc', _⟩ := h4.kept u hu hut py"9" cells (by rw [hun]; exact hc)
    rw [hun] at hc'
    rw [hc']
    rfl

/-- a row gives a value for a column which is not declared, and the table is declared in two files -/
def strayRow : List Str :=
  [py"CREATE TABLE tags (id INT(10) NOT NULL, PRIMARY KEY (id));",
   py"CREATE TABLE tags (id INT(10) NOT NULL, PRIMARY KEY (id)); INSERT INTO tags (id, colour) VALUES (1, 'red');"]

/-- **C69 is false of rows with undeclared columns** (`RowsFit.columns` is needed): nothing is wrong with the files, for the tool, because it
does not look again after it has found the second declaration (C31), and there is a plan, but MySQL does not accept it: after the table has been
created, the row cannot be inserted. -/
theorem C69_refuted : (check strayRow).result = .ok ⟨[], true⟩ ∧
    ∃ o, (plan { allServer with tableNames := [] } strayRow false).result = .ok o ∧
      (∀ dflt, World.sendAll dflt ⟨{}, fun _ _ => none⟩ (o.output.take 2) ≠ none) ∧
      ∀ dflt, World.sendAll dflt ⟨{}, fun _ _ => none⟩ (o.output.take 3) = none := by
  refine ⟨by decide +kernel, ⟨[py"SET FOREIGN_KEY_CHECKS=0;", py"CREATE TABLE `tags` (`id` INT(10) NOT NULL,\nPRIMARY KEY (`id`));",
    py"INSERT INTO `tags` (`id`, `colour`) VALUES ('1', 'red');", py"SET FOREIGN_KEY_CHECKS=1;"], true⟩, by decide +kernel, ?_, fun dflt => by rfl⟩
  intro dflt h
  have : (World.sendAll dflt ⟨{}, fun _ _ => none⟩ [py"SET FOREIGN_KEY_CHECKS=0;", py"CREATE TABLE `tags` (`id` INT(10) NOT NULL,\nPRIMARY KEY (`id`));"]).isSome = true := by rfl
  rw [show World.sendAll dflt ⟨{}, fun _ _ => none⟩ [py"SET FOREIGN_KEY_CHECKS=0;", py"CREATE TABLE `tags` (`id` INT(10) NOT NULL,\nPRIMARY KEY (`id`));"] = none from h] at this
  cases this

/-- a server which fails exactly where MySQL does -/
def strictly (srv : Server) (w : World) : Server :=
  { srv with fails := fun before q => if (w.sendAll (fun _ => none) (before ++ [q])).isSome then none else some (.keyError q) }

theorem strictly_follows (srv : Server) (w : World) : (strictly srv w).Follows (fun _ => none) w ∧ (strictly srv w).Strict (fun _ => none) w := by
  refine ⟨fun before q h => ?_, fun before q _ h => ?_⟩
  · simp [strictly, h]
  · simp [strictly, h]

/-- a foreign key goes, and the column to which it refers gets another type -/
def leavingSources : List Str :=
  [py"CREATE TABLE users (id BIGINT(10) NOT NULL, PRIMARY KEY (id));",
   py"CREATE TABLE notes (id INT(10) NOT NULL, user_id INT(10), PRIMARY KEY (id), KEY by_user (user_id));"]

/-- the server on which it is -/
def leavingServer : Server where
  tableNames := [py"users", py"notes"]
  createText n :=
    if n = py"users" then .ok (some py"CREATE TABLE `users` (`id` int(10) NOT NULL, PRIMARY KEY (`id`));")
    else if n = py"notes" then .ok (some py"CREATE TABLE `notes` (`id` int(10) NOT NULL, `user_id` int(10), PRIMARY KEY (`id`), KEY `by_user` (`user_id`), CONSTRAINT `notes_user` FOREIGN KEY (`user_id`) REFERENCES `users` (`id`) ON DELETE CASCADE ON UPDATE CASCADE);")
    else .ok none
  select _ := .ok []
  fails _ _ := none

def leavingFiles : Database := match FileDatabase.new leavingSources with | .ok d => d | .error _ => {}
def leavingLive : Database := match (LiveDatabase.new leavingServer).result with | .ok d => d | .error _ => {}
def leavingDb : SDb := ⟨true, ofTables leavingLive.tables⟩
def leavingRows : DbRows := answeredRows leavingServer (Dict.keys leavingLive.tables)

theorem leaving_source : Accepted true leavingLive.tables := accepted_of_check (by decide +kernel)
theorem leaving_target : Accepted true leavingFiles.tables := accepted_of_check (by decide +kernel)

theorem leaving_troubled : ¬ Migratable true leavingLive.tables leavingFiles.tables := by
  intro h
  obtain ⟨ops, h1, h2⟩ : ∃ ops, process leavingFiles.tables (some leavingLive.tables) true = .ok ops ∧ leavingDb.execAll ops = none := by
    refine ⟨match process leavingFiles.tables (some leavingLive.tables) true with | .ok ops => ops | .error _ => [], by decide +kernel, by decide +kernel⟩
  obtain ⟨_, h3, _⟩ := C14_partial leavingLive.tables leavingFiles.tables (some leavingLive.tables) rfl true leaving_source leaving_target h.untroubled ops h1 leavingDb
    (describes_ofTables leaving_source.toKeyedTables true)
  rw [h2] at h3
  cases h3

/-- for `C69_troubled`: the server refuses to change the type of `users.id` -/
example : ∃ e, (Command.apply (strictly leavingServer ⟨leavingDb.sql, leavingRows⟩) leavingSources false).result = .error e := by
  have hl : (LiveDatabase.new (strictly leavingServer ⟨leavingDb.sql, leavingRows⟩)).result = .ok leavingLive := by decide +kernel
  have hdb : Describes leavingLive.tables leavingDb := describes_ofTables leaving_source.toKeyedTables true
  obtain ⟨o, _, _, h, _⟩ := C69_troubled (strictly leavingServer ⟨leavingDb.sql, leavingRows⟩) leavingSources false leavingFiles leavingLive leavingRows leavingDb true
    (fun _ => none) (by decide +kernel) (by decide +kernel) hl hdb
    (answeredRows_server (srv := strictly leavingServer ⟨leavingDb.sql, leavingRows⟩) (by decide +kernel)) leaving_source leaving_target
    (by
      have : ∀ x ∈ leavingLive.tables.values, Examples.easyTable x = true := by decide +kernel
      exact fun x hx => (Examples.sound_of_easyTable (this x hx)).2)
    (by
      have : ∀ x ∈ leavingFiles.tables.values, Examples.easyTable x = true := by decide +kernel
      exact fun x hx => (Examples.sound_of_easyTable (this x hx)).1)
    (Examples.measured_of_check (by decide +kernel)) (Examples.measured_of_check (by decide +kernel))
    (Examples.comparableTables_of_check (by decide +kernel)) leaving_troubled (strictly_follows _ _).2
  exact h

end Examples

end Mygrations

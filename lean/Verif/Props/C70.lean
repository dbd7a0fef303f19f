import Verif.Props.C67
import Verif.Props.C69
import Verif.Proofs.Again

/-! # C70: once `apply` has run, there is nothing to do -/

namespace Mygrations
open Sql MySQL Mygration Table Command

/-! ## Specification -/

/-- There are no quotes and backslashes where the tool does not escape them (C25), now and later: in the ids of rows which are there, in the
declared ids, and in the declared values. -/
structure QuietRows (g : DbRows) (files : Dict Table) : Prop where
  ids : ∀ t ∈ files.values, t.tracking = true → ∀ i, (g t.name i).isSome = true → '\'' ∉ i ∧ '\\' ∉ i
  declared : ∀ t ∈ files.values, t.tracking = true → ∀ new, t.rows = some new → ∀ i r, new.get? i = some r →
    ('\'' ∉ i ∧ '\\' ∉ i) ∧ ∀ c v s, (c, v) ∈ r → v.cell = some s → '\'' ∉ s

/-! ## Proofs -/

theorem QuietRows.now {g : DbRows} {files : Dict Table} (h : QuietRows g files) : RowsQuiet g files :=
  ⟨h.ids, fun t ht htt new hnew i r _ hr => (h.declared t ht htt new hnew i r hr).2⟩

/-- values which are the same on the server count as equal -/
theorem looseEqual_of_cell {a b : PyVal} (ha : a = .none ∨ ∃ s, a = .str s) (h : a.cell = b.cell) : looseEqual a b = true := by
  rcases ha with rfl | ⟨s, rfl⟩
  · cases b <;> first | (cases h; done) | simp [looseEqual, sameType, pyEq]
  · cases b with
    | none => cases h
    | str t =>
      simp only [PyVal.cell, PyVal.toStr, Option.some.injEq] at h
      subst h
      exact looseEqual_refl _
    | int n =>
      simp only [PyVal.cell, PyVal.toStr, Option.some.injEq] at h
      simp [looseEqual, sameType, PyVal.toStr, h]
    | _ =>
      simp only [PyVal.cell, PyVal.toStr, Option.some.injEq] at h
      simp [looseEqual, sameType, PyVal.toStr, h]

section
variable [PyNum]

/-- no statements for rows which are there as they are declared -/
theorem rows_settled {sources : List Str} {srv : Server} {files live live' : Database} {g : DbRows}
    (hf : FileDatabase.new sources = .ok files) (hl : (LiveDatabase.new srv).result = .ok live) (hg : ServerRows srv live g)
    (hr : (readTracked srv live files.tables.values).result = .ok live')
    (hids : ∀ t ∈ files.tables.values, t.tracking = true → ∃ new, t.rows = some new ∧ ∀ i, (g t.name i).isSome = true ↔ i ∈ new.keys)
    (hvals : ∀ t ∈ files.tables.values, t.tracking = true → ∀ new i r, t.rows = some new → new.get? i = some r →
      ∃ cells, g t.name i = some cells ∧ ∀ c v, Dict.get? r c = some v → cells c = v.cell)
    {rows : List Op} (hrows : RowMygration.process files.tables (some live'.tables) = .ok rows) : rows = [] := by
  have hkf := FileDatabase.new_kept hf
  have hm : ∀ x ∈ files.tables.values.filter Table.tracking, x ∈ files.tables.values := fun x hx => (List.mem_filter.mp hx).1
  obtain ⟨h1, _⟩ := processLoop_eq hkf.toKeyedTables hm hrows
  rw [List.eq_nil_iff_forall_not_mem]
  intro op hop
  rw [h1] at hop
  obtain ⟨t, ht, hop⟩ := List.mem_flatMap.mp hop
  have htm := hm t ht
  have htt := (List.mem_filter.mp ht).2
  obtain ⟨hlive, _⟩ := tracked_live hkf hl hg hr htm htt
  obtain ⟨new, hnew, hids⟩ := hids t htm htt
  rw [hnew, Option.getD_some, Option.getD_some, mem_rowOps] at hop
  rcases hop with ⟨k, r, hk, hno, _⟩ | ⟨k, ho, hno, _⟩ | ⟨k, r, o, hk, ho, hd, _⟩
  · have hi := hlive k
    rw [Dict.get?_eq_none.mpr hno] at hi
    have := (hids k).mpr (Dict.mem_keys_of_get? hk)
    rw [hi] at this
    cases this
  · obtain ⟨o, ho⟩ := Dict.exists_get? ho
    have hi := hlive k
    rw [ho] at hi
    obtain ⟨cells, hc, _⟩ := hi
    exact hno ((hids k).mp (by rw [hc]; rfl))
  · have hi := hlive k
    rw [ho] at hi
    obtain ⟨cells, hc, hcells⟩ := hi
    obtain ⟨cells2, hc2, hcells2⟩ := hvals t htm htt new k r hnew hk
    rw [hc] at hc2
    cases hc2
    obtain ⟨c, a, b, ha, hb, hne⟩ := rowDiffers_iff.mp hd
    rw [looseEqual_of_cell (file_values hf htm hnew k r c a hk ha) (by rw [← hcells2 c a ha, hcells c b hb])] at hne
    cases hne

theorem process_untoggled {t : Dict Table} {from? : Option (Dict Table)} {ops : List Op} (h : process t from? true = .ok ops) :
    ∃ l, process t from? false = .ok l := by
  simp only [process] at h ⊢
  split at h
  · cases h
  · exact ⟨_, rfl⟩

theorem process_nil {t : Dict Table} {from? : Option (Dict Table)} (h : process t from? true = .ok [.disableChecks, .enableChecks]) : process t from? false = .ok [] := by
  obtain ⟨l, hp⟩ := process_untoggled h
  rw [hp]
  have := process_toggles hp
  rw [h] at this
  simp only [Except.ok.injEq, List.cons_append, List.cons.injEq, true_and] at this
  cases l with
  | nil => rfl
  | cons x l =>
    have h2 := congrArg List.length this
    simp at h2

/-- nothing is planned for a server which has all which is declared -/
theorem nothing_left {srv : Server} {sources : List Str} {files live : Database} {g : DbRows}
    (hf : FileDatabase.new sources = .ok files) (he : files.errors.1 = .ok []) (hl : (LiveDatabase.new srv).result = .ok live) (hg : ServerRows srv live g)
    (hproc : process files.tables (some live.tables) false = .ok [])
    (hids : ∀ t ∈ files.tables.values, t.tracking = true → ∃ new, t.rows = some new ∧ ∀ i, (g t.name i).isSome = true ↔ i ∈ new.keys)
    (hvals : ∀ t ∈ files.tables.values, t.tracking = true → ∀ new i r, t.rows = some new → new.get? i = some r →
      ∃ cells, g t.name i = some cells ∧ ∀ c v, Dict.get? r c = some v → cells c = v.cell) (force : Bool) :
    (plan srv sources force).result = .ok ⟨[], true⟩ ∧ (Command.apply srv sources force).result = .ok ⟨[], true⟩ ∧
      ∀ e ∈ (Command.apply srv sources force).events, OnlyReads e ∨ e = .committed := by
  obtain ⟨live2, rows, hr, hkl, hp, hrows, hb⟩ := planned hf he hl hg hproc
  have hrn := rows_settled hf hl hg hr hids hvals hrows
  subst hrn
  have hb : (buildCommands srv sources force).result = .ok [] := by
    rw [hb force]
    rfl
  refine ⟨?_, ?_, ?_⟩
  · unfold plan
    rw [Run.bind_ok hb]
    rfl
  · unfold Command.apply
    rw [Run.bind_ok hb]
    rfl
  · intro e he
    have hplan := (C58 srv sources force).1
    unfold plan at hplan
    rw [Run.bind_ok hb] at hplan
    unfold Command.apply at he
    rw [Run.bind_ok hb] at he
    rcases List.mem_append.mp he with he | he
    · exact .inl (hplan e (List.mem_append.mpr (.inl he)))
    · exact .inr (List.mem_singleton.mp he)

/-- **C70.**  `apply` has run on a server as in C69, and every declared row was written.  Whatever a server answers then which has the tables and
rows that are there now, nothing is planned for it, and `apply` sends nothing but queries.

What is missing (`_partial`): what is missing in C67 (`KeyNamesSettle`, `LookAlike`) and C69. -/
theorem C70_partial (srv : Server) (sources : List Str) (force : Bool) (files live : Database) (g : DbRows) (db : SDb) (c : Bool)
    (dflt : ColumnSql → Option Str)
    (hf : FileDatabase.new sources = .ok files) (he : files.errors.1 = .ok []) (hl : (LiveDatabase.new srv).result = .ok live)
    (hdb : Describes live.tables db) (hch : db.checks = true) (hg : ServerRows srv live g)
    (hm : Migratable c live.tables files.tables) (hfit : RowsFit live.tables files.tables) (hq : RowsQuiet g files.tables)
    (hc : ∀ n a b, live.tables.get? n = some a → files.tables.get? n = some b → a.Comparable b)
    (hk : ∀ n a b, live.tables.get? n = some a → files.tables.get? n = some b → KeyNamesSettle a b)
    (hlook : ∀ n b k m x, files.tables.get? n = some b → k ∈ b.constraints.values → Uses n k m x → ¬ LookAlike live.tables files.tables m x)
    (hw : ∀ t ∈ files.tables.values, t.tracking = true → ∀ new i r, t.rows = some new → new.get? i = some r → RowWritten g live.tables t.name new i r)
    (hsrv : srv.Follows dflt ⟨db.sql, g⟩) :
    ∃ o, ∃ db' : SDb, ∃ g', (Command.apply srv sources force).result = .ok o ∧ World.sendAll dflt ⟨db.sql, g⟩ o.output = some ⟨db'.sql, g'⟩ ∧
      ∀ srv' live', (LiveDatabase.new srv').result = .ok live' → Describes live'.tables db' → ServerRows srv' live' g' → ∀ force',
        (plan srv' sources force').result = .ok ⟨[], true⟩ ∧ (Command.apply srv' sources force').result = .ok ⟨[], true⟩ ∧
        ∀ e ∈ (Command.apply srv' sources force').events, OnlyReads e ∨ e = .committed := by
  obtain ⟨p, hp⟩ := C56 files.tables (some live.tables) false hm.target.toKeyedTables hc
  obtain ⟨o, db', g', h1, _, h3, ⟨ops, hops, hex⟩, h4, h5⟩ := apply_world srv sources force files live g db c dflt hf he hl hdb hch hg hm hfit hq hp hsrv
  refine ⟨o, db', g', h1, h3, fun srv' live' hl' hd' hg' force' => ?_⟩
  have hk0 := (LiveDatabase.new_kept hl').1
  obtain ⟨ops', hops', _, _, hnil⟩ := C67_partial live.tables files.tables c hm.source hm.target hm.untroubled hk ops hops db db' hdb hex
    live'.tables hk0.toKeyedTables hd'
  have hproc := process_nil (hnil hlook ▸ hops')
  exact nothing_left hf he hl' hg' hproc h5.ids (fun t htm htt new i r hnew hir => h5.values t htm htt new i r hnew hir (hw t htm htt new i r hnew hir)) force'

/-- **C70**, exactly: after `apply` has run, as in `C70_partial`, nothing is planned any more if and only if no declared foreign key uses a
column whose type is declared in other words than the server has it. -/
theorem C70_iff (srv : Server) (sources : List Str) (force : Bool) (files live : Database) (g : DbRows) (db : SDb) (c : Bool)
    (dflt : ColumnSql → Option Str)
    (hf : FileDatabase.new sources = .ok files) (he : files.errors.1 = .ok []) (hl : (LiveDatabase.new srv).result = .ok live)
    (hdb : Describes live.tables db) (hch : db.checks = true) (hg : ServerRows srv live g)
    (hm : Migratable c live.tables files.tables) (hfit : RowsFit live.tables files.tables) (hq : RowsQuiet g files.tables)
    (hc : ∀ n a b, live.tables.get? n = some a → files.tables.get? n = some b → a.Comparable b)
    (hk : ∀ n a b, live.tables.get? n = some a → files.tables.get? n = some b → KeyNamesSettle a b)
    (hw : ∀ t ∈ files.tables.values, t.tracking = true → ∀ new i r, t.rows = some new → new.get? i = some r → RowWritten g live.tables t.name new i r)
    (hsrv : srv.Follows dflt ⟨db.sql, g⟩) :
    ∃ o, ∃ db' : SDb, ∃ g', (Command.apply srv sources force).result = .ok o ∧ World.sendAll dflt ⟨db.sql, g⟩ o.output = some ⟨db'.sql, g'⟩ ∧
      ∀ srv' live', (LiveDatabase.new srv').result = .ok live' → Describes live'.tables db' → ServerRows srv' live' g' → ∀ force',
        ((plan srv' sources force').result = .ok ⟨[], true⟩ ↔
          ∀ n b k m x, files.tables.get? n = some b → k ∈ b.constraints.values → Uses n k m x → ¬ TypeChanges live'.tables files.tables m x) := by
  obtain ⟨p, hp⟩ := C56 files.tables (some live.tables) false hm.target.toKeyedTables hc
  obtain ⟨o, db', g', h1, _, h3, ⟨ops, hops, hex⟩, h4, h5⟩ := apply_world srv sources force files live g db c dflt hf he hl hdb hch hg hm hfit hq hp hsrv
  refine ⟨o, db', g', h1, h3, fun srv' live' hl' hd' hg' force' => ?_⟩
  have hk0 := (LiveDatabase.new_kept hl').1
  rw [← C67_iff live.tables files.tables c hm.source hm.target hm.untroubled hk ops hops db db' hdb hex live'.tables hk0.toKeyedTables hd']
  obtain ⟨ops', hops', _⟩ := C67_partial live.tables files.tables c hm.source hm.target hm.untroubled hk ops hops db db' hdb hex
    live'.tables hk0.toKeyedTables hd'
  constructor
  · intro hplan
    obtain ⟨l, hl2⟩ := process_untoggled hops'
    obtain ⟨_, rows, _, _, _, _, hb⟩ := planned hf he hl' hg' hl2
    unfold plan at hplan
    rw [Run.bind_ok (hb force')] at hplan
    have : (if l ++ rows = [] then [] else Op.disableChecks :: (l ++ rows) ++ [.enableChecks]) = [] :=
      List.map_eq_nil_iff.mp (congrArg Outcome.output (Except.ok.inj hplan))
    split at this
    · rename_i hnil
      rw [process_toggles hl2, (List.append_eq_nil_iff.mp hnil).1]
      rfl
    · cases this
  · intro hnil
    exact (nothing_left hf he hl' hg' (process_nil hnil) h5.ids (fun t htm htt new i r hnew hir => h5.values t htm htt new i r hnew hir (hw t htm htt new i r hnew hir)) force').1

theorem execAll_checks {t f : Dict Table} {ops : List Op} (h : process t (some f) true = .ok ops) {db db' : SDb} (hex : db.execAll ops = some db') : db'.checks = true := by
  obtain ⟨l, hl⟩ := process_untoggled h
  rw [process_toggles hl] at h
  cases h
  simp only [SDb.execAll, List.cons_append, List.foldlM_cons, List.foldlM_append, List.foldlM_nil, Option.bind_eq_bind, Option.bind_eq_some_iff, SDb.exec,
    Option.some.injEq, Option.pure_def] at hex
  obtain ⟨_, _, db1, _, _, rfl, rfl⟩ := hex
  rfl

/-- **C70, two runs.**  A second run of `apply` is always enough: as C70, but nothing is required of the names of keys, and rows may get values for
new columns only (which the first run does not write, C21).  After the first run the second one comes to its end too; then all declared rows have
their declared values, and nothing is planned any more.

What is missing (`_partial`): as in C69; and columns which look alike (C67), and the text `None` in a row which is there when the second run begins. -/
theorem C70_twice_partial (srv : Server) (sources : List Str) (force : Bool) (files live : Database) (g : DbRows) (db : SDb) (c : Bool)
    (dflt : ColumnSql → Option Str)
    (hf : FileDatabase.new sources = .ok files) (he : files.errors.1 = .ok []) (hl : (LiveDatabase.new srv).result = .ok live)
    (hdb : Describes live.tables db) (hch : db.checks = true) (hg : ServerRows srv live g)
    (hm : Migratable c live.tables files.tables) (hfit : RowsFit live.tables files.tables) (hq : QuietRows g files.tables)
    (hc : ∀ n a b, live.tables.get? n = some a → files.tables.get? n = some b → a.Comparable b)
    (hlook : ∀ n b k m x, files.tables.get? n = some b → k ∈ b.constraints.values → Uses n k m x → ¬ LookAlike live.tables files.tables m x)
    (htext : ∀ t ∈ files.tables.values, ∀ new, t.rows = some new → NoNoneText new)
    (hsrv : srv.Follows dflt ⟨db.sql, g⟩) :
    ∃ o, ∃ db' : SDb, ∃ g', (Command.apply srv sources force).result = .ok o ∧ World.sendAll dflt ⟨db.sql, g⟩ o.output = some ⟨db'.sql, g'⟩ ∧
      ∀ srv' live' force', (LiveDatabase.new srv').result = .ok live' → Reading live.tables db' live'.tables → ServerRows srv' live' g' →
        srv'.Follows dflt ⟨db'.sql, g'⟩ → (∀ t ∈ files.tables.values, t.tracking = true → ∀ i cells c, g' t.name i = some cells → cells c ≠ some py"None") →
        ∃ o', ∃ db'' : SDb, ∃ g'', (Command.apply srv' sources force').result = .ok o' ∧ World.sendAll dflt ⟨db'.sql, g'⟩ o'.output = some ⟨db''.sql, g''⟩ ∧
          (∀ t ∈ files.tables.values, t.tracking = true → ∀ new i r, t.rows = some new → new.get? i = some r →
            ∃ cells, g'' t.name i = some cells ∧ ∀ c v, Dict.get? r c = some v → cells c = v.cell) ∧
          ∀ srv'' live'', (LiveDatabase.new srv'').result = .ok live'' → Describes live''.tables db'' → ServerRows srv'' live'' g'' → ∀ force'',
            (plan srv'' sources force'').result = .ok ⟨[], true⟩ ∧ (Command.apply srv'' sources force'').result = .ok ⟨[], true⟩ ∧
            ∀ e ∈ (Command.apply srv'' sources force'').events, OnlyReads e ∨ e = .committed := by
  have hkf := FileDatabase.new_kept hf
  obtain ⟨p, hp⟩ := C56 files.tables (some live.tables) false hm.target.toKeyedTables hc
  obtain ⟨o, db', g', h1, _, h3, ⟨ops, hops, hex⟩, h4, h5⟩ := apply_world srv sources force files live g db c dflt hf he hl hdb hch hg hm hfit hq.now hp hsrv
  refine ⟨o, db', g', h1, h3, fun srv' live' force' hl' hread hg' hsrv' hnone => ?_⟩
  obtain ⟨N, hN, hget⟩ := plan_end hm.source hm.target hm.untroubled hops hdb hex
  have hmid := mid_of_reading hN (ordered_high (by simp)) hget hread
  obtain ⟨q, hq'⟩ := hmid.plan hops
  obtain ⟨p', hp'⟩ := process_untoggled hq'
  have hquiet : RowsQuiet g' files.tables := by
    refine ⟨?_, fun t ht htt new hnew i r _ hr => (hq.declared t ht htt new hnew i r hr).2⟩
    intro t ht htt i hi
    obtain ⟨new, hnew, hids⟩ := h5.ids t ht htt
    obtain ⟨r, hr⟩ := Dict.exists_get? ((hids i).mp hi)
    exact (hq.declared t ht htt new hnew i r hr).1
  obtain ⟨o', db'', g'', k1, _, k3, ⟨ops2, hops2, hex2⟩, k4, k5⟩ := apply_world srv' sources force' files live' g' db' false dflt hf he hl' hread.describes
    (execAll_checks hops hex) hg' (hmid.migratable hm) (hmid.rowsFit hfit) hquiet hp' hsrv'
  have hvals : ∀ t ∈ files.tables.values, t.tracking = true → ∀ new i r, t.rows = some new → new.get? i = some r →
      ∃ cells, g'' t.name i = some cells ∧ ∀ c v, Dict.get? r c = some v → cells c = v.cell := by
    intro t ht htt new i r hnew hr
    refine k5.values t ht htt new i r hnew hr (.inr ⟨htext t ht new hnew, fun j cells c => hnone t ht htt j cells c, ?_⟩)
    obtain ⟨new', hnew', hids⟩ := h5.ids t ht htt
    rw [hnew] at hnew'
    cases hnew'
    obtain ⟨cells, hcells⟩ := Option.isSome_iff_exists.mp ((hids i).mpr (Dict.mem_keys_of_get? hr))
    have hname := get?_own_name hkf.toKeyedTables ht
    have hcol := h4.columns hkf.toKeyedTables hname
    obtain ⟨T, hT, hTc⟩ := hcol
    cases hx : live'.tables.get? t.name with
    | none =>
      rw [hg'.others _ hx] at hcells
      cases hcells
    | some x =>
      refine ⟨x, cells, rfl, hcells, .inl fun c hc => ?_⟩
      have hd := hread.describes.get t.name
      rw [hx] at hd
      rw [SDb.sql_eq, mapped_get?, hd] at hT
      simp only [Option.map_some, Option.some.injEq] at hT
      have := (hTc c).mpr (hfit.columns t ht htt new hnew i r hr c hc)
      rw [← hT] at this
      have hk : (ofTable x).sql.cols.keys = (ofTable x).cols.keys := mapped_keys _ _
      rw [hk, ofTable_cols (hread.keyed.keyed _ _ (Dict.mem_of_get? hx))] at this
      exact this
  refine ⟨o', db'', g'', k1, k3, hvals, fun srv'' live'' hl'' hd'' hg'' force'' => ?_⟩
  obtain ⟨ops', db3, j1, j2, _, j3⟩ := C67_twice_partial live.tables files.tables c hm.source hm.target hm.untroubled ops hops db db' hdb hex live'.tables hread
  rw [hops2] at j1
  cases j1
  rw [hex2] at j2
  cases j2
  obtain ⟨ops3, l1, _, _, l4⟩ := j3 live''.tables (LiveDatabase.new_kept hl'').1.toKeyedTables hd''
  rw [l4 hlook] at l1
  exact nothing_left hf he hl'' hg'' (process_nil l1) k5.ids hvals force''

end

/-! ## Examples -/

section Examples
attribute [local instance] exactNum

/-- every declared row is written: 2 and 4 are new, and the name of 1 changes -/
theorem all_rowsWritten : ∀ t ∈ allFiles.tables.values, t.tracking = true → ∀ new i r, t.rows = some new → new.get? i = some r →
    RowWritten allRows allLive.tables t.name new i r := by
  have h : ∀ t ∈ allFiles.tables.values, t.tracking = true → t.name = py"levels" ∧ (t.rows.getD []).all (fun e => e.2.all (fun f => decide (f.2.cell ≠ some py"None"))) = true ∧
      (t.rows.getD []).all (fun e => decide (e.1 ∈ [py"2", py"4"]) || decide (e.1 = py"1" ∧ Dict.get? e.2 py"name" = some (.str py"low"))) = true := by decide +kernel
  intro t ht htt new i r hnew hr
  obtain ⟨hn, hnone, hrow⟩ := h t ht htt
  rw [hnew, Option.getD_some] at hnone hrow
  rw [hn]
  have := List.all_eq_true.mp hrow _ (Dict.mem_of_get? hr)
  simp only [Bool.or_eq_true, decide_eq_true_eq] at this
  rcases this with h2 | ⟨h1, h2⟩
  · left
    have : ∀ i ∈ [py"2", py"4"], (allRows py"levels" i).isNone = true := by decide +kernel
    exact Option.isNone_iff_eq_none.mp (this i h2)
  · right
    subst h1
    refine ⟨?_, ?_, ?_⟩
    · intro j r' c v hr' hv e
      have := List.all_eq_true.mp (List.all_eq_true.mp hnone _ (Dict.mem_of_get? hr')) _ (Dict.mem_of_get? hv)
      rw [e] at this
      exact absurd this (by decide)
    · intro j cells c hj hc
      have hin : py"levels" ∈ Dict.keys allLive.tables := by decide +kernel
      unfold allRows answeredRows at hj
      rw [if_pos hin] at hj
      have hs : allServer.select py"levels" = .ok [[(py"id", .int 1), (py"name", .str py"tiny"), (py"old", .none)], [(py"id", .int 3), (py"name", .str py"gone"), (py"old", .int 7)]] := rfl
      rw [hs] at hj
      obtain ⟨q, hq, rfl⟩ := Option.map_eq_some_iff.mp hj
      have hall : ∀ q ∈ [[(py"id", PyVal.int 1), (py"name", .str py"tiny"), (py"old", .none)], [(py"id", .int 3), (py"name", .str py"gone"), (py"old", .int 7)]],
          ∀ e ∈ q, e.2.cell ≠ some py"None" := by decide
      have hc : (Dict.get? q c).bind PyVal.cell = some py"None" := hc
      cases hg : Dict.get? q c with
      | none => rw [hg] at hc; cases hc
      | some v =>
        rw [hg] at hc
        exact hall q (List.mem_of_find?_eq_some hq) (c, v) (Dict.mem_of_get? hg) hc
    · obtain ⟨x, hx, hxn⟩ : ∃ x ∈ allLive.tables.get? py"levels", py"name" ∈ Dict.keys x.columns := by decide +kernel
      have h1 : ((allRows py"levels" py"1").map (fun cells => cells py"name")) = some (some py"tiny") := by decide +kernel
      obtain ⟨cells, hc, hcn⟩ := Option.map_eq_some_iff.mp h1
      exact ⟨x, cells, hx, hc, .inr ⟨_, _, h2, hxn, by rw [hcn]; decide⟩⟩

/-- for `C70_partial`: after the migration of C69's example nothing is left to do -/
example (dflt : ColumnSql → Option Str) : ∃ o, ∃ db' : SDb, ∃ g', (Command.apply allServer allSources false).result = .ok o ∧
    World.sendAll dflt ⟨allDb.sql, allRows⟩ o.output = some ⟨db'.sql, g'⟩ ∧
    ∀ srv' live', (LiveDatabase.new srv').result = .ok live' → Describes live'.tables db' → ServerRows srv' live' g' →
      (plan srv' allSources false).result = .ok ⟨[], true⟩ := by
  obtain ⟨o, db', g', h1, h2, h3⟩ := C70_partial allServer allSources false allFiles allLive allRows allDb true dflt allFiles_eq allFiles_errors allLive_eq
    (describes_ofTables all_migratable.source.toKeyedTables true) rfl (answeredRows_server (by decide +kernel)) all_migratable all_rowsFit all_rowsQuiet
    (Examples.comparableTables_of_check (by decide +kernel)) (Examples.keyNamesSettle_of_check (by decide +kernel))
    (Examples.noLookAlike_of_check (by decide +kernel)) all_rowsWritten (fun _ _ _ => rfl)
  exact ⟨o, db', g', h1, h2, fun srv' live' a b c => (h3 srv' live' a b c false).1⟩

/-- for `C70_iff`: its hypotheses are met by C69's example -/
example (dflt : ColumnSql → Option Str) : ∃ o, ∃ db' : SDb, ∃ g', (Command.apply allServer allSources false).result = .ok o ∧
    World.sendAll dflt ⟨allDb.sql, allRows⟩ o.output = some ⟨db'.sql, g'⟩ ∧
    ∀ srv' live', (LiveDatabase.new srv').result = .ok live' → Describes live'.tables db' → ServerRows srv' live' g' → ∀ force',
      ((plan srv' allSources force').result = .ok ⟨[], true⟩ ↔
        ∀ n b k m x, allFiles.tables.get? n = some b → k ∈ b.constraints.values → Uses n k m x → ¬ TypeChanges live'.tables allFiles.tables m x) :=
  C70_iff allServer allSources false allFiles allLive allRows allDb true dflt allFiles_eq allFiles_errors allLive_eq
    (describes_ofTables all_migratable.source.toKeyedTables true) rfl (answeredRows_server (by decide +kernel)) all_migratable all_rowsFit all_rowsQuiet
    (Examples.comparableTables_of_check (by decide +kernel)) (Examples.keyNamesSettle_of_check (by decide +kernel))
    all_rowsWritten (fun _ _ _ => rfl)

end Examples

end Mygrations

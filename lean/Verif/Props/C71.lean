import Verif.Props.C53
import Verif.Props.C70

/-! # C71: an interrupted `apply` can be run again -/

namespace Mygrations
open Sql MySQL Mygration Table Command

/-! ## Specification -/

/-- The rows of tables whose rows are not declared: from `g` to `g'` they are kept, with their values in the columns which stay, and no others
come. -/
structure OthersKept (live files : Dict Table) (g g' : DbRows) : Prop where
  kept : ∀ t ∈ files.values, t.tracking = false → ∀ i cells, g t.name i = some cells →
    ∃ cells', g' t.name i = some cells' ∧ ∀ x, live.get? t.name = some x → ∀ c ∈ x.columns.keys, c ∈ t.columns.keys → cells' c = cells c
  fresh : ∀ t ∈ files.values, t.tracking = false → ∀ i, g t.name i = none → g' t.name i = none

/-- A history of runs of `apply` on the files `sources` which were interrupted.  Each of them finds on the server the tables `live'` and the
rows `g'`, makes its plan, and MySQL executes some first statements of it (`pre`; statements on rows which are rolled back do not count).
In the beginning the server has the tables `live`, the structure `db` and the rows `g`. -/
inductive Interrupted [PyNum] (sources : List Str) (dflt : ColumnSql → Option Str) : Database → SDb → DbRows → Database → SDb → DbRows → Prop
  | start {live : Database} {db : SDb} {g : DbRows} : Interrupted sources dflt live db g live db g
  | again {live live' live'' : Database} {db db' db'' : SDb} {g g' g'' : DbRows} {srv : Server} {force : Bool} {pre post : List Op}
      (before : Interrupted sources dflt live db g live' db' g') (tables : (LiveDatabase.new srv).result = .ok live') (rows : ServerRows srv live' g')
      (plan : (buildCommands srv sources force).result = .ok (pre ++ post))
      (exec : SDb.execAll { db' with checks := true } pre = some db'')
      (sent : World.sendAll dflt ⟨({ db' with checks := true } : SDb).sql, g'⟩ (pre.map Op.render) = some ⟨db''.sql, g''⟩)
      (read : Reading live'.tables db'' live''.tables) : Interrupted sources dflt live db g live'' db'' g''

/-! ## Proofs -/

theorem OthersKept.refl (live files : Dict Table) (g : DbRows) : OthersKept live files g g :=
  ⟨fun _ _ _ _ cells hc => ⟨cells, hc, fun _ _ _ _ _ => rfl⟩, fun _ _ _ _ h => h⟩

namespace DbRows

theorem execAll_append {dflt : Str → Cells} : ∀ {ops ops' : List Op} {g g'' : DbRows}, execAll dflt g (ops ++ ops') = some g'' →
    ∃ g', execAll dflt g ops = some g' ∧ execAll dflt g' ops' = some g''
  | [], _, g, _, h => ⟨g, rfl, h⟩
  | op :: ops, ops', g, g'', h => by
    simp only [List.cons_append, execAll, Option.bind_eq_some_iff] at h ⊢
    obtain ⟨g1, h1, h2⟩ := h
    obtain ⟨g', h3, h4⟩ := execAll_append h2
    exact ⟨g', ⟨g1, h1, h3⟩, h4⟩

/-- the rows which a statement does not touch -/
theorem exec_other {dflt : Str → Cells} {op : Op} {g g' : DbRows} (h : exec dflt g op = some g') {n i : Str} (hk : op.rowKey ≠ some (n, i)) : g' n i = g n i := by
  have hput : ∀ (t j : Str) (r : Option Cells), (t, j) ≠ (n, i) → (g.put t j r) n i = g n i := by
    intro t j r hne
    simp only [put]
    rw [if_neg]
    rintro ⟨rfl, rfl⟩
    exact hne rfl
  cases op <;> simp only [exec] at h
  case rowInsert t r =>
    split at h
    · cases h
    · rename_i j hj
      split at h
      · cases h
      · cases h
        exact hput _ _ _ (fun e => hk (by simp only [Op.rowKey, hj, Option.map_some]; rw [e]))
  case rowUpdate t r =>
    split at h
    · cases h
    · rename_i j hj
      cases hg : g t j with
      | none => rw [hg] at h; cases h; rfl
      | some q =>
        rw [hg] at h
        cases h
        exact hput _ _ _ (fun e => hk (by simp only [Op.rowKey, hj, Option.map_some]; rw [e]))
  case rowDelete t j =>
    cases h
    exact hput _ _ _ (fun e => hk (by simp only [Op.rowKey]; rw [e]))
  all_goals
    cases h
    rfl

theorem execAll_other {dflt : Str → Cells} {n i : Str} : ∀ {ops : List Op} {g g' : DbRows}, execAll dflt g ops = some g' →
    (∀ op ∈ ops, op.rowKey ≠ some (n, i)) → g' n i = g n i
  | [], g, g', h, _ => by cases h; rfl
  | op :: ops, g, g', h, hk => by
    simp only [execAll, Option.bind_eq_some_iff] at h
    obtain ⟨g1, h1, h2⟩ := h
    rw [execAll_other h2 (fun o ho => hk o (List.mem_cons_of_mem _ ho)), exec_other h1 (hk op (by simp))]

end DbRows

section
variable [PyNum] {c : Bool}

/-- statements on the structure which leave rows of other tables alone -/
theorem others_kept {f t : Dict Table} {g g' : DbRows} {r : Str → Prop} {m : Str → Str → Prop} (h : RowsKept r m g g') (ht : KeyedTables t)
    (hg : ∀ n, f.get? n = none → ∀ i, g n i = none) (hr : ∀ n, n ∈ f.keys → n ∈ t.keys → ¬ r n)
    (hm : ∀ n a b k, f.get? n = some a → t.get? n = some b → k ∈ a.columns.keys → k ∈ b.columns.keys → ¬ m n k) : OthersKept f t g g' := by
  refine ⟨?_, fun x _ _ i hn => h.none _ _ hn⟩
  intro x hx _ i cells hc
  have hname := get?_own_name ht hx
  cases ha : f.get? x.name with
  | none => rw [hg _ ha] at hc; cases hc
  | some a =>
    obtain ⟨cells1, hc1, h1⟩ := h.some _ _ cells (hr _ (Dict.mem_keys_of_get? ha) (Dict.mem_keys_of_get? hname)) hc
    refine ⟨cells1, hc1, ?_⟩
    intro y hy k hk1 hk2
    cases hy
    exact h1 k (hm _ a x k ha hname hk1 hk2)

/-- the world after some first statements of a plan, without those which switch the checks -/
theorem world_prefix_inner {sources : List Str} {srv : Server} {files live live' : Database} {g : DbRows} {db : SDb} (dflt : ColumnSql → Option Str)
    (hf : FileDatabase.new sources = .ok files) (hl : (LiveDatabase.new srv).result = .ok live) (hg : ServerRows srv live g)
    (hdb : Describes live.tables db) (hm : Migratable c live.tables files.tables) (hfit : RowsFit live.tables files.tables) (hq : RowsQuiet g files.tables)
    (hr : (readTracked srv live files.tables.values).result = .ok live') (hkf : KeptTables files.tables) (hkl : KeptTables live'.tables)
    {structure' rows : List Op} (hp : process files.tables (some live.tables) false = .ok structure')
    (hrows : RowMygration.process files.tables (some live'.tables) = .ok rows) {pre post : List Op} (hpre : structure' ++ rows = pre ++ post) :
    ∃ N w db2 g2, Setup c live.tables files.tables N ∧ w.Ordered live.tables files.tables ∧ SDb.execAll { db with checks := false } pre = some db2 ∧
      World.sendAll dflt ⟨({ db with checks := false } : SDb).sql, g⟩ (pre.map Op.render) = some ⟨db2.sql, g2⟩ ∧
      db2.tables.keys.Nodup ∧ (∀ n, db2.tables.get? n = tabsAt live.tables files.tables N w n) ∧ OthersKept live.tables files.tables g g2 ∧
      ∀ t ∈ files.tables.values, t.tracking = true → ∀ new, t.rows = some new → ∀ i, (g2 t.name i).isSome = true → (g t.name i).isSome = true ∨ i ∈ new.keys := by
  have hpt := process_toggles hp
  have hmeans := C66_plan_partial files.tables (some live.tables) false structure' hm.target.toKeyedTables hm.source.toKeyedTables hm.sound hm.named hm.tables hm.columns hp
  obtain ⟨_, hdrop, _, _, _, hstruct⟩ := C10 files.tables (some live.tables) false structure' hm.target.toKeyedTables hm.source.toKeyedTables hp
  have hresets : ∀ n, n ∈ live.tables.keys → n ∈ files.tables.keys → ¬ ∃ op ∈ structure', op.resets n :=
    fun n h1 h2 => process_resets hm.source.toKeyedTables hm.target.toKeyedTables hp h1 h2
  have hmoves : ∀ n a b k, live.tables.get? n = some a → files.tables.get? n = some b → k ∈ a.columns.keys → k ∈ b.columns.keys →
      ¬ ∃ op ∈ structure', op.moves n k :=
    fun n a b k ha hb h1 h2 => process_spares (from? := some live.tables) hm.target.toKeyedTables hm.source.toKeyedTables hp ha hb h1 h2
  have exec : ∀ p, SDb.execAll db (Op.disableChecks :: p) = SDb.execAll { db with checks := false } p := by
    intro p
    simp only [SDb.execAll, List.foldlM_cons, SDb.exec, Option.bind_eq_bind, Option.bind_some]
  rcases List.append_eq_append_iff.mp hpre with ⟨rpre, rfl, hrp⟩ | ⟨q, rfl, _⟩
  · -- all of the structure, and some rows
    obtain ⟨N, w, db2, hN, hw, hex, hnd, hget⟩ := prefix_runs hm.source hm.target hm.untroubled (pre := .disableChecks :: structure') (post := [.enableChecks]) hpt hdb
    rw [exec] at hex
    obtain ⟨g1, hs1, hkept⟩ := world_sendAll dflt hmeans hstruct hex g
    obtain ⟨db3, hex3, hmig⟩ := C14_partial live.tables files.tables (some live.tables) rfl c hm.source hm.target hm.untroubled _ hpt db hdb
    have hex4 := hex
    simp only [SDb.execAll] at hex4
    simp only [SDb.execAll, List.cons_append, List.foldlM_cons, List.foldlM_append, List.foldlM_nil, Option.bind_eq_bind, SDb.exec, Option.bind_some, hex4,
      Option.pure_def, Option.some.injEq] at hex3
    subst hex3
    have hsome : ∀ n a b i cells, live.tables.get? n = some a → files.tables.get? n = some b → g n i = some cells →
        ∃ cells', g1 n i = some cells' ∧ ∀ k, k ∈ a.columns.keys → k ∈ b.columns.keys → cells' k = cells k := by
      intro n a b i cells ha hb hc
      obtain ⟨cells1, hc1, hcells1⟩ := hkept.some n i cells (hresets n (Dict.mem_keys_of_get? ha) (Dict.mem_keys_of_get? hb)) hc
      exact ⟨cells1, hc1, fun k h1 h2 => hcells1 k (hmoves n a b k ha hb h1 h2)⟩
    obtain ⟨hrmeans, hfits, g3, hexr, hsame, hres⟩ := rows_ready dflt hf hl hg hm.sound hfit hq hr hkf hkl hrows (s := db2.sql) (g1 := g1)
      (fun n b hb => hmig.columns hkf.toKeyedTables hb) (fun n i h => hkept.none n i h) hsome
    rw [hrp] at hexr
    obtain ⟨g2, hexp, _⟩ := DbRows.execAll_append hexr
    have hsub : ∀ op ∈ rpre, op ∈ rows := fun op ho => by rw [hrp]; exact List.mem_append_left _ ho
    have hsr := world_rows dflt (fun op ho => hrmeans op (hsub op ho)) (fun op ho => hfits op (hsub op ho)) hexp
    have hshape := row_ops hkf.toKeyedTables hrows
    have hnop : ∀ (l : List Op), (∀ op ∈ l, op ∈ rows) → SDb.execAll db2 l = some db2 := by
      intro l
      induction l with
      | nil => intro _; rfl
      | cons o l ih =>
        intro hl
        have ih := ih (fun op ho => hl op (List.mem_cons_of_mem _ ho))
        simp only [SDb.execAll] at ih
        obtain ⟨x, _, _, new, _, hcase⟩ := hshape o (hl o (by simp))
        rcases hcase with ⟨i, r, _, rfl⟩ | ⟨i, rfl⟩ | ⟨i, r, _, rfl⟩ <;>
          simp only [SDb.execAll, List.foldlM_cons, SDb.exec, Option.bind_eq_bind, Option.bind_some, ih]
    have hun : ∀ n i, (∀ t ∈ files.tables.values, t.tracking = true → t.name ≠ n) → g2 n i = g1 n i := fun n i hn =>
      DbRows.execAll_other hexp (fun op ho => rows_untouched hkf.toKeyedTables hrows hn op (hsub op ho))
    have hothers := others_kept (f := live.tables) (t := files.tables) hkept hkf.toKeyedTables hg.others hresets hmoves
    refine ⟨N, w, db2, g2, hN, hw, ?_, ?_, hnd, hget, ⟨?_, ?_⟩, ?_⟩
    · have := hnop rpre hsub
      simp only [SDb.execAll] at this hex ⊢
      rw [List.foldlM_append, hex]
      exact this
    · rw [List.map_append, world_append dflt hs1]
      exact hsr
    · intro x hx hxt i cells hc
      rw [hun _ _ (untracked_name hkf.toKeyedTables hx hxt)]
      exact hothers.kept x hx hxt i cells hc
    · intro x hx hxt i hn
      rw [hun _ _ (untracked_name hkf.toKeyedTables hx hxt)]
      exact hothers.fresh x hx hxt i hn
    · intro x hx hxt new hnew i hi
      by_cases hin : i ∈ new.keys
      · exact .inr hin
      left
      cases hgi : g x.name i with
      | some _ => rfl
      | none =>
        exfalso
        have hn1 := hkept.none _ _ hgi
        have key : ∀ (l : List Op) (h h' : DbRows), (∀ op ∈ l, op ∈ rows) → DbRows.execAll (defaults dflt db2.sql) h l = some h' → h x.name i = none → h' x.name i = none := by
          intro l
          induction l with
          | nil => intro h h' _ he hn; cases he; exact hn
          | cons o l ih =>
            intro h h' hl he hn
            simp only [DbRows.execAll, Option.bind_eq_some_iff] at he
            obtain ⟨h1, he1, he2⟩ := he
            refine ih h1 h' (fun op ho => hl op (List.mem_cons_of_mem _ ho)) he2 ?_
            by_cases hk : o.rowKey = some (x.name, i)
            · obtain ⟨y, hy, hyt, new', hnew', hcase⟩ := hshape o (hl o (by simp))
              have hkeyed := (hkf.values y hy).rowsKeyed
              rw [hnew'] at hkeyed
              have hown : ∀ j r, new'.get? j = some r → y.name = x.name → DbRows.givenId r = some i → False := by
                intro j r hjr hyx hid
                have e1 := get?_own_name hkf.toKeyedTables hx
                have e2 := get?_own_name hkf.toKeyedTables hy
                rw [hyx, e1] at e2
                cases e2
                rw [hnew] at hnew'
                cases hnew'
                have := (hkeyed.id j r (Dict.mem_of_get? hjr)).2
                simp only [DbRows.givenId, this, Option.bind_some, PyVal.cell, PyVal.toStr, Option.some.injEq] at hid
                exact hin (hid ▸ Dict.mem_keys_of_get? hjr)
              rcases hcase with ⟨j, r, hjr, rfl⟩ | ⟨j, rfl⟩ | ⟨j, r, hjr, rfl⟩ <;>
                simp only [Op.rowKey, Option.map_eq_some_iff, Option.some.injEq, Prod.mk.injEq] at hk
              · obtain ⟨_, hid, hyx, rfl⟩ := hk
                exact (hown j r hjr hyx hid).elim
              · obtain ⟨hyx, rfl⟩ := hk
                simp only [DbRows.exec, Option.some.injEq] at he1
                rw [← he1]
                simp [DbRows.put, hyx]
              · obtain ⟨_, hid, hyx, rfl⟩ := hk
                exact (hown j r hjr hyx hid).elim
            · rw [DbRows.exec_other he1 hk]
              exact hn
        rw [key rpre g1 g2 hsub hexp hn1] at hi
        cases hi
  · -- some of the structure
    obtain ⟨N, w, db2, hN, hw, hex, hnd, hget⟩ := prefix_runs hm.source hm.target hm.untroubled (pre := .disableChecks :: pre) (post := q ++ [.enableChecks])
      (by rw [hpt]; simp) hdb
    rw [exec] at hex
    obtain ⟨g1, hs1, hkept⟩ := world_sendAll dflt (fun op ho => hmeans op (List.mem_append_left _ ho)) (fun op ho => hstruct op (List.mem_append_left _ ho)) hex g
    refine ⟨N, w, db2, g1, hN, hw, hex, hs1, hnd, hget, ?_, ?_⟩
    · refine others_kept hkept hkf.toKeyedTables hg.others ?_ ?_
      · rintro n h1 h2 ⟨op, ho, hx⟩
        exact hresets n h1 h2 ⟨op, List.mem_append_left _ ho, hx⟩
      · rintro n a b k ha hb h1 h2 ⟨op, ho, hx⟩
        exact hmoves n a b k ha hb h1 h2 ⟨op, List.mem_append_left _ ho, hx⟩
    · intro x hx hxt new hnew i hi
      left
      cases hgi : g x.name i with
      | some _ => rfl
      | none => rw [hkept.none _ _ hgi] at hi; cases hi

/-- the world after some first statements of a plan -/
theorem world_prefix {sources : List Str} {srv : Server} {files live : Database} {g : DbRows} {db : SDb} (dflt : ColumnSql → Option Str) {force : Bool}
    (hf : FileDatabase.new sources = .ok files) (he : files.errors.1 = .ok []) (hl : (LiveDatabase.new srv).result = .ok live) (hg : ServerRows srv live g)
    (hdb : Describes live.tables db) (hch : db.checks = true) (hm : Migratable c live.tables files.tables) (hfit : RowsFit live.tables files.tables)
    (hq : RowsQuiet g files.tables) {structure' : List Op} (hp : process files.tables (some live.tables) false = .ok structure')
    {pre post : List Op} (hb : (buildCommands srv sources force).result = .ok (pre ++ post)) :
    ∃ N w db2 g2, Setup c live.tables files.tables N ∧ w.Ordered live.tables files.tables ∧ SDb.execAll db pre = some db2 ∧
      World.sendAll dflt ⟨db.sql, g⟩ (pre.map Op.render) = some ⟨db2.sql, g2⟩ ∧
      db2.tables.keys.Nodup ∧ (∀ n, db2.tables.get? n = tabsAt live.tables files.tables N w n) ∧ OthersKept live.tables files.tables g g2 ∧
      ∀ t ∈ files.tables.values, t.tracking = true → ∀ new, t.rows = some new → ∀ i, (g2 t.name i).isSome = true → (g t.name i).isSome = true ∨ i ∈ new.keys := by
  have hkf := FileDatabase.new_kept hf
  obtain ⟨live', rows, hr, hkl, _, hrows, hb'⟩ := planned hf he hl hg hp
  rw [hb' force] at hb
  clear hb'
  have hinner := fun pre post hpre => world_prefix_inner (pre := pre) (post := post) dflt hf hl hg hdb hm hfit hq hr hkf hkl hp hrows hpre
  cases pre with
  | nil =>
    obtain ⟨N, w, db2, g2, h1, h2, h3, h4, h5, h6, h7, h8⟩ := hinner [] _ rfl
    cases h3
    exact ⟨N, w, db, g, h1, h2, rfl, rfl, h5, h6, OthersKept.refl _ _ _, fun _ _ _ _ _ _ hi => .inl hi⟩
  | cons o pre =>
    split at hb
    · cases hb
    · simp only [List.cons_append, Except.ok.injEq, List.cons.injEq] at hb
      obtain ⟨rfl, hb⟩ := hb
      have hd := world_checks dflt db g .disableChecks false rfl
      have h0 : World.sendAll dflt ⟨db.sql, g⟩ [Op.render .disableChecks] = some ⟨({ db with checks := false } : SDb).sql, g⟩ := by
        simp only [World.sendAll, List.foldlM_cons, List.foldlM_nil, hd]
        rfl
      have exec : ∀ p, SDb.execAll db (Op.disableChecks :: p) = SDb.execAll { db with checks := false } p := by
        intro p
        simp only [SDb.execAll, List.foldlM_cons, SDb.exec, Option.bind_eq_bind, Option.bind_some]
      have hsend : ∀ l : List Op, (Op.disableChecks :: l).map Op.render = [Op.render .disableChecks] ++ l.map Op.render := fun _ => rfl
      rw [exec, hsend, world_append dflt h0]
      rcases List.append_eq_append_iff.mp hb with ⟨q, hq1, hq2⟩ | ⟨q, hq1, _⟩
      · cases q with
        | nil =>
          rw [List.append_nil] at hq1
          subst hq1
          exact hinner _ [] (by simp)
        | cons x q =>
          simp only [List.cons_append, List.cons.injEq] at hq2
          obtain ⟨rfl, hq2⟩ := hq2
          obtain ⟨rfl, rfl⟩ := List.append_eq_nil_iff.mp hq2.symm
          obtain ⟨N, w, db2, g2, h1, h2, h3, h4, h5, h6, h7, h8⟩ := hinner (structure' ++ rows) [] (by simp)
          refine ⟨N, w, { db2 with checks := true }, g2, h1, h2, ?_, ?_, h5, h6, h7, h8⟩
          · rw [hq1]
            simp only [SDb.execAll] at h3 ⊢
            rw [List.foldlM_append, h3]
            rfl
          · have hen := world_checks dflt db2 g2 .enableChecks true rfl
            rw [hq1, List.map_append, world_append dflt h4]
            simp only [List.map_cons, List.map_nil, World.sendAll, List.foldlM_cons, List.foldlM_nil, hen]
            rfl
      · exact hinner pre q hq1

/-- what holds again after every interruption -/
structure Ready (files live : Database) (db : SDb) (g : DbRows) (first : Database) (g₀ : DbRows) : Prop where
  db : Describes live.tables db
  migratable : ∃ c, Migratable c live.tables files.tables
  fit : RowsFit live.tables files.tables
  quiet : QuietRows g files.tables
  plan : ∃ ops, process files.tables (some live.tables) false = .ok ops
  others : OthersKept first.tables files.tables g₀ g
  columns : ∀ n a b s, first.tables.get? n = some a → files.tables.get? n = some b → live.tables.get? n = some s →
    ∀ x, x ∈ a.columns.keys → x ∈ b.columns.keys → x ∈ s.columns.keys
  tables : ∀ n, n ∈ first.tables.keys → n ∈ files.tables.keys → n ∈ live.tables.keys
  rows : ∀ n, n ∉ first.tables.keys → ∀ i, g₀ n i = none

theorem OthersKept.trans {f f' t : Dict Table} {g g' g'' : DbRows} (h : OthersKept f t g g') (h' : OthersKept f' t g' g'') (ht : KeyedTables t)
    (hc : ∀ n a b s, f.get? n = some a → t.get? n = some b → f'.get? n = some s → ∀ x, x ∈ a.columns.keys → x ∈ b.columns.keys → x ∈ s.columns.keys)
    (hn : ∀ n, n ∈ f.keys → n ∈ t.keys → n ∈ f'.keys) : OthersKept f t g g'' := by
  refine ⟨?_, fun x hx hxt i hi => h'.fresh x hx hxt i (h.fresh x hx hxt i hi)⟩
  intro x hx hxt i cells hcells
  obtain ⟨c1, h1, h2⟩ := h.kept x hx hxt i cells hcells
  obtain ⟨c2, h3, h4⟩ := h'.kept x hx hxt i c1 h1
  refine ⟨c2, h3, fun a ha k hk1 hk2 => ?_⟩
  have hname := get?_own_name ht hx
  obtain ⟨s, hs⟩ := Dict.exists_get? (hn _ (Dict.mem_keys_of_get? ha) (Dict.mem_keys_of_get? hname))
  rw [h4 s hs k (hc _ a x s ha hname hs k hk1 hk2) hk2, h2 a ha k hk1 hk2]

theorem interrupted_ready {sources : List Str} {dflt : ColumnSql → Option Str} {files live live' : Database} {db db' : SDb} {g g' : DbRows}
    (hf : FileDatabase.new sources = .ok files) (he : files.errors.1 = .ok []) (h : Interrupted sources dflt live db g live' db' g') :
    ∀ first g₀, Ready files live db g first g₀ → Ready files live' db' g' first g₀ := by
  have hkf := FileDatabase.new_kept hf
  induction h with
  | start => exact fun _ _ h => h
  | @again live₁ live₂ db db₁ db₂ g g₁ g₂ srv force pre post _ tables rows plan exec sent read ih =>
    intro first g₀ h0
    have h1 := ih first g₀ h0
    obtain ⟨c, hm⟩ := h1.migratable
    obtain ⟨ops, hp⟩ := h1.plan
    obtain ⟨N, w, db3, g3, k1, k2, k3, k4, k5, k6, k7, k8⟩ := world_prefix (db := { db₁ with checks := true }) dflt hf he tables rows (describes_checks h1.db true) rfl hm h1.fit
      h1.quiet.now hp plan
    rw [exec] at k3
    cases k3
    rw [sent] at k4
    simp only [Option.some.injEq, World.mk.injEq, true_and] at k4
    subst k4
    have hmid := mid_of_reading k1 k2 k6 read
    refine ⟨read.describes, ⟨false, hmid.migratable hm⟩, hmid.rowsFit h1.fit, ⟨?_, h1.quiet.declared⟩, ?_, ?_, ?_, ?_, h1.rows⟩
    · intro t ht htt i hi
      have hkn := (hkf.values t ht).known
      rw [htt] at hkn
      obtain ⟨new, hnew⟩ := Option.isSome_iff_exists.mp hkn.symm
      rcases k8 t ht htt new hnew i hi with h | h
      · exact h1.quiet.ids t ht htt i h
      · obtain ⟨r, hr⟩ := Dict.exists_get? h
        exact (h1.quiet.declared t ht htt new hnew i r hr).1
    · obtain ⟨ops', ho⟩ := hmid.plan hp
      exact process_untoggled ho
    · exact h1.others.trans k7 hkf.toKeyedTables h1.columns h1.tables
    · intro n a b s ha hb hs x hxa hxb
      rcases hmid.columns hs with ⟨s1, hs1, hcols⟩ | ⟨b', hb', hcols⟩
      · rw [hcols]
        exact h1.columns n a b s1 ha hb hs1 x hxa hxb
      · rw [hb] at hb'
        cases hb'
        exact (hcols x).mpr hxb
    · intro n h2 h3
      exact hmid.stays (h1.tables n h2 h3) h3

theorem first_ready {files live : Database} {g : DbRows} {db : SDb} (hdb : Describes live.tables db) (hg : ∀ n, n ∉ live.tables.keys → ∀ i, g n i = none)
    (hm : Migratable c live.tables files.tables) (hfit : RowsFit live.tables files.tables) (hq : QuietRows g files.tables)
    (hc : ∀ n a b, live.tables.get? n = some a → files.tables.get? n = some b → a.Comparable b) : Ready files live db g live g := by
  refine ⟨hdb, ⟨c, hm⟩, hfit, hq, C56 files.tables (some live.tables) false hm.target.toKeyedTables hc, OthersKept.refl _ _ _, ?_, fun n h _ => h, hg⟩
  intro n a b s ha _ hs x hx _
  rw [ha] at hs
  cases hs
  exact hx

/-- **C71, every crash point.**  However often `apply` was interrupted: MySQL executes any first statements of the next plan, the server can be
read again after them, and the rows of tables whose rows are not declared are the same as before the first run, in the columns which stay.

What is missing (`_partial`): as in C69. -/
theorem C71_crash_partial (sources : List Str) (files live : Database) (g : DbRows) (db : SDb) (c : Bool) (dflt : ColumnSql → Option Str)
    (hf : FileDatabase.new sources = .ok files) (he : files.errors.1 = .ok []) (hdb : Describes live.tables db)
    (hg : ∀ n, n ∉ live.tables.keys → ∀ i, g n i = none)
    (hm : Migratable c live.tables files.tables) (hfit : RowsFit live.tables files.tables) (hq : QuietRows g files.tables)
    (hc : ∀ n a b, live.tables.get? n = some a → files.tables.get? n = some b → a.Comparable b)
    (live' : Database) (db' : SDb) (g' : DbRows) (hi : Interrupted sources dflt live db g live' db' g')
    (srv : Server) (force : Bool) (hl : (LiveDatabase.new srv).result = .ok live') (hr : ServerRows srv live' g')
    (pre post : List Op) (hb : (buildCommands srv sources force).result = .ok (pre ++ post)) :
    ∃ db'' g'', SDb.execAll { db' with checks := true } pre = some db'' ∧
      World.sendAll dflt ⟨({ db' with checks := true } : SDb).sql, g'⟩ (pre.map Op.render) = some ⟨db''.sql, g''⟩ ∧
      (∃ d, Reading live'.tables db'' d) ∧ OthersKept live.tables files.tables g g'' := by
  have hkf := FileDatabase.new_kept hf
  have h1 := interrupted_ready hf he hi live g (first_ready hdb hg hm hfit hq hc)
  obtain ⟨c', hm'⟩ := h1.migratable
  obtain ⟨p', hp'⟩ := h1.plan
  obtain ⟨N, w, db3, g3, k1, k2, k3, k4, k5, k6, k7, _⟩ := world_prefix (db := { db' with checks := true }) dflt hf he hl hr (describes_checks h1.db true) rfl hm' h1.fit
    h1.quiet.now hp' hb
  exact ⟨db3, g3, k3, k4, reading_exists k1 k5 k6, h1.others.trans k7 hkf.toKeyedTables h1.columns h1.tables⟩

/-- **C71.**  `apply` was interrupted, however often, each time after any of its statements; the server reads again as it is, foreign keys are
checked, and the server fails on nothing which MySQL accepts.  Then the next run comes to its end: MySQL accepts each of its texts, and afterwards
the server has the declared tables, with the declared columns, keys and foreign keys, and the declared rows; and rows of tables whose rows are not
declared are the same as before the first run, in the columns which stay.

What is missing (`_partial`): as in C69. -/
theorem C71_partial (sources : List Str) (files live : Database) (g : DbRows) (db : SDb) (c : Bool) (dflt : ColumnSql → Option Str)
    (hf : FileDatabase.new sources = .ok files) (he : files.errors.1 = .ok []) (hdb : Describes live.tables db)
    (hg : ∀ n, n ∉ live.tables.keys → ∀ i, g n i = none)
    (hm : Migratable c live.tables files.tables) (hfit : RowsFit live.tables files.tables) (hq : QuietRows g files.tables)
    (hc : ∀ n a b, live.tables.get? n = some a → files.tables.get? n = some b → a.Comparable b)
    (live' : Database) (db' : SDb) (g' : DbRows) (hi : Interrupted sources dflt live db g live' db' g')
    (srv : Server) (force : Bool) (hl : (LiveDatabase.new srv).result = .ok live') (hr : ServerRows srv live' g')
    (hsrv : srv.Follows dflt ⟨({ db' with checks := true } : SDb).sql, g'⟩) :
    ∃ o db'' g'', (Command.apply srv sources force).result = .ok o ∧
      World.sendAll dflt ⟨({ db' with checks := true } : SDb).sql, g'⟩ o.output = some ⟨db''.sql, g''⟩ ∧
      Migrated live'.tables files.tables db'' ∧ RowsMigrated live'.tables files.tables g' g'' ∧ OthersKept live.tables files.tables g g'' := by
  have hkf := FileDatabase.new_kept hf
  have h1 := interrupted_ready hf he hi live g (first_ready hdb hg hm hfit hq hc)
  obtain ⟨c', hm'⟩ := h1.migratable
  obtain ⟨p', hp'⟩ := h1.plan
  obtain ⟨o, db'', g'', k1, _, k3, _, k4, k5⟩ := apply_world srv sources force files live' g' { db' with checks := true } c' dflt hf he hl (describes_checks h1.db true) rfl hr hm'
    h1.fit h1.quiet.now hp' hsrv
  exact ⟨o, db'', g'', k1, k3, k4, k5, h1.others.trans ⟨k5.kept, k5.fresh⟩ hkf.toKeyedTables h1.columns h1.tables⟩

end

/-! ## Examples -/

section Examples
attribute [local instance] exactNum

theorem all_quietRows : QuietRows allRows allFiles.tables := by
  refine ⟨all_rowsQuiet.ids, ?_⟩
  have h : ∀ t ∈ allFiles.tables.values, ∀ e ∈ t.rows.getD [], ('\'' ∉ e.1 ∧ '\\' ∉ e.1) ∧ ∀ f ∈ e.2, '\'' ∉ f.2.cell.getD [] := by decide +kernel
  intro t ht htt new hnew i r hr
  have := h t ht
  rw [hnew] at this
  obtain ⟨h1, h2⟩ := this _ (Dict.mem_of_get? hr)
  refine ⟨h1, fun c v s hcv hv => ?_⟩
  have := h2 _ hcv
  simp only [hv, Option.getD_some] at this
  exact this

theorem all_others : ∀ n, n ∉ allLive.tables.keys → ∀ i, allRows n i = none := fun n hn i => by simp only [allRows, answeredRows, if_neg hn]

/-- for `C71_crash_partial` and `C71_partial`: the migration of C69's example is interrupted after any number of statements; the server can be read
again, and whatever a server answers which has what is there then, the next run makes `levels` as declared, and the row of `users` is kept -/
example (dflt : ColumnSql → Option Str) (k : Nat) : ∃ live' db' g', Interrupted allSources dflt allLive allDb allRows live' db' g' ∧
    ∀ srv, (LiveDatabase.new srv).result = .ok live' → ServerRows srv live' g' → srv.Follows dflt ⟨({ db' with checks := true } : SDb).sql, g'⟩ →
      ∃ o, ∃ db'' : SDb, ∃ g'', (Command.apply srv allSources false).result = .ok o ∧
        World.sendAll dflt ⟨({ db' with checks := true } : SDb).sql, g'⟩ o.output = some ⟨db''.sql, g''⟩ ∧
        (∀ n, n ∈ db''.tables.keys ↔ n ∈ allFiles.tables.keys) ∧
        (∀ i, (g'' py"levels" i).isSome = true ↔ i ∈ [py"1", py"2", py"4"]) ∧ (g'' py"users" py"9").isSome = true := by
  have hrows : ServerRows allServer allLive allRows := answeredRows_server (by decide +kernel)
  have hcomp := Examples.comparableTables_of_check (f := allLive.tables) (t := allFiles.tables) (by decide +kernel)
  have hdb := describes_ofTables all_migratable.source.toKeyedTables true
  obtain ⟨p, hp⟩ := C56 allFiles.tables (some allLive.tables) false all_migratable.target.toKeyedTables hcomp
  obtain ⟨_, rows, _, _, _, _, hb⟩ := planned allFiles_eq allFiles_errors allLive_eq hrows hp
  have hb := hb false
  generalize (if p ++ rows = [] then [] else Op.disableChecks :: (p ++ rows) ++ [Op.enableChecks]) = ops at hb
  rw [← List.take_append_drop k ops] at hb
  obtain ⟨db', g', h1, h2, ⟨d, h3⟩, _⟩ := C71_crash_partial allSources allFiles allLive allRows allDb true dflt allFiles_eq allFiles_errors hdb all_others all_migratable
    all_rowsFit all_quietRows hcomp allLive allDb allRows .start allServer false allLive_eq hrows _ _ hb
  refine ⟨{ tables := d }, db', g', .again .start allLive_eq hrows hb h1 h2 h3, fun srv hl hr hs => ?_⟩
  obtain ⟨o, db'', g'', j1, j2, j3, j4, j5⟩ := C71_partial allSources allFiles allLive allRows allDb true dflt allFiles_eq allFiles_errors hdb all_others all_migratable
    all_rowsFit all_quietRows hcomp { tables := d } db' g' (.again .start allLive_eq hrows hb h1 h2 h3) srv false hl hr hs
  obtain ⟨t, ht, htn, htt, htr⟩ : ∃ t ∈ allFiles.tables.values, t.name = py"levels" ∧ t.tracking = true ∧ t.rows.map Dict.keys = some [py"1", py"2", py"4"] := by decide +kernel
  obtain ⟨u, hu, hun, hut⟩ : ∃ t ∈ allFiles.tables.values, t.name = py"users" ∧ t.tracking = false := by decide +kernel
  refine ⟨o, db'', g'', j1, j2, j3.names, ?_, ?_⟩
  · obtain ⟨new, hnew, hids⟩ := j4.ids t ht htt
    rw [hnew] at htr
    simp only [Option.map_some, Option.some.injEq] at htr
    rw [htn, htr] at hids
    exact hids
  · have h9 : (allRows py"users" py"9").isSome = true := by decide +kernel
    obtain ⟨cells, hc⟩ := Option.isSome_iff_exists.mp h9
    obtain ⟨cells', hc', _⟩ := j5.kept u hu hut py"9" cells (by rw [hun]; exact hc)
    rw [hun] at hc'
    rw [hc']
    rfl

/-- for `C70_twice_partial`: after two runs nothing is left to do -/
example (dflt : ColumnSql → Option Str) : ∃ o, ∃ db' : SDb, ∃ g', (Command.apply allServer allSources false).result = .ok o ∧
    World.sendAll dflt ⟨allDb.sql, allRows⟩ o.output = some ⟨db'.sql, g'⟩ ∧
    ∀ srv' live', (LiveDatabase.new srv').result = .ok live' → Reading allLive.tables db' live'.tables → ServerRows srv' live' g' → srv'.Follows dflt ⟨db'.sql, g'⟩ →
      (∀ i cells c, g' py"levels" i = some cells → cells c ≠ some py"None") → ∃ o', (Command.apply srv' allSources false).result = .ok o' := by
  have h : ∀ t ∈ allFiles.tables.values, (t.rows.getD []).all (fun e => e.2.all (fun f => decide (f.2.cell ≠ some py"None"))) = true := by decide +kernel
  have ht : ∀ t ∈ allFiles.tables.values, t.tracking = true → t.name = py"levels" := by decide +kernel
  obtain ⟨o, db', g', h1, h2, h3⟩ := C70_twice_partial allServer allSources false allFiles allLive allRows allDb true dflt allFiles_eq allFiles_errors allLive_eq
    (describes_ofTables all_migratable.source.toKeyedTables true) rfl (answeredRows_server (by decide +kernel)) all_migratable all_rowsFit all_quietRows
    (Examples.comparableTables_of_check (by decide +kernel)) (Examples.noLookAlike_of_check (by decide +kernel)) (by
      intro t ht new hnew j r' c v hr' hv e
      have := h t ht
      rw [hnew] at this
      have := List.all_eq_true.mp (List.all_eq_true.mp this _ (Dict.mem_of_get? hr')) _ (Dict.mem_of_get? hv)
      rw [e] at this
      exact absurd this (by decide)) (fun _ _ _ => rfl)
  refine ⟨o, db', g', h1, h2, fun srv' live' a b c d e => ?_⟩
  obtain ⟨o', _, _, h4, _⟩ := h3 srv' live' false a b c d (fun t htm htt i cells k => by rw [ht t htm htt]; exact e i cells k)
  exact ⟨o', h4⟩

end Examples

end Mygrations

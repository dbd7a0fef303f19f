import Verif.Proofs.Rows
import Verif.Props.Examples

/-! # C17 - C22: row migrations -/

namespace Mygrations
open Table

/-! ## C18 -/

/-- **C18**.  No operations for a table whose rows are the declared ones. -/
theorem C18 (t f : Table) (new : Dict Row) (hn : t.rows = some new) (hf : f.rows = some new) (htr : f.tracking = true)
    (hk : RowsKeyed new) : t.toRows (some f) = .ok [] := by
  obtain ⟨ops, h⟩ := toRows_ok (from? := some f) hn hk (by intro f' hf'; cases hf'; exact ⟨htr, by simp [hf]⟩)
  obtain ⟨new', hn', rfl⟩ := toRows_eq h
  rw [hn] at hn'; cases hn'
  rw [h]
  congr 1
  rw [List.eq_nil_iff_forall_not_mem]
  intro op hop
  have ho : oldRows (some f) = new := by simp [oldRows, hf]
  rw [ho, mem_rowOps] at hop
  rcases hop with ⟨k, r, h1, h2, _⟩ | ⟨k, h1, h2, _⟩ | ⟨k, r, o, h1, h2, h3, _⟩
  · exact h2 (Dict.mem_keys_of_get? h1)
  · exact h2 h1
  · rw [h1] at h2; cases h2
    obtain ⟨c, a, b, ha, hb, hab⟩ := rowDiffers_iff.mp h3
    rw [ha] at hb; cases hb
    rw [looseEqual_refl] at hab; cases hab

/-! ## C20 -/

/-- **C20**.  Every operation inserts, deletes or updates a row of the table; it is an `INSERT` exactly for the
declared ids which are missing, a `DELETE` exactly for the ids which are not declared, an `UPDATE` exactly for the
ids on both sides with a difference in a common column, and no id gets two operations. -/
theorem C20 (t : Table) (from? : Option Table) (ops : List Op) (h : t.toRows from? = .ok ops)
    (new : Dict Row) (hn : t.rows = some new) (hk : RowsKeyed new) (ho : (oldRows from?).keys.Nodup) :
    (∀ op ∈ ops, (∃ r, op = .rowInsert t.name r) ∨ (∃ i, op = .rowDelete t.name i) ∨ ∃ r, op = .rowUpdate t.name r) ∧
    (∀ r, .rowInsert t.name r ∈ ops ↔ ∃ i, new.get? i = some r ∧ i ∉ (oldRows from?).keys) ∧
    (∀ i, .rowDelete t.name i ∈ ops ↔ i ∈ (oldRows from?).keys ∧ i ∉ new.keys) ∧
    (∀ r, .rowUpdate t.name r ∈ ops ↔ ∃ i o c a b, new.get? i = some r ∧ (oldRows from?).get? i = some o ∧
      Dict.get? r c = some a ∧ Dict.get? o c = some b ∧ looseEqual a b = false) ∧
    (ops.map Op.rowKey).Nodup := by
  obtain ⟨new', hn', rfl⟩ := toRows_eq h
  rw [hn] at hn'; cases hn'
  refine ⟨?_, ?_, ?_, ?_, rowOps_nodup hk ho⟩
  · intro op hop
    rw [mem_rowOps] at hop
    rcases hop with ⟨_, r, _, _, rfl⟩ | ⟨i, _, _, rfl⟩ | ⟨_, r, _, _, _, _, rfl⟩
    · exact .inl ⟨r, rfl⟩
    · exact .inr (.inl ⟨i, rfl⟩)
    · exact .inr (.inr ⟨r, rfl⟩)
  · intro r
    simp only [mem_rowOps]
    constructor
    · rintro (⟨k, r', h1, h2, h3⟩ | ⟨_, _, _, h3⟩ | ⟨_, _, _, _, _, _, h3⟩)
      · cases h3; exact ⟨k, h1, h2⟩
      · cases h3
      · cases h3
    · rintro ⟨i, h1, h2⟩; exact .inl ⟨i, r, h1, h2, rfl⟩
  · intro i
    simp only [mem_rowOps]
    constructor
    · rintro (⟨k, r', h1, h2, h3⟩ | ⟨_, h1, h2, h3⟩ | ⟨_, _, _, _, _, _, h3⟩)
      · cases h3
      · cases h3; exact ⟨h1, h2⟩
      · cases h3
    · rintro ⟨h1, h2⟩; exact .inr (.inl ⟨i, h1, h2, rfl⟩)
  · intro r
    simp only [mem_rowOps, rowDiffers_iff]
    constructor
    · rintro (⟨k, r', h1, h2, h3⟩ | ⟨_, h1, h2, h3⟩ | ⟨i, _, o, h1, h2, ⟨c, a, b, ha, hb, hab⟩, h3⟩)
      · cases h3
      · cases h3
      · cases h3; exact ⟨i, o, c, a, b, h1, h2, ha, hb, hab⟩
    · rintro ⟨i, o, c, a, b, h1, h2, ha, hb, hab⟩
      exact .inr (.inr ⟨i, r, o, h1, h2, ⟨c, a, b, ha, hb, hab⟩, rfl⟩)

/-! ## The migration of all rows -/

theorem processLoop_eq {toT : Dict Table} {fromT : Option (Dict Table)} (ht : KeyedTables toT) :
    ∀ {ts : List Table} {ops : List Op}, (∀ t ∈ ts, t ∈ toT.values) → RowMygration.processLoop toT fromT (ts.map Table.name) = .ok ops →
      ops = ts.flatMap (fun t => rowOps t.name (t.rows.getD []) (oldRows ((fromT.getD []).get? t.name))) ∧ ∀ t ∈ ts, t.rows.isSome = true := by
  intro ts
  induction ts with
  | nil => intro ops _ h; simp only [RowMygration.processLoop, List.map_nil, Except.ok.injEq] at h; simp [← h]
  | cons t ts ih =>
    intro ops hm h
    obtain ⟨n, hn⟩ := Dict.mem_values.mp (hm t List.mem_cons_self)
    have hget : toT.get? t.name = some t := by rw [ht.name _ _ hn]; exact Dict.get?_of_mem ht.nodup hn
    simp only [List.map_cons, RowMygration.processLoop, hget] at h
    cases hr : t.toRows ((fromT.getD []).get? t.name) with
    | error e => simp [hr] at h
    | ok l =>
      simp only [hr] at h
      cases hl : RowMygration.processLoop toT fromT (ts.map Table.name) with
      | error e => simp [hl, Except.map] at h
      | ok m =>
        simp only [hl, Except.map, Except.ok.injEq] at h
        obtain ⟨h1, h2⟩ := ih (fun x hx => hm x (List.mem_cons_of_mem _ hx)) hl
        obtain ⟨new, hnew, rfl⟩ := toRows_eq hr
        rw [← h, h1]
        constructor
        · simp [hnew]
        · intro x hx
          rw [List.mem_cons] at hx
          rcases hx with rfl | hx
          · simp [hnew]
          · exact h2 x hx

theorem tracked_names_nodup {toT : Dict Table} (ht : KeyedTables toT) : ((toT.values.filter Table.tracking).map Table.name).Nodup := by
  have : (toT.values.map Table.name).Nodup := by
    have : toT.values.map Table.name = toT.keys := by
      simp only [Dict.values, Dict.keys, List.map_map]
      apply List.map_congr_left
      rintro ⟨k, t⟩ h
      exact ht.name _ _ h
    rw [this]; exact ht.nodup
  exact this.sublist (List.filter_sublist.map _)

/-! ## C19 -/

/-- **C19**.  Every row operation is about a table whose rows are declared, and executing the operations does not
touch the rows of any other table. -/
theorem C19 (toT : Dict Table) (fromT : Option (Dict Table)) (ops : List Op) (ht : KeyedTables toT)
    (h : RowMygration.process toT fromT = .ok ops) :
    (∀ op ∈ ops, ∃ t ∈ toT.values, t.tracking = true ∧
      ((∃ r, op = .rowInsert t.name r) ∨ (∃ i, op = .rowDelete t.name i) ∨ ∃ r, op = .rowUpdate t.name r)) ∧
    (∀ dflt g g', DbRows.execAll dflt g ops = some g' →
      ∀ n, (∀ t ∈ toT.values, t.tracking = true → t.name ≠ n) → g' n = g n) := by
  obtain ⟨he, hrows⟩ := processLoop_eq ht (fun t ht => (List.mem_filter.mp ht).1) h
  have hops : ∀ op ∈ ops, ∃ t ∈ toT.values, t.tracking = true ∧
      ((∃ r, op = .rowInsert t.name r) ∨ (∃ i, op = .rowDelete t.name i) ∨ ∃ r, op = .rowUpdate t.name r) := by
    intro op hop
    rw [he, List.mem_flatMap] at hop
    obtain ⟨t, htm, hop⟩ := hop
    rw [List.mem_filter] at htm
    refine ⟨t, htm.1, htm.2, ?_⟩
    rw [mem_rowOps] at hop
    rcases hop with ⟨_, r, _, _, rfl⟩ | ⟨i, _, _, rfl⟩ | ⟨_, r, _, _, _, _, rfl⟩
    · exact .inl ⟨r, rfl⟩
    · exact .inr (.inl ⟨i, rfl⟩)
    · exact .inr (.inr ⟨r, rfl⟩)
  refine ⟨hops, ?_⟩
  intro dflt g g' hg n hn
  clear he h
  have hput : ∀ (g : DbRows) (t : Str) i r, t ≠ n → (g.put t i r) n = g n := by
    intro g t i r ht
    funext j
    simp only [DbRows.put]
    rw [if_neg]
    rintro ⟨h1, _⟩; exact ht h1.symm
  induction ops generalizing g with
  | nil => simp only [DbRows.execAll, Option.some.injEq] at hg; rw [hg]
  | cons op ops ih =>
    simp only [DbRows.execAll] at hg
    cases h1 : DbRows.exec dflt g op with
    | none => simp [h1] at hg
    | some g1 =>
      simp only [h1, Option.bind_some] at hg
      rw [ih (fun o ho => hops o (List.mem_cons_of_mem _ ho)) g1 hg]
      obtain ⟨t, htm, htt, hop⟩ := hops op List.mem_cons_self
      have hne := hn t htm htt
      rcases hop with ⟨r, rfl⟩ | ⟨i, rfl⟩ | ⟨r, rfl⟩
      · simp only [DbRows.exec] at h1
        split at h1
        · cases h1
        · split at h1
          · cases h1
          · simp only [Option.some.injEq] at h1; rw [← h1]; exact hput _ _ _ _ hne
      · simp only [DbRows.exec, Option.some.injEq] at h1
        rw [← h1]; exact hput _ _ _ _ hne
      · simp only [DbRows.exec] at h1
        split at h1
        · cases h1
        · rename_i i _
          simp only [Option.some.injEq] at h1
          rw [← h1]
          cases hg : g t.name i with
          | some c => simp only [hg]; exact hput _ _ _ _ hne
          | none => simp only [hg]

/-! ## C17, C21 -/

/-- The rows of the tables whose rows are declared, on both sides: as `add_rows` stores them (C23). -/
structure RowsOk (toT : Dict Table) (fromT : Option (Dict Table)) : Prop where
  keyed : ∀ t ∈ toT.values, t.tracking = true → ∀ new, t.rows = some new → RowsKeyed new
  live : ∀ t ∈ toT.values, t.tracking = true → (oldRows ((fromT.getD []).get? t.name)).keys.Nodup

/-- C17 for rows which are known only in the declared columns, and what does not change -/
theorem rows_exec (toT : Dict Table) (fromT : Option (Dict Table)) (ops : List Op) (ht : KeyedTables toT)
    (hr : RowsOk toT fromT) (h : RowMygration.process toT fromT = .ok ops) (dflt : Str → Cells) (g : DbRows)
    (hlive : ∀ t ∈ toT.values, t.tracking = true → LiveOn g t.name (t.rows.getD []) (oldRows ((fromT.getD []).get? t.name))) :
    ∃ g', DbRows.execAll dflt g ops = some g' ∧
      (∀ n i, (∀ op ∈ ops, op.rowKey ≠ some (n, i)) → g' n i = g n i) ∧
      ∀ t ∈ toT.values, t.tracking = true → ∃ new, t.rows = some new ∧
        (∀ i, (g' t.name i).isSome = true ↔ i ∈ new.keys) ∧
        ∀ i r, new.get? i = some r →
          ((oldRows ((fromT.getD []).get? t.name)).get? i = none ∨
           (∃ o, (oldRows ((fromT.getD []).get? t.name)).get? i = some o ∧
             ((∃ c a b, Dict.get? r c = some a ∧ Dict.get? o c = some b ∧ looseEqual a b = false) ∨
              ((∀ c ∈ Dict.keys r, c ∈ Dict.keys o) ∧ FileValues new ∧ NoNoneText new ∧
                NoNoneText (oldRows ((fromT.getD []).get? t.name)))))) →
          ∃ cells, g' t.name i = some cells ∧ ∀ c v, Dict.get? r c = some v → cells c = v.cell := by
  obtain ⟨he, hrows⟩ := processLoop_eq ht (fun t ht => (List.mem_filter.mp ht).1) h
  have hnew : ∀ t ∈ toT.values.filter Table.tracking, ∃ new, t.rows = some new ∧ RowsKeyed new := by
    intro t htm
    obtain ⟨new, hnew⟩ := Option.isSome_iff_exists.mp (hrows t htm)
    rw [List.mem_filter] at htm
    exact ⟨new, hnew, hr.keyed t htm.1 htm.2 new hnew⟩
  have hsome : ∀ op ∈ ops, ∃ t ∈ toT.values.filter Table.tracking, op ∈ rowOps t.name (t.rows.getD []) (oldRows ((fromT.getD []).get? t.name)) := by
    intro op hop
    rw [he, List.mem_flatMap] at hop
    exact hop
  have hkey : ∀ op ∈ ops, op.rowKey.isSome = true := by
    intro op hop
    obtain ⟨t, htm, hop⟩ := hsome op hop
    obtain ⟨new, hn, hk⟩ := hnew t htm
    rw [hn] at hop
    obtain ⟨i, hi⟩ := rowOps_isSome hk op hop
    rw [hi]; rfl
  have hnodup : (ops.map Op.rowKey).Nodup := by
    rw [he, List.map_flatMap, List.Nodup, List.pairwise_flatMap]
    constructor
    · intro t htm
      obtain ⟨new, hn, hk⟩ := hnew t htm
      rw [hn]
      rw [List.mem_filter] at htm
      exact rowOps_nodup hk (hr.live t htm.1 htm.2)
    · have := tracked_names_nodup ht
      rw [List.Nodup, List.pairwise_map] at this
      refine this.imp_of_mem ?_
      intro t t' htm htm' hne x hx y hy hxy
      obtain ⟨new, hn, hk⟩ := hnew t htm
      obtain ⟨new', hn', hk'⟩ := hnew t' htm'
      obtain ⟨op, hop, rfl⟩ := List.mem_map.mp hx
      obtain ⟨op', hop', rfl⟩ := List.mem_map.mp hy
      rw [hn] at hop; rw [hn'] at hop'
      obtain ⟨i, hi⟩ := rowOps_isSome hk op hop
      obtain ⟨i', hi'⟩ := rowOps_isSome hk' op' hop'
      rw [hi, hi'] at hxy
      simp only [Option.some.injEq, Prod.mk.injEq] at hxy
      exact hne hxy.1
  have hen : ∀ op ∈ ops, ∀ t i, op.rowKey = some (t, i) → DbRows.enabled op (g t i) := by
    intro op hop n i hki
    obtain ⟨t, htm, hop⟩ := hsome op hop
    obtain ⟨new, hn, hk⟩ := hnew t htm
    rw [List.mem_filter] at htm
    have hl := hlive t htm.1 htm.2
    rw [hn, Option.getD_some, mem_rowOps] at hop
    rcases hop with ⟨k, r, h1, h2, rfl⟩ | ⟨_, _, _, rfl⟩ | ⟨_, r, _, _, _, _, rfl⟩
    · simp only [Op.rowKey, givenId_of_keyed hk h1, Option.map_some, Option.some.injEq, Prod.mk.injEq] at hki
      obtain ⟨rfl, rfl⟩ := hki
      have := hl k
      rw [Dict.get?_eq_none.mpr h2] at this
      exact this
    · trivial
    · trivial
  obtain ⟨g', hg', heff, hsame⟩ := DbRows.exec_indep dflt ops g hkey hnodup hen
  refine ⟨g', hg', hsame, ?_⟩
  intro t htv htt
  have htm : t ∈ toT.values.filter Table.tracking := List.mem_filter.mpr ⟨htv, htt⟩
  obtain ⟨new, hn, hk⟩ := hnew t htm
  have hl := hlive t htv htt
  -- the operations of this table
  have hin : ∀ op, op ∈ rowOps t.name new (oldRows ((fromT.getD []).get? t.name)) → op ∈ ops := by
    intro op hop
    rw [he, List.mem_flatMap]
    exact ⟨t, htm, by rw [hn]; exact hop⟩
  have hout : ∀ op ∈ ops, ∀ i, op.rowKey = some (t.name, i) → op ∈ rowOps t.name new (oldRows ((fromT.getD []).get? t.name)) := by
    intro op hop i hi
    obtain ⟨t', htm', hop⟩ := hsome op hop
    obtain ⟨new', hn', hk'⟩ := hnew t' htm'
    rw [hn', Option.getD_some] at hop
    obtain ⟨i', hi'⟩ := rowOps_isSome hk' op hop
    rw [hi] at hi'
    simp only [Option.some.injEq, Prod.mk.injEq] at hi'
    have : t' = t := by
      obtain ⟨n1, h1⟩ := Dict.mem_values.mp htv
      obtain ⟨n2, h2⟩ := Dict.mem_values.mp (List.mem_filter.mp htm').1
      have e1 := Dict.get?_of_mem ht.nodup h1
      have e2 := Dict.get?_of_mem ht.nodup h2
      rw [← ht.name _ _ h1] at e1
      rw [← ht.name _ _ h2, ← hi'.1, e1] at e2
      exact (Option.some.inj e2).symm
    subst this
    rw [hn] at hn'; cases hn'
    exact hop
  refine ⟨new, hn, ?_, ?_⟩
  · intro i
    by_cases hin' : i ∈ new.keys
    · obtain ⟨r, hr'⟩ := Dict.exists_get? hin'
      simp only [hin', iff_true]
      by_cases hold : i ∈ (oldRows ((fromT.getD []).get? t.name)).keys
      · obtain ⟨o, ho⟩ := Dict.exists_get? hold
        have hli := hl i
        rw [ho] at hli
        obtain ⟨cells, hc, _⟩ := hli
        by_cases hd : rowDiffers r o = true
        · have := heff _ (hin _ (mem_rowOps.mpr (.inr (.inr ⟨i, r, o, hr', ho, hd, rfl⟩)))) t.name i
            (by simp [Op.rowKey, givenId_of_keyed hk hr'])
          rw [this, hc]; rfl
        · have := hsame t.name i (by
            intro op hop hki
            have := hout op hop i hki
            rw [mem_rowOps] at this
            rcases this with ⟨k, r', h1, h2, rfl⟩ | ⟨k, h1, h2, rfl⟩ | ⟨k, r', o', h1, h2, h3, rfl⟩
            · simp only [Op.rowKey, givenId_of_keyed hk h1, Option.map_some, Option.some.injEq, Prod.mk.injEq, true_and] at hki
              exact h2 (hki ▸ hold)
            · simp only [Op.rowKey, Option.some.injEq, Prod.mk.injEq, true_and] at hki
              exact h2 (hki ▸ hin')
            · simp only [Op.rowKey, givenId_of_keyed hk h1, Option.map_some, Option.some.injEq, Prod.mk.injEq, true_and] at hki
              subst hki
              rw [hr'] at h1; cases h1
              rw [ho] at h2; cases h2
              exact hd h3)
          rw [this, hc]; rfl
      · have := heff _ (hin _ (mem_rowOps.mpr (.inl ⟨i, r, hr', hold, rfl⟩))) t.name i (by simp [Op.rowKey, givenId_of_keyed hk hr'])
        rw [this]; rfl
    · simp only [hin', iff_false]
      by_cases hold : i ∈ (oldRows ((fromT.getD []).get? t.name)).keys
      · have := heff _ (hin _ (mem_rowOps.mpr (.inr (.inl ⟨i, hold, hin', rfl⟩)))) t.name i (by simp [Op.rowKey])
        rw [this]; simp [DbRows.effect]
      · have := hsame t.name i (by
          intro op hop hki
          have := hout op hop i hki
          rw [mem_rowOps] at this
          rcases this with ⟨k, r', h1, h2, rfl⟩ | ⟨k, h1, h2, rfl⟩ | ⟨k, r', o', h1, h2, h3, rfl⟩
          · simp only [Op.rowKey, givenId_of_keyed hk h1, Option.map_some, Option.some.injEq, Prod.mk.injEq, true_and] at hki
            exact hin' (hki ▸ Dict.mem_keys_of_get? h1)
          · simp only [Op.rowKey, Option.some.injEq, Prod.mk.injEq, true_and] at hki
            exact hold (hki ▸ h1)
          · simp only [Op.rowKey, givenId_of_keyed hk h1, Option.map_some, Option.some.injEq, Prod.mk.injEq, true_and] at hki
            exact hin' (hki ▸ Dict.mem_keys_of_get? h1))
        rw [this]
        have hli := hl i
        rw [Dict.get?_eq_none.mpr hold] at hli
        rw [hli]; simp
  · intro i r hr' hcase
    rcases hcase with hold | ⟨o, ho, hcase⟩
    · have := heff _ (hin _ (mem_rowOps.mpr (.inl ⟨i, r, hr', Dict.get?_eq_none.mp hold, rfl⟩))) t.name i
        (by simp [Op.rowKey, givenId_of_keyed hk hr'])
      refine ⟨_, this, ?_⟩
      intro c v hv
      simp [DbRows.fill, hv]
    · have hli := hl i
      rw [ho] at hli
      obtain ⟨cells, hc, hcells⟩ := hli
      by_cases hd : rowDiffers r o = true
      · have := heff _ (hin _ (mem_rowOps.mpr (.inr (.inr ⟨i, r, o, hr', ho, hd, rfl⟩)))) t.name i
          (by simp [Op.rowKey, givenId_of_keyed hk hr'])
        rw [hc] at this
        refine ⟨_, this, ?_⟩
        intro c v hv
        simp [DbRows.fill, hv]
      · have hsm := hsame t.name i (by
          intro op hop hki
          have := hout op hop i hki
          rw [mem_rowOps] at this
          rcases this with ⟨k, r', h1, h2, rfl⟩ | ⟨k, h1, h2, rfl⟩ | ⟨k, r', o', h1, h2, h3, rfl⟩
          · simp only [Op.rowKey, givenId_of_keyed hk h1, Option.map_some, Option.some.injEq, Prod.mk.injEq, true_and] at hki
            exact h2 (hki ▸ Dict.mem_keys_of_get? ho)
          · simp only [Op.rowKey, Option.some.injEq, Prod.mk.injEq, true_and] at hki
            exact h2 (hki ▸ Dict.mem_keys_of_get? hr')
          · simp only [Op.rowKey, givenId_of_keyed hk h1, Option.map_some, Option.some.injEq, Prod.mk.injEq, true_and] at hki
            subst hki
            rw [hr'] at h1; cases h1
            rw [ho] at h2; cases h2
            exact hd h3)
        rcases hcase with hdiff | ⟨hsub, hfv, hnn, hon⟩
        · exact absurd (rowDiffers_iff.mpr hdiff) hd
        · refine ⟨cells, by rw [hsm, hc], ?_⟩
          intro c v hv
          obtain ⟨w, hw⟩ := Dict.exists_get? (hsub c (Dict.mem_keys_of_get? hv))
          rw [hcells r c w (by rw [hn]; exact hr') (Dict.mem_keys_of_get? hv) hw]
          have hle : looseEqual v w = true := by
            cases hb : looseEqual v w with
            | true => rfl
            | false => exact absurd (rowDiffers_iff.mpr ⟨c, v, w, hv, hw, hb⟩) hd
          exact ((looseEqual_iff (hfv i r c v hr' hv) (hnn i r c v hr' hv) (hon i o c w ho hw)).mp hle).symm

/-- **C17** (partial).  The operations execute, and afterwards each table whose rows are declared has exactly the
declared ids.  The row of an id has all its declared values (1) if it is new, (2) if its value changes in a column which
it has already, (3) if it has all the columns already and no text `None` is involved.  What is missing: a row with new
columns but no other change (`C21_counterexample`), and `NULL` against the text `None` (`C22_counterexample`). -/
theorem C17_partial (toT : Dict Table) (fromT : Option (Dict Table)) (ops : List Op) (ht : KeyedTables toT)
    (hr : RowsOk toT fromT) (h : RowMygration.process toT fromT = .ok ops) (dflt : Str → Cells) (g : DbRows)
    (hlive : ∀ t ∈ toT.values, t.tracking = true → Live g t.name (oldRows ((fromT.getD []).get? t.name))) :
    ∃ g', DbRows.execAll dflt g ops = some g' ∧
      ∀ t ∈ toT.values, t.tracking = true → ∃ new, t.rows = some new ∧
        (∀ i, (g' t.name i).isSome = true ↔ i ∈ new.keys) ∧
        ∀ i r, new.get? i = some r →
          ((oldRows ((fromT.getD []).get? t.name)).get? i = none ∨
           (∃ o, (oldRows ((fromT.getD []).get? t.name)).get? i = some o ∧
             ((∃ c a b, Dict.get? r c = some a ∧ Dict.get? o c = some b ∧ looseEqual a b = false) ∨
              ((∀ c ∈ Dict.keys r, c ∈ Dict.keys o) ∧ FileValues new ∧ NoNoneText new ∧
                NoNoneText (oldRows ((fromT.getD []).get? t.name)))))) →
          ∃ cells, g' t.name i = some cells ∧ ∀ c v, Dict.get? r c = some v → cells c = v.cell := by
  obtain ⟨g', h1, _, h2⟩ := rows_exec toT fromT ops ht hr h dflt g (fun t htm htt i => by
    have hl := hlive t htm htt i
    cases ho : (oldRows ((fromT.getD []).get? t.name)).get? i with
    | none => rw [ho] at hl; exact hl
    | some o =>
      rw [ho] at hl
      obtain ⟨cells, hc, hv⟩ := hl
      exact ⟨cells, hc, fun _ c v _ _ hg => hv c v hg⟩)
  exact ⟨g', h1, h2⟩

/-- **C21 is false**: for every row and every new column with a value, if nothing else changes there are no operations
at all, so the declared value is never written. -/
theorem C21_counterexample (t f : Table) (i c : Str) (r : Row) (v : PyVal) (hc : c ∉ Dict.keys r)
    (ht : t.rows = some [(i, r ++ [(c, v)])]) (hf : f.rows = some [(i, r)]) (htr : f.tracking = true) :
    t.toRows (some f) = .ok [] := by
  have hd : rowDiffers (r ++ [(c, v)]) r = false := by
    cases h : rowDiffers (r ++ [(c, v)]) r with
    | false => rfl
    | true =>
      obtain ⟨x, a, b, ha, hb, hab⟩ := rowDiffers_iff.mp h
      rw [Dict.get?_append, hb] at ha
      simp only [Option.some_or, Option.some.injEq] at ha
      rw [ha, looseEqual_refl] at hab; cases hab
  simp [toRows, htr, ht, hf, rowUpdates, overlap, added, removed, Dict.has, Dict.keys, Dict.get?, hd]

/-- **C21**, exactly: whatever values the file gives to new columns of a row which exists already, some statement is about the row if and only if
a column which the row has already changes. -/
theorem C21_iff (t : Table) (from? : Option Table) (ops : List Op) (h : t.toRows from? = .ok ops)
    (new : Dict Row) (hn : t.rows = some new) (hk : RowsKeyed new) (ho : (oldRows from?).keys.Nodup)
    (i : Str) (r o : Row) (hr : new.get? i = some r) (hold : (oldRows from?).get? i = some o) :
    (∃ op ∈ ops, op.rowKey = some (t.name, i)) ↔ ∃ c a b, Dict.get? r c = some a ∧ Dict.get? o c = some b ∧ looseEqual a b = false := by
  obtain ⟨h1, h2, h3, h4, _⟩ := C20 t from? ops h new hn hk ho
  have hid : ∀ j x, new.get? j = some x → DbRows.givenId x = some j := by
    intro j x hx
    have := (hk.id j x (Dict.mem_of_get? hx)).2
    simp [DbRows.givenId, this, PyVal.cell, PyVal.toStr]
  constructor
  · rintro ⟨op, hop, hkey⟩
    rcases h1 op hop with ⟨x, rfl⟩ | ⟨j, rfl⟩ | ⟨x, rfl⟩
    · obtain ⟨j, hj, hnot⟩ := (h2 x).mp hop
      simp only [Op.rowKey, hid j x hj, Option.map_some, Option.some.injEq, Prod.mk.injEq, true_and] at hkey
      subst hkey
      exact absurd (Dict.mem_keys_of_get? hold) hnot
    · simp only [Op.rowKey, Option.some.injEq, Prod.mk.injEq, true_and] at hkey
      subst hkey
      exact absurd (Dict.mem_keys_of_get? hr) ((h3 j).mp hop).2
    · obtain ⟨j, o', c, a, b, hj, hj', ha, hb, hab⟩ := (h4 x).mp hop
      simp only [Op.rowKey, hid j x hj, Option.map_some, Option.some.injEq, Prod.mk.injEq, true_and] at hkey
      subst hkey
      rw [hr] at hj
      rw [hold] at hj'
      cases hj
      cases hj'
      exact ⟨c, a, b, ha, hb, hab⟩
  · rintro ⟨c, a, b, ha, hb, hab⟩
    exact ⟨.rowUpdate t.name r, (h4 r).mpr ⟨i, o, c, a, b, hr, hold, ha, hb, hab⟩, by simp [Op.rowKey, hid i r hr]⟩

/-! ## C22 -/

/-- **C22** (partial).  `NULL` differs from every text but `None`, whichever side it is on. -/
theorem C22_partial (s : Str) : (looseEqual .none (.str s) = true ↔ s = py"None") ∧ (looseEqual (.str s) .none = true ↔ s = py"None") := by
  constructor
  · simp only [looseEqual, sameType, PyVal.toStr, Bool.false_eq_true, if_false, beq_iff_eq]
    exact eq_comm
  · simp [looseEqual, sameType, PyVal.toStr]

/-- **C22 is false**: a live `NULL` counts as equal to the declared text `None`. -/
theorem C22_counterexample : looseEqual (.str py"None") .none = true ∧ PyVal.cell (.str py"None") ≠ PyVal.cell .none := by decide

/-- **C22**, in terms of the plan (partial).  If a declared `NULL` meets a value in the database, or a declared text a `NULL`, then an `UPDATE`
with the declared values of the row is planned, unless the text is `None`. -/
theorem C22_plan_partial (t : Table) (from? : Option Table) (ops : List Op) (h : t.toRows from? = .ok ops)
    (new : Dict Row) (hn : t.rows = some new) (hk : RowsKeyed new) (ho : (oldRows from?).keys.Nodup)
    (i : Str) (r o : Row) (hr : new.get? i = some r) (hold : (oldRows from?).get? i = some o) (c s : Str) (hs : s ≠ py"None")
    (hnull : (Dict.get? r c = some .none ∧ ∃ v, Dict.get? o c = some v ∧ v.cell = some s) ∨ (Dict.get? r c = some (.str s) ∧ Dict.get? o c = some .none)) :
    .rowUpdate t.name r ∈ ops := by
  obtain ⟨_, _, _, h4, _⟩ := C20 t from? ops h new hn hk ho
  rcases hnull with ⟨ha, v, hb, hv⟩ | ⟨ha, hb⟩
  · refine (h4 r).mpr ⟨i, o, c, _, _, hr, hold, ha, hb, Bool.eq_false_iff.mpr (fun h => hs ?_)⟩
    cases v <;> simp_all [looseEqual, sameType, PyVal.cell, PyVal.toStr]
  · exact (h4 r).mpr ⟨i, o, c, _, _, hr, hold, ha, hb, Bool.eq_false_iff.mpr (fun h => hs ((C22_partial s).2.mp h))⟩

/-- **C22 is false**, for every row: if a row is the same as in the database but for `NULL`s which should be the text `None`, or the
other way around, nothing is planned for it. -/
theorem C22_refuted (t : Table) (from? : Option Table) (ops : List Op) (h : t.toRows from? = .ok ops)
    (new : Dict Row) (hn : t.rows = some new) (hk : RowsKeyed new) (ho : (oldRows from?).keys.Nodup)
    (i : Str) (r o : Row) (hr : new.get? i = some r) (hold : (oldRows from?).get? i = some o)
    (hsame : ∀ c a b, Dict.get? r c = some a → Dict.get? o c = some b →
      a = b ∨ (a = .none ∧ b = .str py"None") ∨ (a = .str py"None" ∧ b = .none)) :
    ∀ op ∈ ops, op.rowKey ≠ some (t.name, i) := by
  intro op hop hkey
  obtain ⟨c, a, b, ha, hb, hab⟩ := (C21_iff t from? ops h new hn hk ho i r o hr hold).mp ⟨op, hop, hkey⟩
  rcases hsame c a b ha hb with rfl | ⟨rfl, rfl⟩ | ⟨rfl, rfl⟩
  · rw [looseEqual_refl] at hab; cases hab
  · exact absurd hab (by decide)
  · exact absurd hab (by decide)

/-! ## Examples -/

namespace Examples

/-- declared rows -/
def rowsNew : Dict Row :=
  [(py"1", [(py"id", .str py"1"), (py"name", .str py"one")]),
   (py"2", [(py"id", .str py"2"), (py"name", .none)]),
   (py"3", [(py"id", .str py"3"), (py"name", .str py"it's")])]

/-- live rows: `1` is the same (as an integer), `2` differs, `4` is not declared -/
def rowsOld : Dict Row :=
  [(py"4", [(py"id", .str py"4"), (py"name", .str py"four")]),
   (py"2", [(py"id", .str py"2"), (py"name", .int 7)]),
   (py"1", [(py"id", .str py"1"), (py"name", .str py"one")])]

def rowTable (rows : Dict Row) : Table :=
  { mk py"kinds" [idCol, textCol py"name" py"20"] [pk] [] with rows := some rows, tracking := true }

theorem rowsKeyed_of_check {rows : Dict Row} (h1 : rows.keys.Nodup)
    (h2 : ∀ e ∈ rows, e.1 ≠ [] ∧ Dict.get? e.2 py"id" = some (.str e.1)) : RowsKeyed rows := ⟨h1, fun k r h => h2 (k, r) h⟩

theorem rowsNew_keyed : RowsKeyed rowsNew := rowsKeyed_of_check (by decide) (by decide)

def rowTo : Dict Table := [(py"kinds", rowTable rowsNew), (py"posts", posts)]
def rowFrom : Dict Table := [(py"posts", posts), (py"kinds", rowTable rowsOld)]

/-- C18, C20: an insert, a delete and an update -/
example : (rowTable rowsNew).toRows (some (rowTable rowsNew)) = .ok [] :=
  C18 _ _ rowsNew rfl rfl rfl rowsNew_keyed

def rowPlan : List Op :=
  [.rowInsert py"kinds" [(py"id", .str py"3"), (py"name", .str py"it's")],
   .rowDelete py"kinds" py"4",
   .rowUpdate py"kinds" [(py"id", .str py"2"), (py"name", .none)]]

example : (rowTable rowsNew).toRows (some (rowTable rowsOld)) = .ok rowPlan := by decide

example := C20 (rowTable rowsNew) (some (rowTable rowsOld)) rowPlan (by decide) rowsNew rfl rowsNew_keyed (by decide)

/-- the hypotheses of `C22_plan_partial` hold: the row `2` has no name in the file -/
example : .rowUpdate py"kinds" [(py"id", .str py"2"), (py"name", .none)] ∈ rowPlan :=
  C22_plan_partial (rowTable rowsNew) (some (rowTable rowsOld)) rowPlan (by decide) rowsNew rfl rowsNew_keyed (by decide)
    py"2" _ [(py"id", .str py"2"), (py"name", .int 7)] (by rfl) (by rfl) py"name" py"7" (by decide) (.inl ⟨by rfl, .int 7, by rfl, by decide⟩)

/-- the hypotheses of `C22_refuted` hold of the row `2` when the text `None` is in the database -/
example : (rowTable rowsNew).toRows (some (rowTable [(py"2", [(py"id", .str py"2"), (py"name", .str py"None")])])) =
    .ok [.rowInsert py"kinds" [(py"id", .str py"1"), (py"name", .str py"one")],
      .rowInsert py"kinds" [(py"id", .str py"3"), (py"name", .str py"it's")]] := by decide

theorem rowTo_keyed : KeyedTables rowTo where
  nodup := by decide
  name := by
    have : ∀ e ∈ rowTo, e.2.name = e.1 := by decide
    exact fun k t h => this (k, t) h
  keyed := by
    intro k t h
    rw [rowTo, List.mem_cons, List.mem_singleton, Prod.mk.injEq, Prod.mk.injEq] at h
    rcases h with ⟨_, rfl⟩ | ⟨_, rfl⟩
    · exact (Table.valid_of_check (t := rowTable rowsNew) (by decide)).toKeyed
    · exact (Table.valid_of_check (t := posts) (by decide)).toKeyed

theorem rowPlan_ok : RowMygration.process rowTo (some rowFrom) = .ok rowPlan := by decide

example := C19 rowTo (some rowFrom) rowPlan rowTo_keyed rowPlan_ok

/-- the rows in the database -/
def rowDb : DbRows := fun t i =>
  if t = py"kinds" then (Dict.get? rowsOld i).map (fun r => DbRows.fill (fun _ => none) r) else none

/-- the hypotheses of C17 hold -/
example : ∃ g', DbRows.execAll (fun _ _ => none) rowDb rowPlan = some g' ∧
    (∀ i, (g' py"kinds" i).isSome = true ↔ i ∈ [py"1", py"2", py"3"]) ∧
    (∃ cells, g' py"kinds" py"2" = some cells ∧ cells py"name" = none) := by
  have hv : ∀ t ∈ Dict.values rowTo, t.tracking = true → t = rowTable rowsNew := by
    intro t ht htt
    simp only [rowTo, Dict.values, List.map_cons, List.map_nil, List.mem_cons, List.not_mem_nil, or_false] at ht
    rcases ht with rfl | rfl
    · rfl
    · exact absurd htt (by decide)
  obtain ⟨g', h1, h2⟩ := C17_partial rowTo (some rowFrom) rowPlan rowTo_keyed
    { keyed := by
        intro t ht htt new hn
        rw [hv t ht htt] at hn
        have : some rowsNew = some new := hn
        cases this; exact rowsNew_keyed
      live := by
        intro t ht htt
        rw [hv t ht htt]; decide }
    rowPlan_ok (fun _ _ => none) rowDb
    (by
      intro t ht htt
      rw [hv t ht htt]
      intro i
      rw [show oldRows (Dict.get? ((some rowFrom).getD []) (rowTable rowsNew).name) = rowsOld by decide]
      cases hi : Dict.get? rowsOld i with
      | none =>
        show rowDb py"kinds" i = none
        simp [rowDb, hi]
      | some r =>
        refine ⟨DbRows.fill (fun _ => none) r, ?_, ?_⟩
        · show rowDb py"kinds" i = _
          simp [rowDb, hi]
        · intro c v hcv; simp [DbRows.fill, hcv])
  obtain ⟨new, hn, h3, h4⟩ := h2 (rowTable rowsNew) (by decide) rfl
  cases hn
  refine ⟨g', h1, h3, ?_⟩
  obtain ⟨cells, h5, h6⟩ := h4 py"2" [(py"id", .str py"2"), (py"name", .none)] (by decide)
    (.inr ⟨[(py"id", .str py"2"), (py"name", .int 7)], by decide, .inl ⟨py"name", .none, .int 7, by decide, by decide, by decide⟩⟩)
  exact ⟨cells, h5, h6 py"name" .none (by decide)⟩

/-- a new column in C21 -/
example := C21_counterexample (rowTable [(py"1", [(py"id", .str py"1")] ++ [(py"name", .str py"one")])])
  (rowTable [(py"1", [(py"id", .str py"1")])]) py"1" py"name" [(py"id", .str py"1")] (.str py"one") (by decide) rfl rfl rfl

end Examples

end Mygrations

import Verif.Proofs.PlanParts
import Verif.Props.C09

/-! # C11, C12, C13, C16: order of the statements of a plan -/

namespace Mygrations
open Table MySQL Mygration

/-! ## C11 -/

theorem pairwise_of_sections {R : Op → Op → Prop} {K : Nat → Op → Prop} (hR : ∀ i j a b, i ≤ j → K i a → K j b → R a b) :
    ∀ (ls : List (Nat × List Op)), (ls.map Prod.fst).Pairwise (· ≤ ·) → (∀ e ∈ ls, ∀ o ∈ e.2, K e.1 o) →
      (ls.flatMap Prod.snd).Pairwise R := by
  intro ls hs hk
  rw [List.pairwise_flatMap]
  constructor
  · intro e he
    refine List.pairwise_of_forall_mem_list ?_
    intro a ha b hb
    exact hR e.1 e.1 a b (Nat.le_refl _) (hk e he a ha) (hk e he b hb)
  · rw [List.pairwise_map] at hs
    refine hs.imp_of_mem ?_
    intro e e' he he' hle a ha b hb
    exact hR _ _ a b hle (hk e he a ha) (hk e' he' b hb)

/-- kinds of statements in the order in which they appear -/
def phaseOf : Nat → Op → Prop
  | 0, o => o.isCreate = true
  | 1, o => o.isAlter = true ∧ o.altersInFk = false
  | 2, o => o.isAlter = true ∧ o.changesColumnsOrKeys = false
  | _, o => o.isDrop = true

theorem phase_order (i j : Nat) (a b : Op) (hij : i ≤ j) (ha : phaseOf i a) (hb : phaseOf j b) :
    (a.isAlter = true → b.isCreate = false) ∧ (a.isDrop = true → b.isDrop = true) ∧
    (a.altersInFk = true → b.changesColumnsOrKeys = false) := by
  have hc : ∀ o : Op, o.isAlter = true → o.isCreate = false ∧ o.isDrop = false := by
    intro o ho; cases o <;> simp_all [Op.isAlter, Op.isCreate, Op.isDrop]
  have hd : ∀ o : Op, o.isDrop = true → o.isCreate = false ∧ o.isAlter = false ∧ o.altersInFk = false ∧ o.changesColumnsOrKeys = false := by
    intro o ho; cases o <;> simp_all [Op.isAlter, Op.isCreate, Op.isDrop, Op.altersInFk, Op.changesColumnsOrKeys, Op.alterClauses]
  have he : ∀ o : Op, o.isCreate = true → o.isAlter = false ∧ o.isDrop = false ∧ o.altersInFk = false := by
    intro o ho; cases o <;> simp_all [Op.isAlter, Op.isCreate, Op.isDrop, Op.altersInFk, Op.alterClauses]
  match i, j with
  | 0, _ => obtain ⟨h1, h2, h3⟩ := he a ha; simp [h1, h2, h3]
  | 1, 0 => omega
  | 1, 1 => obtain ⟨h1, h2⟩ := ha; simp [(hc a h1).2, h2, (hc b hb.1).1]
  | 1, 2 => obtain ⟨h1, h2⟩ := ha; simp [(hc a h1).2, h2, (hc b hb.1).1]
  | 1, (n + 3) => obtain ⟨h1, h2⟩ := ha; simp [(hc a h1).2, h2, (hd b hb).1]
  | 2, 0 => omega
  | 2, 1 => omega
  | 2, 2 => simp [(hc b hb.1).1, hb.2, (hc a ha.1).2]
  | 2, (n + 3) => simp [(hd b hb).1, (hc a ha.1).2, (hd b hb).2.2.2]
  | (n + 3), 0 => omega
  | (n + 3), 1 => omega
  | (n + 3), 2 => omega
  | (n + 3), (m + 3) => obtain ⟨h1, h2, h3, h4⟩ := hd a ha; simp [h2, h3]; exact fun _ => hb

theorem middle_pairwise [PyNum] {t : Dict Table} {from? : Option (Dict Table)} (hs : Sections t from?) :
    (middle t from?).Pairwise (fun a b => (a.isAlter = true → b.isCreate = false) ∧ (a.isDrop = true → b.isDrop = true) ∧
      (a.altersInFk = true → b.changesColumnsOrKeys = false)) := by
  have := pairwise_of_sections phase_order
    [(0, (added (from?.getD []) t).filterMap (fun n => (t.get? n).map Op.createTable)),
     (1, (groupAlters (cycleDrops (cycles from? t))).map Op.alter),
     (1, ((overlap (from?.getD []) t).flatMap (nowOf (cycledNames (cycles from? t)) (from?.getD []) t)).map Op.alter),
     (2, ((overlap (from?.getD []) t).flatMap (laterOf (cycledNames (cycles from? t)) (from?.getD []) t)).map Op.alter),
     (2, (groupAlters (cycleAdds (cycles from? t) [])).map Op.alter),
     (3, (removed (from?.getD []) t).map Op.removeTable)]
    (by simp)
    (by
      intro e he
      simp only [List.mem_cons, List.not_mem_nil, or_false] at he
      rcases he with rfl | rfl | rfl | rfl | rfl | rfl
      · exact hs.creates
      · exact fun o ho => ⟨(hs.temp o ho).1, (hs.temp o ho).2.2.1⟩
      · exact fun o ho => ⟨(hs.now o ho).1, (hs.now o ho).2.1⟩
      · exact fun o ho => ⟨(hs.later o ho).1, (hs.later o ho).2.1⟩
      · exact fun o ho => ⟨(hs.again o ho).1, (hs.again o ho).2.1⟩
      · exact hs.drops)
  simpa [middle] using this

theorem middle_forall [PyNum] {t : Dict Table} {from? : Option (Dict Table)} (hs : Sections t from?) :
    ∀ o ∈ middle t from?, o.isToggle = false ∧ (o.altersInFk = true → o.changesColumnsOrKeys = false ∧ o.dropsFk = []) := by
  intro o ho
  have ht : ∀ o : Op, o.isAlter = true ∨ o.isDrop = true ∨ o.isCreate = true → o.isToggle = false := by
    intro o ho; cases o <;> simp_all [Op.isAlter, Op.isCreate, Op.isDrop, Op.isToggle]
  have hn : ∀ o : Op, o.isDrop = true ∨ o.isCreate = true → o.altersInFk = false := by
    intro o ho; cases o <;> simp_all [Op.isAlter, Op.isCreate, Op.isDrop, Op.altersInFk, Op.alterClauses]
  simp only [middle, List.mem_append] at ho
  rcases ho with ho | ho | ho | ho | ho | ho
  · exact ⟨ht o (.inr (.inr (hs.creates o ho))), by simp [hn o (.inr (hs.creates o ho))]⟩
  · obtain ⟨h1, h2, h3, h4⟩ := hs.temp o ho; exact ⟨ht o (.inl h1), by simp [h3]⟩
  · obtain ⟨h1, h2, h3⟩ := hs.now o ho; exact ⟨ht o (.inl h1), by simp [h2]⟩
  · obtain ⟨h1, h2, h3⟩ := hs.later o ho; exact ⟨ht o (.inl h1), fun _ => ⟨h2, h3⟩⟩
  · obtain ⟨h1, h2, h3⟩ := hs.again o ho; exact ⟨ht o (.inl h1), fun _ => ⟨h2, h3⟩⟩
  · exact ⟨ht o (.inr (.inl (hs.drops o ho))), by simp [hn o (.inl (hs.drops o ho))]⟩

/-- where the temporary drops are: before everything that changes columns or keys -/
theorem temp_drop [PyNum] {t : Dict Table} {f : Dict Table} (ht : KeyedTables t) (hf : KeyedTables f)
    {n : Str} {s : Table} {k : Constraint} (hs : f.get? n = some s) (hk : k ∈ s.constraints.values)
    {m c : Str} (htc : TypeChanges f t m c) (hu : Uses n k m c) (hcp : HasCounterpart t n k) :
    (n, k.name) ∈ ((groupAlters (cycleDrops (cycles (some f) t))).map Op.alter).flatMap Op.dropsFk := by
  obtain ⟨j, hj⟩ := Dict.mem_values.mp hk
  have hsm := Dict.mem_of_get? hs
  have hname := (hf.keyed _ _ hsm).fkName _ _ hj
  obtain ⟨x, hx⟩ := hasCounterpart_cycle ht hname hcp
  have hxm : x ∈ cycles (some f) t := fksToCycle_mem hsm hj ((involves_iff hf).mpr ⟨m, c, htc, hu⟩) hx
  obtain ⟨h1, h2, h3, _⟩ := cycleFor_spec hx
  rw [mem_group_drops]
  refine ⟨(x.table, .removeConstraint x.source), ?_, h1, ?_⟩
  · exact List.mem_map_of_mem hxm
  · simp [clauses, h3]

/-- **C11**.  The toggles are first and last, and nowhere else.  In between, tables are created before any is altered
and dropped after everything else; whatever changes columns or keys comes before everything that adds foreign keys,
and no statement does both; and a foreign key on a column whose type changes (if it has a counterpart or its table is
to be dropped) is dropped by a statement before which no column or key is changed. -/
theorem C11 [PyNum] (t : Dict Table) (from? : Option (Dict Table)) (checks : Bool) (ops : List Op)
    (ht : KeyedTables t) (hf : KeyedTables (from?.getD [])) (h : Mygration.process t from? checks = .ok ops) :
    ∃ mid, ops = (if checks then [.disableChecks] else []) ++ mid ++ (if checks then [.enableChecks] else []) ∧
      (∀ o ∈ mid, o.isToggle = false ∧ (o.altersInFk = true → o.changesColumnsOrKeys = false ∧ o.dropsFk = [])) ∧
      mid.Pairwise (fun a b => (a.isAlter = true → b.isCreate = false) ∧ (a.isDrop = true → b.isDrop = true) ∧
        (a.altersInFk = true → b.changesColumnsOrKeys = false)) ∧
      ∀ n s k m c, (from?.getD []).get? n = some s → k ∈ s.constraints.values → TypeChanges (from?.getD []) t m c →
        Uses n k m c → HasCounterpart t n k →
        ∃ pre a post, mid = pre ++ .alter a :: post ∧ (n, k.name) ∈ (Op.alter a).dropsFk ∧
          ∀ o ∈ pre, o.changesColumnsOrKeys = false := by
  have hs := sections hf h
  refine ⟨middle t from?, process_middle hf h, middle_forall hs, middle_pairwise hs, ?_⟩
  intro n s k m c hn hk htc hu hcp
  cases from? with
  | none => simp [Dict.get?] at hn
  | some f =>
    have hd := temp_drop ht hf hn hk htc hu hcp
    obtain ⟨o, ho, hok⟩ := List.mem_flatMap.mp hd
    have ho' := ho
    obtain ⟨a, ha, rfl⟩ := List.mem_map.mp ho
    obtain ⟨p, q, hpq⟩ := List.append_of_mem ho'
    refine ⟨(added f t).filterMap (fun n => (t.get? n).map Op.createTable) ++ p, a,
      q ++ (((overlap f t).flatMap (nowOf (cycledNames (cycles (some f) t)) f t)).map Op.alter ++
        (((overlap f t).flatMap (laterOf (cycledNames (cycles (some f) t)) f t)).map Op.alter ++
        ((groupAlters (cycleAdds (cycles (some f) t) [])).map Op.alter ++ (removed f t).map Op.removeTable))), ?_, hok, ?_⟩
    · simp only [Option.getD_some] at hpq
      simp only [middle, Option.getD_some]
      rw [hpq]
      simp only [List.append_assoc, List.cons_append]
    · intro o ho
      rw [List.mem_append] at ho
      rcases ho with ho | ho
      · have := hs.creates o ho
        cases o <;> simp_all [Op.isCreate, Op.changesColumnsOrKeys, Op.alterClauses]
      · exact (hs.temp o (by simp only [Option.getD_some] at hpq; rw [hpq]; exact List.mem_append_left _ ho)).2.1

/-! ## C12 -/

/-- **C12**.  No foreign key (table, name) is dropped twice, none is added twice (creating its table counts). -/
theorem C12 [PyNum] (t : Dict Table) (from? : Option (Dict Table)) (checks : Bool) (ops : List Op)
    (ht : KeyedTables t) (hf : KeyedTables (from?.getD [])) (hne : ∀ n d, t.get? n = some d → [] ∉ d.constraints.keys)
    (h : Mygration.process t from? checks = .ok ops) :
    (ops.flatMap Op.dropsFk).Nodup ∧ (ops.flatMap Op.addsFk).Nodup := by
  have hs := sections hf h
  have hdiff := (process_eq hf h).2
  have hcy := cycles_ok ht hf (from? := from?)
  rw [process_middle hf h]
  have hpre : ∀ F : Op → List (Str × Str), F .disableChecks = [] → F .enableChecks = [] →
      ((if checks then [Op.disableChecks] else []) ++ middle t from? ++ (if checks then [Op.enableChecks] else [])).flatMap F =
        (middle t from?).flatMap F := by
    intro F h1 h2; cases checks <;> simp [h1, h2]
  rw [hpre _ rfl rfl, hpre _ rfl rfl]
  have hnil : ∀ (F : Op → List (Str × Str)) (l : List Op), (∀ o ∈ l, F o = []) → l.flatMap F = [] := by
    intro F l h; rw [List.flatMap_eq_nil_iff]; exact h
  have hov : (overlap (from?.getD []) t).Nodup := overlap_nodup hf.nodup
  constructor
  · have h1 : ((added (from?.getD []) t).filterMap (fun n => (t.get? n).map Op.createTable)).flatMap Op.dropsFk = [] := by
      apply hnil
      intro o ho
      have := hs.creates o ho
      cases o <;> simp_all [Op.isCreate, Op.dropsFk]
    have h2 : ((removed (from?.getD []) t).map Op.removeTable).flatMap Op.dropsFk = [] := by
      apply hnil
      intro o ho
      have := hs.drops o ho
      cases o <;> simp_all [Op.isDrop, Op.dropsFk]
    simp only [middle, List.flatMap_append, h1, h2, hnil _ _ (fun o ho => (hs.later o ho).2.2), hnil _ _ (fun o ho => (hs.again o ho).2.2),
      List.nil_append, List.append_nil]
    rw [List.nodup_append]
    refine ⟨?_, ?_, ?_⟩
    · rw [cycleDrops_eq]; exact group_drops_nodup (cycleSources_nodup ht hf)
    · rw [List.flatMap_map, List.flatMap_assoc, List.Nodup, List.pairwise_flatMap]
      constructor
      · intro n hn
        obtain ⟨a, b, ha, hb, hd⟩ := hdiff n hn
        have := nowOf_drops (cyc := cycledNames (cycles from? t)) hd
        rw [List.flatMap_map] at this
        rw [this]
        have ka := hf.keyed _ _ (Dict.mem_of_get? ha)
        have := nodup_pair n ((goneFks_nodup (t := b) ka).filter (fun k => !(cycledNames (cycles from? t)).contains (n, k)))
        rw [← ownDrops_names ka, List.map_map] at this
        exact this
      · refine hov.imp_of_mem ?_
        intro n m hn hm hnm x hx y hy
        obtain ⟨a, b, ha, hb, hd⟩ := hdiff n hn
        obtain ⟨a', b', ha', hb', hd'⟩ := hdiff m hm
        have e1 := nowOf_drops (cyc := cycledNames (cycles from? t)) hd
        have e2 := nowOf_drops (cyc := cycledNames (cycles from? t)) hd'
        rw [List.flatMap_map] at e1 e2
        rw [e1] at hx; rw [e2] at hy
        simp only [List.mem_map] at hx hy
        obtain ⟨_, _, rfl⟩ := hx
        obtain ⟨_, _, rfl⟩ := hy
        simp [hnm]
    · intro p hp q hq hpq
      subst hpq
      rw [mem_group_drops] at hp
      obtain ⟨e, he, he1, he2⟩ := hp
      simp only [cycleDrops, List.mem_map] at he
      obtain ⟨x, hx, rfl⟩ := he
      rw [List.flatMap_map, List.flatMap_assoc, List.mem_flatMap] at hq
      obtain ⟨n, hn, hq⟩ := hq
      obtain ⟨a, b, ha, hb, hd⟩ := hdiff n hn
      have e1 := nowOf_drops (cyc := cycledNames (cycles from? t)) hd
      rw [List.flatMap_map] at e1
      rw [e1] at hq
      simp only [List.mem_map, ownDrops, List.mem_filter] at hq
      obtain ⟨k, ⟨_, hk⟩, rfl⟩ := hq
      simp only [clauses, droppedFks_dropFk, droppedFks_nil, List.mem_singleton] at he2
      have := mem_cycledNames_source hx
      rw [← (hcy x hx).sname, ← he2] at this
      simp only at he1
      rw [he1] at this
      simp [this] at hk
  · have h2 : ((removed (from?.getD []) t).map Op.removeTable).flatMap Op.addsFk = [] := by
      apply hnil
      intro o ho
      have := hs.drops o ho
      cases o <;> simp_all [Op.isDrop, Op.addsFk]
    simp only [middle, List.flatMap_append, h2, hnil _ _ (fun o ho => (hs.temp o ho).2.2.2), hnil _ _ (fun o ho => (hs.now o ho).2.2),
      List.nil_append, List.append_nil]
    -- the foreign keys of created tables
    have hcm : ∀ p ∈ ((added (from?.getD []) t).filterMap (fun n => (t.get? n).map Op.createTable)).flatMap Op.addsFk,
        p.1 ∉ (from?.getD []).keys := by
      intro p hp
      obtain ⟨o, ho, hp⟩ := List.mem_flatMap.mp hp
      obtain ⟨n, hn, hno⟩ := List.mem_filterMap.mp ho
      cases hg : t.get? n with
      | none => simp [hg] at hno
      | some d =>
        simp only [hg, Option.map_some, Option.some.injEq] at hno
        rw [← hno] at hp
        simp only [Op.addsFk, List.mem_map] at hp
        obtain ⟨k, _, rfl⟩ := hp
        simp only
        rw [ht.name _ _ (Dict.mem_of_get? hg)]
        exact (mem_added.mp hn).2
    have hlm : ∀ p ∈ (((overlap (from?.getD []) t).flatMap (laterOf (cycledNames (cycles from? t)) (from?.getD []) t)).map Op.alter).flatMap Op.addsFk,
        p.1 ∈ (from?.getD []).keys ∧ p ∉ cycledNames (cycles from? t) := by
      intro p hp
      rw [List.flatMap_map, List.flatMap_assoc, List.mem_flatMap] at hp
      obtain ⟨n, hn, hp⟩ := hp
      obtain ⟨a, b, ha, hb, hd⟩ := hdiff n hn
      have e1 := laterOf_adds (cyc := cycledNames (cycles from? t)) hd
      rw [List.flatMap_map] at e1
      rw [e1] at hp
      simp only [List.mem_map, ownAdds, List.mem_filter] at hp
      obtain ⟨k, ⟨_, hk⟩, rfl⟩ := hp
      exact ⟨(mem_overlap.mp hn).1, by simpa using hk⟩
    have ham : ∀ p ∈ ((groupAlters (cycleAdds (cycles from? t) [])).map Op.alter).flatMap Op.addsFk,
        p.1 ∈ (from?.getD []).keys ∧ p ∈ cycledNames (cycles from? t) := by
      intro p hp
      rw [mem_group_adds] at hp
      obtain ⟨e, he, he1, he2⟩ := hp
      obtain ⟨x, hx, k, n, hxt, rfl, _⟩ := mem_cycleAdds he
      simp only [clauses, addedFks_addFk, addedFks_nil, List.map_cons, List.map_nil, List.mem_singleton] at he2
      simp only at he1
      obtain ⟨⟨s, hsx, _⟩, _, htg⟩ := hcy x hx
      refine ⟨he1 ▸ Dict.mem_keys_of_get? hsx, ?_⟩
      rcases htg with ⟨h3, _⟩ | ⟨d, k', h3, h4, h5, _⟩
      · rw [hxt] at h3; cases h3
      · rw [hxt] at h4
        cases h4
        have := mem_cycledNames_target hx hxt (fun h0 => hne _ _ h3 (h0 ▸ Dict.mem_keys_of_get? h5))
        rw [he1, ← he2] at this
        exact this
    rw [List.nodup_append]
    refine ⟨?_, ?_, ?_⟩
    · rw [List.Nodup, List.pairwise_flatMap]
      constructor
      · intro o ho
        obtain ⟨n, hn, hno⟩ := List.mem_filterMap.mp ho
        cases hg : t.get? n with
        | none => simp [hg] at hno
        | some d =>
          simp only [hg, Option.map_some, Option.some.injEq] at hno
          rw [← hno]
          have kd := ht.keyed _ _ (Dict.mem_of_get? hg)
          have e : d.constraints.values.map (fun k => (d.name, k.name)) = d.constraints.keys.map (fun x => (d.name, x)) := by
            simp only [Dict.values, Dict.keys, List.map_map]
            apply List.map_congr_left
            rintro ⟨j, k⟩ hj
            simp [kd.fkName _ _ hj]
          show List.Pairwise _ (d.constraints.values.map (fun k => (d.name, k.name)))
          rw [e]
          exact nodup_pair _ kd.fkNodup
      · rw [List.pairwise_filterMap]
        refine (added_nodup ht.nodup).imp ?_
        intro n m hnm o ho o' ho' x hx y hy
        cases hg : t.get? n with
        | none => simp [hg] at ho
        | some d =>
          cases hg' : t.get? m with
          | none => simp [hg'] at ho'
          | some d' =>
            simp only [hg, hg', Option.map_some, Option.some.injEq] at ho ho'
            rw [← ho] at hx; rw [← ho'] at hy
            simp only [Op.addsFk, List.mem_map] at hx hy
            obtain ⟨_, _, rfl⟩ := hx
            obtain ⟨_, _, rfl⟩ := hy
            rw [ht.name _ _ (Dict.mem_of_get? hg), ht.name _ _ (Dict.mem_of_get? hg')]
            simp [hnm]
    · rw [List.nodup_append]
      refine ⟨?_, ?_, ?_⟩
      · rw [List.flatMap_map, List.flatMap_assoc, List.Nodup, List.pairwise_flatMap]
        constructor
        · intro n hn
          obtain ⟨a, b, ha, hb, hd⟩ := hdiff n hn
          have := laterOf_adds (cyc := cycledNames (cycles from? t)) hd
          rw [List.flatMap_map] at this
          rw [this]
          have ka := hf.keyed _ _ (Dict.mem_of_get? ha)
          have kb := ht.keyed _ _ (Dict.mem_of_get? hb)
          have := nodup_pair n ((newFks_nodup ka kb).filter (fun k => !(cycledNames (cycles from? t)).contains (n, k)))
          rw [← ownAdds_names kb, List.map_map] at this
          exact this
        · refine hov.imp_of_mem ?_
          intro n m hn hm hnm x hx y hy
          obtain ⟨a, b, ha, hb, hd⟩ := hdiff n hn
          obtain ⟨a', b', ha', hb', hd'⟩ := hdiff m hm
          have e1 := laterOf_adds (cyc := cycledNames (cycles from? t)) hd
          have e2 := laterOf_adds (cyc := cycledNames (cycles from? t)) hd'
          rw [List.flatMap_map] at e1 e2
          rw [e1] at hx; rw [e2] at hy
          simp only [List.mem_map] at hx hy
          obtain ⟨_, _, rfl⟩ := hx
          obtain ⟨_, _, rfl⟩ := hy
          simp [hnm]
      · rw [cycleAdds_eq]; exact group_adds_nodup (cycleTargets_nodup ht hf)
      · intro p hp q hq hpq
        subst hpq
        exact (hlm p hp).2 (ham p hq).2
    · intro p hp q hq hpq
      subst hpq
      rw [List.mem_append] at hq
      rcases hq with hq | hq
      · exact hcm p hp (hlm p hq).1
      · exact hcm p hp (ham p hq).1

/-! ## C13 -/

theorem split_middle {α : Type} {A B C pre post : List α} {x : α} (h : A ++ (B ++ C) = pre ++ x :: post)
    (hA : x ∉ A) (hC : x ∉ C) : ∃ p q, B = p ++ x :: q ∧ pre = A ++ p := by
  rcases List.append_eq_append_iff.mp h with ⟨l, h1, h2⟩ | ⟨l, h1, h2⟩
  · rcases List.append_eq_append_iff.mp h2 with ⟨r, h3, h4⟩ | ⟨r, h3, h4⟩
    · exact absurd (by rw [h4]; simp) hC
    · cases r with
      | nil => simp only [List.nil_append] at h4; exact absurd (by rw [← h4]; simp) hC
      | cons y r =>
        simp only [List.cons_append, List.cons.injEq] at h4
        exact ⟨l, r, by rw [h3, h4.1], h1⟩
  · cases l with
    | nil =>
      simp only [List.nil_append] at h2
      simp only [List.append_nil] at h1
      cases B with
      | nil => simp only [List.nil_append] at h2; exact absurd (by rw [← h2]; simp) hC
      | cons b B =>
        simp only [List.cons_append, List.cons.injEq] at h2
        exact ⟨[], B, by rw [h2.1]; rfl, by rw [h1]; simp⟩
    | cons y l =>
      simp only [List.cons_append, List.cons.injEq] at h2
      exact absurd (by rw [h1, h2.1]; simp) hA

/-- **C13** (partial).  When a statement changes the columns or keys of a table, among them a column whose type
changes, then no foreign key of the source on this column is in place: each has been dropped before and has not been
added again.  This is proved for foreign keys of the table itself, of tables to be dropped and of those which have a
counterpart in the declared schema; it is false of foreign keys of other tables without counterpart
(`C13_counterexample`). -/
theorem C13_partial [PyNum] (t f : Dict Table) (checks : Bool) (ops pre post : List Op) (a : Alter)
    (ht : KeyedTables t) (hf : KeyedTables f) (h : Mygration.process t (some f) checks = .ok ops)
    (hsplit : ops = pre ++ .alter a :: post) (hchg : (Op.alter a).changesColumnsOrKeys = true)
    (c : Str) (htc : TypeChanges f t a.table c)
    (n : Str) (s : Table) (k : Constraint) (hn : f.get? n = some s) (hk : k ∈ s.constraints.values)
    (hu : Uses n k a.table c) (hcp : n = a.table ∨ HasCounterpart t n k) :
    (n, k.name) ∈ pre.flatMap Op.dropsFk ∧ (n, k.name) ∉ pre.flatMap Op.addsFk := by
  have hs := sections (from? := some f) hf h
  have hdiff := (process_eq (from? := some f) hf h).2
  simp only [Option.getD_some] at hdiff
  have hops := process_middle (from? := some f) hf h
  rw [hsplit] at hops
  -- the statement is in the second section of alterations
  have hcr : ∀ o : Op, o.isCreate = true ∨ o.isDrop = true → o ≠ .alter a := by
    intro o ho he; subst he; simp [Op.isCreate, Op.isDrop] at ho
  have ⟨P, Q, hP, hpre⟩ : ∃ P Q, ((overlap f t).flatMap (nowOf (cycledNames (cycles (some f) t)) f t)).map Op.alter = P ++ .alter a :: Q ∧
      pre = ((if checks then [Op.disableChecks] else []) ++ (added f t).filterMap (fun n => (t.get? n).map Op.createTable) ++
        (groupAlters (cycleDrops (cycles (some f) t))).map Op.alter) ++ P := by
    refine split_middle (C := ((overlap f t).flatMap (laterOf (cycledNames (cycles (some f) t)) f t)).map Op.alter ++
        ((groupAlters (cycleAdds (cycles (some f) t) [])).map Op.alter ++ (removed f t).map Op.removeTable) ++
        (if checks then [Op.enableChecks] else [])) (post := post) ?_ ?_ ?_
    · rw [hops]; simp [middle]
    · intro hm
      simp only [List.mem_append] at hm
      rcases hm with (hm | hm) | hm
      · cases checks <;> simp at hm
      · exact hcr _ (.inl (hs.creates _ hm)) rfl
      · rw [(hs.temp _ hm).2.1] at hchg; cases hchg
    · intro hm
      simp only [List.mem_append] at hm
      rcases hm with (hm | hm | hm) | hm
      · rw [(hs.later _ hm).2.1] at hchg; cases hchg
      · rw [(hs.again _ hm).2.1] at hchg; cases hchg
      · exact hcr _ (.inr (hs.drops _ hm)) rfl
      · cases checks <;> simp at hm
  have hPnow : ∀ o ∈ P, o.addsFk = [] := fun o ho => (hs.now o (by rw [Option.getD_some, hP]; exact List.mem_append_left _ ho)).2.2
  have hkname : (hj : ∃ j, (j, k) ∈ s.constraints) → s.constraints.get? k.name = some k := by
    rintro ⟨j, hj⟩
    have hK := hf.keyed _ _ (Dict.mem_of_get? hn)
    rw [hK.fkName _ _ hj]
    exact Dict.get?_of_mem hK.fkNodup hj
  have hkget := hkname (Dict.mem_values.mp hk)
  constructor
  · rw [hpre]
    simp only [List.flatMap_append, List.mem_append]
    by_cases hcp' : HasCounterpart t n k
    · exact .inl (.inr (temp_drop ht hf hn hk htc hu hcp'))
    · have hna : n = a.table := by rcases hcp with h0 | h0; exact h0; exact absurd h0 hcp'
      -- the foreign key is dropped in the turn of its own table
      have hmem : Op.alter a ∈ ((overlap f t).flatMap (nowOf (cycledNames (cycles (some f) t)) f t)).map Op.alter := by rw [hP]; simp
      simp only [List.mem_map, Op.alter.injEq, exists_eq_right, List.mem_flatMap] at hmem
      obtain ⟨m, hm, ham⟩ := hmem
      have htab : ∀ m, ∀ b ∈ nowOf (cycledNames (cycles (some f) t)) f t m, b.table = m := by
        intro m b hb
        simp only [nowOf, alterIf, List.mem_append] at hb
        rcases hb with hb | hb <;> split at hb <;> simp at hb <;> rw [hb]
      have hmn : m = n := by rw [hna]; exact (htab m a ham).symm
      subst hmn
      obtain ⟨s', d, hs', hd, hdf⟩ := hdiff m hm
      rw [hn] at hs'; cases hs'
      have hnd : ∀ k' ∈ d.constraints.values, k'.name ≠ k.name ∧ ¬ k'.SameColumns k := by
        intro k' hk'
        constructor
        · intro h0; exact hcp' (.inr ⟨d, hd, k', hk', .inl h0⟩)
        · intro h0; exact hcp' (.inr ⟨d, hd, k', hk', .inr h0⟩)
      have hkd : k.name ∉ d.constraints.keys := by
        intro hkd
        obtain ⟨k', hk'⟩ := Dict.exists_get? hkd
        have := (ht.keyed _ _ (Dict.mem_of_get? hd)).fkName _ _ (Dict.mem_of_get? hk')
        exact (hnd k' (Dict.mem_values.mpr ⟨_, Dict.mem_of_get? hk'⟩)).1 this
      have hgone : k.name ∈ goneFks s d := goneFks_mem.mpr ⟨k, hkget, fun b hb => absurd (Dict.mem_keys_of_get? hb) hkd⟩
      have hnc : (m, k.name) ∉ cycledNames (cycles (some f) t) := by
        intro hc
        obtain ⟨x, hx, hxt, hxn⟩ := mem_cycledNames hc
        have hok := cycles_ok (from? := some f) ht hf x hx
        obtain ⟨⟨s'', h1, h2⟩, h3, h4⟩ := hok
        rcases h4 with ⟨_, h5⟩ | ⟨d', k', h5, h6, h7, h8⟩
        · rw [hxt] at h5; rw [hd] at h5; cases h5
        · rw [hxt] at h5; rw [hd] at h5; cases h5
          rcases hxn with hxn | ⟨k'', hxn⟩
          · simp only at hxt hxn
            rw [Option.getD_some, hxt, hn] at h1; cases h1
            rw [hxn, hkget] at h2
            simp only [Option.some.injEq] at h2
            rcases h8 with h8 | ⟨_, h8⟩
            · exact hkd (by rw [← hxn, ← h8]; exact Dict.mem_keys_of_get? h7)
            · rw [← h2] at h8
              have hq := List.find?_some h8
              simp only [decide_eq_true_eq] at hq
              exact (hnd k' (List.mem_of_find?_eq_some h8)).2 hq
          · rw [h6] at hxn
            simp only [Option.some.injEq, Prod.mk.injEq] at hxn
            rw [hxn.2] at h7
            exact hkd (Dict.mem_keys_of_get? h7)
      obtain ⟨o1, o2, ho⟩ := List.append_of_mem hm
      have hov : (overlap f t).Nodup := overlap_nodup hf.nodup
      rw [ho] at hov
      have hnot : ∀ l : List Str, m ∉ l → Op.alter a ∉ (l.flatMap (nowOf (cycledNames (cycles (some f) t)) f t)).map Op.alter := by
        intro l hl hh
        simp only [List.mem_map, Op.alter.injEq, exists_eq_right, List.mem_flatMap] at hh
        obtain ⟨m', hm', hh⟩ := hh
        exact hl (by rw [hna, htab m' a hh]; exact hm')
      rw [List.nodup_append] at hov
      obtain ⟨hov1, hov2, hov3⟩ := hov
      rw [ho, List.flatMap_append, List.flatMap_cons, nowOf_eq hdf, List.map_append, List.map_append, List.map_append] at hP
      have hrm : Op.alter a ∉ (alterIf m ((ownDrops (cycledNames (cycles (some f) t)) s d m).map AlterOp.removeConstraint)).map Op.alter := by
        intro hh
        unfold alterIf at hh
        split at hh
        · simp at hh
        · simp only [List.map_cons, List.map_nil, List.mem_singleton, Op.alter.injEq] at hh
          rw [(alter_removeOnly (a := a) (l := ownDrops (cycledNames (cycles (some f) t)) s d m) (by rw [hh])).1] at hchg
          cases hchg
      obtain ⟨p, q, hpq, hPp⟩ := split_middle (A := (o1.flatMap (nowOf (cycledNames (cycles (some f) t)) f t)).map Op.alter ++
          (alterIf m ((ownDrops (cycledNames (cycles (some f) t)) s d m).map AlterOp.removeConstraint)).map Op.alter)
        (B := (alterIf m (diffOf f t m).kitchenSink).map Op.alter) (by rw [← hP]; simp only [List.append_assoc])
        (by
          rw [List.mem_append]
          rintro (hh | hh)
          · exact hnot o1 (fun h0 => hov3 m h0 m List.mem_cons_self rfl) hh
          · exact hrm hh)
        (hnot o2 (List.nodup_cons.mp hov2).1)
      refine .inr ?_
      rw [hPp]
      simp only [List.flatMap_append, List.mem_append]
      refine .inl (.inr ?_)
      rw [alterIf_dropsFk, (removeConstraint_clauses _).2.1, List.mem_map]
      refine ⟨k.name, ?_, rfl⟩
      rw [ownDrops_names (hf.keyed _ _ (Dict.mem_of_get? hn)), List.mem_filter]
      exact ⟨hgone, by simpa using hnc⟩
  · rw [hpre]
    simp only [List.flatMap_append, List.mem_append]
    rintro (((hm | hm) | hm) | hm)
    · cases checks <;> simp [Op.addsFk] at hm
    · obtain ⟨o, ho, hp⟩ := List.mem_flatMap.mp hm
      obtain ⟨m, hm, hno⟩ := List.mem_filterMap.mp ho
      cases hg : t.get? m with
      | none => simp [hg] at hno
      | some d =>
        simp only [hg, Option.map_some, Option.some.injEq] at hno
        rw [← hno] at hp
        simp only [Op.addsFk, List.mem_map, Prod.mk.injEq] at hp
        obtain ⟨k', _, h1, _⟩ := hp
        rw [ht.name _ _ (Dict.mem_of_get? hg)] at h1
        exact (mem_added.mp hm).2 (h1 ▸ Dict.mem_keys_of_get? hn)
    · obtain ⟨o, ho, hp⟩ := List.mem_flatMap.mp hm
      rw [(hs.temp o ho).2.2.2] at hp; simp at hp
    · obtain ⟨o, ho, hp⟩ := List.mem_flatMap.mp hm
      rw [hPnow o ho] at hp; simp at hp

namespace Examples

/-- `comments` without its foreign key -/
def freeComments (ctype : Str) : Table := mk py"comments"
  [idCol, { intCol py"user_id" with ctype := ctype }] [pk, key py"user_id" [py"user_id"]] []

/-- the declared database: `users.id` is a `BIGINT` now, and the foreign key of `comments` is gone -/
def freed : Dict Table := db [users py"BIGINT", freeComments py"BIGINT", mk py"old" [idCol] [pk] []]

theorem freed_keyed : KeyedTables freed := keyedTables_of_check (by decide) (by decide)

attribute [local instance] exactNum

/-- the plan from `live` to `declared` -/
def livePlan : List Op := match Mygration.process declared (some live) true with | .ok ops => ops | .error _ => []

theorem livePlan_ok : Mygration.process declared (some live) true = .ok livePlan := by decide

/-- the columns of both tables change their types -/
theorem users_typeChanges : TypeChanges live declared py"users" py"id" :=
  ⟨users py"INT", users py"BIGINT", { idCol with ctype := py"INT" }, { idCol with ctype := py"BIGINT" },
    by decide, by decide, by decide, by decide, .inl (by decide)⟩

/-- C11 and C12 speak about a plan with every kind of statement -/
example : livePlan.any Op.isCreate ∧ livePlan.any Op.isDrop ∧ livePlan.any Op.isToggle ∧
    livePlan.any Op.changesColumnsOrKeys ∧ livePlan.any Op.altersInFk ∧
    livePlan.flatMap Op.dropsFk = [(py"comments", py"comments_user_fk")] ∧
    livePlan.flatMap Op.addsFk = [(py"comments", py"comments_user_fk")] := by decide

example := C11 declared (some live) true livePlan declared_keyed live_keyed livePlan_ok

example := C12 declared (some live) true livePlan declared_keyed live_keyed
  (by
    intro n d h
    have : ∀ e ∈ declared, [] ∉ e.2.constraints.keys := by decide
    exact this _ (Dict.mem_of_get? h))
  livePlan_ok

/-- the hypotheses of C13 hold for the change of `users.id`, below the foreign key of `comments` -/
example : ∃ pre a post, livePlan = pre ++ .alter a :: post ∧ (Op.alter a).changesColumnsOrKeys = true ∧ a.table = py"users" ∧
    (py"comments", py"comments_user_fk") ∈ pre.flatMap Op.dropsFk ∧ (py"comments", py"comments_user_fk") ∉ pre.flatMap Op.addsFk := by
  have hsplit : livePlan = livePlan.take 3 ++ .alter ⟨py"users", (match livePlan[3]? with | some (Op.alter a) => a.ops | _ => [])⟩ :: livePlan.drop 4 := by
    decide
  refine ⟨_, _, _, hsplit, by decide, rfl, ?_⟩
  exact C13_partial declared live true livePlan _ _ _ declared_keyed live_keyed livePlan_ok hsplit (by decide)
    py"id" users_typeChanges py"comments" (comments py"INT")
    (fk py"comments_user_fk" py"user_id" py"users" py"id") (by decide) (by decide) (.inr (by decide))
    (.inr (.inr ⟨comments py"BIGINT", by decide, fk py"comments_user_fk" py"user_id" py"users" py"id", by decide, .inl rfl⟩))

/-- **C13 is false in general**: `comments` loses its foreign key to `users`, and `users.id` changes its type.  The plan changes
`users.id` first, while the foreign key is in place. -/
theorem C13_counterexample : ∃ pre a post, Mygration.process freed (some live) true = .ok (pre ++ .alter a :: post) ∧
    KeyedTables freed ∧ KeyedTables live ∧
    a.table = py"users" ∧ TypeChanges live freed py"users" py"id" ∧ py"id" ∈ (changedCols (a.ops.flatMap clauses)).map Prod.fst ∧
    (∃ s k, live.get? py"comments" = some s ∧ k ∈ s.constraints.values ∧ Uses py"comments" k py"users" py"id" ∧
      (py"comments", k.name) ∉ pre.flatMap Op.dropsFk) := by
  have hp : ∃ ops, Mygration.process freed (some live) true = .ok ops ∧
      ops = ops.take 1 ++ .alter ⟨py"users", (match ops[1]? with | some (Op.alter a) => a.ops | _ => [])⟩ :: ops.drop 2 ∧
      py"id" ∈ (changedCols ((match ops[1]? with | some (Op.alter a) => a.ops | _ => []).flatMap clauses)).map Prod.fst ∧
      (ops.take 1).flatMap Op.dropsFk = [] := by
    refine ⟨match Mygration.process freed (some live) true with | .ok ops => ops | .error _ => [], ?_, ?_, ?_, ?_⟩ <;> decide
  obtain ⟨ops, h1, h2, h3, h4⟩ := hp
  refine ⟨_, _, _, h2 ▸ h1, freed_keyed, live_keyed, rfl, ?_, h3, comments py"INT",
    fk py"comments_user_fk" py"user_id" py"users" py"id", by decide, by decide, .inr (by decide), ?_⟩
  · exact ⟨users py"INT", users py"BIGINT", { idCol with ctype := py"INT" }, { idCol with ctype := py"BIGINT" },
      by decide, by decide, by decide, by decide, .inl (by decide)⟩
  · rw [h4]; simp

end Examples

/-! ## C16 -/

/-- **C16**.  A migration offers operations only if the target has no errors, and it always reports the errors of the target. -/
theorem C16 [PyNum] (to : Database) (from? : Option Database) (checks : Bool) (p : Mygration.Plan)
    (h : Mygration.new to from? checks = .ok p) :
    to.errors.1 = .ok p.errors ∧ (p.operations.isSome = true ↔ p.errors = []) := by
  unfold Mygration.new at h
  split at h
  · cases h
  · rename_i e es he
    cases h
    exact ⟨he, by simp⟩
  · rename_i he
    split at h
    · cases h
    · cases h
      exact ⟨he, by simp⟩

namespace Examples
attribute [local instance] exactNum

/-- a target without errors, and one whose foreign key points nowhere -/
example : ((Mygration.new { tables := declared } (some { tables := live })).toOption.bind Mygration.Plan.operations).isSome = true ∧
    (Mygration.new { tables := db [comments py"INT"] } (some { tables := live })).toOption.map
      (fun p => (p.errors.length, p.operations)) = some (1, none) := by decide

end Examples

end Mygrations

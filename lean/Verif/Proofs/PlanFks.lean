import Verif.Proofs.Plan

/-! # The foreign keys which a plan takes away temporarily -/

namespace Mygrations
open Table MySQL

namespace Mygration

theorem cycleFor_spec {t : Dict Table} {n c : Str} {k : Constraint} {x : Cycle} (h : cycleFor t n c k = some x) :
    x.table = n ∧ x.name = c ∧ x.source = k ∧
    ((x.target = none ∧ t.get? n = none) ∨
     ∃ d k', t.get? n = some d ∧ x.target = some (k', if d.constraints.has c then c else k'.name) ∧
       (d.constraints.get? c = some k' ∨ (d.constraints.get? c = none ∧ findMatchingConstraint d k = some k'))) := by
  unfold cycleFor at h
  cases hd : t.get? n with
  | none =>
    simp only [hd, Option.some.injEq] at h
    rw [← h]; simp
  | some d =>
    simp only [hd] at h
    cases hc : d.constraints.get? c with
    | some k' =>
      simp only [hc, Option.some.injEq] at h
      rw [← h]
      refine ⟨rfl, rfl, rfl, .inr ⟨d, k', rfl, ?_, .inl hc⟩⟩
      simp [Dict.has_of_get? hc]
    | none =>
      simp only [hc] at h
      cases hm : findMatchingConstraint d k with
      | none => simp [hm] at h
      | some k' =>
        simp only [hm, Option.some.injEq] at h
        rw [← h]
        refine ⟨rfl, rfl, rfl, .inr ⟨d, k', rfl, ?_, .inr ⟨hc, hm⟩⟩⟩
        simp [Dict.has_eq_false.mpr (Dict.get?_eq_none.mp hc)]

theorem mem_fksToCycle {f t : Dict Table} {ch : List (Str × Str)} {x : Cycle} (h : x ∈ fksToCycle f t ch) :
    ∃ s, (x.table, s) ∈ f ∧ (x.name, x.source) ∈ s.constraints ∧ involves ch x.table x.source = true ∧
      cycleFor t x.table x.name x.source = some x := by
  simp only [fksToCycle, List.mem_flatMap, List.mem_filterMap] at h
  obtain ⟨⟨n, s⟩, hs, ⟨c, k⟩, hc, hx⟩ := h
  by_cases hi : involves ch n k = true
  · simp only [hi, if_true] at hx
    obtain ⟨h1, h2, h3, _⟩ := cycleFor_spec hx
    refine ⟨s, by rw [h1]; exact hs, by rw [h2, h3]; exact hc, by rw [h1, h3]; exact hi, by rw [h1, h2, h3]; exact hx⟩
  · simp [hi] at hx

theorem fksToCycle_mem {f t : Dict Table} {ch : List (Str × Str)} {n c : Str} {s : Table} {k : Constraint} {x : Cycle}
    (hs : (n, s) ∈ f) (hc : (c, k) ∈ s.constraints) (hi : involves ch n k = true) (hx : cycleFor t n c k = some x) :
    x ∈ fksToCycle f t ch := by
  simp only [fksToCycle, List.mem_flatMap, List.mem_filterMap]
  exact ⟨_, hs, _, hc, by simp [hi, hx]⟩

/-- a cycle and what it refers to -/
structure CycleOk (f t : Dict Table) (x : Cycle) : Prop where
  source : ∃ s, f.get? x.table = some s ∧ s.constraints.get? x.name = some x.source
  sname : x.source.name = x.name
  target : (x.target = none ∧ t.get? x.table = none) ∨
    ∃ d k', t.get? x.table = some d ∧ x.target = some (k', k'.name) ∧ d.constraints.get? k'.name = some k' ∧
      (k'.name = x.name ∨ (d.constraints.get? x.name = none ∧ findMatchingConstraint d x.source = some k'))

theorem cycleOk {f t : Dict Table} {ch : List (Str × Str)} (hf : KeyedTables f) (ht : KeyedTables t) {x : Cycle}
    (h : x ∈ fksToCycle f t ch) : CycleOk f t x := by
  obtain ⟨s, hs, hk, _, hx⟩ := mem_fksToCycle h
  have ks := hf.keyed _ _ hs
  refine ⟨⟨s, Dict.get?_of_mem hf.nodup hs, Dict.get?_of_mem ks.fkNodup hk⟩, ks.fkName _ _ hk, ?_⟩
  obtain ⟨_, _, _, h4⟩ := cycleFor_spec hx
  rcases h4 with h4 | ⟨d, k', hd, htg, hor⟩
  · exact .inl h4
  · right
    have kd := ht.keyed _ _ (Dict.mem_of_get? hd)
    rcases hor with hor | ⟨hn, hm⟩
    · have hname := kd.fkName _ _ (Dict.mem_of_get? hor)
      refine ⟨d, k', hd, ?_, ?_, .inl hname⟩
      · rw [htg, Dict.has_of_get? hor, hname]; rfl
      · rw [hname]; exact hor
    · have hmem : k' ∈ d.constraints.values := List.mem_of_find?_eq_some hm
      obtain ⟨j, hj⟩ := Dict.mem_values.mp hmem
      have hname := kd.fkName _ _ hj
      refine ⟨d, k', hd, ?_, ?_, .inr ⟨hn, hm⟩⟩
      · rw [htg, Dict.has_eq_false.mpr (Dict.get?_eq_none.mp hn)]; rfl
      · rw [hname]; exact Dict.get?_of_mem kd.fkNodup hj

theorem nodup_filterMap {A B : Type} {f : A → Option B} : ∀ {l : List A},
    (∀ a ∈ l, ∀ b ∈ l, ∀ x, f a = some x → f b = some x → a = b) → l.Nodup → (l.filterMap f).Nodup
  | [], _, _ => by simp
  | a :: l, hinj, hn => by
    rw [List.nodup_cons] at hn
    have ih := nodup_filterMap (f := f) (l := l) (fun x hx y hy => hinj x (List.mem_cons_of_mem _ hx) y (List.mem_cons_of_mem _ hy)) hn.2
    cases hfa : f a with
    | none => rw [List.filterMap_cons_none hfa]; exact ih
    | some b =>
      rw [List.filterMap_cons_some hfa, List.nodup_cons]
      refine ⟨?_, ih⟩
      intro hb
      rw [List.mem_filterMap] at hb
      obtain ⟨c, hc, hcb⟩ := hb
      have := hinj a List.mem_cons_self c (List.mem_cons_of_mem _ hc) b hfa hcb
      exact hn.1 (this ▸ hc)

theorem nodup_of_keys {V : Type} {d : Dict V} (h : d.keys.Nodup) : d.Nodup := List.Pairwise.of_map Prod.fst (by rintro a b h rfl; exact h rfl) h

theorem fksToCycle_nodup {f t : Dict Table} {ch : List (Str × Str)} (hf : KeyedTables f) :
    ((fksToCycle f t ch).map (fun x => (x.table, x.name))).Nodup := by
  have hinj : ∀ a ∈ fksToCycle f t ch, ∀ b ∈ fksToCycle f t ch, (a.table, a.name) = (b.table, b.name) → a = b := by
    intro a ha b hb hab
    simp only [Prod.mk.injEq] at hab
    obtain ⟨s, hs, hk, _, hx⟩ := mem_fksToCycle ha
    obtain ⟨s', hs', hk', _, hx'⟩ := mem_fksToCycle hb
    have e1 := Dict.get?_of_mem hf.nodup hs
    have e2 := Dict.get?_of_mem hf.nodup hs'
    rw [hab.1] at e1
    have : s = s' := by rw [e1] at e2; exact Option.some.inj e2
    subst this
    have f1 := Dict.get?_of_mem (hf.keyed _ _ hs).fkNodup hk
    have f2 := Dict.get?_of_mem (hf.keyed _ _ hs).fkNodup hk'
    rw [hab.2] at f1
    have : a.source = b.source := by rw [f1] at f2; exact Option.some.inj f2
    rw [hab.1, hab.2, this, hx'] at hx
    exact (Option.some.inj hx).symm
  apply nodup_map_on hinj
  unfold fksToCycle
  rw [List.Nodup, List.pairwise_flatMap]
  constructor
  · rintro ⟨n, s⟩ hs
    apply nodup_filterMap
    · rintro ⟨c, k⟩ hc ⟨c', k'⟩ hc' x h1 h2
      by_cases hi : involves ch n k = true
      · by_cases hi' : involves ch n k' = true
        · simp only [hi, hi', if_true] at h1 h2
          obtain ⟨_, a2, a3, _⟩ := cycleFor_spec h1
          obtain ⟨_, b2, b3, _⟩ := cycleFor_spec h2
          rw [← a2, ← a3, ← b2, ← b3]
        · simp [hi'] at h2
      · simp [hi] at h1
    · exact nodup_of_keys (hf.keyed _ _ hs).fkNodup
  · have := hf.nodup
    unfold Dict.keys at this
    rw [List.Nodup, List.pairwise_map] at this
    refine this.imp ?_
    rintro ⟨n, s⟩ ⟨n', s'⟩ hne x hx y hy
    simp only [List.mem_filterMap] at hx hy
    obtain ⟨⟨c, k⟩, _, hx⟩ := hx
    obtain ⟨⟨c', k'⟩, _, hy⟩ := hy
    by_cases hi : involves ch n k = true
    · by_cases hi' : involves ch n' k' = true
      · simp only [hi, hi', if_true] at hx hy
        have a := (cycleFor_spec hx).1
        have b := (cycleFor_spec hy).1
        rintro rfl
        exact hne (a.symm.trans b)
      · simp [hi'] at hy
    · simp [hi] at hx

/-! ## Additions -/

theorem mem_cycleAdds {cs : List Cycle} {e : Str × AlterOp} : ∀ {done : List (Str × Str)}, e ∈ cycleAdds cs done →
    ∃ x ∈ cs, ∃ k n, x.target = some (k, n) ∧ e = (x.table, .addConstraint k) ∧ (x.table, n) ∉ done := by
  induction cs with
  | nil => intro done h; simp [cycleAdds] at h
  | cons x cs ih =>
    intro done h
    simp only [cycleAdds] at h
    cases hx : x.target with
    | none =>
      simp only [hx] at h
      obtain ⟨y, hy, r⟩ := ih h
      exact ⟨y, List.mem_cons_of_mem _ hy, r⟩
    | some p =>
      obtain ⟨k, n⟩ := p
      simp only [hx] at h
      by_cases hd : done.contains (x.table, n) = true
      · simp only [hd, if_true] at h
        obtain ⟨y, hy, r⟩ := ih h
        exact ⟨y, List.mem_cons_of_mem _ hy, r⟩
      · simp only [hd, Bool.false_eq_true, if_false, List.mem_cons] at h
        rcases h with rfl | h
        · exact ⟨x, List.mem_cons_self, k, n, hx, rfl, by simpa using hd⟩
        · obtain ⟨y, hy, k', n', h1, h2, h3⟩ := ih h
          refine ⟨y, List.mem_cons_of_mem _ hy, k', n', h1, h2, ?_⟩
          intro hm
          exact h3 (List.mem_append_left _ hm)

theorem cycleAdds_complete {cs : List Cycle} : ∀ {done : List (Str × Str)} {x : Cycle} {k : Constraint} {n : Str},
    x ∈ cs → x.target = some (k, n) → (x.table, n) ∉ done →
    ∃ y ∈ cs, ∃ k', y.target = some (k', n) ∧ y.table = x.table ∧ (x.table, AlterOp.addConstraint k') ∈ cycleAdds cs done := by
  induction cs with
  | nil => intro done x k n h; simp at h
  | cons y cs ih =>
    intro done x k n h hx hd
    simp only [cycleAdds]
    by_cases hy : y.target.map (fun p => (y.table, p.2)) = some (x.table, n)
    · cases hyt : y.target with
      | none => simp [hyt] at hy
      | some p =>
        obtain ⟨k', n'⟩ := p
        simp only [hyt, Option.map_some, Option.some.injEq, Prod.mk.injEq] at hy
        obtain ⟨h1, h2⟩ := hy
        subst h2
        refine ⟨y, List.mem_cons_self, k', hyt, h1, ?_⟩
        simp [h1, hd]
    · have hxy : x ∈ cs := by
        rcases List.mem_cons.mp h with rfl | h
        · simp [hx] at hy
        · exact h
      cases hyt : y.target with
      | none =>
        obtain ⟨z, hz, r⟩ := ih hxy hx hd
        exact ⟨z, List.mem_cons_of_mem _ hz, r⟩
      | some p =>
        obtain ⟨k', n'⟩ := p
        simp only [hyt, Option.map_some, Option.some.injEq] at hy
        by_cases hc : done.contains (y.table, n') = true
        · obtain ⟨z, hz, r⟩ := ih hxy hx hd
          refine ⟨z, List.mem_cons_of_mem _ hz, ?_⟩
          simp only [hc, if_true]
          exact r
        · have hd' : (x.table, n) ∉ done ++ [(y.table, n')] := by
            simp only [List.mem_append, List.mem_singleton, not_or]
            exact ⟨hd, fun e => hy e.symm⟩
          obtain ⟨z, hz, k'', r1, r2, r3⟩ := ih hxy hx hd'
          refine ⟨z, List.mem_cons_of_mem _ hz, k'', r1, r2, ?_⟩
          simp only [hc, Bool.false_eq_true, if_false]
          exact List.mem_cons_of_mem _ r3

/-- (table, name) of an addition -/
def addName : Str × AlterOp → Str × Str
  | (t, .addConstraint k) => (t, k.name)
  | (t, _) => (t, [])

theorem cycleAdds_nodup {cs : List Cycle} (h : ∀ x ∈ cs, ∀ k n, x.target = some (k, n) → n = k.name) :
    ∀ done, ((cycleAdds cs done).map addName).Nodup := by
  induction cs with
  | nil => intro done; simp [cycleAdds]
  | cons x cs ih =>
    have ih := ih (fun y hy => h y (List.mem_cons_of_mem _ hy))
    intro done
    simp only [cycleAdds]
    cases hx : x.target with
    | none => exact ih done
    | some p =>
      obtain ⟨k, n⟩ := p
      simp only
      by_cases hd : done.contains (x.table, n) = true
      · simp only [hd, if_true]; exact ih done
      · simp only [hd, Bool.false_eq_true, if_false, List.map_cons, List.nodup_cons]
        refine ⟨?_, ih _⟩
        intro hm
        rw [List.mem_map] at hm
        obtain ⟨e, he, hen⟩ := hm
        obtain ⟨y, hy, k', n', h1, h2, h3⟩ := mem_cycleAdds he
        have e1 := h x List.mem_cons_self k n hx
        have e2 := h y (List.mem_cons_of_mem _ hy) k' n' h1
        rw [h2] at hen
        simp only [addName, Prod.mk.injEq] at hen
        apply h3
        rw [e2, hen.1, hen.2, ← e1]
        simp

/-! ## Names which are left to the temporary drops and additions -/

theorem mem_cycledNames_source {cs : List Cycle} {x : Cycle} (h : x ∈ cs) : (x.table, x.name) ∈ cycledNames cs := by
  simp only [cycledNames, List.mem_flatMap]
  exact ⟨x, h, List.mem_cons_self⟩

theorem mem_cycledNames_target {cs : List Cycle} {x : Cycle} {k : Constraint} {n : Str} (h : x ∈ cs) (hx : x.target = some (k, n))
    (hn : n ≠ []) : (x.table, n) ∈ cycledNames cs := by
  by_cases he : n = x.name
  · rw [he]; exact mem_cycledNames_source h
  · simp only [cycledNames, List.mem_flatMap]
    exact ⟨x, h, by simp [hx, hn, he]⟩

theorem mem_cycledNames {cs : List Cycle} {p : Str × Str} (h : p ∈ cycledNames cs) :
    ∃ x ∈ cs, x.table = p.1 ∧ (x.name = p.2 ∨ ∃ k, x.target = some (k, p.2)) := by
  simp only [cycledNames, List.mem_flatMap, List.mem_cons] at h
  obtain ⟨x, hx, h⟩ := h
  refine ⟨x, hx, ?_⟩
  rcases h with rfl | h
  · exact ⟨rfl, .inl rfl⟩
  · cases ht : x.target with
    | none => simp [ht] at h
    | some q =>
      obtain ⟨k, n⟩ := q
      simp only [ht] at h
      split at h
      · simp only [List.mem_singleton] at h
        subst h
        exact ⟨rfl, .inr ⟨k, rfl⟩⟩
      · simp at h

/-! ## Type changes -/

theorem columnTypeDiffers_iff {a b : Column} : columnTypeDiffers a b = true ↔ a.TypeDiffers b := by
  simp [columnTypeDiffers, Column.TypeDiffers, or_assoc]

theorem mem_changingColumns {f t : Dict Table} (hf : KeyedTables f) {n c : Str} :
    (n, c) ∈ changingColumns f t (overlap f t) ↔ TypeChanges f t n c := by
  simp only [changingColumns, List.mem_flatMap, mem_overlap]
  constructor
  · rintro ⟨m, ⟨hm, hm'⟩, h⟩
    obtain ⟨s, hs⟩ := Dict.exists_get? hm
    obtain ⟨d, hd⟩ := Dict.exists_get? hm'
    simp only [hs, hd, changingColumnsOf, List.mem_map, List.mem_filter] at h
    obtain ⟨⟨c', a⟩, ⟨ha, hb⟩, he⟩ := h
    simp only [Prod.mk.injEq] at he
    obtain ⟨rfl, rfl⟩ := he
    cases hg : d.columns.get? c' with
    | none => simp [hg] at hb
    | some b =>
      simp only [hg] at hb
      exact ⟨s, d, a, b, hs, hd, Dict.get?_of_mem (hf.keyed _ _ (Dict.mem_of_get? hs)).colNodup ha, hg, columnTypeDiffers_iff.mp hb⟩
  · rintro ⟨s, d, a, b, hs, hd, ha, hb, hab⟩
    refine ⟨n, ⟨Dict.mem_keys_of_get? hs, Dict.mem_keys_of_get? hd⟩, ?_⟩
    simp only [hs, hd, changingColumnsOf, List.mem_map, List.mem_filter]
    exact ⟨(c, a), ⟨Dict.mem_of_get? ha, by simp [hb, columnTypeDiffers_iff.mpr hab]⟩, rfl⟩

theorem involves_iff {f t : Dict Table} (hf : KeyedTables f) {n : Str} {k : Constraint} :
    involves (changingColumns f t (overlap f t)) n k = true ↔ ∃ m c, TypeChanges f t m c ∧ Uses n k m c := by
  simp only [involves, Bool.or_eq_true, List.contains_iff_mem, mem_changingColumns hf]
  constructor
  · rintro (h | h)
    · exact ⟨_, _, h, .inl ⟨rfl, rfl⟩⟩
    · exact ⟨_, _, h, .inr ⟨rfl, rfl⟩⟩
  · rintro ⟨m, c, h, ⟨rfl, rfl⟩ | ⟨rfl, rfl⟩⟩
    · exact .inl h
    · exact .inr h

theorem hasCounterpart_cycle {t : Dict Table} (ht : KeyedTables t) {n c : Str} {k : Constraint} (hk : k.name = c)
    (h : HasCounterpart t n k) : ∃ x, cycleFor t n c k = some x := by
  unfold cycleFor
  rcases h with h | ⟨d, hd, k', hk', hor⟩
  · simp [h]
  · simp only [hd]
    cases hg : d.constraints.get? c with
    | some k'' => simp
    | none =>
      simp only
      cases hm : findMatchingConstraint d k with
      | some k'' => simp
      | none =>
        exfalso
        rcases hor with hor | hor
        · obtain ⟨j, hj⟩ := Dict.mem_values.mp hk'
          have kd := ht.keyed _ _ (Dict.mem_of_get? hd)
          have := kd.fkName _ _ hj
          have hg' := Dict.get?_of_mem kd.fkNodup hj
          rw [← this, hor, hk, hg] at hg'
          simp at hg'
        · unfold findMatchingConstraint at hm
          rw [List.find?_eq_none] at hm
          exact hm k' hk' (by simpa [Constraint.SameColumns] using hor)

end Mygration

end Mygrations

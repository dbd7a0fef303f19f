import Verif.Props.C53

/-! # What is planned after a migration -/

namespace Mygrations
open Table MySQL Mygration

/-! ## The matching of keys, once more -/

theorem findMatch_again {t : Table} {cn cn' : List Str} {rk : Str} {ri : Index} {ma : List Str} {p : Str → Bool} (hcn : ∀ x ∈ cn', x ∈ cn) :
    ∀ {aks : List Str} {ak : Str}, findMatch t cn rk ri ma aks = some ak → p ak = true → (rk ∈ cn' ∨ ak ∈ cn') →
      findMatch t cn' rk ri ma (aks.filter p) = some ak
  | [], _, h, _, _ => by simp [findMatch] at h
  | x :: aks, ak, h, hp, hc => by
    have ih : findMatch t cn rk ri ma aks = some ak → findMatch t cn' rk ri ma (aks.filter p) = some ak := fun h' => findMatch_again hcn h' hp hc
    rw [findMatch] at h
    rw [List.filter_cons]
    by_cases hm : ma.contains x = true
    · simp only [hm, if_true] at h
      split
      · rw [findMatch, if_pos hm]; exact ih h
      · exact ih h
    · rw [if_neg hm] at h
      cases hg : t.indexes.get? x with
      | none =>
        simp only [hg] at h
        split
        · rw [findMatch, if_neg hm, hg]; exact ih h
        · exact ih h
      | some ai =>
        simp only [hg] at h
        by_cases hcond : ri.columns = ai.columns ∧ ri.indexType = ai.indexType ∧ (rk ∈ cn ∨ x ∈ cn)
        · rw [if_pos hcond] at h
          cases h
          rw [if_pos hp, findMatch, if_neg hm, hg]
          simp only
          rw [if_pos ⟨hcond.1, hcond.2.1, hc⟩]
        · rw [if_neg hcond] at h
          split
          · rw [findMatch, if_neg hm, hg]
            simp only
            rw [if_neg]
            · exact ih h
            · rintro ⟨h1, h2, h3⟩
              exact hcond ⟨h1, h2, h3.imp (hcn _) (hcn _)⟩
          · exact ih h

theorem matchKeys_mono {s t : Table} {cn ad : List Str} : ∀ {rks : List Str} {acc : List (Str × Str)}, ∀ p ∈ acc, p ∈ matchKeys s t cn ad rks acc
  | [], _, p, hp => by rw [matchKeys]; exact hp
  | rk :: rks, acc, p, hp => by
    rw [matchKeys]
    split
    · exact matchKeys_mono p hp
    · split
      · exact matchKeys_mono p hp
      · exact matchKeys_mono p (List.mem_append_left _ hp)

theorem matchKeys_fst {s t : Table} {cn ad : List Str} : ∀ {rks : List Str} {acc : List (Str × Str)}, ∀ p ∈ matchKeys s t cn ad rks acc, p ∈ acc ∨ p.1 ∈ rks
  | [], _, p, hp => by rw [matchKeys] at hp; exact .inl hp
  | rk :: rks, acc, p, hp => by
    rw [matchKeys] at hp
    split at hp
    · exact (matchKeys_fst p hp).imp id (List.mem_cons_of_mem _)
    · split at hp
      · exact (matchKeys_fst p hp).imp id (List.mem_cons_of_mem _)
      · rcases matchKeys_fst p hp with h | h
        · rcases List.mem_append.mp h with h | h
          · exact .inl h
          · simp only [List.mem_singleton] at h
            subst h
            exact .inr (by simp)
        · exact .inr (List.mem_cons_of_mem _ h)

/-- Only the matched keys are there: the same ones are matched. -/
theorem matchKeys_again {s s' t : Table} {cn cn' ad : List Str} (hcn : ∀ x ∈ cn', x ∈ cn) {p q : Str → Bool} :
    ∀ {rks : List Str} {acc M : List (Str × Str)}, matchKeys s t cn ad rks acc = M → rks.Nodup → (∀ r ∈ rks, ∀ e ∈ acc, e.1 ≠ r) →
      (∀ e ∈ M, e.1 ∈ cn' ∨ e.2 ∈ cn') → (∀ e ∈ M, s'.indexes.get? e.1 = s.indexes.get? e.1) →
      (∀ x, p x = true ↔ x ∈ M.map Prod.fst) → (∀ x, q x = true ↔ x ∈ M.map Prod.snd) →
      matchKeys s' t cn' (ad.filter q) (rks.filter p) acc = M
  | [], acc, M, h, _, _, _, _, _, _ => by
    rw [List.filter_nil, matchKeys]
    rw [matchKeys] at h
    exact h
  | rk :: rks, acc, M, h, hn, hd, hc, hs, hp, hq => by
    simp only [List.nodup_cons] at hn
    rw [matchKeys] at h
    have skip : matchKeys s t cn ad rks acc = M → matchKeys s' t cn' (ad.filter q) ((rk :: rks).filter p) acc = M := by
      intro h'
      have : p rk = false := by
        apply Bool.eq_false_iff.mpr
        intro hpr
        obtain ⟨e, he, rfl⟩ := List.mem_map.mp ((hp rk).mp hpr)
        rw [← h'] at he
        rcases matchKeys_fst e he with h1 | h1
        · exact hd e.1 (by simp) e h1 rfl
        · exact hn.1 h1
      rw [List.filter_cons, if_neg (by simp [this])]
      exact matchKeys_again hcn h' hn.2 (fun r hr => hd r (List.mem_cons_of_mem _ hr)) hc hs hp hq
    cases hg : s.indexes.get? rk with
    | none => simp only [hg] at h; exact skip h
    | some ri =>
      simp only [hg] at h
      cases hf : findMatch t cn rk ri (acc.map Prod.snd) ad with
      | none => simp only [hf] at h; exact skip h
      | some ak =>
        simp only [hf] at h
        have hm : (rk, ak) ∈ M := by
          rw [← h]
          exact matchKeys_mono _ (by simp)
        have hpr : p rk = true := (hp rk).mpr (List.mem_map.mpr ⟨_, hm, rfl⟩)
        have hqa : q ak = true := (hq ak).mpr (List.mem_map.mpr ⟨_, hm, rfl⟩)
        rw [List.filter_cons, if_pos hpr, matchKeys, hs _ hm, hg]
        simp only
        rw [findMatch_again hcn hf hqa (hc _ hm)]
        simp only
        refine matchKeys_again hcn h hn.2 ?_ hc hs hp hq
        intro r hr e he
        rcases List.mem_append.mp he with he | he
        · exact hd r (List.mem_cons_of_mem _ hr) e he
        · simp only [List.mem_singleton] at he
          subst he
          rintro rfl
          exact hn.1 hr

/-! ## The keys after a migration -/

theorem named_finalKeys_keys {a b : Table} (ka : a.Keyed) (kb : b.Keyed) :
    (named (finalKeys a b)).keys = a.indexes.keys.filter (fun k => !keyDropped a b k) ++ (newKeys a b ++ changedKeys a b) := by
  simp only [named, finalKeys, List.map_append, List.map_map, Dict.keys]
  have h1 : (a.indexes.filter (fun e => !keyDropped a b e.1)).map (Prod.fst ∘ (fun e : Str × Index => (e.2.name, e.2)) ∘ fun e => (keyName e.2, e.2)) =
      Dict.keys (a.indexes.filter (fun e => !keyDropped a b e.1)) := by
    apply List.map_congr_left
    rintro ⟨k, i⟩ h
    exact ka.idxName _ _ (List.mem_filter.mp h).1
  have h2 : (look b.indexes (newKeys a b ++ changedKeys a b)).map (Prod.fst ∘ (fun e : Str × Index => (e.2.name, e.2)) ∘ fun i => (keyName i, i)) =
      newKeys a b ++ changedKeys a b := by
    rw [look_map b.indexes _ _ newChanged_sub id]
    · simp
    · intro k v hv
      exact (kb.idxName _ _ (Dict.mem_of_get? hv)).symm
  rw [h1, h2, Dict.keys_filter_key (fun k => !keyDropped a b k)]
  rfl

theorem named_get [PyNum] {a b : Table} (ka : a.Keyed) (kb : b.Keyed) {x : Str} {i : Index} (h : (named (finalKeys a b)).get? x = some i) :
    (a.indexes.get? x = some i ∧ keyDropped a b x = false) ∨ (b.indexes.get? x = some i ∧ x ∈ newKeys a b ++ changedKeys a b) := by
  obtain ⟨e, he, heq⟩ := List.mem_map.mp (Dict.mem_of_get? h)
  simp only [Prod.mk.injEq] at heq
  obtain ⟨rfl, rfl⟩ := heq
  exact (mem_finalKeys ka kb (x := e.1) (i := e.2) he).2

theorem keyOps_again [PyNum] {a b s : Table} (ka : a.Keyed) (kb : b.Keyed) (hi : s.indexes = named (finalKeys a b))
    (hfk : ∀ x, x ∈ s.constraints.keys ↔ x ∈ b.constraints.keys) (hset : KeyNamesSettle a b) : keyOps s b = [] := by
  obtain ⟨_, _, m3⟩ := matchedKeys_spec a b ka
  have hsk : s.indexes.keys = a.indexes.keys.filter (fun k => !keyDropped a b k) ++ (newKeys a b ++ changedKeys a b) := by
    rw [hi]; exact named_finalKeys_keys ka kb
  have hmemk : ∀ x, x ∈ s.indexes.keys ↔ (x ∈ a.indexes.keys ∧ keyDropped a b x = false) ∨ x ∈ newKeys a b ∨ x ∈ changedKeys a b := by
    intro x
    rw [hsk]
    simp [List.mem_append, List.mem_filter]
  have hdrop : ∀ x, keyDropped a b x = false ↔ x ∉ goneKeys a b ∧ x ∉ changedKeys a b := by
    intro x
    have := keyDropped_iff (s := a) (t := b) (k := x)
    rw [List.mem_append] at this
    constructor
    · intro h
      rw [h] at this
      constructor
      · intro h'; exact absurd (this.mpr (.inl h')) (by simp)
      · intro h'; exact absurd (this.mpr (.inr h')) (by simp)
    · intro h
      apply Bool.eq_false_iff.mpr
      intro h'
      rcases this.mp h' with h'' | h''
      · exact h.1 h''
      · exact h.2 h''
  have hchg : ∀ x ∈ changedKeys a b, x ∈ a.indexes.keys ∧ x ∈ b.indexes.keys := by
    intro x hx
    obtain ⟨u, v, hu, hv, _⟩ := changedKeys_mem.mp hx
    exact ⟨Dict.mem_keys_of_get? hu, Dict.mem_keys_of_get? hv⟩
  have hnew : ∀ x ∈ newKeys a b, x ∈ b.indexes.keys := fun x hx => (newKeys_mem.mp hx).1
  -- what is missing, and what is too much
  have hadd : added s.indexes b.indexes = (added a.indexes b.indexes).filter (fun x => decide (x ∈ (matchedKeys a b).map Prod.snd)) := by
    simp only [added, List.filter_filter]
    apply List.filter_congr
    intro x hx
    rw [Bool.eq_iff_iff]
    simp only [Bool.and_eq_true, Bool.not_eq_true', decide_eq_true_eq, Dict.has_eq_false]
    constructor
    · intro h
      have hna : x ∉ a.indexes.keys := by
        intro hxa
        apply h
        rw [hmemk]
        by_cases hc : x ∈ changedKeys a b
        · exact .inr (.inr hc)
        · exact .inl ⟨hxa, (hdrop x).mpr ⟨fun hg => (goneKeys_mem.mp hg).2.1 hx, hc⟩⟩
      refine ⟨?_, hna⟩
      apply Classical.byContradiction
      intro hm
      exact h ((hmemk x).mpr (.inr (.inl (newKeys_mem.mpr ⟨hx, hna, hm⟩))))
    · rintro ⟨hm, hna⟩ h
      rcases (hmemk x).mp h with ⟨h1, _⟩ | h1 | h1
      · exact hna h1
      · exact (newKeys_mem.mp h1).2.2 hm
      · exact hna (hchg x h1).1
  have hrem : removed s.indexes b.indexes = (removed a.indexes b.indexes).filter (fun x => decide (x ∈ (matchedKeys a b).map Prod.fst)) := by
    have hcut : (newKeys a b ++ changedKeys a b).filter (fun k => !b.indexes.has k) = [] := by
      rw [List.filter_eq_nil_iff]
      intro x hx
      have : x ∈ b.indexes.keys := by
        rcases List.mem_append.mp hx with h | h
        · exact hnew x h
        · exact (hchg x h).2
      simp [Dict.has_iff.mpr this]
    unfold removed
    rw [hsk, List.filter_append, hcut, List.append_nil, List.filter_filter, List.filter_filter]
    apply List.filter_congr
    intro x hx
    rw [Bool.eq_iff_iff]
    simp only [Bool.and_eq_true, Bool.not_eq_true', decide_eq_true_eq, Dict.has_eq_false]
    constructor
    · rintro ⟨h1, h2⟩
      refine ⟨?_, h1⟩
      apply Classical.byContradiction
      intro hm
      exact ((hdrop x).mp h2).1 (goneKeys_mem.mpr ⟨hx, h1, hm⟩)
    · rintro ⟨hm, h1⟩
      exact ⟨h1, (hdrop x).mpr ⟨fun hg => (goneKeys_mem.mp hg).2.2 hm, fun hc => h1 (hchg x hc).2⟩⟩
  have hmatch : matchedKeys s b = matchedKeys a b := by
    have key : ∀ {M}, matchedKeys a b = M → (∀ p ∈ M, p.1 ∈ removed a.indexes b.indexes ∧ p.2 ∈ added a.indexes b.indexes ∧ GoodPair a b p) →
        (∀ e ∈ M, e.1 ∈ b.constraints.keys ∨ e.2 ∈ b.constraints.keys) → (∀ e ∈ M, s.indexes.get? e.1 = a.indexes.get? e.1) →
        matchKeys s b (s.constraints.keys ++ b.constraints.keys) ((added a.indexes b.indexes).filter (fun x => decide (x ∈ M.map Prod.snd)))
          ((removed a.indexes b.indexes).filter (fun x => decide (x ∈ M.map Prod.fst))) [] = M := by
      intro M hM _ h2 h3
      refine matchKeys_again (s := a) (cn := a.constraints.keys ++ b.constraints.keys) ?_ hM (removed_nodup ka.idxNodup) (by simp) ?_ h3 (by simp) (by simp)
      · intro x hx
        rcases List.mem_append.mp hx with hx | hx
        · exact List.mem_append_right _ ((hfk x).mp hx)
        · exact List.mem_append_right _ hx
      · intro e he
        exact (h2 e he).imp (List.mem_append_right _) (List.mem_append_right _)
    have := key rfl m3 ?_ ?_
    · unfold matchedKeys at this ⊢
      rw [hadd, hrem]
      exact this
    · intro e he
      obtain ⟨h1, h2, _, _, hu, hv, _, _, h3⟩ := m3 e he
      obtain ⟨h1, h1'⟩ := mem_removed.mp h1
      obtain ⟨h2, h2'⟩ := mem_added.mp h2
      have one : e.1 ∈ a.constraints.keys → e.1 ∈ b.constraints.keys := fun h => (hset _ h (.inl h1)).resolve_right (fun h => h1' h.2)
      have two : e.2 ∈ a.constraints.keys → e.2 ∈ b.constraints.keys := fun h => (hset _ h (.inr h2)).resolve_right (fun h => h2' h.1)
      rcases h3 with h3 | h3 <;> rcases List.mem_append.mp h3 with h3 | h3
      · exact .inl (one h3)
      · exact .inl h3
      · exact .inr (two h3)
      · exact .inr h3
    · intro e he
      obtain ⟨h1, _⟩ := m3 e he
      obtain ⟨h1, h1'⟩ := mem_removed.mp h1
      have : e.1 ∈ s.indexes.keys := (hmemk _).mpr (.inl ⟨h1, (hdrop _).mpr
        ⟨fun hg => (goneKeys_mem.mp hg).2.2 (List.mem_map.mpr ⟨_, he, rfl⟩), fun hc => h1' (hchg _ hc).2⟩⟩)
      obtain ⟨i, hi'⟩ := Dict.exists_get? this
      rw [hi']
      rw [hi] at hi'
      rcases named_get ka kb hi' with ⟨h, _⟩ | ⟨h, _⟩
      · exact h.symm
      · exact absurd (Dict.mem_keys_of_get? h) h1'
  -- nothing is left
  have e1 : newKeys s b = [] := by
    rw [newKeys, hmatch, hadd, List.filter_filter, List.filter_eq_nil_iff]
    intro x _
    simp
  have e2 : goneKeys s b = [] := by
    rw [goneKeys, hmatch, hrem, List.filter_filter, List.filter_eq_nil_iff]
    intro x _
    simp
  have e3 : changedKeys s b = [] := by
    rw [List.eq_nil_iff_forall_not_mem]
    intro x hx
    obtain ⟨u, v, hu, hv, h1, h2⟩ := changedKeys_mem.mp hx
    rw [hi] at hu
    rcases named_get ka kb hu with ⟨h, hd⟩ | ⟨h, _⟩
    · exact ((hdrop x).mp hd).2 (changedKeys_mem.mpr ⟨u, v, h, hv, h1, h2⟩)
    · rw [hv] at h
      cases h
      exact h1 rfl
  rw [keyOps_eq, e1, e2, e3]
  rfl

theorem keyOps_same {s b : Table} (hi : s.indexes = b.indexes) : keyOps s b = [] := by
  have ha : added s.indexes b.indexes = [] := by rw [hi]; exact added_self _
  have hr : removed s.indexes b.indexes = [] := by rw [hi]; exact removed_self _
  have e1 : newKeys s b = [] := by rw [newKeys, ha]; rfl
  have e2 : goneKeys s b = [] := by rw [goneKeys, hr]; rfl
  have e3 : changedKeys s b = [] := by
    rw [List.eq_nil_iff_forall_not_mem]
    intro x hx
    obtain ⟨u, v, hu, hv, h1, h2⟩ := changedKeys_mem.mp hx
    rw [hi, hv] at hu
    cases hu
    exact h1 rfl
  rw [keyOps_eq, e1, e2, e3]
  rfl

/-! ## Keys which are declared under another name -/

theorem findMatch_complete {t : Table} {cn ma : List Str} {rk : Str} {ri ai : Index} {ak : Str} (hg : t.indexes.get? ak = some ai)
    (hc : ri.columns = ai.columns ∧ ri.indexType = ai.indexType ∧ (rk ∈ cn ∨ ak ∈ cn)) (hm : ak ∉ ma) :
    ∀ {aks : List Str}, ak ∈ aks → findMatch t cn rk ri ma aks ≠ none
  | [], h => by simp at h
  | y :: aks, h => by
    rw [findMatch]
    by_cases he : y = ak
    · subst he
      rw [if_neg (by simpa using hm), hg]
      simp only
      rw [if_pos hc]
      simp
    · have h' : ak ∈ aks := (List.mem_cons.mp h).resolve_left (fun e => he e.symm)
      split
      · exact findMatch_complete hg hc hm h'
      · split
        · exact findMatch_complete hg hc hm h'
        · split
          · simp
          · exact findMatch_complete hg hc hm h'

theorem matchKeys_maximal {s t : Table} {cn ad : List Str} {rk ak : Str} {ri ai : Index} (hs : s.indexes.get? rk = some ri)
    (ht : t.indexes.get? ak = some ai) (hc : ri.columns = ai.columns ∧ ri.indexType = ai.indexType ∧ (rk ∈ cn ∨ ak ∈ cn)) (ha : ak ∈ ad) :
    ∀ {rks : List Str} {acc : List (Str × Str)}, rk ∈ rks →
      rk ∈ (matchKeys s t cn ad rks acc).map Prod.fst ∨ ak ∈ (matchKeys s t cn ad rks acc).map Prod.snd
  | [], _, h => by simp at h
  | r :: rks, acc, h => by
    rw [matchKeys]
    by_cases he : r = rk
    · subst he
      simp only [hs]
      cases hf : findMatch t cn r ri (acc.map Prod.snd) ad with
      | none =>
        simp only
        by_cases hm : ak ∈ acc.map Prod.snd
        · obtain ⟨e, he, rfl⟩ := List.mem_map.mp hm
          exact .inr (List.mem_map_of_mem (matchKeys_mono e he))
        · exact absurd hf (findMatch_complete ht hc hm ha)
      | some z =>
        exact .inl (List.mem_map.mpr ⟨(r, z), matchKeys_mono _ (by simp), rfl⟩)
    · have h' : rk ∈ rks := (List.mem_cons.mp h).resolve_left (fun e => he e.symm)
      split
      · exact matchKeys_maximal hs ht hc ha h'
      · split
        · exact matchKeys_maximal hs ht hc ha h'
        · exact matchKeys_maximal hs ht hc ha h'

theorem Renamed.matched {a b : Table} {x y : Str} {i j : Index} (h : Renamed a b x y i j) (ka : a.Keyed)
    (hn : x ∈ a.constraints.keys ++ b.constraints.keys ∨ y ∈ a.constraints.keys ++ b.constraints.keys) : (x, y) ∈ matchedKeys a b := by
  obtain ⟨_, _, m3⟩ := matchedKeys_spec a b ka
  rcases matchKeys_maximal (acc := []) h.old h.new ⟨h.columns, h.type, hn⟩ (mem_added.mpr ⟨Dict.mem_keys_of_get? h.new, h.fresh⟩)
    (mem_removed.mpr ⟨Dict.mem_keys_of_get? h.old, h.gone⟩) with hm | hm
  · obtain ⟨⟨p, q⟩, he, rfl⟩ := List.mem_map.mp hm
    obtain ⟨_, _, ri, ai, hu, hv, hc, _⟩ := m3 _ he
    simp only at hu hv
    rw [h.old] at hu
    cases hu
    rw [← h.onlyNew q ai hv (hc.symm.trans h.columns)]
    exact he
  · obtain ⟨⟨p, q⟩, he, rfl⟩ := List.mem_map.mp hm
    obtain ⟨_, _, ri, ai, hu, hv, hc, _⟩ := m3 _ he
    simp only at hu hv
    rw [h.new] at hv
    cases hv
    rw [← h.onlyOld p ri hu (hc.trans h.columns.symm)]
    exact he

theorem Renamed.again [PyNum] {a b s : Table} {x y : Str} {i j : Index} (h : Renamed a b x y i j) (ka : a.Keyed) (kb : b.Keyed) (ks : s.Keyed)
    (hn : x ∈ a.constraints.keys ∨ y ∈ a.constraints.keys) (hx : x ∉ b.constraints.keys) (hy : y ∉ b.constraints.keys)
    (hi : s.indexes = named (finalKeys a b)) (hfk : ∀ z, z ∈ s.constraints.keys ↔ z ∈ b.constraints.keys) :
    .addKey j ∈ keyOps s b ∧ .removeKey i ∈ keyOps s b := by
  have hm := h.matched ka (hn.imp (List.mem_append_left _) (List.mem_append_left _))
  obtain ⟨n1, n2, m3⟩ := matchedKeys_spec s b ks
  have hxd : keyDropped a b x = false := by
    apply Bool.eq_false_iff.mpr
    intro h'
    rcases List.mem_append.mp (keyDropped_iff.mp h') with h' | h'
    · exact (goneKeys_mem.mp h').2.2 (List.mem_map.mpr ⟨_, hm, rfl⟩)
    · obtain ⟨_, v, _, hv, _⟩ := changedKeys_mem.mp h'
      exact h.gone (Dict.mem_keys_of_get? hv)
  have hsx : s.indexes.get? x = some i := by
    have : x ∈ s.indexes.keys := by
      rw [hi, named_finalKeys_keys ka kb, List.mem_append, List.mem_filter]
      exact .inl ⟨Dict.mem_keys_of_get? h.old, by simp [hxd]⟩
    obtain ⟨z, hz⟩ := Dict.exists_get? this
    rw [hz]
    rw [hi] at hz
    rcases named_get ka kb hz with ⟨h1, _⟩ | ⟨h1, _⟩
    · rw [h.old] at h1; exact h1.symm
    · exact absurd (Dict.mem_keys_of_get? h1) h.gone
  have hsy : y ∉ s.indexes.keys := by
    intro hc
    obtain ⟨z, hz⟩ := Dict.exists_get? hc
    rw [hi] at hz
    rcases named_get ka kb hz with ⟨h1, _⟩ | ⟨_, h1⟩
    · exact h.fresh (Dict.mem_keys_of_get? h1)
    · rcases List.mem_append.mp h1 with h1 | h1
      · exact (newKeys_mem.mp h1).2.2 (List.mem_map.mpr ⟨_, hm, rfl⟩)
      · obtain ⟨u, _, hu, _⟩ := changedKeys_mem.mp h1
        exact h.fresh (Dict.mem_keys_of_get? hu)
  have hno : ¬ (x ∈ s.constraints.keys ++ b.constraints.keys ∨ y ∈ s.constraints.keys ++ b.constraints.keys) := by
    simp only [List.mem_append, hfk]
    simp [hx, hy]
  have only : ∀ r ri, s.indexes.get? r = some ri → r ∉ b.indexes.keys → ri.columns = i.columns → r = x := by
    intro r ri hr hrb hc
    rw [hi] at hr
    rcases named_get ka kb hr with ⟨h1, _⟩ | ⟨h1, _⟩
    · exact h.onlyOld r ri h1 hc
    · exact absurd (Dict.mem_keys_of_get? h1) hrb
  have e1 : y ∈ newKeys s b := by
    refine newKeys_mem.mpr ⟨Dict.mem_keys_of_get? h.new, hsy, ?_⟩
    intro hc
    obtain ⟨⟨p, q⟩, he, rfl⟩ := List.mem_map.mp hc
    obtain ⟨hr, _, ri, ai, hu, hv, hcol, _, hor⟩ := m3 _ he
    simp only at hu hv hr hor hno
    rw [h.new] at hv
    cases hv
    have := only p ri hu (mem_removed.mp hr).2 (hcol.trans h.columns.symm)
    subst this
    exact hno hor
  have e2 : x ∈ goneKeys s b := by
    refine goneKeys_mem.mpr ⟨Dict.mem_keys_of_get? hsx, h.gone, ?_⟩
    intro hc
    obtain ⟨⟨p, q⟩, he, rfl⟩ := List.mem_map.mp hc
    obtain ⟨_, _, ri, ai, hu, hv, hcol, _, hor⟩ := m3 _ he
    simp only at hu hv hor hno
    rw [hsx] at hu
    cases hu
    have := h.onlyNew q ai hv (hcol.symm.trans h.columns)
    subst this
    exact hno hor
  rw [keyOps_eq]
  simp only [List.mem_append, List.mem_map, look, List.mem_filterMap]
  exact ⟨.inl (.inl ⟨j, ⟨y, e1, h.new⟩, rfl⟩), .inl (.inr ⟨i, ⟨x, e2, hsx⟩, rfl⟩)⟩

/-! ## The diff after a migration -/

section
variable [PyNum]

theorem changedColumnOps_nil {s t : Table} : ∀ {ks : List Str},
    (∀ k ∈ ks, ∃ a b, s.columns.get? k = some a ∧ t.columns.get? k = some b ∧ Equivalent a b) → changedColumnOps s t ks = .ok []
  | [], _ => rfl
  | k :: ks, h => by
    obtain ⟨a, b, ha, hb, he⟩ := h k (by simp)
    have ih := changedColumnOps_nil (fun k hk => h k (List.mem_cons_of_mem _ hk))
    simp only [changedColumnOps, ha, hb]
    split
    · exact ih
    · rename_i hne
      rcases he with he | he
      · exact absurd he hne
      · simp only [he, ih]

theorem settled_split {s b : Table} (hcols : ∀ k, k ∈ s.columns.keys ↔ k ∈ b.columns.keys)
    (heq : ∀ k u v, s.columns.get? k = some u → b.columns.get? k = some v → Equivalent u v) (hkeys : keyOps s b = [])
    (hfk : ∀ k, k ∈ s.constraints.keys ↔ k ∈ b.constraints.keys)
    (hfks : ∀ k u v, s.constraints.get? k = some u → b.constraints.get? k = some v → u.SameFk v) : s.toSplit b = .ok ⟨[], [], []⟩ := by
  have hempty : ∀ {V W : Type} {p : Dict V} {q : Dict W}, (∀ k, k ∈ p.keys ↔ k ∈ q.keys) → added p q = [] ∧ removed p q = [] := by
    intro V W p q h
    constructor <;> rw [List.eq_nil_iff_forall_not_mem] <;> intro k hk
    · obtain ⟨h1, h2⟩ := mem_added.mp hk
      exact h2 ((h k).mpr h1)
    · obtain ⟨h1, h2⟩ := mem_removed.mp hk
      exact h2 ((h k).mp h1)
  have hc : changedConstraints s b = [] := by
    rw [changedConstraints, List.filter_eq_nil_iff]
    intro k hk
    obtain ⟨h1, h2⟩ := mem_overlap.mp hk
    obtain ⟨u, hu⟩ := Dict.exists_get? h1
    obtain ⟨v, hv⟩ := Dict.exists_get? h2
    obtain ⟨e1, e2, e3, e4, e5, e6⟩ := hfks k u v hu hv
    simp [hu, hv, Constraint.render, e1, e2, e3, e4, e5, e6]
  simp only [toSplit, (hempty hcols).1, (hempty hcols).2, addedColumnOps, removedFkOps, addedFkOps, (hempty hfk).1, (hempty hfk).2, hc, hkeys]
  rw [changedColumnOps_nil]
  · rfl
  · intro k hk
    obtain ⟨h1, h2⟩ := mem_overlap.mp hk
    obtain ⟨u, hu⟩ := Dict.exists_get? h1
    obtain ⟨v, hv⟩ := Dict.exists_get? h2
    exact ⟨u, v, hu, hv, heq k u v hu hv⟩

theorem settled_updateTables {cyc : List (Str × Str)} {d t : Dict Table} : ∀ {ns : List Str},
    (∀ n ∈ ns, ∃ s b, d.get? n = some s ∧ t.get? n = some b ∧ s.toSplit b = .ok ⟨[], [], []⟩) → updateTables cyc d t ns = .ok ([], [])
  | [], _ => rfl
  | n :: ns, h => by
    obtain ⟨s, b, hs, hb, hd⟩ := h n (by simp)
    have ih := settled_updateTables (cyc := cyc) (fun n hn => h n (List.mem_cons_of_mem _ hn))
    simp only [updateTables, hs, hb, updateTable, hd, ih, stripCycled, List.filter_nil, alterIf, if_true, List.append_nil]

theorem settled_process {d t : Dict Table} (hnames : ∀ n, n ∈ d.keys ↔ n ∈ t.keys)
    (h : ∀ n s b, d.get? n = some s → t.get? n = some b → s.toSplit b = .ok ⟨[], [], []⟩) :
    process t (some d) true = .ok ([.disableChecks] ++ (groupAlters (cycleDrops (cycles (some d) t))).map .alter ++
      (groupAlters (cycleAdds (cycles (some d) t) [])).map .alter ++ [.enableChecks]) := by
  have ha : added d t = [] := by
    rw [List.eq_nil_iff_forall_not_mem]
    intro k hk
    obtain ⟨h1, h2⟩ := mem_added.mp hk
    exact h2 ((hnames k).mpr h1)
  have hr : removed d t = [] := by
    rw [List.eq_nil_iff_forall_not_mem]
    intro k hk
    obtain ⟨h1, h2⟩ := mem_removed.mp hk
    exact h2 ((hnames k).mp h1)
  simp only [process, Option.getD_some, ha, hr, if_true]
  rw [settled_updateTables]
  · simp
  · intro n hn
    obtain ⟨h1, h2⟩ := mem_overlap.mp hn
    obtain ⟨s, hs⟩ := Dict.exists_get? h1
    obtain ⟨b, hb⟩ := Dict.exists_get? h2
    exact ⟨s, b, hs, hb, h n s b hs hb⟩

end

end Mygrations

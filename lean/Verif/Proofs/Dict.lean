import Verif.Model.Table

/-! # Lemmas about dictionaries and key differences -/

namespace Mygrations

namespace Dict
variable {V : Type}

@[simp] theorem keys_nil : keys ([] : Dict V) = [] := rfl
@[simp] theorem keys_cons (e : Str × V) (d : Dict V) : keys (e :: d) = e.1 :: keys d := rfl
@[simp] theorem keys_append (d e : Dict V) : keys (d ++ e) = keys d ++ keys e := by simp [keys]

theorem has_iff {d : Dict V} {k : Str} : has d k = true ↔ k ∈ keys d := by
  simp [has, keys]

theorem has_eq_false {d : Dict V} {k : Str} : has d k = false ↔ k ∉ keys d := by
  rw [← has_iff]; simp

theorem has_eq_decide (d : Dict V) (k : Str) : has d k = decide (k ∈ keys d) := by
  by_cases h : k ∈ keys d
  · simp [h, has_iff.mpr h]
  · simp [h, has_eq_false.mpr h]

@[simp] theorem get?_nil (k : Str) : get? ([] : Dict V) k = none := rfl

theorem get?_cons (k' : Str) (v : V) (d : Dict V) (k : Str) :
    get? ((k', v) :: d) k = if k' = k then some v else get? d k := rfl

theorem get?_eq_none {d : Dict V} {k : Str} : get? d k = none ↔ k ∉ keys d := by
  induction d with
  | nil => simp
  | cons e d ih =>
    obtain ⟨k', v⟩ := e
    rw [get?_cons]
    by_cases h : k' = k
    · simp [h]
    · have h' : ¬ k = k' := fun e => h e.symm
      simp [h, h', ih]

theorem mem_of_get? {d : Dict V} {k : Str} {v : V} (h : get? d k = some v) : (k, v) ∈ d := by
  induction d with
  | nil => simp at h
  | cons e d ih =>
    obtain ⟨k', v'⟩ := e
    rw [get?_cons] at h
    by_cases hk : k' = k
    · simp [hk] at h; simp [hk, h]
    · simp [hk] at h; exact List.mem_cons_of_mem _ (ih h)

theorem get?_of_mem {d : Dict V} (hn : (keys d).Nodup) {k : Str} {v : V} (h : (k, v) ∈ d) : get? d k = some v := by
  induction d with
  | nil => simp at h
  | cons e d ih =>
    obtain ⟨k', v'⟩ := e
    rw [get?_cons]
    simp only [keys_cons, List.nodup_cons] at hn
    rcases List.mem_cons.mp h with h | h
    · simp at h; simp [h]
    · have : k' ≠ k := by
        intro e; apply hn.1; rw [e]; simp only [keys]; exact List.mem_map.mpr ⟨_, h, rfl⟩
      simp [this, ih hn.2 h]

theorem mem_keys_of_get? {d : Dict V} {k : Str} {v : V} (h : get? d k = some v) : k ∈ keys d :=
  List.mem_map.mpr ⟨_, mem_of_get? h, rfl⟩

theorem exists_get? {d : Dict V} {k : Str} (h : k ∈ keys d) : ∃ v, get? d k = some v := by
  cases hg : get? d k with
  | none => exact absurd h (get?_eq_none.mp hg)
  | some v => exact ⟨v, rfl⟩

theorem mem_keys_iff {d : Dict V} {k : Str} : k ∈ keys d ↔ ∃ v, get? d k = some v :=
  ⟨exists_get?, fun ⟨_, h⟩ => mem_keys_of_get? h⟩

theorem has_of_get? {d : Dict V} {k : Str} {v : V} (h : get? d k = some v) : has d k = true :=
  has_iff.mpr (mem_keys_of_get? h)

theorem mem_values {d : Dict V} {v : V} : v ∈ values d ↔ ∃ k, (k, v) ∈ d := by
  simp [values]

theorem get?_append (d e : Dict V) (k : Str) : get? (d ++ e) k = (get? d k).or (get? e k) := by
  induction d with
  | nil => simp
  | cons x d ih =>
    obtain ⟨k', v⟩ := x
    rw [List.cons_append, get?_cons, get?_cons, ih]
    by_cases h : k' = k <;> simp [h]

theorem get?_map_val {W : Type} (f : Str → V → W) (d : Dict V) (k : Str) :
    get? (d.map (fun e => (e.1, f e.1 e.2))) k = (get? d k).map (f k) := by
  induction d with
  | nil => simp
  | cons x d ih =>
    obtain ⟨k', v⟩ := x
    rw [List.map_cons, get?_cons, get?_cons, ih]
    by_cases h : k' = k <;> simp [h]

theorem get?_filter_key (p : Str → Bool) (d : Dict V) (k : Str) :
    get? (d.filter (fun e => p e.1)) k = if p k then get? d k else none := by
  induction d with
  | nil => simp
  | cons x d ih =>
    obtain ⟨k', v⟩ := x
    rw [List.filter_cons]
    by_cases h : k' = k
    · subst h
      by_cases hp : p k' = true
      · simp [hp, get?_cons]
      · simp only [Bool.not_eq_true] at hp
        simp [hp, ih]
    · by_cases hp : p k' = true
      · simp [hp, get?_cons, h, ih]
      · simp only [Bool.not_eq_true] at hp
        simp [hp, get?_cons, h, ih]

theorem keys_filter_key (p : Str → Bool) (d : Dict V) :
    keys (d.filter (fun e => p e.1)) = (keys d).filter p := by
  induction d with
  | nil => rfl
  | cons x d ih =>
    simp only [List.filter_cons, keys_cons]
    by_cases h : p x.1 = true
    · simp [h, ih]
    · simp only [Bool.not_eq_true] at h; simp [h, ih]

/-! ### `set` and `erase` -/

theorem get?_set (d : Dict V) (k : Str) (v : V) (j : Str) :
    get? (set d k v) j = if k = j then some v else get? d j := by
  induction d with
  | nil => simp [set, get?_cons]
  | cons x d ih =>
    obtain ⟨k', v'⟩ := x
    simp only [set]
    by_cases h : k' = k
    · subst h; simp only [if_true, get?_cons]; by_cases hj : k' = j <;> simp [hj]
    · simp only [h, if_false, get?_cons, ih]
      by_cases hj : k' = j
      · subst hj
        have : ¬ k = k' := fun e => h e.symm
        simp [this]
      · simp [hj]

theorem keys_set_of_mem {d : Dict V} {k : Str} (v : V) (h : k ∈ keys d) : keys (set d k v) = keys d := by
  induction d with
  | nil => simp at h
  | cons x d ih =>
    obtain ⟨k', v'⟩ := x
    simp only [set]
    by_cases hk : k' = k
    · simp [hk]
    · simp only [hk, if_false, keys_cons]
      have : k ∈ keys d := by
        rcases List.mem_cons.mp h with h | h
        · exact absurd h.symm hk
        · exact h
      rw [ih this]

theorem set_of_not_mem {d : Dict V} {k : Str} (v : V) (h : k ∉ keys d) : set d k v = d ++ [(k, v)] := by
  induction d with
  | nil => rfl
  | cons x d ih =>
    obtain ⟨k', v'⟩ := x
    simp only [keys_cons, List.mem_cons, not_or] at h
    have : ¬ k' = k := fun e => h.1 e.symm
    simp only [set, this, if_false, List.cons_append, ih h.2]

theorem keys_set_nodup {d : Dict V} (k : Str) (v : V) (h : (keys d).Nodup) : (keys (set d k v)).Nodup := by
  by_cases hk : k ∈ keys d
  · rw [keys_set_of_mem v hk]; exact h
  · rw [set_of_not_mem v hk, keys_append]
    rw [List.nodup_append]
    refine ⟨h, by simp, ?_⟩
    intro a ha b hb e
    simp at hb
    subst hb
    exact hk (e ▸ ha)

theorem mem_keys_set {d : Dict V} {k j : Str} {v : V} : j ∈ keys (set d k v) ↔ j = k ∨ j ∈ keys d := by
  by_cases hk : k ∈ keys d
  · rw [keys_set_of_mem v hk]
    constructor
    · exact Or.inr
    · rintro (rfl | h)
      · exact hk
      · exact h
  · rw [set_of_not_mem v hk]; simp [or_comm]

theorem keys_erase {d : Dict V} (k : Str) : keys (erase d k) = (keys d).erase k := by
  induction d with
  | nil => rfl
  | cons x d ih =>
    obtain ⟨k', v'⟩ := x
    simp only [erase, keys_cons, List.erase_cons]
    by_cases h : k' = k
    · simp [h]
    · have : (k' == k) = false := by simpa using h
      simp [h, ih]

theorem erase_eq_filter {d : Dict V} (k : Str) (h : (keys d).Nodup) : erase d k = d.filter (fun e => e.1 ≠ k) := by
  induction d with
  | nil => rfl
  | cons x d ih =>
    obtain ⟨k', v'⟩ := x
    simp only [keys_cons, List.nodup_cons] at h
    simp only [erase, List.filter_cons]
    by_cases hk : k' = k
    · subst hk
      simp only [if_true, ne_eq, not_true_eq_false, decide_false]
      symm
      simp only [Bool.false_eq_true, if_false]
      rw [List.filter_eq_self]
      intro e he
      have : e.1 ≠ k' := by
        intro e'; apply h.1; rw [← e']; exact List.mem_map.mpr ⟨_, he, rfl⟩
      simp [this]
    · simp [hk, ih h.2]

theorem get?_erase {d : Dict V} (k j : Str) (h : (keys d).Nodup) :
    get? (erase d k) j = if k = j then none else get? d j := by
  rw [erase_eq_filter k h, get?_filter_key (fun x => decide (x ≠ k))]
  by_cases hj : k = j
  · simp [hj]
  · have : ¬ j = k := fun e => hj e.symm
    simp [hj, this]

theorem keys_erase_nodup {d : Dict V} (k : Str) (h : (keys d).Nodup) : (keys (erase d k)).Nodup := by
  rw [keys_erase]; exact h.erase k

end Dict

/-! ## Differences -/

section
variable {A B : Type} {f : Dict A} {t : Dict B} {k : Str}

theorem mem_added : k ∈ added f t ↔ k ∈ t.keys ∧ k ∉ f.keys := by
  simp [added, Dict.has_eq_decide]

theorem mem_removed : k ∈ removed f t ↔ k ∈ f.keys ∧ k ∉ t.keys := by
  simp [removed, Dict.has_eq_decide]

theorem mem_overlap : k ∈ overlap f t ↔ k ∈ f.keys ∧ k ∈ t.keys := by
  simp [overlap, Dict.has_eq_decide]

theorem added_self (f : Dict A) : added f f = [] := by
  rw [List.eq_nil_iff_forall_not_mem]; intro k hk; rw [mem_added] at hk; exact hk.2 hk.1

theorem removed_self (f : Dict A) : removed f f = [] := by
  rw [List.eq_nil_iff_forall_not_mem]; intro k hk; rw [mem_removed] at hk; exact hk.2 hk.1

theorem added_nodup (h : t.keys.Nodup) : (added f t).Nodup := h.filter _
theorem removed_nodup (h : f.keys.Nodup) : (removed f t).Nodup := h.filter _
theorem overlap_nodup (h : f.keys.Nodup) : (overlap f t).Nodup := h.filter _
end

end Mygrations

import Verif.Proofs.Dict
import Verif.Spec.Checks

/-! # Lemmas about index caches and foreign-key checks -/

namespace Mygrations
open Table

theorem mem_setAdd {s : List Str} {x c : Str} : c ∈ setAdd s x ↔ c = x ∨ c ∈ s := by
  unfold setAdd
  by_cases h : s.contains x = true
  · rw [if_pos h]
    simp only [List.contains_eq_mem, decide_eq_true_eq] at h
    constructor
    · exact .inr
    · rintro (rfl | h')
      · exact h
      · exact h'
  · rw [if_neg h]; simp [or_comm]

theorem firstColumns_ok {l : List Index} (h : ∀ i ∈ l, i.columns ≠ []) :
    ∃ s, firstColumns l = .ok s ∧ ∀ c, c ∈ s ↔ ∃ i ∈ l, i.columns.head? = some c := by
  induction l with
  | nil => exact ⟨[], rfl, by simp⟩
  | cons i l ih =>
    obtain ⟨s, h1, h2⟩ := ih (fun j hj => h j (List.mem_cons_of_mem _ hj))
    cases hc : i.columns with
    | nil => exact absurd hc (h i (by simp))
    | cons c cs =>
      refine ⟨setAdd s c, by simp [firstColumns, hc, h1, Except.map], ?_⟩
      intro x
      rw [mem_setAdd, h2 x]
      simp [hc, eq_comm]

/-- the answer of `column_is_indexed` on a table whose cache is right -/
theorem columnIsIndexed_spec {t : Table} (hi : t.IndexesHaveColumns) (hc : t.CacheRight) (c : Str) :
    ∃ b t', t.columnIsIndexed c = .ok (b, t') ∧ (b = true ↔ t.Indexed c) ∧ t'.CacheRight ∧
      t'.columns = t.columns ∧ t'.indexes = t.indexes := by
  unfold columnIsIndexed
  by_cases hk : c ∈ t.columns.keys
  · simp only [Dict.has_iff.mpr hk, Bool.not_true, Bool.false_eq_true, if_false]
    cases hs : t.indexedCache with
    | some s =>
      refine ⟨_, _, rfl, ?_, hc, rfl, rfl⟩
      simp only [List.contains_eq_mem, decide_eq_true_eq, hc s hs, Indexed, hk, true_and]
    | none =>
      obtain ⟨s, h1, h2⟩ := firstColumns_ok hi
      simp only [h1, Except.map]
      refine ⟨_, _, rfl, ?_, ?_, rfl, rfl⟩
      · simp only [List.contains_eq_mem, decide_eq_true_eq, h2, Indexed, hk, true_and]
      · intro s' hs'
        simp only [Option.some.injEq] at hs'
        subst hs'
        exact h2
  · simp only [Dict.has_eq_false.mpr hk, Bool.not_false, if_true]
    refine ⟨_, _, rfl, ?_, hc, rfl, rfl⟩
    simp [Indexed, hk]

end Mygrations

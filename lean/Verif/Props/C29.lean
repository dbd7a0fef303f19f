import Verif.Proofs.Checks
import Verif.Props.Examples

/-! # C29, C54: indexed columns and the primary key, after any history -/

namespace Mygrations
open Table

/-- `column_is_indexed(c)` on this table -/
def Table.answer (t : Table) (c : Str) : Except PyErr Bool := (t.columnIsIndexed c).map Prod.fst

/-- Every column which the table remembers as indexed is the first column of some key. -/
def Table.CacheSound (t : Table) : Prop :=
  ∀ s, t.indexedCache = some s → ∀ c ∈ s, ∃ i ∈ t.indexes.values, i.columns.head? = some c

/-- what a history preserves in any case -/
structure Inv (t : Table) : Prop where
  nodup : t.indexes.keys.Nodup
  name : ∀ k i, (k, i) ∈ t.indexes → i.name = k
  cols : t.IndexesHaveColumns
  sound : t.CacheSound

theorem mem_values_set {V : Type} {d : Dict V} (hn : d.keys.Nodup) {k : Str} {v w : V} :
    w ∈ (d.set k v).values ↔ w = v ∨ ∃ j, j ≠ k ∧ d.get? j = some w := by
  rw [Dict.mem_values]
  constructor
  · rintro ⟨j, hj⟩
    have := Dict.get?_of_mem (Dict.keys_set_nodup k v hn) hj
    rw [Dict.get?_set] at this
    by_cases h : k = j
    · simp only [h, if_true, Option.some.injEq] at this; exact .inl this.symm
    · simp only [h, if_false] at this; exact .inr ⟨j, fun e => h e.symm, this⟩
  · rintro (rfl | ⟨j, hj, hg⟩)
    · exact ⟨k, Dict.mem_of_get? (by rw [Dict.get?_set]; simp)⟩
    · refine ⟨j, Dict.mem_of_get? ?_⟩
      have : ¬ k = j := fun e => hj e.symm
      rw [Dict.get?_set]; simp [this, hg]

theorem mem_values_erase {V : Type} {d : Dict V} (hn : d.keys.Nodup) {k : Str} {w : V} :
    w ∈ (d.erase k).values ↔ ∃ j, j ≠ k ∧ d.get? j = some w := by
  rw [Dict.mem_values]
  constructor
  · rintro ⟨j, hj⟩
    have := Dict.get?_of_mem (Dict.keys_erase_nodup k hn) hj
    rw [Dict.get?_erase k j hn] at this
    by_cases h : k = j
    · simp [h] at this
    · simp only [h, if_false] at this; exact ⟨j, fun e => h e.symm, this⟩
  · rintro ⟨j, hj, hg⟩
    refine ⟨j, Dict.mem_of_get? ?_⟩
    have : ¬ k = j := fun e => hj e.symm
    rw [Dict.get?_erase k j hn]; simp [this, hg]

theorem mem_set {V : Type} {d : Dict V} (hn : d.keys.Nodup) {k j : Str} {v w : V} (h : (j, w) ∈ d.set k v) :
    (j = k ∧ w = v) ∨ (j, w) ∈ d := by
  have := Dict.get?_of_mem (Dict.keys_set_nodup k v hn) h
  rw [Dict.get?_set] at this
  by_cases hk : k = j
  · simp only [hk, if_true, Option.some.injEq] at this; exact .inl ⟨hk.symm, this.symm⟩
  · simp only [hk, if_false] at this; exact .inr (Dict.mem_of_get? this)

theorem mem_erase {V : Type} {d : Dict V} (hn : d.keys.Nodup) {k j : Str} {w : V} (h : (j, w) ∈ d.erase k) :
    j ≠ k ∧ (j, w) ∈ d := by
  have := Dict.get?_of_mem (Dict.keys_erase_nodup k hn) h
  rw [Dict.get?_erase k j hn] at this
  by_cases hk : k = j
  · simp [hk] at this
  · simp only [hk, if_false] at this; exact ⟨fun e => hk e.symm, Dict.mem_of_get? this⟩

/-- No key other than `name` starts with the first column of that key. -/
def Table.OnlyOne (t : Table) (name : Str) : Prop :=
  ∀ i, t.indexes.get? name = some i → ∀ n j, n ≠ name → t.indexes.get? n = some j → j.columns.head? ≠ i.columns.head?

/-- When a key is removed or changed, no other key starts with the same column. -/
def IndexOp.NoSharing (t : Table) : IndexOp → Prop
  | .removeIndex n => t.OnlyOne n
  | .changeIndex i => t.OnlyOne i.name
  | _ => True

/-- That is so at every step of a history. -/
def Unshared : Table → List IndexOp → Prop
  | _, [] => True
  | t, op :: hist => op.NoSharing t ∧ Unshared (op.step t) hist

theorem columns_only {t t' : Table} (h1 : t'.indexes = t.indexes) (h2 : t'.indexedCache = t.indexedCache) :
    (Inv t → Inv t') ∧ (t.CacheRight → t'.CacheRight) := by
  refine ⟨fun h => ⟨?_, ?_, ?_, ?_⟩, ?_⟩
  · rw [h1]; exact h.nodup
  · rw [h1]; exact h.name
  · unfold IndexesHaveColumns; rw [h1]; exact h.cols
  · unfold CacheSound; rw [h1, h2]; exact h.sound
  · unfold CacheRight; rw [h1, h2]; exact id

theorem addIndex_inv {t t' : Table} {i : Index} (hi : i.columns ≠ []) (h : Inv t) (he : t.addIndex i = .ok t') :
    Inv t' ∧ (t.CacheRight → t'.CacheRight) := by
  unfold addIndex at he
  by_cases hh : t.indexes.has i.name = true
  · simp [hh] at he
  · simp only [hh, Bool.false_eq_true, if_false] at he
    have hnot : i.name ∉ t.indexes.keys := Dict.has_eq_false.mp (by simpa using hh)
    obtain ⟨c, cs, hc⟩ : ∃ c cs, i.columns = c :: cs := by
      cases hc : i.columns with
      | nil => exact absurd hc hi
      | cons c cs => exact ⟨c, cs, rfl⟩
    have hvals : ∀ j, j ∈ (t.indexes.set i.name i).values ↔ j = i ∨ j ∈ t.indexes.values := by
      intro j
      rw [mem_values_set h.nodup, Dict.mem_values]
      constructor
      · rintro (h | ⟨n, _, hg⟩)
        · exact .inl h
        · exact .inr ⟨n, Dict.mem_of_get? hg⟩
      · rintro (h' | ⟨n, hm⟩)
        · exact .inl h'
        · have hg := Dict.get?_of_mem h.nodup hm
          exact .inr ⟨n, fun e => hnot (e ▸ Dict.mem_keys_of_get? hg), hg⟩
    have hname : ∀ k j, (k, j) ∈ t.indexes.set i.name i → j.name = k := by
      intro k j hm
      rcases mem_set h.nodup hm with ⟨rfl, rfl⟩ | hm
      · rfl
      · exact h.name _ _ hm
    have hcols : ∀ j ∈ (t.indexes.set i.name i).values, j.columns ≠ [] := by
      intro j hj
      rcases (hvals j).mp hj with rfl | hj
      · exact hi
      · exact h.cols j hj
    cases hs : t.indexedCache with
    | none =>
      simp only [hs, Except.ok.injEq] at he
      subst he
      refine ⟨⟨Dict.keys_set_nodup _ _ h.nodup, hname, hcols, ?_⟩, ?_⟩
      · intro s h'; simp at h'
      · intro _ s h'; simp at h'
    | some s =>
      simp only [hs, hc, Except.ok.injEq] at he
      subst he
      refine ⟨⟨Dict.keys_set_nodup _ _ h.nodup, hname, hcols, ?_⟩, ?_⟩
      · intro s' h' x hx
        simp only [Option.some.injEq] at h'
        subst h'
        rcases mem_setAdd.mp hx with rfl | hx
        · exact ⟨i, (hvals i).mpr (.inl rfl), by simp [hc]⟩
        · obtain ⟨j, hj, hj'⟩ := h.sound s hs x hx
          exact ⟨j, (hvals j).mpr (.inr hj), hj'⟩
      · intro hr s' h' x
        simp only [Option.some.injEq] at h'
        subst h'
        simp only [mem_setAdd, hr s hs x, hvals]
        constructor
        · rintro (rfl | ⟨j, hj, hj'⟩)
          · exact ⟨i, .inl rfl, by simp [hc]⟩
          · exact ⟨j, .inr hj, hj'⟩
        · rintro ⟨j, rfl | hj, hj'⟩
          · left; simpa [hc] using hj'.symm
          · exact .inr ⟨j, hj, hj'⟩

theorem removeIndex_inv {t t' : Table} {n : Str} (h : Inv t) (he : t.removeIndex n = .ok t') :
    Inv t' ∧ (t.CacheRight → t.OnlyOne n → t'.CacheRight) := by
  unfold removeIndex at he
  cases hg : t.indexes.get? n with
  | none => simp [hg] at he
  | some i =>
    simp only [hg] at he
    cases hc : i.columns with
    | nil => simp [hc] at he
    | cons c cs =>
      simp only [hc, Except.ok.injEq] at he
      subst he
      refine ⟨⟨Dict.keys_erase_nodup _ h.nodup, ?_, ?_, ?_⟩, ?_⟩
      · intro k j hm
        exact h.name _ _ (mem_erase h.nodup hm).2
      · intro j hj
        obtain ⟨k, _, hk⟩ := (mem_values_erase h.nodup).mp hj
        exact h.cols j (Dict.mem_values.mpr ⟨k, Dict.mem_of_get? hk⟩)
      · intro s' h' x hx
        cases hs : t.indexedCache with
        | none => simp [hs] at h'
        | some s =>
          simp only [hs, Option.map_some, Option.some.injEq] at h'
          subst h'
          simp only [List.mem_filter, decide_eq_true_eq] at hx
          obtain ⟨j, hj, hj'⟩ := h.sound s hs x hx.1
          obtain ⟨k, hk⟩ := Dict.mem_values.mp hj
          refine ⟨j, (mem_values_erase h.nodup).mpr ⟨k, ?_, Dict.get?_of_mem h.nodup hk⟩, hj'⟩
          rintro rfl
          rw [Dict.get?_of_mem h.nodup hk] at hg
          simp only [Option.some.injEq] at hg
          subst hg
          rw [hc] at hj'
          simp at hj'
          exact hx.2 hj'.symm
      · intro hr ho s' h' x
        cases hs : t.indexedCache with
        | none => simp [hs] at h'
        | some s =>
          simp only [hs, Option.map_some, Option.some.injEq] at h'
          subst h'
          simp only [List.mem_filter, decide_eq_true_eq, hr s hs x]
          constructor
          · rintro ⟨⟨j, hj, hj'⟩, hx⟩
            obtain ⟨k, hk⟩ := Dict.mem_values.mp hj
            refine ⟨j, (mem_values_erase h.nodup).mpr ⟨k, ?_, Dict.get?_of_mem h.nodup hk⟩, hj'⟩
            rintro rfl
            rw [Dict.get?_of_mem h.nodup hk] at hg
            simp only [Option.some.injEq] at hg
            subst hg
            rw [hc] at hj'
            simp at hj'
            exact hx hj'.symm
          · rintro ⟨j, hj, hj'⟩
            obtain ⟨k, hk, hkg⟩ := (mem_values_erase h.nodup).mp hj
            refine ⟨⟨j, Dict.mem_values.mpr ⟨k, Dict.mem_of_get? hkg⟩, hj'⟩, ?_⟩
            rintro rfl
            exact ho i hg k j hk hkg (by rw [hj', hc]; rfl)

theorem changeIndex_inv {t t' : Table} {i : Index} (hi : i.columns ≠ []) (h : Inv t) (he : t.changeIndex i = .ok t') :
    Inv t' ∧ (t.CacheRight → t.OnlyOne i.name → t'.CacheRight) := by
  unfold changeIndex at he
  cases hg : t.indexes.get? i.name with
  | none => simp [hg] at he
  | some old =>
    simp only [hg] at he
    have hname : ∀ k j, (k, j) ∈ t.indexes.set i.name i → j.name = k := by
      intro k j hm
      rcases mem_set h.nodup hm with ⟨rfl, rfl⟩ | hm
      · rfl
      · exact h.name _ _ hm
    have hcols : ∀ j ∈ (t.indexes.set i.name i).values, j.columns ≠ [] := by
      intro j hj
      rcases (mem_values_set h.nodup).mp hj with rfl | ⟨k, _, hk⟩
      · exact hi
      · exact h.cols j (Dict.mem_values.mpr ⟨k, Dict.mem_of_get? hk⟩)
    cases hs : t.indexedCache with
    | none =>
      simp only [hs, Except.ok.injEq] at he
      subst he
      refine ⟨⟨Dict.keys_set_nodup _ _ h.nodup, hname, hcols, ?_⟩, ?_⟩
      · intro s h'; simp at h'
      · intro _ _ s h'; simp at h'
    | some s =>
      simp only [hs] at he
      cases hoc : old.columns with
      | nil => exact absurd hoc (h.cols old (Dict.mem_values.mpr ⟨_, Dict.mem_of_get? hg⟩))
      | cons oc ocs =>
        cases hnc : i.columns with
        | nil => exact absurd hnc hi
        | cons nc ncs =>
          simp only [hoc, hnc, Except.ok.injEq] at he
          subst he
          have hother : ∀ x, x ≠ oc → (∃ j ∈ t.indexes.values, j.columns.head? = some x) →
              ∃ j ∈ (t.indexes.set i.name i).values, j.columns.head? = some x := by
            rintro x hx ⟨j, hj, hj'⟩
            obtain ⟨k, hk⟩ := Dict.mem_values.mp hj
            refine ⟨j, (mem_values_set h.nodup).mpr (.inr ⟨k, ?_, Dict.get?_of_mem h.nodup hk⟩), hj'⟩
            rintro rfl
            rw [Dict.get?_of_mem h.nodup hk] at hg
            simp only [Option.some.injEq] at hg
            subst hg
            rw [hoc] at hj'
            simp at hj'
            exact hx hj'.symm
          refine ⟨⟨Dict.keys_set_nodup _ _ h.nodup, hname, hcols, ?_⟩, ?_⟩
          · intro s' h' x hx
            simp only [Option.some.injEq] at h'
            subst h'
            simp only [mem_setAdd, List.mem_filter, decide_eq_true_eq] at hx
            rcases hx with rfl | ⟨hx, hne⟩
            · exact ⟨i, (mem_values_set h.nodup).mpr (.inl rfl), by simp [hnc]⟩
            · exact hother x hne (h.sound s hs x hx)
          · intro hr ho s' h' x
            simp only [Option.some.injEq] at h'
            subst h'
            simp only [mem_setAdd, List.mem_filter, decide_eq_true_eq, hr s hs x]
            constructor
            · rintro (rfl | ⟨hx, hne⟩)
              · exact ⟨i, (mem_values_set h.nodup).mpr (.inl rfl), by simp [hnc]⟩
              · exact hother x hne hx
            · rintro ⟨j, hj, hj'⟩
              rcases (mem_values_set h.nodup).mp hj with rfl | ⟨k, hk, hkg⟩
              · left; rw [hnc] at hj'; simpa using hj'.symm
              · right
                refine ⟨⟨j, Dict.mem_values.mpr ⟨k, Dict.mem_of_get? hkg⟩, hj'⟩, ?_⟩
                rintro rfl
                exact ho old hg k j hk hkg (by rw [hj', hoc]; rfl)

theorem ask_inv {t t' : Table} {c : Str} (h : Inv t) (he : (t.columnIsIndexed c).map Prod.snd = .ok t') :
    Inv t' ∧ (t.CacheRight → t'.CacheRight) := by
  unfold columnIsIndexed at he
  by_cases hk : t.columns.has c = true
  · simp only [hk, Bool.not_true, Bool.false_eq_true, if_false] at he
    cases hs : t.indexedCache with
    | some s =>
      simp only [hs, Except.map, Except.ok.injEq] at he
      subst he
      exact ⟨h, id⟩
    | none =>
      obtain ⟨s, h1, h2⟩ := firstColumns_ok h.cols
      simp only [hs, h1, Except.map, Except.ok.injEq] at he
      subst he
      refine ⟨⟨h.nodup, h.name, h.cols, ?_⟩, ?_⟩
      · intro s' h' x hx
        simp only [Option.some.injEq] at h'
        subst h'
        exact (h2 x).mp hx
      · intro _ s' h' x
        simp only [Option.some.injEq] at h'
        subst h'
        exact h2 x
  · simp only [hk, Bool.not_false, if_true, Except.map, Except.ok.injEq] at he
    subst he
    exact ⟨h, id⟩

theorem step_inv {t : Table} (op : IndexOp) (hop : op.Sane) (h : Inv t) :
    Inv (op.step t) ∧ (t.CacheRight → op.NoSharing t → (op.step t).CacheRight) := by
  have columns : ∀ {r : Except PyErr Table}, (∀ t', r = .ok t' → t'.indexes = t.indexes ∧ t'.indexedCache = t.indexedCache) →
      Inv (keep t r) ∧ (t.CacheRight → (keep t r).CacheRight) := by
    intro r hr
    cases r with
    | error e => exact ⟨h, id⟩
    | ok t' =>
      have := columns_only (hr t' rfl).1 (hr t' rfl).2
      exact ⟨this.1 h, this.2⟩
  cases op with
  | addColumn c p =>
    have := @columns (t.addColumn c p) (by
      intro t' ht'
      unfold addColumn at ht'
      split at ht'
      · simp at ht'
      · split at ht'
        · simp at ht'; subst ht'; exact ⟨rfl, rfl⟩
        · simp at ht'; subst ht'; exact ⟨rfl, rfl⟩
        · split at ht'
          · simp at ht'; subst ht'; exact ⟨rfl, rfl⟩
          · simp at ht')
    exact ⟨this.1, fun a _ => this.2 a⟩
  | removeColumn n =>
    have := @columns (t.removeColumn n) (by
      intro t' ht'
      unfold removeColumn at ht'
      split at ht'
      · simp at ht'; subst ht'; exact ⟨rfl, rfl⟩
      · simp at ht')
    exact ⟨this.1, fun a _ => this.2 a⟩
  | changeColumn c =>
    have := @columns (t.changeColumn c) (by
      intro t' ht'
      unfold changeColumn at ht'
      split at ht'
      · simp at ht'; subst ht'; exact ⟨rfl, rfl⟩
      · simp at ht')
    exact ⟨this.1, fun a _ => this.2 a⟩
  | addIndex i =>
    simp only [IndexOp.step]
    cases hr : t.addIndex i with
    | error e => exact ⟨h, fun a _ => a⟩
    | ok t' =>
      have := addIndex_inv hop h hr
      exact ⟨this.1, fun a _ => this.2 a⟩
  | removeIndex n =>
    simp only [IndexOp.step]
    cases hr : t.removeIndex n with
    | error e => exact ⟨h, fun a _ => a⟩
    | ok t' => exact removeIndex_inv h hr
  | changeIndex i =>
    simp only [IndexOp.step]
    cases hr : t.changeIndex i with
    | error e => exact ⟨h, fun a _ => a⟩
    | ok t' => exact changeIndex_inv hop h hr
  | ask c =>
    simp only [IndexOp.step]
    cases hr : (t.columnIsIndexed c).map Prod.snd with
    | error e => exact ⟨h, fun a _ => a⟩
    | ok t' =>
      have := ask_inv h hr
      exact ⟨this.1, fun a _ => this.2 a⟩

theorem Table.Fresh.inv {t : Table} (h : t.Fresh) : Inv t :=
  ⟨h.idxNodup, h.idxName, h.idxCols, by intro s hs; rw [h.noCache] at hs; simp at hs⟩

theorem run_inv {t : Table} (hist : List IndexOp) (hs : ∀ op ∈ hist, op.Sane) (h : Inv t) : Inv (IndexOp.run t hist) := by
  induction hist generalizing t with
  | nil => exact h
  | cons op hist ih =>
    exact ih (fun o ho => hs o (List.mem_cons_of_mem _ ho)) (step_inv op (hs op (by simp)) h).1

/-- **C29**, one direction, without conditions: after any history, `column_is_indexed` answers, and a column for which
it says yes exists and is the first column of some key. -/
theorem C29_sound (t : Table) (ht : t.Fresh) (hist : List IndexOp) (hs : ∀ op ∈ hist, op.Sane) (c : Str) :
    ∃ b, (IndexOp.run t hist).answer c = .ok b ∧ (b = true → (IndexOp.run t hist).Indexed c) := by
  have h := run_inv hist hs ht.inv
  unfold Table.answer columnIsIndexed
  generalize IndexOp.run t hist = t' at h
  by_cases hk : c ∈ t'.columns.keys
  · simp only [Dict.has_iff.mpr hk, Bool.not_true, Bool.false_eq_true, if_false]
    cases hs' : t'.indexedCache with
    | some s =>
      refine ⟨_, rfl, fun hb => ⟨hk, ?_⟩⟩
      simp only [List.contains_eq_mem, decide_eq_true_eq] at hb
      exact h.sound s hs' c hb
    | none =>
      obtain ⟨s, h1, h2⟩ := firstColumns_ok h.cols
      simp only [h1, Except.map]
      refine ⟨_, rfl, fun hb => ⟨hk, ?_⟩⟩
      simp only [List.contains_eq_mem, decide_eq_true_eq] at hb
      exact (h2 c).mp hb
  · simp only [Dict.has_eq_false.mpr hk, Bool.not_false, if_true]
    exact ⟨false, rfl, by simp⟩

/-- **C29** (partial).  After any history in which a key is only removed or changed while no other key starts with the
same column, `column_is_indexed(c)` is true exactly if `c` exists and is the first column of some key.
Missing: histories in which two keys share their first column and one of them is removed or changed
(`C29_counterexample`); one direction holds for them as well (`C29_sound`). -/
theorem C29_partial (t : Table) (ht : t.Fresh) (hist : List IndexOp) (hs : ∀ op ∈ hist, op.Sane)
    (hshare : Unshared t hist) (c : Str) :
    ∃ b, (IndexOp.run t hist).answer c = .ok b ∧ (b = true ↔ (IndexOp.run t hist).Indexed c) := by
  have key : ∀ (hist : List IndexOp) (t : Table), Inv t → t.CacheRight → (∀ op ∈ hist, op.Sane) →
      Unshared t hist → (IndexOp.run t hist).CacheRight := by
    intro hist
    induction hist with
    | nil => intro t _ h _ _; exact h
    | cons op hist ih =>
      intro t hi hc hs hsh
      have := step_inv op (hs op (by simp)) hi
      exact ih (op.step t) this.1 (this.2 hc hsh.1) (fun o ho => hs o (List.mem_cons_of_mem _ ho)) hsh.2
  have hr := key hist t ht.inv (by intro s h; rw [ht.noCache] at h; simp at h) hs hshare
  obtain ⟨b, t', h1, h2, -⟩ := columnIsIndexed_spec (run_inv hist hs ht.inv).cols hr c
  exact ⟨b, by simp [Table.answer, h1, Except.map], h2⟩

section
open Examples

/-- `OnlyOne`, as a check -/
theorem onlyOne_of_check {t : Table} {n : Str}
    (h : t.indexes.all (fun e => e.1 == n || (match t.indexes.get? n with | some i => e.2.columns.head? != i.columns.head? | none => true)) = true) :
    t.OnlyOne n := by
  intro i hi m j hm hj
  rw [List.all_eq_true] at h
  have := h _ (Dict.mem_of_get? hj)
  simp only [hi, Bool.or_eq_true, beq_iff_eq, bne_iff_ne, ne_eq] at this
  exact this.resolve_left hm

theorem Examples.posts_fresh : posts.Fresh := ⟨posts_valid.toKeyed, rfl, fun i hi => (posts_valid.idxCols i hi).1⟩

/-- a history which asks, removes, changes and adds keys -/
def Examples.indexHistory : List IndexOp :=
  [.ask py"title", .removeIndex py"by_title", .changeIndex (key py"legacy_idx" [py"title", py"legacy"]),
   .ask py"legacy", .addIndex (key py"legacy2" [py"legacy"]), .removeColumn py"editor_id"]

/-- the hypotheses of C29 can be met by a history in which the answers change -/
example : posts.Fresh ∧ (∀ op ∈ indexHistory, op.Sane) ∧ Unshared posts indexHistory ∧
    posts.answer py"editor_id" = .ok true ∧ (IndexOp.run posts indexHistory).answer py"editor_id" = .ok false ∧
    (IndexOp.run posts indexHistory).answer py"title" = .ok true ∧ (IndexOp.run posts indexHistory).answer py"legacy" = .ok true :=
  ⟨posts_fresh, by simp [indexHistory, IndexOp.Sane, key],
    ⟨trivial, onlyOne_of_check (by decide), onlyOne_of_check (by decide), trivial, trivial, trivial, trivial⟩, by decide, by decide, by decide, by decide⟩

/-- two keys on one column -/
def Examples.twoKeys : Table := mk py"t" [idCol, textCol py"a" py"10"] [pk, key py"x" [py"a"], key py"y" [py"a", py"id"]] []

/-- **C29** fails: after `column_is_indexed("a")`, removing one of two keys on `a` makes the table forget that `a` is
indexed. -/
theorem C29_counterexample : twoKeys.Fresh ∧
    (IndexOp.run twoKeys [.ask py"a", .removeIndex py"x"]).answer py"a" = .ok false ∧
    (IndexOp.run twoKeys [.ask py"a", .removeIndex py"x"]).Indexed py"a" := by
  have hv : twoKeys.Valid := Table.valid_of_check (by decide)
  refine ⟨⟨hv.toKeyed, rfl, fun i hi => (hv.idxCols i hi).1⟩, by decide, by decide, key py"y" [py"a", py"id"], by decide, by decide⟩
end

/-- **C29 is false** of every table, after every history, as soon as two keys start with the same column: after a question about the column and the
removal of one of the two, `column_is_indexed` denies that the column is indexed, although the other key is still there. -/
theorem C29_refuted (t : Table) (ht : t.Fresh) (hist : List IndexOp) (hs : ∀ op ∈ hist, op.Sane) (c m n : Str) (i j : Index)
    (hc : c ∈ (IndexOp.run t hist).columns.keys) (hi : (IndexOp.run t hist).indexes.get? m = some i) (hj : (IndexOp.run t hist).indexes.get? n = some j)
    (hmn : m ≠ n) (hic : i.columns.head? = some c) (hjc : j.columns.head? = some c) :
    (IndexOp.run t (hist ++ [.ask c, .removeIndex m])).answer c = .ok false ∧ (IndexOp.run t (hist ++ [.ask c, .removeIndex m])).Indexed c := by
  have h := run_inv hist hs ht.inv
  have hrun : IndexOp.run t (hist ++ [.ask c, .removeIndex m]) = IndexOp.step (IndexOp.step (IndexOp.run t hist) (.ask c)) (.removeIndex m) := by
    simp [IndexOp.run]
  rw [hrun]
  generalize IndexOp.run t hist = u at *
  -- the question fills the cache
  have hask : ∃ s, IndexOp.step u (.ask c) = { u with indexedCache := some s } := by
    simp only [IndexOp.step, columnIsIndexed, Dict.has_iff.mpr hc, Bool.not_true, Bool.false_eq_true, if_false]
    cases hu : u.indexedCache with
    | some s =>
      refine ⟨s, ?_⟩
      show u = _
      rw [← hu]
    | none =>
      obtain ⟨s, h1, _⟩ := firstColumns_ok h.cols
      exact ⟨s, by simp only [h1, Except.map, keep]⟩
  obtain ⟨s, hask⟩ := hask
  rw [hask]
  cases hcol : i.columns with
  | nil => rw [hcol] at hic; cases hic
  | cons x xs =>
    rw [hcol] at hic
    simp only [List.head?_cons, Option.some.injEq] at hic
    subst hic
    have hrem : IndexOp.step { u with indexedCache := some s } (.removeIndex m) =
        { u with indexes := u.indexes.erase m, indexedCache := some (s.filter (· ≠ x)) } := by
      simp only [IndexOp.step, removeIndex, hi, hcol, keep, Option.map_some]
    rw [hrem]
    refine ⟨?_, hc, j, ?_, hjc⟩
    · simp [Table.answer, columnIsIndexed, Dict.has_iff.mpr hc, Except.map]
    · apply Dict.mem_values.mpr
      refine ⟨n, Dict.mem_of_get? ?_⟩
      show (u.indexes.erase m).get? n = some j
      rw [Dict.get?_erase m _ h.nodup]
      simp [hmn, hj]

/-! ## C54 -/

/-- `table.primary` is the primary key: the only one, or none. -/
def Table.PrimaryRight (t : Table) : Prop := ∀ i, t.primary = some i ↔ i ∈ t.indexes.values ∧ i.isPrimary

/-- The primary key is neither removed nor changed, no key is made primary by a change, and none is added if there
is one. -/
def IndexOp.KeepsPrimary (t : Table) : IndexOp → Prop
  | .removeIndex n => ∀ i, t.indexes.get? n = some i → i.isPrimary = false
  | .changeIndex i => i.isPrimary = false ∧ ∀ j, t.indexes.get? i.name = some j → j.isPrimary = false
  | .addIndex i => i.isPrimary = true → ∀ j ∈ t.indexes.values, j.isPrimary = false
  | _ => True

/-- That is so at every step of a history. -/
def PrimaryUntouched : Table → List IndexOp → Prop
  | _, [] => True
  | t, op :: hist => op.KeepsPrimary t ∧ PrimaryUntouched (op.step t) hist

theorem primaryRight_congr {t t' : Table} (h1 : t'.indexes = t.indexes) (h2 : t'.primary = t.primary) (h : t.PrimaryRight) :
    t'.PrimaryRight := by
  unfold Table.PrimaryRight; rw [h1, h2]; exact h

theorem step_primary {t : Table} (op : IndexOp) (hi : Inv t) (h : t.PrimaryRight) (hk : op.KeepsPrimary t) :
    (op.step t).PrimaryRight := by
  cases op with
  | addColumn c p =>
    simp only [IndexOp.step]
    cases hr : t.addColumn c p with
    | error e => exact h
    | ok t' =>
      unfold addColumn at hr
      split at hr
      · simp at hr
      · split at hr
        · simp at hr; subst hr; exact primaryRight_congr rfl rfl h
        · simp at hr; subst hr; exact primaryRight_congr rfl rfl h
        · split at hr
          · simp at hr; subst hr; exact primaryRight_congr rfl rfl h
          · simp at hr
  | removeColumn n =>
    simp only [IndexOp.step]
    cases hr : t.removeColumn n with
    | error e => exact h
    | ok t' =>
      unfold removeColumn at hr
      split at hr
      · simp at hr; subst hr; exact primaryRight_congr rfl rfl h
      · simp at hr
  | changeColumn c =>
    simp only [IndexOp.step]
    cases hr : t.changeColumn c with
    | error e => exact h
    | ok t' =>
      unfold changeColumn at hr
      split at hr
      · simp at hr; subst hr; exact primaryRight_congr rfl rfl h
      · simp at hr
  | addIndex i =>
    simp only [IndexOp.step]
    cases hr : t.addIndex i with
    | error e => exact h
    | ok t' =>
      have hp : t'.indexes = t.indexes.set i.name i ∧ t'.primary = (if i.isPrimary then some i else t.primary) ∧
          i.name ∉ t.indexes.keys := by
        unfold addIndex at hr
        by_cases hh : t.indexes.has i.name = true
        · simp [hh] at hr
        · simp only [hh, Bool.false_eq_true, if_false] at hr
          have hnot : i.name ∉ t.indexes.keys := Dict.has_eq_false.mp (by simpa using hh)
          split at hr
          · simp at hr; subst hr; exact ⟨rfl, rfl, hnot⟩
          · split at hr
            · simp at hr
            · simp at hr; subst hr; exact ⟨rfl, rfl, hnot⟩
      obtain ⟨p1, p2, hnot⟩ := hp
      intro j
      simp only [keep]
      rw [p1, p2, mem_values_set hi.nodup]
      have hvals : (∃ k, k ≠ i.name ∧ t.indexes.get? k = some j) ↔ j ∈ t.indexes.values := by
        rw [Dict.mem_values]
        constructor
        · rintro ⟨k, _, hg⟩; exact ⟨k, Dict.mem_of_get? hg⟩
        · rintro ⟨k, hm⟩
          have hg := Dict.get?_of_mem hi.nodup hm
          exact ⟨k, fun e => hnot (e ▸ Dict.mem_keys_of_get? hg), hg⟩
      rw [hvals]
      by_cases hpi : i.isPrimary = true
      · simp only [hpi, if_true, Option.some.injEq]
        constructor
        · rintro rfl; exact ⟨.inl rfl, hpi⟩
        · rintro ⟨rfl | hj, hpj⟩
          · rfl
          · rw [hk hpi j hj] at hpj; simp at hpj
      · simp only [hpi, Bool.false_eq_true, if_false, h j]
        constructor
        · rintro ⟨hj, hpj⟩; exact ⟨.inr hj, hpj⟩
        · rintro ⟨rfl | hj, hpj⟩
          · exact absurd hpj hpi
          · exact ⟨hj, hpj⟩
  | removeIndex n =>
    simp only [IndexOp.step]
    cases hr : t.removeIndex n with
    | error e => exact h
    | ok t' =>
      unfold removeIndex at hr
      cases hg : t.indexes.get? n with
      | none => simp [hg] at hr
      | some i =>
        simp only [hg] at hr
        split at hr
        · simp at hr
        · simp only [Except.ok.injEq] at hr
          subst hr
          intro j
          simp only [keep]
          rw [h j, mem_values_erase hi.nodup, Dict.mem_values]
          constructor
          · rintro ⟨⟨k, hm⟩, hpj⟩
            have hgk := Dict.get?_of_mem hi.nodup hm
            refine ⟨⟨k, ?_, hgk⟩, hpj⟩
            rintro rfl
            rw [hk j hgk] at hpj
            simp at hpj
          · rintro ⟨⟨k, _, hgk⟩, hpj⟩; exact ⟨⟨k, Dict.mem_of_get? hgk⟩, hpj⟩
  | changeIndex i =>
    simp only [IndexOp.step]
    cases hr : t.changeIndex i with
    | error e => exact h
    | ok t' =>
      have hp : t'.indexes = t.indexes.set i.name i ∧ t'.primary = t.primary ∧ ∃ o, t.indexes.get? i.name = some o := by
        unfold changeIndex at hr
        cases hg : t.indexes.get? i.name with
        | none => simp [hg] at hr
        | some o =>
          simp only [hg] at hr
          split at hr
          · simp at hr; subst hr; exact ⟨rfl, rfl, o, rfl⟩
          · split at hr
            · simp at hr; subst hr; exact ⟨rfl, rfl, o, rfl⟩
            · simp at hr
      obtain ⟨p1, p2, o, ho⟩ := hp
      intro j
      simp only [keep]
      rw [p1, p2, h j, mem_values_set hi.nodup, Dict.mem_values]
      constructor
      · rintro ⟨⟨k, hm⟩, hpj⟩
        have hgk := Dict.get?_of_mem hi.nodup hm
        refine ⟨.inr ⟨k, ?_, hgk⟩, hpj⟩
        rintro rfl
        rw [hk.2 j hgk] at hpj
        simp at hpj
      · rintro ⟨rfl | ⟨k, _, hgk⟩, hpj⟩
        · rw [hk.1] at hpj; simp at hpj
        · exact ⟨⟨k, Dict.mem_of_get? hgk⟩, hpj⟩
  | ask c =>
    simp only [IndexOp.step]
    cases hr : (t.columnIsIndexed c).map Prod.snd with
    | error e => exact h
    | ok t' =>
      unfold columnIsIndexed at hr
      split at hr
      · simp [Except.map] at hr; subst hr; exact h
      · split at hr
        · simp [Except.map] at hr; subst hr; exact h
        · cases hf : firstColumns t.indexes.values with
          | error e => simp [hf, Except.map] at hr
          | ok s => simp [hf, Except.map] at hr; subst hr; exact primaryRight_congr rfl rfl h

/-- **C54** (partial).  After any history which leaves the primary key alone once there is one, `table.primary` is the
primary key, if there is one, and `None` otherwise.
Missing: histories which remove or change the primary key (`C54_counterexample`). -/
theorem C54_partial (t : Table) (ht : t.Fresh) (hp : t.PrimaryRight) (hist : List IndexOp) (hs : ∀ op ∈ hist, op.Sane)
    (hk : PrimaryUntouched t hist) (i : Index) :
    (IndexOp.run t hist).primary = some i ↔ i ∈ (IndexOp.run t hist).indexes.values ∧ i.isPrimary := by
  have key : ∀ (hist : List IndexOp) (t : Table), Inv t → t.PrimaryRight → (∀ op ∈ hist, op.Sane) → PrimaryUntouched t hist →
      (IndexOp.run t hist).PrimaryRight := by
    intro hist
    induction hist with
    | nil => intro t _ h _ _; exact h
    | cons op hist ih =>
      intro t hi h hs hk
      exact ih (op.step t) (step_inv op (hs op (by simp)) hi).1 (step_primary op hi h hk.1)
        (fun o ho => hs o (List.mem_cons_of_mem _ ho)) hk.2
  exact key hist t ht.inv hp hs hk i

/-- **C54 is false** of every table with a primary key, after every history: once the key has been removed, `table.primary` is still what it was. -/
theorem C54_refuted (t : Table) (ht : t.Fresh) (hist : List IndexOp) (hs : ∀ op ∈ hist, op.Sane) (hp : (IndexOp.run t hist).PrimaryRight)
    (n : Str) (i : Index) (hi : (IndexOp.run t hist).indexes.get? n = some i) (hprim : i.isPrimary = true) :
    (IndexOp.run t (hist ++ [.removeIndex n])).primary = some i ∧ i ∉ (IndexOp.run t (hist ++ [.removeIndex n])).indexes.values := by
  have h := run_inv hist hs ht.inv
  have hrun : IndexOp.run t (hist ++ [.removeIndex n]) = IndexOp.step (IndexOp.run t hist) (.removeIndex n) := by simp [IndexOp.run]
  rw [hrun]
  generalize IndexOp.run t hist = u at *
  cases hcol : i.columns with
  | nil => exact absurd hcol (h.cols i (Dict.mem_values.mpr ⟨n, Dict.mem_of_get? hi⟩))
  | cons x xs =>
    simp only [IndexOp.step, removeIndex, hi, hcol, keep]
    refine ⟨(hp i).mpr ⟨Dict.mem_values.mpr ⟨n, Dict.mem_of_get? hi⟩, hprim⟩, ?_⟩
    intro hm
    obtain ⟨k, hk⟩ := Dict.mem_values.mp hm
    have hk' := Dict.get?_of_mem (Dict.keys_erase_nodup n h.nodup) hk
    rw [Dict.get?_erase n _ h.nodup] at hk'
    split at hk'
    · cases hk'
    · rename_i hne
      have h1 := h.name k i (Dict.mem_of_get? hk')
      have h2 := h.name n i (Dict.mem_of_get? hi)
      exact hne (h2.symm.trans h1)

section
open Examples

/-- an empty table, to which a primary key and other keys are added, changed and removed -/
example : ({ name := py"t" } : Table).Fresh ∧ ({ name := py"t" } : Table).PrimaryRight ∧
    PrimaryUntouched { name := py"t" } [.addColumn idCol .last, .addIndex (key py"x" [py"id"]), .addIndex { pk with rawName := py"PRIMARY" },
      .ask py"id", .changeIndex (key py"x" [py"id", py"id"]), .removeIndex py"x"] ∧
    (IndexOp.run { name := py"t" } [.addColumn idCol .last, .addIndex (key py"x" [py"id"]), .addIndex { pk with rawName := py"PRIMARY" },
      .ask py"id", .changeIndex (key py"x" [py"id", py"id"]), .removeIndex py"x"]).primary = some { pk with rawName := py"PRIMARY" } := by
  refine ⟨⟨⟨by decide, by simp, by decide, by simp, by decide, by simp⟩, rfl, by simp [IndexesHaveColumns, Dict.values]⟩,
    by intro i; simp [Dict.values], ⟨trivial, fun h => ?_, fun _ => by decide, trivial, ⟨by decide, ?_⟩, ?_, trivial⟩, by decide⟩
  · exact absurd h (by decide)
  · intro j hj
    have : j = key py"x" [py"id"] := by
      have h2 : some (key py"x" [py"id"]) = some j := hj
      simpa using h2.symm
    subst this; rfl
  · intro j hj
    have : j = key py"x" [py"id", py"id"] := by
      have h2 : some (key py"x" [py"id", py"id"]) = some j := hj
      simpa using h2.symm
    subst this; rfl

/-- **C54** fails: removing the primary key leaves `table.primary` as it was. -/
theorem C54_counterexample : ∃ (t : Table) (n : Str), t.Valid ∧ t.PrimaryRight ∧
    (IndexOp.run t [.removeIndex n]).indexes = [] ∧ (IndexOp.run t [.removeIndex n]).primary = some pk := by
  refine ⟨{ mk py"t" [idCol] [pk] [] with primary := some pk }, py"id", ?_, ?_, by decide, by decide⟩
  · have hv : (mk py"t" [idCol] [pk] []).Valid := Table.valid_of_check (by decide)
    exact ⟨⟨hv.colNodup, hv.colName, hv.idxNodup, hv.idxName, hv.fkNodup, hv.fkName⟩, hv.hasCols, hv.onePrimary, hv.noPrimaryName, hv.idxCols, hv.fkCols⟩
  · intro i
    constructor
    · intro h
      simp only [Option.some.injEq] at h
      subst h
      exact ⟨by decide, by decide⟩
    · rintro ⟨hi, _⟩
      have : i ∈ [pk] := hi
      simp at this
      simp [this]
end

end Mygrations

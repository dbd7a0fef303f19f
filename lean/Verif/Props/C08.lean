import Verif.Props.C01
import Verif.Props.C02

/-! # C08: AUTO_INCREMENT is never changed -/

namespace Mygrations
open Table

theorem sameAs_self_of_noDefault [PyNum] (a : Column) (h : a.default = none) : a.sameAs a = .ok true := by
  have hd : a.sameDefault a = .ok true := by
    unfold Column.sameDefault
    cases a.cls <;> simp [Column.sameNumericDefault, h]
  have ht : a.sameTail a = .ok true := by
    simp [Column.sameTail, Column.defaultNoneMismatch, hd]
  have hb : a.sameBase a = .ok true := by simp [Column.sameBase, ht]
  have hn : ∀ o, Column.bothDiffer o o = false := by
    intro o; unfold Column.bothDiffer; cases Column.nonEmpty o <;> simp
  unfold Column.sameAs
  cases a.cls <;> simp [hb, ht, hn]

theorem changedColumnOps_autoInc [PyNum] {s t : Table}
    (hc : ∀ k a b, s.columns.get? k = some a → t.columns.get? k = some b → b = a ∨ a.default = none ∧ ∃ x, b = { a with autoInc := x }) :
    ∀ ks : List Str, (∀ k ∈ ks, k ∈ s.columns.keys ∧ k ∈ t.columns.keys) → changedColumnOps s t ks = .ok [] := by
  intro ks
  induction ks with
  | nil => intro _; rfl
  | cons k ks ih =>
    intro h
    obtain ⟨h1, h2⟩ := h k List.mem_cons_self
    obtain ⟨a, ha⟩ := Dict.exists_get? h1
    obtain ⟨b, hb⟩ := Dict.exists_get? h2
    have ih := ih (fun j hj => h j (List.mem_cons_of_mem _ hj))
    simp only [changedColumnOps, ha, hb]
    rcases hc k a b ha hb with rfl | ⟨hd, x, rfl⟩
    · simp [ih]
    · have hs : a.sameAs { a with autoInc := x } = .ok true := sameAs_self_of_noDefault a hd
      rw [hs, ih]
      split <;> rfl

/-- **C08 is false for AUTO_INCREMENT, whatever the table**: a migration between two tables which differ in nothing but
the AUTO_INCREMENT of columns without default is empty. -/
theorem C08_refuted [PyNum] (s t : Table) (hk : t.columns.keys = s.columns.keys) (hi : t.indexes = s.indexes)
    (hf : t.constraints = s.constraints)
    (hc : ∀ k a b, s.columns.get? k = some a → t.columns.get? k = some b → b = a ∨ a.default = none ∧ ∃ x, b = { a with autoInc := x }) :
    s.to t = .ok [] := by
  have e1 : added s.columns t.columns = [] := by
    rw [← added_self s.columns]; simp only [added, hk]
  have e2 : removed s.columns t.columns = [] := by
    rw [List.eq_nil_iff_forall_not_mem]
    intro k hk'
    have := mem_removed.mp hk'
    rw [hk] at this
    exact this.2 this.1
  have e3 : keyOps s t = keyOps s s := by simp only [keyOps, hi, added_self, removed_self, List.filter_nil]
  have e4 : removedFkOps s t = removedFkOps s s := by simp only [removedFkOps, changedConstraints, hf]
  have e5 : addedFkOps s t = addedFkOps s s := by simp only [addedFkOps, changedConstraints, hf]
  have h0 := C01_split s
  simp only [toSplit, added_self, addedColumnOps, changedColumnOps_self s _ (fun k hk => (mem_overlap.mp hk).1), removed_self,
    removedColumnOps, List.filterMap_nil, List.append_nil, List.nil_append, Except.ok.injEq, Diff.mk.injEq] at h0
  simp only [to, toSplit, e1, addedColumnOps, changedColumnOps_autoInc hc _ (fun k hk => mem_overlap.mp hk), e2, removedColumnOps,
    List.filterMap_nil, List.append_nil, List.nil_append, e3, e4, e5, h0]
  rfl

open Examples in
/-- `AUTO_INCREMENT` of `id` is dropped: a table with several columns and keys -/
example : ∃ s t : Table, s.Valid ∧ t.Valid ∧ t.columns.keys = s.columns.keys ∧ t.indexes = s.indexes ∧ t.constraints = s.constraints ∧
    (∃ k a b, s.columns.get? k = some a ∧ t.columns.get? k = some b ∧ a.isAutoInc ≠ b.isAutoInc) ∧
    (∀ k a b, s.columns.get? k = some a → t.columns.get? k = some b → b = a ∨ a.default = none ∧ ∃ x, b = { a with autoInc := x }) := by
  refine ⟨auto, plain, valid_of_check (by decide), valid_of_check (by decide), by decide, by decide, by decide,
    ⟨py"id", idCol, { idCol with autoInc := some false }, by decide, by decide, by decide⟩, ?_⟩
  intro k a b ha hb
  have hk : k = py"id" := by
    have := Dict.mem_keys_of_get? ha
    have he : auto.columns.keys = [py"id"] := by decide
    rw [he] at this; simpa using this
  subst hk
  have h1 : auto.columns.get? py"id" = some idCol := by decide
  have h2 : plain.columns.get? py"id" = some { idCol with autoInc := some false } := by decide
  rw [h1] at ha; rw [h2] at hb; cases ha; cases hb
  exact .inr ⟨by decide, _, rfl⟩

end Mygrations

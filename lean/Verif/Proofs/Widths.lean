import Verif.Proofs.Agree
import Verif.Proofs.PlanFks

/-! # The migration between two descriptions which differ in display widths -/

namespace Mygrations
open Table Mygration

theorem width_sameAs [PyNum] {a b : Column} (h : SameButWidth a b) (hn : a.cls = .numeric → a.NumberDefault) : a.render = b.render ∨ a.sameAs b = .ok true := by
  rcases h with h | ⟨h1, h2, h3⟩
  · exact .inl (sameColumn_render h.symm)
  · right
    have hname : b.name = a.name := h3.name
    have hnull : b.null = a.null := h3.null
    have htype : b.columnType = a.columnType := h3.type
    have huns : b.isUnsigned = a.isUnsigned := h3.unsigned
    have hdef : b.default = a.default := h3.default
    have hint : Column.integerTypes.contains a.columnType = true := by
      simp only [List.mem_cons, List.not_mem_nil, or_false] at h2
      rcases h2 with h | h | h | h | h | h <;> rw [h] <;> decide
    have hdec : a.columnType ≠ py"DECIMAL" := by
      intro e
      rw [e] at hint
      exact absurd hint (by decide)
    have hmis : a.defaultNoneMismatch b = false := by
      unfold Column.defaultNoneMismatch
      rw [hdef]
      simp
    unfold Column.sameAs
    rw [h1]
    simp only [hint, if_true]
    rw [if_neg (by simp [hname, hnull, htype])]
    unfold Column.sameTail
    rw [if_neg (by simp [huns]), hmis]
    simp only [Bool.false_eq_true, if_false]
    unfold Column.sameDefault
    rw [h1]
    simp only
    unfold Column.sameNumericDefault
    rw [hdef]
    cases hd : a.default with
    | none => rfl
    | some v =>
      obtain ⟨x, hx, hxx⟩ := hn h1 v hd
      simp only [if_pos hdec, hx, hxx]

theorem width_changedColumns [PyNum] {s t : Table} (h : Agree SameButWidth s.columns t.columns) (hn : ∀ e ∈ s.columns, e.2.cls = .numeric → e.2.NumberDefault) :
    ∀ ks, (∀ k ∈ ks, k ∈ overlap s.columns t.columns) → changedColumnOps s t ks = .ok [] := by
  intro ks
  induction ks with
  | nil => intro _; rfl
  | cons k ks ih =>
    intro hk
    obtain ⟨a, b, ha, hb, hab⟩ := h.overlap (hk k List.mem_cons_self)
    have := ih (fun j hj => hk j (List.mem_cons_of_mem _ hj))
    simp only [changedColumnOps, ha, hb]
    split
    · exact this
    · rename_i hne
      rcases width_sameAs hab (hn (k, a) (Dict.mem_of_get? ha)) with he | he
      · exact absurd he hne
      · rw [he]
        exact this

theorem width_split [PyNum] {s t : Table} (h : s.AgreesButWidths t) (hn : ∀ e ∈ s.columns, e.2.cls = .numeric → e.2.NumberDefault) :
    s.toSplit t = .ok ⟨[], [], []⟩ := by
  have hk : keyOps s t = [] := by
    unfold keyOps
    simp only [h.indexes.added, h.indexes.removed, List.filter_nil, List.filterMap_nil, List.nil_append]
    rw [List.filterMap_eq_nil_iff]
    intro k hk
    obtain ⟨a, b, ha, hb, hab⟩ := h.indexes.overlap hk
    simp only [ha, hb]
    split
    · rfl
    · rw [if_pos ⟨hab.columns.symm, hab.type.symm⟩]
  have hc : changedConstraints s t = [] := by
    unfold changedConstraints
    rw [List.filter_eq_nil_iff]
    intro k hk
    obtain ⟨a, b, ha, hb, hab⟩ := h.constraints.overlap hk
    simp only [ha, hb]
    simp [hab.render]
  unfold toSplit
  simp only [h.columns.added, h.columns.removed, addedColumnOps, width_changedColumns h.columns hn _ (fun _ hk => hk), hk, removedFkOps, addedFkOps,
    h.constraints.added, h.constraints.removed, hc]
  rfl

theorem width_updateTables [PyNum] {f t : Dict Table} (h : Agree Table.AgreesButWidths f t)
    (hn : ∀ s ∈ Dict.values f, ∀ e ∈ s.columns, e.2.cls = .numeric → e.2.NumberDefault) (cycled : List (Str × Str)) :
    ∀ ns, (∀ n ∈ ns, n ∈ overlap f t) → updateTables cycled f t ns = .ok ([], []) := by
  intro ns
  induction ns with
  | nil => intro _; rfl
  | cons n ns ih =>
    intro hns
    obtain ⟨a, b, ha, hb, hab⟩ := h.overlap (hns n List.mem_cons_self)
    simp only [updateTables, ha, hb, updateTable, width_split hab (hn a (Dict.mem_values.mpr ⟨n, Dict.mem_of_get? ha⟩)), ih (fun m hm => hns m (List.mem_cons_of_mem _ hm))]
    simp [stripCycled, alterIf]

theorem width_changing {f t : Dict Table} (hf : ∀ s ∈ Dict.values f, ∀ e ∈ s.columns, e.2.UsualLength)
    (ht : ∀ s ∈ Dict.values t, ∀ e ∈ s.columns, e.2.UsualLength) (hkf : KeyedTables f) {n c : Str} (hm : (n, c) ∈ changingColumns f t (overlap f t)) : Widened f t n c := by
  obtain ⟨s, s', a, b, hs, hs', ha, hb, hd⟩ := (mem_changingColumns hkf).mp hm
  refine ⟨s, s', a, b, hs, hs', ha, hb, fun hsame => ?_⟩
  have := same_typeDiffers hsame (hf s (Dict.mem_values.mpr ⟨n, Dict.mem_of_get? hs⟩) (c, a) (Dict.mem_of_get? ha))
    (ht s' (Dict.mem_values.mpr ⟨n, Dict.mem_of_get? hs'⟩) (c, b) (Dict.mem_of_get? hb))
  rw [columnTypeDiffers_iff.mpr hd] at this
  cases this

theorem width_process [PyNum] {f t : Dict Table} (h : Agree Table.AgreesButWidths f t)
    (hn : ∀ s ∈ Dict.values f, ∀ e ∈ s.columns, e.2.cls = .numeric → e.2.NumberDefault) :
    process t (some f) false = .ok ((groupAlters (cycleDrops (cycles (some f) t))).map .alter ++ (groupAlters (cycleAdds (cycles (some f) t) [])).map .alter) := by
  simp only [process, Option.getD_some, width_updateTables h hn _ _ (fun _ hn => hn), h.added, h.removed]
  simp

end Mygrations

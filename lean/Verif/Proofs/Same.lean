import Verif.Proofs.ReadDoc
import Verif.Props.C09

/-! # The migration between two descriptions of the same schema is empty -/

namespace Mygrations
open Table Mygration

section
variable {V W : Type} {R : V → W → Prop} {d : Dict V} {d' : Dict W}

theorem paired_keys (h : Paired (fun a b => b.1 = a.1 ∧ R a.2 b.2) d d') : Dict.keys d' = Dict.keys d := by
  induction h with
  | nil => rfl
  | cons h _ ih => simp [h.1, ih]

theorem paired_get? (h : Paired (fun a b => b.1 = a.1 ∧ R a.2 b.2) d d') {k : Str} {a : V} {b : W} (ha : Dict.get? d k = some a) (hb : Dict.get? d' k = some b) : R a b := by
  induction h with
  | nil => simp at ha
  | @cons x y _ _ hx _ ih =>
    obtain ⟨kx, vx⟩ := x
    obtain ⟨ky, vy⟩ := y
    obtain ⟨h1, h2⟩ := hx
    simp only at h1 h2
    subst h1
    rw [Dict.get?_cons] at ha hb
    split at ha
    · rename_i hk
      rw [if_pos hk] at hb
      cases ha; cases hb
      exact h2
    · rename_i hk
      rw [if_neg hk] at hb
      exact ih ha hb

theorem paired_added (h : Paired (fun a b => b.1 = a.1 ∧ R a.2 b.2) d d') : added d d' = [] := by
  rw [List.eq_nil_iff_forall_not_mem]
  intro k hk
  obtain ⟨h1, h2⟩ := mem_added.mp hk
  rw [paired_keys h] at h1
  exact h2 h1

theorem paired_removed (h : Paired (fun a b => b.1 = a.1 ∧ R a.2 b.2) d d') : removed d d' = [] := by
  rw [List.eq_nil_iff_forall_not_mem]
  intro k hk
  obtain ⟨h1, h2⟩ := mem_removed.mp hk
  rw [paired_keys h] at h2
  exact h2 h1

theorem paired_overlap (h : Paired (fun a b => b.1 = a.1 ∧ R a.2 b.2) d d') {k : Str} (hk : k ∈ overlap d d') :
    ∃ a b, Dict.get? d k = some a ∧ Dict.get? d' k = some b ∧ R a b := by
  obtain ⟨h1, h2⟩ := mem_overlap.mp hk
  obtain ⟨a, ha⟩ := Dict.exists_get? h1
  obtain ⟨b, hb⟩ := Dict.exists_get? h2
  exact ⟨a, b, ha, hb, paired_get? h ha hb⟩
end

theorem same_changedColumns [PyNum] {s t : Table} (h : Paired (fun a b => b.1 = a.1 ∧ SameColumn a.2 b.2) s.columns t.columns) :
    ∀ ks, (∀ k ∈ ks, k ∈ overlap s.columns t.columns) → changedColumnOps s t ks = .ok [] := by
  intro ks
  induction ks with
  | nil => intro _; rfl
  | cons k ks ih =>
    intro hk
    obtain ⟨a, b, ha, hb, hab⟩ := paired_overlap h (hk k List.mem_cons_self)
    simp only [changedColumnOps, ha, hb, sameColumn_render hab, if_true]
    exact ih (fun j hj => hk j (List.mem_cons_of_mem _ hj))

/-- the same foreign key -/
def SameFk (a b : Constraint) : Prop := b = { a with parsingErrors := [] }

theorem same_split [PyNum] {s t : Table} (h : SameTable s t) : s.toSplit t = .ok ⟨[], [], []⟩ := by
  have hk : keyOps s t = [] := by
    unfold keyOps
    simp only [paired_added h.indexes, paired_removed h.indexes, List.filter_nil, List.filterMap_nil, List.nil_append]
    rw [List.filterMap_eq_nil_iff]
    intro k hk
    obtain ⟨a, b, ha, hb, hab⟩ := paired_overlap h.indexes hk
    simp only [ha, hb]
    split
    · rfl
    · rw [if_pos ⟨hab.columns.symm, hab.type.symm⟩]
  have hcs : Paired (fun a b => b.1 = a.1 ∧ SameFk a.2 b.2) s.constraints t.constraints := h.constraints
  have hc : changedConstraints s t = [] := by
    unfold changedConstraints
    rw [List.filter_eq_nil_iff]
    intro k hk
    obtain ⟨a, b, ha, hb, hab⟩ := paired_overlap hcs hk
    cases hab
    simp only [ha, hb]
    have : Constraint.render { a with parsingErrors := [] } = a.render := rfl
    simp [this]
  unfold toSplit
  simp only [paired_added h.columns, paired_removed h.columns, addedColumnOps, same_changedColumns h.columns _ (fun _ hk => hk), hk, removedFkOps, addedFkOps,
    paired_added hcs, paired_removed hcs, hc]
  rfl

theorem same_typeDiffers {a b : Column} (h : SameColumn a b) (ha : a.UsualLength) (hb : b.UsualLength) : columnTypeDiffers a b = false := by
  have hl : b.len = a.len := by
    rcases h.len with hl | ⟨h1, h2⟩
    · exact hl
    · rw [ha h1, hb h2, h.default]
  simp [columnTypeDiffers, h.type, hl, h.unsigned, h.charset, h.collate]

/-- the tables are pairwise the same -/
abbrev SameTables (f t : Dict Table) : Prop := Paired (fun a b => b.1 = a.1 ∧ SameTable a.2 b.2) f t

theorem same_cycles {f t : Dict Table} (h : SameTables f t) (hkey : ∀ s ∈ Dict.values f, s.Keyed) (hf : ∀ s ∈ Dict.values f, ∀ e ∈ s.columns, e.2.UsualLength)
    (ht : ∀ s ∈ Dict.values t, ∀ e ∈ s.columns, e.2.UsualLength) : cycles (some f) t = [] := by
  have hch : changingColumns f t (overlap f t) = [] := by
    unfold changingColumns
    rw [List.flatMap_eq_nil_iff]
    intro n hn
    obtain ⟨a, b, ha, hb, hab⟩ := paired_overlap h hn
    simp only [ha, hb]
    unfold changingColumnsOf
    rw [List.map_eq_nil_iff, List.filter_eq_nil_iff]
    intro e he
    split
    · rename_i d hd
      have hea : Dict.get? a.columns e.1 = some e.2 := Dict.get?_of_mem (hkey a (Dict.mem_values.mpr ⟨n, Dict.mem_of_get? ha⟩)).colNodup he
      rw [same_typeDiffers (paired_get? hab.columns hea hd) (hf a (Dict.mem_values.mpr ⟨n, Dict.mem_of_get? ha⟩) e he)
        (ht b (Dict.mem_values.mpr ⟨n, Dict.mem_of_get? hb⟩) (e.1, d) (Dict.mem_of_get? hd))]
      simp
    · simp
  unfold cycles fksToCycle
  simp only [hch]
  simp [involves]

theorem same_updateTables [PyNum] {f t : Dict Table} (h : SameTables f t) : ∀ ns, (∀ n ∈ ns, n ∈ overlap f t) → updateTables [] f t ns = .ok ([], []) := by
  intro ns
  induction ns with
  | nil => intro _; rfl
  | cons n ns ih =>
    intro hn
    obtain ⟨a, b, ha, hb, hab⟩ := paired_overlap h (hn n List.mem_cons_self)
    simp only [updateTables, ha, hb, updateTable, same_split hab, ih (fun m hm => hn m (List.mem_cons_of_mem _ hm))]
    simp [stripCycled, alterIf]

theorem same_process [PyNum] {f t : Dict Table} (h : SameTables f t) (hkey : ∀ s ∈ Dict.values f, s.Keyed)
    (hf : ∀ s ∈ Dict.values f, ∀ e ∈ s.columns, e.2.UsualLength) (ht : ∀ s ∈ Dict.values t, ∀ e ∈ s.columns, e.2.UsualLength) (checks : Bool) :
    process t (some f) checks = .ok (if checks then [.disableChecks, .enableChecks] else []) := by
  simp only [process, Option.getD_some, same_cycles h hkey hf ht]
  rw [show cycledNames [] = [] from rfl, same_updateTables h _ (fun _ hn => hn)]
  simp only [paired_added h, paired_removed h]
  cases checks <;> rfl

end Mygrations

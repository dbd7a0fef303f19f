import Verif.Proofs.Same
import Verif.Proofs.ReadLive

/-! # The migration between two descriptions of the same schema is empty, whatever their order -/

namespace Mygrations
open Table Mygration

section
variable {U V W : Type} {R : V → W → Prop} {a : Dict V} {b : Dict W}

theorem Agree.keys (h : Agree R a b) {k : Str} : k ∈ Dict.keys a ↔ k ∈ Dict.keys b := by
  have := h k
  constructor
  · intro hk
    obtain ⟨x, hx⟩ := Dict.exists_get? hk
    rw [hx] at this
    cases hy : Dict.get? b k with
    | none => rw [hy] at this; exact this.elim
    | some y => exact Dict.mem_keys_of_get? hy
  · intro hk
    obtain ⟨y, hy⟩ := Dict.exists_get? hk
    rw [hy] at this
    cases hx : Dict.get? a k with
    | none => rw [hx] at this; exact this.elim
    | some x => exact Dict.mem_keys_of_get? hx

theorem Agree.get (h : Agree R a b) {k : Str} {x : V} {y : W} (hx : Dict.get? a k = some x) (hy : Dict.get? b k = some y) : R x y := by
  have := h k
  rw [hx, hy] at this
  exact this

theorem agree_of (hk : ∀ k, k ∈ Dict.keys a ↔ k ∈ Dict.keys b) (hr : ∀ k x y, Dict.get? a k = some x → Dict.get? b k = some y → R x y) : Agree R a b := by
  intro k
  cases hx : Dict.get? a k with
  | none =>
    cases hy : Dict.get? b k with
    | none => trivial
    | some y => exact absurd ((hk k).mpr (Dict.mem_keys_of_get? hy)) (Dict.get?_eq_none.mp hx)
  | some x =>
    cases hy : Dict.get? b k with
    | none => exact absurd ((hk k).mp (Dict.mem_keys_of_get? hx)) (Dict.get?_eq_none.mp hy)
    | some y => exact hr k x y hx hy

theorem Agree.added (h : Agree R a b) : added a b = [] := by
  rw [List.eq_nil_iff_forall_not_mem]
  intro k hk
  obtain ⟨h1, h2⟩ := mem_added.mp hk
  exact h2 (h.keys.mpr h1)

theorem Agree.removed (h : Agree R a b) : removed a b = [] := by
  rw [List.eq_nil_iff_forall_not_mem]
  intro k hk
  obtain ⟨h1, h2⟩ := mem_removed.mp hk
  exact h2 (h.keys.mp h1)

theorem Agree.overlap (h : Agree R a b) {k : Str} (hk : k ∈ overlap a b) : ∃ x y, Dict.get? a k = some x ∧ Dict.get? b k = some y ∧ R x y := by
  obtain ⟨h1, h2⟩ := mem_overlap.mp hk
  obtain ⟨x, hx⟩ := Dict.exists_get? h1
  obtain ⟨y, hy⟩ := Dict.exists_get? h2
  exact ⟨x, y, hx, hy, h.get hx hy⟩

theorem paired_agree (h : Paired (fun x y => y.1 = x.1 ∧ R x.2 y.2) a b) : Agree R a b :=
  agree_of (fun k => by rw [paired_keys h]) (fun _ _ _ hx hy => paired_get? h hx hy)

theorem Agree.chain {X : Type} {S : X → V → Prop} {T : X → W → Prop} {Q : V → W → Prop} {c : Dict X} (h1 : Agree S c a) (h2 : Agree T c b)
    (hq : ∀ x v w, S x v → T x w → Q v w) : Agree Q a b := by
  refine agree_of (fun k => (h1.keys.symm.trans h2.keys)) (fun k v w hv hw => ?_)
  obtain ⟨x, hx⟩ := Dict.exists_get? (h1.keys.mpr (Dict.mem_keys_of_get? hv))
  exact hq x v w (h1.get hx hv) (h2.get hx hw)
end

theorem SameColumn.trans {a b c : Column} (h : SameColumn a b) (h' : SameColumn b c) : SameColumn a c :=
  ⟨h'.cls.trans h.cls, h'.name.trans h.name, h'.type.trans h.type, by
    rcases h.len with h1 | ⟨h1, h2⟩
    · rcases h'.len with h3 | ⟨h3, h4⟩
      · exact Or.inl (h3.trans h1)
      · exact Or.inr ⟨by rw [← h1]; exact h3, h4⟩
    · rcases h'.len with h3 | ⟨h3, h4⟩
      · exact Or.inr ⟨h1, by rw [h3]; exact h2⟩
      · exact Or.inr ⟨h1, h4⟩,
   h'.null.trans h.null, h'.default.trans h.default, h'.unsigned.trans h.unsigned, h'.autoInc.trans h.autoInc, h'.charset.trans h.charset,
   h'.collate.trans h.collate, h'.enumValues.trans h.enumValues⟩

theorem SameColumn.symm {a b : Column} (h : SameColumn a b) : SameColumn b a :=
  ⟨h.cls.symm, h.name.symm, h.type.symm, h.len.imp Eq.symm And.symm, h.null.symm, h.default.symm, h.unsigned.symm, h.autoInc.symm, h.charset.symm,
    h.collate.symm, h.enumValues.symm⟩

theorem SameIndex.trans {a b c : Index} (h : SameIndex a b) (h' : SameIndex b c) : SameIndex a c :=
  ⟨h'.name.trans h.name, h'.columns.trans h.columns, h'.type.trans h.type⟩

theorem SameIndex.symm {a b : Index} (h : SameIndex a b) : SameIndex b a := ⟨h.name.symm, h.columns.symm, h.type.symm⟩

theorem SameConstraint.trans {a b c : Constraint} (h : SameConstraint a b) (h' : SameConstraint b c) : SameConstraint a c :=
  ⟨h'.name.trans h.name, h'.column.trans h.column, h'.ftable.trans h.ftable, h'.fcolumn.trans h.fcolumn, h'.onDelete.trans h.onDelete,
    h'.onUpdate.trans h.onUpdate⟩

theorem SameConstraint.symm {a b : Constraint} (h : SameConstraint a b) : SameConstraint b a :=
  ⟨h.name.symm, h.column.symm, h.ftable.symm, h.fcolumn.symm, h.onDelete.symm, h.onUpdate.symm⟩

theorem SameConstraint.render {a b : Constraint} (h : SameConstraint a b) : b.render = a.render := by
  simp only [Constraint.render, h.name, h.column, h.ftable, h.fcolumn, h.onDelete, h.onUpdate]

theorem SameTable.agrees {s t : Table} (h : SameTable s t) : s.Agrees t :=
  ⟨paired_agree h.columns, paired_agree h.indexes,
    paired_agree (R := SameConstraint) (by
      have := h.constraints
      generalize s.constraints = x at this
      generalize t.constraints = y at this
      induction this with
      | nil => exact .nil
      | cons hx _ ih => exact .cons ⟨hx.1, by rw [hx.2]; exact ⟨rfl, rfl, rfl, rfl, rfl, rfl⟩⟩ ih)⟩

theorem Table.Agrees.chain {s a b : Table} (h1 : s.Agrees a) (h2 : s.Agrees b) : a.Agrees b :=
  ⟨h1.columns.chain h2.columns (fun _ _ _ x y => x.symm.trans y), h1.indexes.chain h2.indexes (fun _ _ _ x y => x.symm.trans y),
    h1.constraints.chain h2.constraints (fun _ _ _ x y => x.symm.trans y)⟩

theorem Table.Agrees.symm {a b : Table} (h : a.Agrees b) : b.Agrees a := by
  refine Table.Agrees.chain h ⟨?_, ?_, ?_⟩
  · exact agree_of (fun _ => Iff.rfl) (fun k x y hx hy => by rw [hx] at hy; cases hy; exact ⟨rfl, rfl, rfl, Or.inl rfl, rfl, rfl, rfl, rfl, rfl, rfl, rfl⟩)
  · exact agree_of (fun _ => Iff.rfl) (fun k x y hx hy => by rw [hx] at hy; cases hy; exact ⟨rfl, rfl, rfl⟩)
  · exact agree_of (fun _ => Iff.rfl) (fun k x y hx hy => by rw [hx] at hy; cases hy; exact ⟨rfl, rfl, rfl, rfl, rfl, rfl⟩)

theorem agree_changedColumns [PyNum] {s t : Table} (h : Agree SameColumn s.columns t.columns) :
    ∀ ks, (∀ k ∈ ks, k ∈ overlap s.columns t.columns) → changedColumnOps s t ks = .ok [] := by
  intro ks
  induction ks with
  | nil => intro _; rfl
  | cons k ks ih =>
    intro hk
    obtain ⟨a, b, ha, hb, hab⟩ := h.overlap (hk k List.mem_cons_self)
    simp only [changedColumnOps, ha, hb, sameColumn_render hab, if_true]
    exact ih (fun j hj => hk j (List.mem_cons_of_mem _ hj))

theorem agree_split [PyNum] {s t : Table} (h : s.Agrees t) : s.toSplit t = .ok ⟨[], [], []⟩ := by
  have hk : keyOps s t = [] := by
    unfold keyOps
    simp only [h.indexes.added, h.indexes.removed, List.filter_nil, List.filterMap_nil, List.nil_append]
    rw [List.filterMap_eq_nil_iff]
    intro k hk
    obtain ⟨a, b, ha, hb, hab⟩ := h.indexes.overlap hk
    simp only [ha, hb]
    split
    · rfl
    · rw [if_pos ⟨hab.columns.symm, hab.type.symm⟩]
  have hc : changedConstraints s t = [] := by
    unfold changedConstraints
    rw [List.filter_eq_nil_iff]
    intro k hk
    obtain ⟨a, b, ha, hb, hab⟩ := h.constraints.overlap hk
    simp only [ha, hb]
    simp [hab.render]
  unfold toSplit
  simp only [h.columns.added, h.columns.removed, addedColumnOps, agree_changedColumns h.columns _ (fun _ hk => hk), hk, removedFkOps, addedFkOps,
    h.constraints.added, h.constraints.removed, hc]
  rfl

theorem agree_cycles {f t : Dict Table} (h : Agree Table.Agrees f t) (hkey : ∀ s ∈ Dict.values f, s.Keyed) (hf : ∀ s ∈ Dict.values f, ∀ e ∈ s.columns, e.2.UsualLength)
    (ht : ∀ s ∈ Dict.values t, ∀ e ∈ s.columns, e.2.UsualLength) : cycles (some f) t = [] := by
  have hch : changingColumns f t (overlap f t) = [] := by
    unfold changingColumns
    rw [List.flatMap_eq_nil_iff]
    intro n hn
    obtain ⟨a, b, ha, hb, hab⟩ := h.overlap hn
    simp only [ha, hb]
    unfold changingColumnsOf
    rw [List.map_eq_nil_iff, List.filter_eq_nil_iff]
    intro e he
    split
    · rename_i d hd
      have hea : Dict.get? a.columns e.1 = some e.2 := Dict.get?_of_mem (hkey a (Dict.mem_values.mpr ⟨n, Dict.mem_of_get? ha⟩)).colNodup he
      rw [same_typeDiffers (hab.columns.get hea hd) (hf a (Dict.mem_values.mpr ⟨n, Dict.mem_of_get? ha⟩) e he)
        (ht b (Dict.mem_values.mpr ⟨n, Dict.mem_of_get? hb⟩) (e.1, d) (Dict.mem_of_get? hd))]
      simp
    · simp
  unfold cycles fksToCycle
  simp only [hch]
  simp [involves]

theorem agree_updateTables [PyNum] {f t : Dict Table} (h : Agree Table.Agrees f t) : ∀ ns, (∀ n ∈ ns, n ∈ overlap f t) → updateTables [] f t ns = .ok ([], []) := by
  intro ns
  induction ns with
  | nil => intro _; rfl
  | cons n ns ih =>
    intro hn
    obtain ⟨a, b, ha, hb, hab⟩ := h.overlap (hn n List.mem_cons_self)
    simp only [updateTables, ha, hb, updateTable, agree_split hab, ih (fun m hm => hn m (List.mem_cons_of_mem _ hm))]
    simp [stripCycled, alterIf]

theorem agree_process [PyNum] {f t : Dict Table} (h : Agree Table.Agrees f t) (hkey : ∀ s ∈ Dict.values f, s.Keyed)
    (hf : ∀ s ∈ Dict.values f, ∀ e ∈ s.columns, e.2.UsualLength) (ht : ∀ s ∈ Dict.values t, ∀ e ∈ s.columns, e.2.UsualLength) :
    process t (some f) false = .ok [] := by
  simp only [process, Option.getD_some, agree_cycles h hkey hf ht]
  rw [show cycledNames [] = [] from rfl, agree_updateTables h _ (fun _ hn => hn)]
  simp only [h.added, h.removed]
  rfl

end Mygrations

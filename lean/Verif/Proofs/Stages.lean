import Verif.Proofs.FkSets
import Verif.Props.C02
import Verif.Props.C04

/-! # The stages of a table during a migration, and the foreign keys at all stages -/

namespace Mygrations
open Table MySQL Mygration

/-! ## Changing columns and keys -/

theorem kitchen_changed [PyNum] {s t : Table} (hs : s.Keyed) (ht : t.Keyed) {d : Diff} (h : s.toSplit t = .ok d) :
    ∀ e ∈ changedCols (d.kitchenSink.flatMap clauses), t.columns.get? e.1 = some e.2 ∧ ∃ a, s.columns.get? e.1 = some a ∧ ¬ Equivalent a e.2 := by
  simp only [toSplit, addedColumnOps_added s t ht] at h
  cases hc : changedColumnOps s t (overlap s.columns t.columns) with
  | error e => simp [hc] at h
  | ok changes =>
    simp only [hc, Except.ok.injEq] at h
    obtain ⟨ch, c1, c2, c3, c4⟩ := changedColumnOps_spec s t ht _ _ (overlap_nodup hs.colNodup) hc
    have hA := addsFrom_clauses s.columns [] t.columns
    have hC := changes_clauses ch (fun e he => (c3 e he).2.2.1)
    have hR := removedColumnOps_eq s hs (removed s.columns t.columns) (fun k hk => (mem_removed.mp hk).1)
    have hK := keyOps_clauses s t
    subst h
    subst c1
    simp only [List.flatMap_append, changedCols_append, hA, hC, hR, hK.2.1, List.nil_append, List.append_nil]
    exact fun e he => ⟨(c3 e he).2.1, (c3 e he).2.2.2⟩

theorem emptyFk : FkOnly [] := by simp [FkOnly]

/-- changing the columns and keys of a table does not depend on its foreign keys -/
theorem kitchen_all [PyNum] {s t : Table} (hs : s.Valid) (ht : t.Valid) (ps : s.Plain) (pt : t.Plain)
    (hp : PrimaryKept s t) {d : Diff} (h : s.toSplit t = .ok d) :
    ∃ cols, ColsOk s t cols ∧ (d.kitchenSink = [] → cols = s.columns ∧ finalKeys s t = (ofTable s).keys) ∧
      ∀ F : Dict Constraint, (∀ e ∈ F, e.2.column ∈ t.columns.keys) →
        alterTable ⟨s.columns, (ofTable s).keys, F⟩ (d.kitchenSink.flatMap clauses) = some ⟨cols, finalKeys s t, F⟩ := by
  have run : ∀ F : Dict Constraint, (∀ e ∈ F, e.2.column ∈ t.columns.keys) →
      ∃ cols, alterTable ⟨s.columns, (ofTable s).keys, F⟩ (d.kitchenSink.flatMap clauses) = some ⟨cols, finalKeys s t, F⟩ ∧ ColsOk s t cols := by
    intro F hF
    have := kitchen_exec hs ht ps pt hp h [] emptyFk F F F (dropNames_nil F) rfl hF
    simpa using this
  obtain ⟨cols, h1, h2⟩ := run [] (by simp)
  refine ⟨cols, h2, ?_, ?_⟩
  · intro hk
    rw [hk] at h1
    have hstay := fkAlter_exec (C := s.columns) (K := (ofTable s).keys) (F := []) (F₀ := []) (F' := []) (cl := []) emptyFk hs.hasCols
      (validKeys hs) (dropNames_nil _) rfl (by simp)
    simp only [List.flatMap_nil] at h1
    rw [hstay] at h1
    simp only [Option.some.injEq, STable.mk.injEq] at h1
    exact ⟨h1.1.symm, h1.2.1.symm⟩
  · intro F hF
    obtain ⟨cols', h3, _⟩ := run F hF
    obtain ⟨a0, a1, _, _, b1, b2, b3, _⟩ := alterTable_steps h1
    obtain ⟨a0', a1', _, _, c1, c2, c3, _⟩ := alterTable_steps h3
    simp only at b1 b2 b3 c1 c2 c3
    rw [b1] at c1
    cases c1
    rw [b2] at c2
    cases c2
    rw [b3] at c3
    cases c3
    exact h3

/-! ## Columns which a foreign key can use -/

/-- what must agree between the two columns of a foreign key -/
def colTy (c : Column) := (c.columnType, c.isUnsigned)

theorem linkable_iff {c d : Column} : linkable c d = true ↔ colTy c = colTy d := by simp [linkable, colTy]

/-- the table has the column, of the type, and it leads a key -/
def Offers (cols : Dict Column) (keys : Dict Index) (x : Str) (τ : Str × Bool) : Prop :=
  ∃ c, cols.get? x = some c ∧ keys.any (fun e => e.2.columns.head? = some x) = true ∧ colTy c = τ

theorem Offers.one {cols : Dict Column} {keys : Dict Index} {x : Str} {τ τ' : Str × Bool} (h : Offers cols keys x τ) (h' : Offers cols keys x τ') :
    τ = τ' := by
  obtain ⟨c, h1, _, h2⟩ := h
  obtain ⟨d, h3, _, h4⟩ := h'
  rw [h1] at h3
  cases h3
  exact h2.symm.trans h4

theorem fits_offers {σ : Tabs} {st : STable} {k : Constraint} :
    Fits σ st k ↔ ∃ τ, Offers st.cols st.keys k.column τ ∧ ∀ p, σ k.ftable = some p → Offers p.cols p.keys k.fcolumn τ := by
  constructor
  · rintro ⟨c, h1, h2, h3⟩
    refine ⟨colTy c, ⟨c, h1, h2, rfl⟩, fun p hp => ?_⟩
    obtain ⟨d, h4, h5, h6⟩ := h3 p hp
    exact ⟨d, h4, h5, (linkable_iff.mp h6).symm⟩
  · rintro ⟨τ, ⟨c, h1, h2, h3⟩, h4⟩
    refine ⟨c, h1, h2, fun p hp => ?_⟩
    obtain ⟨d, h5, h6, h7⟩ := h4 p hp
    exact ⟨d, h5, h6, linkable_iff.mpr (h3.trans h7.symm)⟩

theorem leads_mem {K : Dict Index} {x : Str} : K.any (fun e => e.2.columns.head? = some x) = true ↔ x ∈ K.filterMap (fun e => e.2.columns.head?) := by
  simp [List.any_eq_true, List.mem_filterMap]

theorem paired_heads {s t : Table} : ∀ {K : Dict Index} {js : List Index}, Paired (KeyStands s t) K js →
    K.filterMap (fun e => e.2.columns.head?) = js.filterMap (fun j => j.columns.head?)
  | _, _, .nil => rfl
  | _, _, .cons h hs => by
    simp only [List.filterMap_cons, paired_heads hs, h.1.1]

/-- a table offers the same columns after its update as its declaration -/
theorem new_offers [PyNum] {s t : Table} (hs : s.Valid) (ht : t.Valid) (ps : s.Plain) (pt : t.Plain)
    (ts : ∀ k c, s.columns.get? k = some c → c.Tidy) (tt : ∀ k c, t.columns.get? k = some c → c.Tidy)
    {cols : Dict Column} (hc : ColsOk s t cols) (x : Str) (τ : Str × Bool) :
    Offers cols (finalKeys s t) x τ ↔ Offers t.columns (ofTable t).keys x τ := by
  have hk : (finalKeys s t).any (fun e => e.2.columns.head? = some x) = true ↔ (ofTable t).keys.any (fun e => e.2.columns.head? = some x) = true := by
    obtain ⟨js, hperm, hpair⟩ := finalKeys_stand hs ht ps pt
    rw [leads_mem, leads_mem, paired_heads hpair, (hperm.filterMap _).mem_iff]
    simp [ofTable, List.filterMap_map, Function.comp_def]
  have hcol : ∀ c, cols.get? x = some c → ∃ d, t.columns.get? x = some d ∧ colTy c = colTy d := by
    intro c h1
    obtain ⟨d, hd⟩ := Dict.exists_get? ((hc.names x).mp (Dict.mem_keys_of_get? h1))
    refine ⟨d, hd, ?_⟩
    cases ha : s.columns.get? x with
    | none =>
      rw [hc.new x (Dict.get?_eq_none.mp ha), hd] at h1
      cases h1
      rfl
    | some a =>
      rcases hc.common x a d ha hd with ⟨h2, h3⟩ | ⟨_, h3⟩
      · rw [h1] at h3
        cases h3
        have := equivalent_agrees (ts _ _ ha) (tt _ _ hd) h2
        simp [colTy, this.type, this.unsigned]
      · rw [h1] at h3
        cases h3
        rfl
  constructor
  · rintro ⟨c, h1, h2, h3⟩
    obtain ⟨d, h4, h5⟩ := hcol c h1
    exact ⟨d, h4, hk.mp h2, h5 ▸ h3⟩
  · rintro ⟨d, h1, h2, h3⟩
    obtain ⟨c, h4⟩ := Dict.exists_get? ((hc.names x).mpr (Dict.mem_keys_of_get? h1))
    obtain ⟨d', h5, h6⟩ := hcol c h4
    rw [h1] at h5
    cases h5
    exact ⟨c, h4, hk.mpr h2, h6.trans h3⟩

/-! ## Consistent tables -/

section
variable {d : Dict Table}

theorem ofTables_get? (n : Str) : (ofTables d).get? n = (d.get? n).map ofTable := by
  induction d with
  | nil => rfl
  | cons e d ih =>
    obtain ⟨m, a⟩ := e
    have h1 : ofTables ((m, a) :: d) = (m, ofTable a) :: ofTables d := rfl
    rw [h1, Dict.get?_cons, Dict.get?_cons, ih]
    split <;> rfl

theorem ofTables_keys : (ofTables d).keys = d.keys := by simp [ofTables, Dict.keys]

/-- the column of the declared or live table, by name -/
def OffersIn (d : Dict Table) (n x : Str) (τ : Str × Bool) : Prop := ∃ a, d.get? n = some a ∧ Offers a.columns (ofTable a).keys x τ

theorem consistent_off {c : Bool} (h : SDb.consistent ⟨c, ofTables d⟩ = true) : SDb.consistent ⟨false, ofTables d⟩ = true := by
  cases c with
  | false => exact h
  | true =>
    simp only [SDb.consistent, Bool.and_eq_true, List.all_eq_true] at h ⊢
    refine ⟨fun e he k hk => ?_, h.2⟩
    have := h.1 e he k hk
    unfold MySQL.fits at this ⊢
    cases hc : e.2.cols.get? k.2.column with
    | none => simp [hc] at this
    | some c =>
      simp only [hc, Bool.and_eq_true] at this ⊢
      refine ⟨this.1, ?_⟩
      have h2 := this.2
      cases hp : (ofTables d).get? k.2.ftable with
      | none => simp
      | some p => simpa only [hp] using h2

theorem accepted_cons {c : Bool} (h : Accepted c d) : Tabs.Cons (fun n => (d.get? n).map ofTable) := by
  have hat : At ⟨false, ofTables d⟩ (fun n => (d.get? n).map ofTable) :=
    ⟨rfl, by simp only [ofTables_keys]; exact h.nodup, ofTables_get?⟩
  exact hat.consistent.mp (consistent_off h.consistent)

theorem accepted_fits {c : Bool} (h : Accepted c d) {n x : Str} {a : Table} {k : Constraint} (ha : d.get? n = some a)
    (hk : a.constraints.get? x = some k) :
    ∃ τ, OffersIn d n k.column τ ∧ ∀ p, d.get? k.ftable = some p → OffersIn d k.ftable k.fcolumn τ := by
  have ka := h.keyedTable ha
  have := (accepted_cons h).fits n (ofTable a) (by simp [ha]) x k (by rw [ofTable_fks ka]; exact Dict.mem_of_get? hk)
  obtain ⟨τ, h1, h2⟩ := fits_offers.mp this
  rw [ofTable_cols ka] at h1
  refine ⟨τ, ⟨a, ha, h1⟩, fun p hp => ⟨p, hp, ?_⟩⟩
  have := h2 (ofTable p) (by simp [hp])
  rwa [ofTable_cols (h.keyedTable hp)] at this

theorem accepted_parent (h : Accepted true d) {n x : Str} {a : Table} {k : Constraint} (ha : d.get? n = some a)
    (hk : a.constraints.get? x = some k) : ∃ p, d.get? k.ftable = some p := by
  have hc := h.consistent
  simp only [SDb.consistent, Bool.and_eq_true, List.all_eq_true] at hc
  have hm : (n, ofTable a) ∈ ofTables d := List.mem_map.mpr ⟨(n, a), Dict.mem_of_get? ha, rfl⟩
  have := hc.1 _ hm (x, k) (by rw [ofTable_fks (h.keyedTable ha)]; exact Dict.mem_of_get? hk)
  unfold MySQL.fits at this
  cases hg : d.get? k.ftable with
  | some p => exact ⟨p, rfl⟩
  | none =>
    simp only [ofTables_get?, hg, Option.map_none] at this
    split at this
    · cases this
    · simp at this

theorem accepted_unique {c : Bool} (h : Accepted c d) {n m x : Str} {a b : Table} (ha : d.get? n = some a) (hb : d.get? m = some b)
    (hne : n ≠ m) (hx : x ∈ a.constraints.keys) : x ∉ b.constraints.keys := by
  have := (accepted_cons h).unique n m (ofTable a) (ofTable b) (by simp [ha]) (by simp [hb]) hne x
    (by rw [ofTable_fks (h.keyedTable ha)]; exact hx)
  rwa [ofTable_fks (h.keyedTable hb)] at this

end

end Mygrations

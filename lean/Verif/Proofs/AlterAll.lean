import Verif.Proofs.AlterKeys

/-! # Executing whole diffs -/

namespace Mygrations
open Table MySQL

/-! ## The server's view of a well-keyed table -/

theorem ofTable_cols {s : Table} (hs : s.Keyed) : (ofTable s).cols = s.columns := by
  simp only [ofTable, Dict.values, List.map_map]
  conv => rhs; rw [← List.map_id s.columns]
  apply List.map_congr_left
  rintro ⟨k, c⟩ hc
  simp [hs.colName k c hc]

theorem ofTable_fks {s : Table} (hs : s.Keyed) : (ofTable s).fks = s.constraints := by
  simp only [ofTable, Dict.values, List.map_map]
  conv => rhs; rw [← List.map_id s.constraints]
  apply List.map_congr_left
  rintro ⟨k, c⟩ hc
  simp [hs.fkName k c hc]

/-! ## Foreign-key clauses -/

/-- only foreign-key clauses -/
def FkOnly (cl : List Clause) : Prop :=
  droppedCols cl = [] ∧ changedCols cl = [] ∧ addedCols cl = [] ∧ droppedKeys cl = [] ∧ addedKeys cl = []

theorem removeConstraint_clauses (l : List Constraint) :
    let cl := (l.map AlterOp.removeConstraint).flatMap clauses
    FkOnly cl ∧ droppedFks cl = l.map Constraint.name ∧ addedFks cl = [] := by
  induction l with
  | nil => simp [FkOnly]
  | cons k l ih => simpa [clauses, FkOnly] using ih

theorem addConstraint_clauses (l : List Constraint) :
    let cl := (l.map AlterOp.addConstraint).flatMap clauses
    FkOnly cl ∧ droppedFks cl = [] ∧ addedFks cl = l := by
  induction l with
  | nil => simp [FkOnly]
  | cons k l ih => simpa [clauses, FkOnly] using ih

/-- names of the foreign keys dropped by a diff -/
def goneFks (s t : Table) : List Str := removed s.constraints t.constraints ++ changedConstraints s t

/-- names of the foreign keys added by a diff -/
def newFks (s t : Table) : List Str := added s.constraints t.constraints ++ changedConstraints s t

theorem removedFkOps_eq (s t : Table) : removedFkOps s t = (look s.constraints (goneFks s t)).map .removeConstraint := by
  simp [removedFkOps, goneFks, look, List.map_filterMap]

theorem addedFkOps_eq (s t : Table) : addedFkOps s t = (look t.constraints (newFks s t)).map .addConstraint := by
  simp [addedFkOps, newFks, look, List.map_filterMap]

theorem changedConstraints_mem {s t : Table} {k : Str} : k ∈ changedConstraints s t ↔
    ∃ a b, s.constraints.get? k = some a ∧ t.constraints.get? k = some b ∧ a.render ≠ b.render := by
  simp only [changedConstraints, List.mem_filter, mem_overlap]
  constructor
  · rintro ⟨⟨h1, h2⟩, h⟩
    obtain ⟨a, ha⟩ := Dict.exists_get? h1
    obtain ⟨b, hb⟩ := Dict.exists_get? h2
    simp only [ha, hb, decide_eq_true_eq] at h
    exact ⟨a, b, ha, hb, h⟩
  · rintro ⟨a, b, ha, hb, h⟩
    refine ⟨⟨Dict.mem_keys_of_get? ha, Dict.mem_keys_of_get? hb⟩, ?_⟩
    simp only [ha, hb, decide_eq_true_eq]
    exact h

theorem goneFks_mem {s t : Table} {k : Str} : k ∈ goneFks s t ↔
    ∃ a, s.constraints.get? k = some a ∧ ∀ b, t.constraints.get? k = some b → a.render ≠ b.render := by
  simp only [goneFks, List.mem_append, mem_removed, changedConstraints_mem]
  constructor
  · rintro (⟨h1, h2⟩ | ⟨a, b, ha, hb, h⟩)
    · obtain ⟨a, ha⟩ := Dict.exists_get? h1
      exact ⟨a, ha, fun b hb => absurd (Dict.mem_keys_of_get? hb) h2⟩
    · refine ⟨a, ha, fun b' hb' => ?_⟩
      rw [hb] at hb'; simp only [Option.some.injEq] at hb'; exact hb' ▸ h
  · rintro ⟨a, ha, h⟩
    by_cases hk : k ∈ t.constraints.keys
    · obtain ⟨b, hb⟩ := Dict.exists_get? hk
      exact .inr ⟨a, b, ha, hb, h b hb⟩
    · exact .inl ⟨Dict.mem_keys_of_get? ha, hk⟩

theorem newFks_mem {s t : Table} {k : Str} : k ∈ newFks s t ↔
    ∃ b, t.constraints.get? k = some b ∧ ∀ a, s.constraints.get? k = some a → a.render ≠ b.render := by
  simp only [newFks, List.mem_append, mem_added, changedConstraints_mem]
  constructor
  · rintro (⟨h1, h2⟩ | ⟨a, b, ha, hb, h⟩)
    · obtain ⟨b, hb⟩ := Dict.exists_get? h1
      exact ⟨b, hb, fun a ha => absurd (Dict.mem_keys_of_get? ha) h2⟩
    · refine ⟨b, hb, fun a' ha' => ?_⟩
      rw [ha] at ha'; simp only [Option.some.injEq] at ha'; exact ha' ▸ h
  · rintro ⟨b, hb, h⟩
    by_cases hk : k ∈ s.constraints.keys
    · obtain ⟨a, ha⟩ := Dict.exists_get? hk
      exact .inr ⟨a, b, ha, hb, h a ha⟩
    · exact .inl ⟨Dict.mem_keys_of_get? hb, hk⟩

theorem goneFks_nodup {s t : Table} (hs : s.Keyed) : (goneFks s t).Nodup := by
  rw [goneFks, List.nodup_append]
  refine ⟨removed_nodup hs.fkNodup, (overlap_nodup hs.fkNodup).filter _, ?_⟩
  intro a ha b hb e
  subst e
  obtain ⟨x, y, _, hy, _⟩ := changedConstraints_mem.mp hb
  exact (mem_removed.mp ha).2 (Dict.mem_keys_of_get? hy)

theorem newFks_nodup {s t : Table} (hs : s.Keyed) (ht : t.Keyed) : (newFks s t).Nodup := by
  rw [newFks, List.nodup_append]
  refine ⟨added_nodup ht.fkNodup, (overlap_nodup hs.fkNodup).filter _, ?_⟩
  intro a ha b hb e
  subst e
  obtain ⟨x, y, hx, _⟩ := changedConstraints_mem.mp hb
  exact (mem_added.mp ha).2 (Dict.mem_keys_of_get? hx)

theorem look_names {s : Table} (hs : s.Keyed) (ks : List Str) (h : ∀ k ∈ ks, k ∈ s.constraints.keys) :
    (look s.constraints ks).map Constraint.name = ks := by
  rw [look_map s.constraints Constraint.name ks h id (fun k v hv => (hs.fkName _ _ (Dict.mem_of_get? hv)).symm)]
  simp

theorem goneFks_sub {s t : Table} : ∀ k ∈ goneFks s t, k ∈ s.constraints.keys := by
  intro k hk
  obtain ⟨a, ha, _⟩ := goneFks_mem.mp hk
  exact Dict.mem_keys_of_get? ha

theorem newFks_sub {s t : Table} : ∀ k ∈ newFks s t, k ∈ t.constraints.keys := by
  intro k hk
  obtain ⟨a, ha, _⟩ := newFks_mem.mp hk
  exact Dict.mem_keys_of_get? ha

/-- the foreign keys which stay -/
def keptFks (s t : Table) : Dict Constraint := s.constraints.filter (fun e => !(goneFks s t).contains e.1)

/-- the foreign keys after the migration -/
def finalFks (s t : Table) : Dict Constraint :=
  keptFks s t ++ (look t.constraints (newFks s t)).map (fun k => (k.name, k))

theorem fks_dropped {s t : Table} (hs : s.Keyed) :
    dropNames (droppedFks ((removedFkOps s t).flatMap clauses)) s.constraints = some (keptFks s t) := by
  rw [removedFkOps_eq, (removeConstraint_clauses _).2.1, look_names hs _ goneFks_sub]
  exact dropNames_spec _ _ goneFks_sub (goneFks_nodup hs)

theorem keptFks_mem {s t : Table} {k : Str} {a : Constraint} (h : (k, a) ∈ keptFks s t) (hs : s.Keyed) :
    s.constraints.get? k = some a ∧ ∃ b, t.constraints.get? k = some b ∧ a.render = b.render := by
  simp only [keptFks, List.mem_filter, Bool.not_eq_true', List.contains_eq_mem, decide_eq_false_iff_not] at h
  have ha := Dict.get?_of_mem hs.fkNodup h.1
  refine ⟨ha, ?_⟩
  apply Classical.byContradiction
  intro hc
  apply h.2
  rw [goneFks_mem]
  exact ⟨a, ha, fun b hb hr => hc ⟨b, hb, hr⟩⟩

theorem fks_added {s t : Table} (hs : s.Keyed) (ht : t.Keyed) :
    (addedFks ((addedFkOps s t).flatMap clauses)).foldlM (addNamed Constraint.name) (keptFks s t) = some (finalFks s t) := by
  rw [addedFkOps_eq, (addConstraint_clauses _).2.2, addNamed_spec]
  · rfl
  · rw [look_names ht _ newFks_sub]; exact newFks_nodup hs ht
  · intro c hc hm
    obtain ⟨k, hk, hck⟩ := mem_look.mp hc
    have hname := ht.fkName _ _ (Dict.mem_of_get? hck)
    obtain ⟨a, ha⟩ := Dict.exists_get? hm
    obtain ⟨h1, b, h2, h3⟩ := keptFks_mem (Dict.mem_of_get? ha) hs
    obtain ⟨b', hb', hr⟩ := newFks_mem.mp hk
    rw [hname] at h1 h2
    rw [h2] at hb'
    simp only [Option.some.injEq] at hb'
    exact hr a h1 (hb' ▸ h3)

theorem finalFks_get? {s t : Table} (ht : t.Keyed) (k : Str) :
    (finalFks s t).get? k = if k ∈ newFks s t then t.constraints.get? k else if k ∈ t.constraints.keys then s.constraints.get? k else none := by
  have hnew : Dict.get? ((look t.constraints (newFks s t)).map (fun c => (c.name, c))) k =
      if k ∈ newFks s t then t.constraints.get? k else none := by
    have : (look t.constraints (newFks s t)).map (fun c => (c.name, c)) =
        (newFks s t).filterMap (fun k => (t.constraints.get? k).map (fun c => (k, c))) := by
      simp only [look, List.map_filterMap]
      congr 1
      funext j
      cases hj : t.constraints.get? j with
      | none => rfl
      | some c => simp [ht.fkName _ _ (Dict.mem_of_get? hj)]
    rw [this]
    have gen : ∀ ks : List Str, Dict.get? (ks.filterMap (fun k => (t.constraints.get? k).map (fun c => (k, c)))) k =
        if k ∈ ks then t.constraints.get? k else none := by
      intro ks
      induction ks with
      | nil => simp
      | cons j ks ih =>
        rw [List.filterMap_cons]
        cases hj : t.constraints.get? j with
        | none =>
          simp only [Option.map_none, ih]
          by_cases hkj : k = j
          · subst hkj; simp [hj]
          · simp [hkj]
        | some c =>
          simp only [Option.map_some, Dict.get?_cons, ih]
          by_cases hkj : j = k
          · subst hkj; simp [hj]
          · have : ¬ k = j := fun e => hkj e.symm
            simp [hkj, this]
    exact gen _
  rw [finalFks, Dict.get?_append, hnew, keptFks, Dict.get?_filter_key (fun x => !(goneFks s t).contains x)]
  by_cases hk : k ∈ newFks s t
  · simp only [hk, if_true]
    obtain ⟨b, hb, h⟩ := newFks_mem.mp hk
    cases ha : s.constraints.get? k with
    | none => simp
    | some a =>
      have : k ∈ goneFks s t := goneFks_mem.mpr ⟨a, ha, fun b' hb' => by
        rw [hb] at hb'; simp only [Option.some.injEq] at hb'; exact hb' ▸ h a ha⟩
      simp [this]
  · simp only [hk, if_false, Option.or_none]
    by_cases hkt : k ∈ t.constraints.keys
    · have : k ∉ goneFks s t := by
        intro hg
        obtain ⟨a, ha, h⟩ := goneFks_mem.mp hg
        obtain ⟨b, hb⟩ := Dict.exists_get? hkt
        exact hk (newFks_mem.mpr ⟨b, hb, fun a' ha' => by
          rw [ha] at ha'; simp only [Option.some.injEq] at ha'; exact ha' ▸ h b hb⟩)
      simp [hkt, this]
    · simp only [hkt, if_false]
      cases ha : s.constraints.get? k with
      | none => simp
      | some a =>
        have : k ∈ goneFks s t := goneFks_mem.mpr ⟨a, ha, fun b hb => absurd (Dict.mem_keys_of_get? hb) hkt⟩
        simp [this]

theorem finalFks_cols {s t : Table} (hs : s.Valid) (ht : t.Valid) (ps : s.Plain) (pt : t.Plain) :
    ∀ e ∈ finalFks s t, e.2.column ∈ t.columns.keys := by
  rintro ⟨k, a⟩ he
  rcases List.mem_append.mp he with h | h
  · obtain ⟨h1, b, h2, h3⟩ := keptFks_mem h hs.toKeyed
    have va : a ∈ s.constraints.values := Dict.mem_values.mpr ⟨_, Dict.mem_of_get? h1⟩
    have vb : b ∈ t.constraints.values := Dict.mem_values.mpr ⟨_, Dict.mem_of_get? h2⟩
    have := (Constraint.render_inj' (ps.fk a va) (pt.fk b vb) h3).2.1
    simp only [this]
    exact ht.fkCols b vb
  · obtain ⟨c, hc, hce⟩ := List.mem_map.mp h
    simp only [Prod.mk.injEq] at hce
    obtain ⟨j, _, hj⟩ := mem_look.mp hc
    rw [← hce.2]
    exact ht.fkCols c (Dict.mem_values.mpr ⟨_, Dict.mem_of_get? hj⟩)

/-! ## Columns -/

/-- the columns after the migration -/
structure ColsOk [PyNum] (s t : Table) (cols : Dict Column) : Prop where
  nodup : cols.keys.Nodup
  names : ∀ k, k ∈ cols.keys ↔ k ∈ t.columns.keys
  new : ∀ k, k ∉ s.columns.keys → cols.get? k = t.columns.get? k
  common : ∀ k a b, s.columns.get? k = some a → t.columns.get? k = some b →
    (Equivalent a b ∧ cols.get? k = some a) ∨ (¬ Equivalent a b ∧ cols.get? k = some b)
  order : t.columns.keys.filter (fun k => s.columns.has k) = s.columns.keys.filter (fun k => t.columns.has k) →
    cols.keys = t.columns.keys
  kept : cols.keys.filter s.columns.has = s.columns.keys.filter t.columns.has

/-- The column clauses of the main alter. -/
theorem cols_exec [PyNum] {s t : Table} (hs : s.Keyed) (ht : t.Keyed) {d : Diff} (h : s.toSplit t = .ok d) (extra : List Clause)
    (he : FkOnly extra) :
    ∃ cols₀ cols₁ cols,
      dropNames (droppedCols (d.kitchenSink.flatMap clauses ++ extra)) s.columns = some cols₀ ∧
      (changedCols (d.kitchenSink.flatMap clauses ++ extra)).foldlM changeCol cols₀ = some cols₁ ∧
      (addedCols (d.kitchenSink.flatMap clauses ++ extra)).foldlM placeCol cols₁ = some cols ∧ ColsOk s t cols ∧
      droppedCols (d.kitchenSink.flatMap clauses ++ extra) = removed s.columns t.columns ∧
      droppedKeys (d.kitchenSink.flatMap clauses ++ extra) = droppedKeys ((keyOps s t).flatMap clauses) ∧
      addedKeys (d.kitchenSink.flatMap clauses ++ extra) = addedKeys ((keyOps s t).flatMap clauses) ∧
      droppedFks (d.kitchenSink.flatMap clauses ++ extra) = droppedFks extra ∧
      addedFks (d.kitchenSink.flatMap clauses ++ extra) = addedFks extra ∧
      d.removedFks = removedFkOps s t ∧ d.fks = addedFkOps s t := by
  simp only [toSplit, addedColumnOps_added s t ht] at h
  cases hc : changedColumnOps s t (overlap s.columns t.columns) with
  | error e => simp [hc] at h
  | ok changes =>
    simp only [hc, Except.ok.injEq] at h
    obtain ⟨ch, c1, c2, c3, c4⟩ := changedColumnOps_spec s t ht _ _ (overlap_nodup hs.colNodup) hc
    have hA := addsFrom_clauses s.columns [] t.columns
    have hA' := addedCols_addsFrom s.columns [] t.columns
    have hC := changes_clauses ch (fun e he => (c3 e he).2.2.1)
    have hR := removedColumnOps_eq s hs (removed s.columns t.columns) (fun k hk => (mem_removed.mp hk).1)
    have hK := keyOps_clauses s t
    obtain ⟨e1, e2, e3, e4, e5⟩ := he
    subst h
    subst c1
    simp only [List.flatMap_append, droppedCols_append, changedCols_append, addedCols_append, droppedKeys_append,
      addedKeys_append, droppedFks_append, addedFks_append, hA, hA', hC, hR, hK.1, hK.2.1, hK.2.2.1, e1, e2, e3, e4, e5,
      hK.2.2.2.2.2, List.nil_append, List.append_nil]
    -- drops
    have hdrop := dropNames_spec (removed s.columns t.columns) s.columns (fun k hk => (mem_removed.mp hk).1) (removed_nodup hs.colNodup)
    let cols₀ : Dict Column := s.columns.filter (fun e => !(removed s.columns t.columns).contains e.1)
    have hmem₀ : ∀ k, k ∈ cols₀.keys ↔ k ∈ s.columns.keys ∧ k ∈ t.columns.keys := by
      intro k
      simp only [cols₀]
      rw [Dict.keys_filter_key (fun x => !(removed s.columns t.columns).contains x)]
      simp only [List.mem_filter, List.contains_eq_mem, Bool.not_eq_true', decide_eq_false_iff_not, mem_removed, not_and, Classical.not_not]
      exact ⟨fun ⟨a, b⟩ => ⟨a, b a⟩, fun ⟨a, b⟩ => ⟨a, fun _ => b⟩⟩
    have hget₀ : ∀ k, k ∈ t.columns.keys → cols₀.get? k = s.columns.get? k := by
      intro k hk
      simp only [cols₀]
      rw [Dict.get?_filter_key (fun x => !(removed s.columns t.columns).contains x)]
      have : k ∉ removed s.columns t.columns := fun h => (mem_removed.mp h).2 hk
      simp [this]
    have hn₀ : cols₀.keys.Nodup := by
      simp only [cols₀]
      rw [Dict.keys_filter_key (fun x => !(removed s.columns t.columns).contains x)]
      exact hs.colNodup.filter _
    -- changes
    obtain ⟨cols₁, d1, d2, d3⟩ := changeCols_spec ch cols₀ (fun e he => (c3 e he).2.2.1)
      (fun e he => by
        have := (c3 e he).1
        rw [mem_overlap] at this
        exact (hmem₀ _).mpr this) c2
    -- adds
    have hn₁ : cols₁.keys.Nodup := d2 ▸ hn₀
    obtain ⟨cols, p1, p2, p3⟩ := placeCols_spec s.columns t.columns [] cols₁ ht.colName hn₁ ht.colNodup (by simp)
      (by
        intro k hk
        rw [d2, hmem₀, Dict.has_iff]
        exact ⟨fun h => h.1, fun h => ⟨h, hk⟩⟩)
    refine ⟨cols₀, cols₁, cols, hdrop, d1, p1, ?_, ?_⟩
    rotate_left
    · simp
    have hnames : ∀ k, k ∈ cols.keys ↔ k ∈ t.columns.keys := by
      intro k
      rw [Dict.mem_keys_iff, Dict.mem_keys_iff, p3 k]
      by_cases hc : s.columns.has k = false ∧ k ∈ t.columns.keys
      · rw [if_pos hc]
      · rw [if_neg hc, ← Dict.mem_keys_iff, ← Dict.mem_keys_iff, d2, hmem₀]
        constructor
        · exact fun h => h.2
        · intro h
          refine ⟨?_, h⟩
          apply Classical.byContradiction
          intro hns
          exact hc ⟨Dict.has_eq_false.mpr hns, h⟩
    have hk₀ : cols₀.keys = s.columns.keys.filter t.columns.has := by
      simp only [cols₀]
      rw [Dict.keys_filter_key (fun x => !(removed s.columns t.columns).contains x)]
      apply List.filter_congr
      intro k hk
      by_cases hkt : k ∈ t.columns.keys
      · simp [Dict.has_iff.mpr hkt, removed]
      · simp [Dict.has_eq_false.mpr hkt, removed, hk]
    have hkept : cols.keys.filter s.columns.has = s.columns.keys.filter t.columns.has := by
      rw [placeCols_kept s.columns t.columns [] cols₁ cols ht.colName p1, d2, hk₀]
      apply List.filter_eq_self.mpr
      intro k hk
      exact Dict.has_iff.mpr (List.mem_filter.mp hk).1
    refine ⟨p2, hnames, ?_, ?_, ?_, hkept⟩
    · intro k hk
      rw [p3 k]
      by_cases hkt : k ∈ t.columns.keys
      · simp [Dict.has_eq_false.mpr hk, hkt]
      · have h1 : t.columns.get? k = none := Dict.get?_eq_none.mpr hkt
        have h2 : cols₁.get? k = none := Dict.get?_eq_none.mpr (by rw [d2, hmem₀]; exact fun h => hkt h.2)
        simp [hkt, h1, h2]
    · intro k a b ha hb
      have hks : s.columns.has k = true := Dict.has_of_get? ha
      have hkt := Dict.mem_keys_of_get? hb
      have hk₀ : k ∈ cols₀.keys := (hmem₀ k).mpr ⟨Dict.mem_keys_of_get? ha, hkt⟩
      rw [p3 k]
      simp only [hks, Bool.true_eq_false, false_and, if_false]
      rw [d3 k]
      simp only [hk₀, if_true, hget₀ k hkt, ha]
      by_cases hch : k ∈ ch.map Prod.fst
      · obtain ⟨⟨k0, b0⟩, he, rfl⟩ := List.mem_map.mp hch
        obtain ⟨_, g1, _, a', ha', hne⟩ := c3 _ he
        rw [ha] at ha'
        rw [hb] at g1
        simp only [Option.some.injEq] at ha' g1
        subst ha'; subst g1
        right
        refine ⟨hne, ?_⟩
        have : Dict.get? ch k0 = some b := Dict.get?_of_mem c2 he
        simp [this]
      · left
        obtain ⟨a', b', ha', hb', hor⟩ := c4 k (mem_overlap.mpr ⟨Dict.mem_keys_of_get? ha, hkt⟩)
        rw [ha] at ha'
        rw [hb] at hb'
        simp only [Option.some.injEq] at ha' hb'
        subst ha'; subst hb'
        rcases hor with h | h
        · refine ⟨h, ?_⟩
          have : Dict.get? ch k = none := Dict.get?_eq_none.mpr hch
          simp [this]
        · exact absurd (List.mem_map.mpr ⟨_, h, rfl⟩) hch
    · intro hord
      have hk₁ : cols₁.keys = [] ++ t.columns.keys.filter (fun k => s.columns.has k) := by
        rw [d2, hord]
        simp only [cols₀]
        rw [Dict.keys_filter_key (fun x => !(removed s.columns t.columns).contains x)]
        simp only [List.nil_append]
        apply List.filter_congr
        intro k hk
        by_cases hkt : k ∈ t.columns.keys
        · simp [Dict.has_iff.mpr hkt, removed]
        · simp [Dict.has_eq_false.mpr hkt, removed, hk]
      simpa using placeCols_order s.columns t.columns [] cols₁ cols ht.colName hn₁ hk₁ p1

/-- The main alter of a diff (with further foreign-key clauses), executed on the source's columns and keys. -/
theorem kitchen_exec [PyNum] {s t : Table} (hs : s.Valid) (ht : t.Valid) (ps : s.Plain) (pt : t.Plain)
    (hp : PrimaryKept s t) {d : Diff} (h : s.toSplit t = .ok d) (extra : List Clause) (he : FkOnly extra)
    (F F₀ F' : Dict Constraint) (hF₀ : dropNames (droppedFks extra) F = some F₀)
    (hF' : (addedFks extra).foldlM (addNamed Constraint.name) F₀ = some F')
    (hcols : ∀ e ∈ F', e.2.column ∈ t.columns.keys) :
    ∃ cols, alterTable ⟨s.columns, (ofTable s).keys, F⟩ (d.kitchenSink.flatMap clauses ++ extra) =
        some ⟨cols, finalKeys s t, F'⟩ ∧ ColsOk s t cols := by
  obtain ⟨cols₀, cols₁, cols, h1, h2, h3, hok, h4, h5, h6, h7, h8, -, -⟩ := cols_exec hs.toKeyed ht.toKeyed h extra he
  refine ⟨cols, ?_, hok⟩
  have hne : cols ≠ [] := by
    intro e
    subst e
    have : t.columns.keys ≠ [] := by
      intro h
      have := List.map_eq_nil_iff.mp h
      exact ht.hasCols this
    obtain ⟨k, hk⟩ := List.exists_mem_of_ne_nil _ this
    have := (hok.names k).mpr hk
    simp at this
  have hSok : STable.ok ⟨cols, finalKeys s t, F'⟩ = true := by
    simp only [STable.ok, Bool.and_eq_true, List.all_eq_true, Bool.not_eq_true', List.isEmpty_eq_false_iff]
    refine ⟨⟨hne, ?_⟩, ?_⟩
    · intro e he c hc
      exact Dict.has_iff.mpr ((hok.names c).mpr (finalKeys_cols hs ht ps pt e he c hc))
    · intro e he
      exact Dict.has_iff.mpr ((hok.names _).mpr (hcols e he))
  have hsh := keys_shrunk hs ht ps pt (removed s.columns t.columns) (fun c hc => (mem_removed.mp hc).2)
  simp only at hsh
  rw [h4] at h1
  simp only [alterTable, h5, h6, h7, h8, keys_dropped hs ht.toKeyed hp, h4, h1, h2, h3, hsh, keys_added hs ht ps pt, hF₀, hF', hSok, if_true]

/-- An alter with foreign-key clauses only. -/
theorem fkAlter_exec {C : Dict Column} {K : Dict Index} {F F₀ F' : Dict Constraint} {cl : List Clause} (he : FkOnly cl)
    (hC : C ≠ []) (hK : ∀ e ∈ K, e.2.columns ≠ [] ∧ ∀ c ∈ e.2.columns, c ∈ C.keys)
    (hF₀ : dropNames (droppedFks cl) F = some F₀) (hF' : (addedFks cl).foldlM (addNamed Constraint.name) F₀ = some F')
    (hcols : ∀ e ∈ F', e.2.column ∈ C.keys) : alterTable ⟨C, K, F⟩ cl = some ⟨C, K, F'⟩ := by
  obtain ⟨e1, e2, e3, e4, e5⟩ := he
  have hdrop : ∀ {V : Type} (d : Dict V), dropNames [] d = some d := by
    intro V d
    rw [dropNames_spec [] d (by simp) (by simp)]
    simp
  have hsh : shrinkKeys [] K = K := by
    unfold shrinkKeys
    have : K.map (fun e => (e.1, { e.2 with columns := e.2.columns.filter (fun c => !([] : List Str).contains c) })) = K := by
      conv => rhs; rw [← List.map_id K]
      apply List.map_congr_left
      intro e _
      have : e.2.columns.filter (fun c => !([] : List Str).contains c) = e.2.columns := by
        rw [List.filter_eq_self]; simp
      rw [this]; rfl
    rw [this, List.filter_eq_self]
    intro e he
    simpa using (hK e he).1
  have hSok : STable.ok ⟨C, K, F'⟩ = true := by
    simp only [STable.ok, Bool.and_eq_true, List.all_eq_true, Bool.not_eq_true', List.isEmpty_eq_false_iff]
    exact ⟨⟨hC, fun e he c hc => Dict.has_iff.mpr ((hK e he).2 c hc)⟩, fun e he => Dict.has_iff.mpr (hcols e he)⟩
  simp [alterTable, e1, e2, e3, e4, e5, hdrop, hsh, hF₀, hF', hSok]

theorem validKeys {s : Table} (hs : s.Valid) : ∀ e ∈ (ofTable s).keys, e.2.columns ≠ [] ∧ ∀ c ∈ e.2.columns, c ∈ s.columns.keys := by
  rw [ofTable_keys]
  intro e he
  obtain ⟨x, hx, rfl⟩ := List.mem_map.mp he
  exact hs.idxCols x.2 (Dict.mem_values.mpr ⟨_, hx⟩)

/-- Executing the statements of `source.to(target)` succeeds, with a known result. -/
theorem to_exec [PyNum] {s t : Table} (hs : s.Valid) (ht : t.Valid) (ps : s.Plain) (pt : t.Plain)
    (hp : PrimaryKept s t) {as : List Alter} (h : s.to t = .ok as) :
    ∃ cols keys fks, execAlters (ofTable s) as = some ⟨cols, keys, fks⟩ ∧ ColsOk s t cols ∧
      keys = finalKeys s t ∧ fks = finalFks s t := by
  simp only [to] at h
  cases hd : s.toSplit t with
  | error e => simp [hd] at h
  | ok d =>
    simp only [hd, Except.ok.injEq] at h
    obtain ⟨_, _, _, _, _, _, _, _, _, _, _, _, hrem, hadd⟩ := cols_exec hs.toKeyed ht.toKeyed hd [] (by simp [FkOnly])
    have hstart : ofTable s = ⟨s.columns, (ofTable s).keys, s.constraints⟩ := by
      rw [← ofTable_cols hs.toKeyed, ← ofTable_fks hs.toKeyed]
    -- first statement: drop foreign keys
    have h1 : (alterIf s.name d.removedFks).foldlM execAlter (ofTable s) =
        some ⟨s.columns, (ofTable s).keys, keptFks s t⟩ := by
      by_cases he : d.removedFks = []
      · have : goneFks s t = [] := by
          rw [hrem, removedFkOps_eq] at he
          have := look_names hs.toKeyed (goneFks s t) goneFks_sub
          simp only [List.map_eq_nil_iff] at he
          rw [he] at this
          exact this.symm
        have hk : keptFks s t = s.constraints := by
          simp [keptFks, this]
        simp only [alterIf, he, if_true, List.foldlM_nil, hk]
        exact congrArg some hstart
      · simp only [alterIf, he, if_false, List.foldlM_cons, List.foldlM_nil, execAlter]
        have hex := fkAlter_exec (C := s.columns) (K := (ofTable s).keys) (F := s.constraints) (F₀ := keptFks s t) (F' := keptFks s t)
          (cl := d.removedFks.flatMap clauses)
          (by rw [hrem, removedFkOps_eq]; exact (removeConstraint_clauses _).1) hs.hasCols (validKeys hs)
          (by rw [hrem]; exact fks_dropped hs.toKeyed)
          (by rw [hrem, removedFkOps_eq, (removeConstraint_clauses _).2.2]; rfl)
          (by
            rintro ⟨k, a⟩ hka
            have := (keptFks_mem hka hs.toKeyed).1
            exact hs.fkCols a (Dict.mem_values.mpr ⟨_, Dict.mem_of_get? this⟩))
        rw [hstart, hex]
        rfl
    -- second statement
    have hfk : FkOnly (d.fks.flatMap clauses) := by rw [hadd, addedFkOps_eq]; exact (addConstraint_clauses _).1
    have hnodrop : droppedFks (d.fks.flatMap clauses) = [] := by rw [hadd, addedFkOps_eq]; exact (addConstraint_clauses _).2.1
    obtain ⟨cols, hex, hok⟩ := kitchen_exec hs ht ps pt hp hd (d.fks.flatMap clauses) hfk (keptFks s t) (keptFks s t) (finalFks s t)
      (by rw [hnodrop, dropNames_spec [] _ (by simp) (by simp)]; simp)
      (by rw [hadd]; exact fks_added hs.toKeyed ht.toKeyed) (finalFks_cols hs ht ps pt)
    by_cases he : d.kitchenSink ++ d.fks = []
    · -- nothing to do
      simp only [List.append_eq_nil_iff] at he
      have hnil : d.kitchenSink.flatMap clauses ++ d.fks.flatMap clauses = [] := by simp [he.1, he.2]
      rw [hnil] at hex
      have hstay := fkAlter_exec (C := s.columns) (K := (ofTable s).keys) (F := keptFks s t) (F₀ := keptFks s t) (F' := keptFks s t)
        (cl := []) (by simp [FkOnly]) hs.hasCols (validKeys hs)
        (by simp only [droppedFks_nil]; rw [dropNames_spec [] _ (by simp) (by simp)]; simp) rfl
        (by
          rintro ⟨k, a⟩ hka
          have := (keptFks_mem hka hs.toKeyed).1
          exact hs.fkCols a (Dict.mem_values.mpr ⟨_, Dict.mem_of_get? this⟩))
      rw [hstay] at hex
      refine ⟨cols, finalKeys s t, finalFks s t, ?_, hok, rfl, rfl⟩
      rw [← h, execAlters]
      simp only [alterIf, he.1, he.2, List.append_nil, if_true]
      rw [show (if d.removedFks = [] then [] else [⟨s.name, d.removedFks⟩]) = alterIf s.name d.removedFks from rfl, h1]
      exact hex
    · refine ⟨cols, finalKeys s t, finalFks s t, ?_, hok, rfl, rfl⟩
      rw [← h, execAlters, List.foldlM_append, h1]
      simp only [alterIf, he, if_false, Option.bind_eq_bind, Option.bind_some, List.foldlM_cons, List.foldlM_nil, execAlter,
        List.flatMap_append]
      rw [hex]
      rfl

/-! ## Whatever executes, executes right -/

/-- The steps of a successful `ALTER TABLE`. -/
theorem alterTable_steps {st st' : STable} {cl : List Clause} (h : alterTable st cl = some st') :
    ∃ cols₀ cols₁ keys₀ fks₀, dropNames (droppedCols cl) st.cols = some cols₀ ∧
      (changedCols cl).foldlM changeCol cols₀ = some cols₁ ∧ (addedCols cl).foldlM placeCol cols₁ = some st'.cols ∧
      dropNames (droppedKeys cl) st.keys = some keys₀ ∧
      (addedKeys cl).foldlM (addNamed keyName) (shrinkKeys (droppedCols cl) keys₀) = some st'.keys ∧
      dropNames (droppedFks cl) st.fks = some fks₀ ∧ (addedFks cl).foldlM (addNamed Constraint.name) fks₀ = some st'.fks ∧
      st'.ok = true := by
  unfold alterTable at h
  split at h
  · simp at h
  · rename_i cols₀ h1
    split at h
    · simp at h
    · rename_i cols₁ h2
      split at h
      · simp at h
      · rename_i cols h3
        split at h
        · simp at h
        · rename_i keys₀ h4
          split at h
          · simp at h
          · rename_i keys h5
            split at h
            · simp at h
            · rename_i fks₀ h6
              split at h
              · simp at h
              · rename_i fks h7
                split at h
                · rename_i h8
                  simp only [Option.some.injEq] at h
                  subst h
                  exact ⟨cols₀, cols₁, keys₀, fks₀, h1, h2, h3, h4, h5, h6, h7, h8⟩
                · simp at h

theorem dropNames_nil {V : Type} (d : Dict V) : dropNames [] d = some d := by
  rw [dropNames_spec [] d (by simp) (by simp)]; simp

theorem shrinkKeys_nil {K : Dict Index} (hK : ∀ e ∈ K, e.2.columns ≠ []) : shrinkKeys [] K = K := by
  unfold shrinkKeys
  have : K.map (fun e => (e.1, { e.2 with columns := e.2.columns.filter (fun c => !([] : List Str).contains c) })) = K := by
    conv => rhs; rw [← List.map_id K]
    apply List.map_congr_left
    intro e _
    have : e.2.columns.filter (fun c => !([] : List Str).contains c) = e.2.columns := by
      rw [List.filter_eq_self]; simp
    rw [this]; rfl
  rw [this, List.filter_eq_self]
  intro e he
  simpa using hK e he

/-- The two statements of a diff: what a successful execution gives for columns and foreign keys, without any
assumption about keys. -/
theorem to_result [PyNum] {s t : Table} (hs : s.Keyed) (ht : t.Keyed) {as : List Alter} (h : s.to t = .ok as) {st : STable}
    (he : execAlters (ofTable s) as = some st) : ColsOk s t st.cols ∧ st.fks = finalFks s t := by
  simp only [to] at h
  cases hd : s.toSplit t with
  | error e => simp [hd] at h
  | ok d =>
    simp only [hd, Except.ok.injEq] at h
    obtain ⟨_, _, _, _, _, _, _, _, _, _, _, _, hrem, hadd⟩ := cols_exec hs ht hd [] (by simp [FkOnly])
    subst h
    rw [execAlters, List.foldlM_append] at he
    -- first statement
    have h1 : ∃ st₁, (alterIf s.name d.removedFks).foldlM execAlter (ofTable s) = some st₁ ∧
        st₁.cols = s.columns ∧ st₁.fks = keptFks s t := by
      by_cases hn : d.removedFks = []
      · have : goneFks s t = [] := by
          rw [hrem, removedFkOps_eq] at hn
          have := look_names hs (goneFks s t) goneFks_sub
          simp only [List.map_eq_nil_iff] at hn
          rw [hn] at this
          exact this.symm
        refine ⟨ofTable s, by simp [alterIf, hn], ofTable_cols hs, ?_⟩
        rw [ofTable_fks hs]
        simp only [keptFks, this]
        exact (List.filter_eq_self.mpr (by simp)).symm
      · cases hx : (alterIf s.name d.removedFks).foldlM execAlter (ofTable s) with
        | none => rw [hx] at he; simp at he
        | some st₁ =>
          refine ⟨st₁, rfl, ?_⟩
          simp only [alterIf, hn, if_false, List.foldlM_cons, List.foldlM_nil, execAlter] at hx
          cases hy : alterTable (ofTable s) (d.removedFks.flatMap clauses) with
          | none => rw [hy] at hx; simp at hx
          | some st₂ =>
            rw [hy] at hx
            simp at hx
            subst hx
            obtain ⟨c0, c1, k0, f0, e1, e2, e3, _, _, e6, e7, _⟩ := alterTable_steps hy
            have hf : FkOnly (d.removedFks.flatMap clauses) := by
              rw [hrem, removedFkOps_eq]; exact (removeConstraint_clauses _).1
            obtain ⟨g1, g2, g3, _, _⟩ := hf
            rw [g1, dropNames_nil] at e1
            rw [g2] at e2
            rw [g3] at e3
            simp only [Option.some.injEq, List.foldlM_nil, pure, ofTable_cols hs] at e1 e2 e3
            constructor
            · rw [← e3, ← e2, ← e1]
            · rw [ofTable_fks hs, hrem, fks_dropped hs] at e6
              rw [hrem, removedFkOps_eq, (removeConstraint_clauses _).2.2] at e7
              simp only [Option.some.injEq, List.foldlM_nil, pure] at e6 e7
              rw [← e7, ← e6]
    obtain ⟨st₁, hx, hc, hf⟩ := h1
    rw [hx] at he
    simp only [Option.bind_eq_bind, Option.bind_some] at he
    have hfk : FkOnly (d.fks.flatMap clauses) := by rw [hadd, addedFkOps_eq]; exact (addConstraint_clauses _).1
    have hnodrop : droppedFks (d.fks.flatMap clauses) = [] := by rw [hadd, addedFkOps_eq]; exact (addConstraint_clauses _).2.1
    obtain ⟨cols₀, cols₁, cols, k1, k2, k3, hok, k4, k5, k6, k7, k8, _, _⟩ := cols_exec hs ht hd (d.fks.flatMap clauses) hfk
    rw [← List.flatMap_append] at k1 k2 k3 k7 k8
    by_cases hn : d.kitchenSink ++ d.fks = []
    · simp only [alterIf, hn, if_true, List.foldlM_nil, pure, Option.some.injEq] at he
      subst he
      rw [hn] at k1 k2 k3
      simp only [List.flatMap_nil, droppedCols_nil, changedCols_nil, addedCols_nil, dropNames_nil, List.foldlM_nil, pure,
        Option.some.injEq] at k1 k2 k3
      refine ⟨?_, ?_⟩
      · rw [hc, k1, k2, k3]; exact hok
      · have hn2 : d.fks = [] := (List.append_eq_nil_iff.mp hn).2
        have : newFks s t = [] := by
          rw [hadd, addedFkOps_eq] at hn2
          have := look_names ht (newFks s t) newFks_sub
          simp only [List.map_eq_nil_iff] at hn2
          rw [hn2] at this
          exact this.symm
        rw [hf]
        simp [finalFks, this, look]
    · simp only [alterIf, hn, if_false, List.foldlM_cons, List.foldlM_nil, execAlter] at he
      cases hy : alterTable st₁ ((d.kitchenSink ++ d.fks).flatMap clauses) with
      | none => rw [hy] at he; simp at he
      | some st₂ =>
        rw [hy] at he
        simp at he
        subst he
        obtain ⟨c0, c1, k0, f0, e1, e2, e3, _, _, e6, e7, _⟩ := alterTable_steps hy
        rw [hc, k1] at e1
        simp only [Option.some.injEq] at e1
        subst e1
        rw [k2] at e2
        simp only [Option.some.injEq] at e2
        subst e2
        rw [k3] at e3
        simp only [Option.some.injEq] at e3
        rw [k7, hnodrop, dropNames_nil, hf] at e6
        simp only [Option.some.injEq] at e6
        subst e6
        rw [k8, hadd, fks_added hs ht] at e7
        simp only [Option.some.injEq] at e7
        exact ⟨e3 ▸ hok, e7.symm⟩

/-- If the primary key is modified under its unchanged name, the statements do not execute. -/
theorem primary_fails [PyNum] {s t : Table} (hs : s.Valid) (ht : t.Valid) (ps : s.Plain) (pt : t.Plain)
    {as : List Alter} (h : s.to t = .ok as) {st : STable} (he : execAlters (ofTable s) as = some st) : PrimaryKept s t := by
  intro k a b ha hb hpa
  apply Classical.byContradiction
  intro hcon
  simp only [not_or, not_and] at hcon
  have va : a ∈ s.indexes.values := Dict.mem_values.mpr ⟨_, Dict.mem_of_get? ha⟩
  have vb : b ∈ t.indexes.values := Dict.mem_values.mpr ⟨_, Dict.mem_of_get? hb⟩
  have hch : k ∈ changedKeys s t := by
    rw [changedKeys_mem]
    refine ⟨a, b, ha, hb, ?_, ?_⟩
    · intro hr
      have := Index.render_inj (ps.idx a va) (pt.idx b vb) (hs.idxCols a va).1 (ht.idxCols b vb).1 hr
      exact hcon.2 (this.2.1 ▸ hpa) this.1
    · intro hc
      exact hcon.2 (by simpa [Index.isPrimary, ← hc.2] using hpa) hc.1
  simp only [to] at h
  cases hd : s.toSplit t with
  | error e => simp [hd] at h
  | ok d =>
    simp only [hd, Except.ok.injEq] at h
    obtain ⟨_, _, _, _, _, _, _, _, _, _, _, _, hrem, hadd⟩ := cols_exec hs.toKeyed ht.toKeyed hd [] (by simp [FkOnly])
    have hfk : FkOnly (d.fks.flatMap clauses) := by rw [hadd, addedFkOps_eq]; exact (addConstraint_clauses _).1
    obtain ⟨_, _, _, _, _, _, _, _, k5, _, _, _, _, _⟩ := cols_exec hs.toKeyed ht.toKeyed hd (d.fks.flatMap clauses) hfk
    rw [← List.flatMap_append] at k5
    have hdk : k ∈ droppedKeys ((d.kitchenSink ++ d.fks).flatMap clauses) := by
      rw [k5, (keyOps_clauses s t).2.2.2.1, List.mem_append]
      right
      exact List.mem_map.mpr ⟨b, mem_look.mpr ⟨k, hch, hb⟩, ht.idxName _ _ (Dict.mem_of_get? hb)⟩
    have hn : d.kitchenSink ++ d.fks ≠ [] := by intro e; rw [e] at hdk; simp at hdk
    subst h
    rw [execAlters, List.foldlM_append] at he
    have h1 : ∃ st₁, (alterIf s.name d.removedFks).foldlM execAlter (ofTable s) = some st₁ ∧ st₁.keys = (ofTable s).keys := by
      by_cases hn : d.removedFks = []
      · exact ⟨ofTable s, by simp [alterIf, hn], rfl⟩
      · cases hx : (alterIf s.name d.removedFks).foldlM execAlter (ofTable s) with
        | none => rw [hx] at he; simp at he
        | some st₁ =>
          refine ⟨st₁, rfl, ?_⟩
          simp only [alterIf, hn, if_false, List.foldlM_cons, List.foldlM_nil, execAlter] at hx
          cases hy : alterTable (ofTable s) (d.removedFks.flatMap clauses) with
          | none => rw [hy] at hx; simp at hx
          | some st₂ =>
            rw [hy] at hx
            simp at hx
            subst hx
            obtain ⟨c0, c1, k0, f0, _, _, _, e4, e5, _, _, _⟩ := alterTable_steps hy
            have hf : FkOnly (d.removedFks.flatMap clauses) := by
              rw [hrem, removedFkOps_eq]; exact (removeConstraint_clauses _).1
            obtain ⟨g1, _, _, g4, g5⟩ := hf
            rw [g4, dropNames_nil] at e4
            simp only [Option.some.injEq] at e4
            rw [g5, g1, ← e4, shrinkKeys_nil (fun e he => (validKeys hs e he).1)] at e5
            simp only [List.foldlM_nil, pure, Option.some.injEq] at e5
            exact e5.symm
    obtain ⟨st₁, hx, hk⟩ := h1
    rw [hx] at he
    simp only [Option.bind_eq_bind, Option.bind_some] at he
    simp only [alterIf, hn, if_false, List.foldlM_cons, List.foldlM_nil, execAlter] at he
    cases hy : alterTable st₁ ((d.kitchenSink ++ d.fks).flatMap clauses) with
    | none => rw [hy] at he; simp at he
    | some st₂ =>
      obtain ⟨c0, c1, k0, f0, _, _, _, e4, _, _, _, _⟩ := alterTable_steps hy
      rw [hk, dropNames] at e4
      split at e4
      · rename_i hall
        have := List.all_eq_true.mp hall.1 k hdk
        rw [Dict.has_iff, ofTable_keys] at this
        simp only [Dict.keys, List.map_map, List.mem_map, Function.comp] at this
        obtain ⟨e, he, hek⟩ := this
        by_cases hpe : e.2.isPrimary = true
        · simp only [keyName, hpe, if_true] at hek
          exact hcon.1 hek.symm
        · simp only [keyName, hpe, Bool.false_eq_true, if_false] at hek
          have h1 := hs.idxName _ _ he
          have h2 := get?_of_entry hs.toKeyed he
          rw [← h1, hek, ha] at h2
          simp only [Option.some.injEq] at h2
          exact hpe (h2 ▸ hpa)
      · simp at e4

end Mygrations

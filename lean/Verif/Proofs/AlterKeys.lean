import Verif.Proofs.AlterCols

/-! # Executing the key clauses of a diff -/

namespace Mygrations
open Table MySQL

theorem nodup_map_on {α β : Type} {f : α → β} : ∀ {l : List α}, (∀ a ∈ l, ∀ b ∈ l, f a = f b → a = b) → l.Nodup → (l.map f).Nodup
  | [], _, _ => by simp
  | a :: l, hf, hn => by
    simp only [List.nodup_cons] at hn
    simp only [List.map_cons, List.nodup_cons]
    refine ⟨?_, nodup_map_on (fun x hx y hy => hf x (List.mem_cons_of_mem _ hx) y (List.mem_cons_of_mem _ hy)) hn.2⟩
    intro hm
    obtain ⟨b, hb, hab⟩ := List.mem_map.mp hm
    exact hn.1 (hf b (List.mem_cons_of_mem _ hb) a (by simp) hab ▸ hb)

theorem addNamed_spec {V : Type} (name : V → Str) : ∀ (vs : List V) (d : Dict V), (vs.map name).Nodup →
    (∀ v ∈ vs, name v ∉ d.keys) → vs.foldlM (addNamed name) d = some (d ++ vs.map (fun v => (name v, v)))
  | [], d, _, _ => by simp
  | v :: vs, d, hn, hd => by
    simp only [List.map_cons, List.nodup_cons] at hn
    have h1 : addNamed name d v = some (d ++ [(name v, v)]) := by
      simp [addNamed, Dict.has_eq_false.mpr (hd v (by simp))]
    rw [List.foldlM_cons, h1]
    have := addNamed_spec name vs (d ++ [(name v, v)]) hn.2 (by
      intro w hw
      simp only [Dict.keys_append, Dict.keys_cons, Dict.keys_nil, List.mem_append, List.mem_singleton, not_or]
      refine ⟨hd w (List.mem_cons_of_mem _ hw), ?_⟩
      intro e
      exact hn.1 (e ▸ List.mem_map.mpr ⟨w, hw, rfl⟩))
    simpa using this

/-! ## The matching loop -/

/-- what a matched pair satisfies -/
def GoodPair (s t : Table) (p : Str × Str) : Prop :=
  ∃ ri ai, s.indexes.get? p.1 = some ri ∧ t.indexes.get? p.2 = some ai ∧ ri.columns = ai.columns ∧
    ri.indexType = ai.indexType ∧ (p.1 ∈ s.constraints.keys ++ t.constraints.keys ∨ p.2 ∈ s.constraints.keys ++ t.constraints.keys)

theorem findMatch_spec (t : Table) (cn : List Str) (rk : Str) (ri : Index) (ma : List Str) : ∀ (aks : List Str) (ak : Str),
    findMatch t cn rk ri ma aks = some ak →
    ak ∈ aks ∧ ak ∉ ma ∧ ∃ ai, t.indexes.get? ak = some ai ∧ ri.columns = ai.columns ∧ ri.indexType = ai.indexType ∧
      (rk ∈ cn ∨ ak ∈ cn)
  | [], _, h => by simp [findMatch] at h
  | x :: aks, ak, h => by
    have ih := findMatch_spec t cn rk ri ma aks ak
    have lift : findMatch t cn rk ri ma aks = some ak → _ := fun h' => by
      obtain ⟨a, b⟩ := ih h'; exact And.intro (List.mem_cons_of_mem x a) b
    rw [findMatch] at h
    by_cases hc : ma.contains x = true
    · simp only [hc, if_true] at h; exact lift h
    · simp only [hc, Bool.false_eq_true, if_false] at h
      cases hg : t.indexes.get? x with
      | none => simp only [hg] at h; exact lift h
      | some ai =>
        simp only [hg] at h
        by_cases hcond : ri.columns = ai.columns ∧ ri.indexType = ai.indexType ∧ (rk ∈ cn ∨ x ∈ cn)
        · rw [if_pos hcond] at h
          simp only [Option.some.injEq] at h
          subst h
          refine ⟨by simp, by simpa using hc, ai, hg, hcond⟩
        · rw [if_neg hcond] at h; exact lift h

theorem matchKeys_spec (s t : Table) (ad : List Str) : ∀ (rks : List Str) (acc : List (Str × Str)),
    rks.Nodup → (∀ k ∈ rks, k ∉ acc.map Prod.fst) →
    (acc.map Prod.fst).Nodup → (acc.map Prod.snd).Nodup → (∀ p ∈ acc, p.2 ∈ ad ∧ GoodPair s t p) →
    let m := matchKeys s t (s.constraints.keys ++ t.constraints.keys) ad rks acc
    (m.map Prod.fst).Nodup ∧ (m.map Prod.snd).Nodup ∧ (∀ p ∈ m, p.2 ∈ ad ∧ GoodPair s t p) ∧
    (∀ p ∈ m, p ∈ acc ∨ p.1 ∈ rks)
  | [], acc, _, _, h1, h2, h3 => by
    simp only [matchKeys]; exact ⟨h1, h2, h3, fun p hp => .inl hp⟩
  | rk :: rks, acc, hn, hd, h1, h2, h3 => by
    simp only [List.nodup_cons] at hn
    have skip := matchKeys_spec s t ad rks acc hn.2 (fun k hk => hd k (List.mem_cons_of_mem _ hk)) h1 h2 h3
    have skip' : let m := matchKeys s t (s.constraints.keys ++ t.constraints.keys) ad rks acc
        (m.map Prod.fst).Nodup ∧ (m.map Prod.snd).Nodup ∧ (∀ p ∈ m, p.2 ∈ ad ∧ GoodPair s t p) ∧
        (∀ p ∈ m, p ∈ acc ∨ p.1 ∈ rk :: rks) :=
      ⟨skip.1, skip.2.1, skip.2.2.1, fun p hp => (skip.2.2.2 p hp).imp id (List.mem_cons_of_mem _)⟩
    simp only [matchKeys]
    cases hg : s.indexes.get? rk with
    | none => simpa only [hg] using skip'
    | some ri =>
      simp only
      cases hf : findMatch t (s.constraints.keys ++ t.constraints.keys) rk ri (acc.map Prod.snd) ad with
      | none => simpa only [hf] using skip'
      | some ak =>
        simp only
        obtain ⟨f1, f2, ai, f3, f4, f5, f6⟩ := findMatch_spec t _ rk ri _ ad ak hf
        have ih := matchKeys_spec s t ad rks (acc ++ [(rk, ak)]) hn.2
          (by
            intro k hk
            simp only [List.map_append, List.map_cons, List.map_nil, List.mem_append, List.mem_singleton, not_or]
            exact ⟨hd k (List.mem_cons_of_mem _ hk), fun e => hn.1 (e ▸ hk)⟩)
          (by
            simp only [List.map_append, List.map_cons, List.map_nil, List.nodup_append]
            refine ⟨h1, by simp, ?_⟩
            intro a ha b hb e
            simp at hb
            exact hd rk (by simp) (hb ▸ e ▸ ha))
          (by
            simp only [List.map_append, List.map_cons, List.map_nil, List.nodup_append]
            refine ⟨h2, by simp, ?_⟩
            intro a ha b hb e
            simp only [List.mem_singleton] at hb
            exact f2 (hb ▸ e ▸ ha))
          (by
            intro p hp
            rcases List.mem_append.mp hp with hp | hp
            · exact h3 p hp
            · simp only [List.mem_singleton] at hp; subst hp
              exact ⟨f1, ri, ai, hg, f3, f4, f5, f6⟩)
        refine ⟨ih.1, ih.2.1, ih.2.2.1, ?_⟩
        intro p hp
        rcases ih.2.2.2 p hp with h | h
        · rcases List.mem_append.mp h with h | h
          · exact .inl h
          · simp only [List.mem_singleton] at h; subst h; exact .inr (by simp)
        · exact .inr (List.mem_cons_of_mem _ h)

theorem matchedKeys_spec (s t : Table) (hs : s.Keyed) :
    let m := matchedKeys s t
    (m.map Prod.fst).Nodup ∧ (m.map Prod.snd).Nodup ∧
    (∀ p ∈ m, p.1 ∈ removed s.indexes t.indexes ∧ p.2 ∈ added s.indexes t.indexes ∧ GoodPair s t p) := by
  have h := matchKeys_spec s t (added s.indexes t.indexes) (removed s.indexes t.indexes) []
    (removed_nodup hs.idxNodup) (by simp) (by simp) (by simp) (by simp)
  refine ⟨h.1, h.2.1, fun p hp => ?_⟩
  have h1 := h.2.2.1 p hp
  have h2 := h.2.2.2 p hp
  simp only [List.not_mem_nil, false_or] at h2
  exact ⟨h2, h1⟩

/-! ## The three groups of key operations -/

/-- added keys which are not matched -/
def newKeys (s t : Table) : List Str :=
  (added s.indexes t.indexes).filter (fun k => !((matchedKeys s t).map Prod.snd).contains k)

/-- removed keys which are not matched -/
def goneKeys (s t : Table) : List Str :=
  (removed s.indexes t.indexes).filter (fun k => !((matchedKeys s t).map Prod.fst).contains k)

/-- does the key of this name change? -/
def keyChanges (s t : Table) (k : Str) : Bool :=
  match s.indexes.get? k, t.indexes.get? k with
  | some a, some b => decide (¬ a.render = b.render) && decide (¬ (a.columns = b.columns ∧ a.indexType = b.indexType))
  | _, _ => false

/-- common keys which change -/
def changedKeys (s t : Table) : List Str := (overlap s.indexes t.indexes).filter (keyChanges s t)

/-- the entries of the given names -/
def look {V : Type} (d : Dict V) (ks : List Str) : List V := ks.filterMap (Dict.get? d)

theorem keyOps_eq (s t : Table) : keyOps s t =
    (look t.indexes (newKeys s t)).map .addKey ++ (look s.indexes (goneKeys s t)).map .removeKey ++
    (look t.indexes (changedKeys s t)).map .changeKey := by
  simp only [keyOps, look, newKeys, goneKeys, changedKeys, List.map_filterMap]
  congr 1
  rw [List.filterMap_filter]
  congr 1
  funext k
  simp only [keyChanges]
  obtain ⟨x, hx⟩ : ∃ x, x = s.indexes.get? k := ⟨_, rfl⟩
  obtain ⟨y, hy⟩ : ∃ y, y = t.indexes.get? k := ⟨_, rfl⟩
  simp only [← hx, ← hy]
  cases x with
  | none => simp
  | some a =>
    cases y with
    | none => simp
    | some b =>
      by_cases hr : a.render = b.render
      · simp [hr]
      · by_cases hc : a.columns = b.columns ∧ a.indexType = b.indexType
        · simp [hr, hc]
        · simp only [hr, hc, if_false, not_false_eq_true, decide_true, Bool.and_self, if_true, Option.map_some]

theorem keyOps_clauses (s t : Table) :
    let cl := (keyOps s t).flatMap clauses
    droppedCols cl = [] ∧ changedCols cl = [] ∧ addedCols cl = [] ∧
    droppedKeys cl = (look s.indexes (goneKeys s t)).map keyName ++ (look t.indexes (changedKeys s t)).map Index.name ∧
    addedKeys cl = look t.indexes (newKeys s t) ++ look t.indexes (changedKeys s t) ∧
    droppedFks cl = [] ∧ addedFks cl = [] := by
  rw [keyOps_eq]
  simp only [List.flatMap_append, droppedCols_append, changedCols_append, addedCols_append, droppedKeys_append,
    addedKeys_append, droppedFks_append, addedFks_append]
  have hA : ∀ l : List Index, let cl := (l.map AlterOp.addKey).flatMap clauses
      droppedCols cl = [] ∧ changedCols cl = [] ∧ addedCols cl = [] ∧ droppedKeys cl = [] ∧ addedKeys cl = l ∧
      droppedFks cl = [] ∧ addedFks cl = [] := by
    intro l; induction l with
    | nil => simp
    | cons i l ih => simpa [clauses] using ih
  have hR : ∀ l : List Index, let cl := (l.map AlterOp.removeKey).flatMap clauses
      droppedCols cl = [] ∧ changedCols cl = [] ∧ addedCols cl = [] ∧ droppedKeys cl = l.map keyName ∧ addedKeys cl = [] ∧
      droppedFks cl = [] ∧ addedFks cl = [] := by
    intro l; induction l with
    | nil => simp
    | cons i l ih => simpa [clauses] using ih
  have hC : ∀ l : List Index, let cl := (l.map AlterOp.changeKey).flatMap clauses
      droppedCols cl = [] ∧ changedCols cl = [] ∧ addedCols cl = [] ∧ droppedKeys cl = l.map Index.name ∧ addedKeys cl = l ∧
      droppedFks cl = [] ∧ addedFks cl = [] := by
    intro l; induction l with
    | nil => simp
    | cons i l ih => simpa [clauses] using ih
  obtain ⟨a1, a2, a3, a4, a5, a6, a7⟩ := hA (look t.indexes (newKeys s t))
  obtain ⟨b1, b2, b3, b4, b5, b6, b7⟩ := hR (look s.indexes (goneKeys s t))
  obtain ⟨c1, c2, c3, c4, c5, c6, c7⟩ := hC (look t.indexes (changedKeys s t))
  simp [a1, a2, a3, a4, a5, a6, a7, b1, b2, b3, b4, b5, b6, b7, c1, c2, c3, c4, c5, c6, c7]

/-! ## Names of keys on the server -/

/-- the server's name of the key with this (tool) name -/
def srvName (d : Dict Index) (k : Str) : Str :=
  match d.get? k with
  | some i => keyName i
  | none => k

theorem look_map {V W : Type} (d : Dict V) (f : V → W) (ks : List Str) (h : ∀ k ∈ ks, k ∈ d.keys) (g : Str → W)
    (hg : ∀ k v, d.get? k = some v → g k = f v) : (look d ks).map f = ks.map g := by
  induction ks with
  | nil => rfl
  | cons k ks ih =>
    obtain ⟨v, hv⟩ := Dict.exists_get? (h k (by simp))
    have := ih (fun j hj => h j (List.mem_cons_of_mem _ hj))
    simp only [look, List.filterMap_cons, hv, List.map_cons] at this ⊢
    rw [this, hg k v hv]

theorem mem_look {V : Type} {d : Dict V} {ks : List Str} {v : V} : v ∈ look d ks ↔ ∃ k ∈ ks, d.get? k = some v := by
  simp [look]

theorem srvName_inj {t : Table} (ht : t.Valid) {j k : Str} (hj : j ∈ t.indexes.keys) (hk : k ∈ t.indexes.keys)
    (h : srvName t.indexes j = srvName t.indexes k) : j = k := by
  obtain ⟨a, ha⟩ := Dict.exists_get? hj
  obtain ⟨b, hb⟩ := Dict.exists_get? hk
  have na := ht.idxName _ _ (Dict.mem_of_get? ha)
  have nb := ht.idxName _ _ (Dict.mem_of_get? hb)
  have va : a ∈ t.indexes.values := Dict.mem_values.mpr ⟨_, Dict.mem_of_get? ha⟩
  have vb : b ∈ t.indexes.values := Dict.mem_values.mpr ⟨_, Dict.mem_of_get? hb⟩
  simp only [srvName, ha, hb, keyName] at h
  by_cases pa : a.isPrimary = true <;> by_cases pb : b.isPrimary = true
  · have := ht.onePrimary a b va vb pa pb
    rw [← na, ← nb, this]
  · simp only [Bool.not_eq_true] at pb
    simp only [pa, pb, if_true, Bool.false_eq_true, if_false] at h
    exact absurd h.symm (ht.noPrimaryName b vb pb)
  · simp only [Bool.not_eq_true] at pa
    simp only [pa, pb, if_true, Bool.false_eq_true, if_false] at h
    exact absurd h (ht.noPrimaryName a va pa)
  · simp only [pa, pb, Bool.false_eq_true, if_false] at h
    rw [← na, ← nb, h]

theorem upper_primary {a b : Index} (ha : a.isPrimary = true) (hb : b.isPrimary = true) : a.indexType = b.indexType := by
  simp only [Index.isPrimary, decide_eq_true_eq] at ha hb; rw [ha, hb]

/-- is the (source) key of this name dropped? -/
def keyDropped (s t : Table) (k : Str) : Bool := (goneKeys s t).contains k || (changedKeys s t).contains k

theorem goneKeys_mem {s t : Table} {k : Str} : k ∈ goneKeys s t ↔
    k ∈ s.indexes.keys ∧ k ∉ t.indexes.keys ∧ k ∉ (matchedKeys s t).map Prod.fst := by
  simp only [goneKeys, List.mem_filter, mem_removed, Bool.not_eq_true', List.contains_eq_mem, decide_eq_false_iff_not]
  simp [and_assoc]

theorem newKeys_mem {s t : Table} {k : Str} : k ∈ newKeys s t ↔
    k ∈ t.indexes.keys ∧ k ∉ s.indexes.keys ∧ k ∉ (matchedKeys s t).map Prod.snd := by
  simp only [newKeys, List.mem_filter, mem_added, Bool.not_eq_true', List.contains_eq_mem, decide_eq_false_iff_not]
  simp [and_assoc]

theorem changedKeys_mem {s t : Table} {k : Str} : k ∈ changedKeys s t ↔
    ∃ a b, s.indexes.get? k = some a ∧ t.indexes.get? k = some b ∧ a.render ≠ b.render ∧
      ¬ (a.columns = b.columns ∧ a.indexType = b.indexType) := by
  simp only [changedKeys, List.mem_filter, mem_overlap, keyChanges]
  constructor
  · rintro ⟨⟨h1, h2⟩, h⟩
    obtain ⟨a, ha⟩ := Dict.exists_get? h1
    obtain ⟨b, hb⟩ := Dict.exists_get? h2
    simp only [ha, hb, Bool.and_eq_true, decide_eq_true_eq] at h
    exact ⟨a, b, ha, hb, h⟩
  · rintro ⟨a, b, ha, hb, h1, h2⟩
    refine ⟨⟨Dict.mem_keys_of_get? ha, Dict.mem_keys_of_get? hb⟩, ?_⟩
    simp only [ha, hb]
    simp only [Bool.and_eq_true, decide_eq_true_eq]
    exact ⟨h1, h2⟩

/-- A kept source key has a counterpart in the target: of the same name, or its match. -/
theorem kept_counterpart {s t : Table} (hs : s.Valid) (ht : t.Valid) (ps : s.Plain) (pt : t.Plain) {k : Str} {a : Index}
    (ha : s.indexes.get? k = some a) (hk : keyDropped s t k = false) :
    ∃ k' b, t.indexes.get? k' = some b ∧ a.SameKey b ∧
      (k' = k ∨ ((k, k') ∈ matchedKeys s t)) := by
  simp only [keyDropped, Bool.or_eq_false_iff, List.contains_eq_mem, decide_eq_false_iff_not] at hk
  by_cases hkt : k ∈ t.indexes.keys
  · obtain ⟨b, hb⟩ := Dict.exists_get? hkt
    refine ⟨k, b, hb, ?_, .inl rfl⟩
    have hch := hk.2
    rw [changedKeys_mem] at hch
    have va : a ∈ s.indexes.values := Dict.mem_values.mpr ⟨_, Dict.mem_of_get? ha⟩
    have vb : b ∈ t.indexes.values := Dict.mem_values.mpr ⟨_, Dict.mem_of_get? hb⟩
    by_cases hr : a.render = b.render
    · exact Index.render_inj (ps.idx a va) (pt.idx b vb) (hs.idxCols a va).1 (ht.idxCols b vb).1 hr
    · by_cases hc : a.columns = b.columns ∧ a.indexType = b.indexType
      · exact ⟨hc.1, by simp [Index.isPrimary, hc.2], by simp [Index.isUnique, hc.2]⟩
      · exact absurd ⟨a, b, ha, hb, hr, hc⟩ hch
  · have hm : k ∈ (matchedKeys s t).map Prod.fst := by
      apply Classical.byContradiction
      intro h
      exact hk.1 (goneKeys_mem.mpr ⟨Dict.mem_keys_of_get? ha, hkt, h⟩)
    obtain ⟨⟨k0, k'⟩, hp, rfl⟩ := List.mem_map.mp hm
    obtain ⟨_, _, ri, ai, h1, h2, h3, h4, _⟩ := (matchedKeys_spec s t hs.toKeyed).2.2 _ hp
    rw [ha] at h1
    simp only [Option.some.injEq] at h1
    subst h1
    exact ⟨k', ai, h2, ⟨h3, by simp [Index.isPrimary, h4], by simp [Index.isUnique, h4]⟩, .inr hp⟩

/-- the keys of the table after the migration -/
def finalKeys (s t : Table) : Dict Index :=
  (s.indexes.filter (fun e => !keyDropped s t e.1)).map (fun e => (keyName e.2, e.2)) ++
  (look t.indexes (newKeys s t ++ changedKeys s t)).map (fun i => (keyName i, i))

theorem ofTable_keys {s : Table} : (ofTable s).keys = s.indexes.map (fun e => (keyName e.2, e.2)) := by
  simp [ofTable, Dict.values]

theorem newChanged_sub {s t : Table} : ∀ k ∈ newKeys s t ++ changedKeys s t, k ∈ t.indexes.keys := by
  intro k hk
  rcases List.mem_append.mp hk with h | h
  · exact (newKeys_mem.mp h).1
  · obtain ⟨a, b, _, hb, _⟩ := changedKeys_mem.mp h
    exact Dict.mem_keys_of_get? hb

theorem newChanged_nodup {s t : Table} (hs : s.Keyed) (ht : t.Keyed) : (newKeys s t ++ changedKeys s t).Nodup := by
  rw [List.nodup_append]
  refine ⟨(added_nodup ht.idxNodup).filter _, (overlap_nodup hs.idxNodup).filter _, ?_⟩
  intro a ha b hb e
  subst e
  obtain ⟨x, y, hx, _⟩ := changedKeys_mem.mp hb
  exact (newKeys_mem.mp ha).2.1 (Dict.mem_keys_of_get? hx)

theorem goneChanged_sub {s t : Table} : ∀ k ∈ goneKeys s t ++ changedKeys s t, k ∈ s.indexes.keys := by
  intro k hk
  rcases List.mem_append.mp hk with h | h
  · exact (goneKeys_mem.mp h).1
  · obtain ⟨a, b, ha, _⟩ := changedKeys_mem.mp h
    exact Dict.mem_keys_of_get? ha

theorem goneChanged_nodup {s t : Table} (hs : s.Keyed) : (goneKeys s t ++ changedKeys s t).Nodup := by
  rw [List.nodup_append]
  refine ⟨(removed_nodup hs.idxNodup).filter _, (overlap_nodup hs.idxNodup).filter _, ?_⟩
  intro a ha b hb e
  subst e
  obtain ⟨x, y, _, hy, _⟩ := changedKeys_mem.mp hb
  exact (goneKeys_mem.mp ha).2.1 (Dict.mem_keys_of_get? hy)

/-- the names in the DROP clauses are the server's names of the dropped keys -/
theorem droppedKeys_eq {s t : Table} (hs : s.Valid) (ht : t.Keyed) (hp : PrimaryKept s t) :
    (look s.indexes (goneKeys s t)).map keyName ++ (look t.indexes (changedKeys s t)).map Index.name =
    (goneKeys s t ++ changedKeys s t).map (srvName s.indexes) := by
  rw [List.map_append]
  congr 1
  · exact look_map s.indexes keyName _ (fun k hk => goneChanged_sub k (List.mem_append.mpr (.inl hk))) _
      (fun k v hv => by simp [srvName, hv])
  · rw [look_map t.indexes Index.name (changedKeys s t) (fun k hk => newChanged_sub (s := s) k (List.mem_append.mpr (.inr hk))) id
      (fun k v hv => (ht.idxName _ _ (Dict.mem_of_get? hv)).symm)]
    apply List.map_congr_left
    intro k hk
    obtain ⟨a, b, ha, hb, _, hc⟩ := changedKeys_mem.mp hk
    have hna := hs.idxName _ _ (Dict.mem_of_get? ha)
    cases hpa : a.isPrimary with
    | false => simp [srvName, ha, keyName, hpa, hna]
    | true =>
      rcases hp k a b ha hb hpa with h | ⟨h1, h2⟩
      · simp only [srvName, ha, keyName, hpa, if_true]; exact h
      · exact absurd ⟨h2, upper_primary hpa h1⟩ hc

theorem keyDropped_iff {s t : Table} {k : Str} : keyDropped s t k = true ↔ k ∈ goneKeys s t ++ changedKeys s t := by
  simp [keyDropped]

theorem get?_of_entry {s : Table} (hs : s.Keyed) {e : Str × Index} (he : e ∈ s.indexes) : s.indexes.get? e.1 = some e.2 :=
  Dict.get?_of_mem hs.idxNodup he

/-- dropping keys -/
theorem keys_dropped {s t : Table} (hs : s.Valid) (ht : t.Keyed) (hp : PrimaryKept s t) :
    dropNames (droppedKeys ((keyOps s t).flatMap clauses)) (ofTable s).keys =
      some ((s.indexes.filter (fun e => !keyDropped s t e.1)).map (fun e => (keyName e.2, e.2))) := by
  rw [(keyOps_clauses s t).2.2.2.1, droppedKeys_eq hs ht hp, ofTable_keys]
  rw [dropNames_spec]
  · congr 1
    rw [List.filter_map]
    congr 1
    apply List.filter_congr
    intro e he
    simp only [Function.comp]
    congr 1
    have hge := get?_of_entry hs.toKeyed he
    rw [Bool.eq_iff_iff, keyDropped_iff, List.contains_eq_mem, decide_eq_true_eq]
    constructor
    · intro h
      obtain ⟨k, hk, hke⟩ := List.mem_map.mp h
      have : srvName s.indexes k = srvName s.indexes e.1 := by rw [hke]; simp [srvName, hge]
      have := srvName_inj hs (goneChanged_sub k hk) (Dict.mem_keys_of_get? hge) this
      exact this ▸ hk
    · intro h
      exact List.mem_map.mpr ⟨e.1, h, by simp [srvName, hge]⟩
  · intro n hn
    obtain ⟨k, hk, rfl⟩ := List.mem_map.mp hn
    obtain ⟨a, ha⟩ := Dict.exists_get? (goneChanged_sub k hk)
    simp only [Dict.keys, List.map_map]
    refine List.mem_map.mpr ⟨(k, a), Dict.mem_of_get? ha, ?_⟩
    simp [srvName, ha]
  · apply nodup_map_on
    · intro a ha b hb h
      exact srvName_inj hs (goneChanged_sub a ha) (goneChanged_sub b hb) h
    · exact goneChanged_nodup hs.toKeyed

/-- dropped columns do not touch the kept keys -/
theorem keys_shrunk {s t : Table} (hs : s.Valid) (ht : t.Valid) (ps : s.Plain) (pt : t.Plain) (dropped : List Str)
    (hd : ∀ c ∈ dropped, c ∉ t.columns.keys) :
    let K := (s.indexes.filter (fun e => !keyDropped s t e.1)).map (fun e => (keyName e.2, e.2))
    shrinkKeys dropped K = K := by
  intro K
  have hK : ∀ e ∈ K, e.2.columns ≠ [] ∧ ∀ c ∈ e.2.columns, c ∈ t.columns.keys := by
    intro e he
    obtain ⟨x, hx, rfl⟩ := List.mem_map.mp he
    simp only [List.mem_filter, Bool.not_eq_true'] at hx
    obtain ⟨k', b, hb, hsame, _⟩ := kept_counterpart hs ht ps pt (get?_of_entry hs.toKeyed hx.1) hx.2
    rw [hsame.1]
    exact ht.idxCols b (Dict.mem_values.mpr ⟨_, Dict.mem_of_get? hb⟩)
  unfold shrinkKeys
  have hmap : K.map (fun e => (e.1, { e.2 with columns := e.2.columns.filter (fun c => !dropped.contains c) })) = K := by
    conv => rhs; rw [← List.map_id K]
    apply List.map_congr_left
    intro e he
    have : e.2.columns.filter (fun c => !dropped.contains c) = e.2.columns := by
      rw [List.filter_eq_self]
      intro c hc
      simp only [List.contains_eq_mem, Bool.not_eq_true', decide_eq_false_iff_not]
      exact fun h => hd c h ((hK e he).2 c hc)
    rw [this]; rfl
  rw [hmap, List.filter_eq_self]
  intro e he
  simpa using (hK e he).1

/-- adding the new keys -/
theorem keys_added {s t : Table} (hs : s.Valid) (ht : t.Valid) (ps : s.Plain) (pt : t.Plain) :
    (addedKeys ((keyOps s t).flatMap clauses)).foldlM (addNamed keyName)
      ((s.indexes.filter (fun e => !keyDropped s t e.1)).map (fun e => (keyName e.2, e.2))) = some (finalKeys s t) := by
  rw [(keyOps_clauses s t).2.2.2.2.1]
  have happ : look t.indexes (newKeys s t) ++ look t.indexes (changedKeys s t) = look t.indexes (newKeys s t ++ changedKeys s t) := by
    simp [look]
  rw [happ, addNamed_spec]
  · rfl
  · rw [look_map t.indexes keyName _ newChanged_sub (srvName t.indexes) (fun k v hv => by simp [srvName, hv])]
    apply nodup_map_on
    · intro a ha b hb h
      exact srvName_inj ht (newChanged_sub a ha) (newChanged_sub b hb) h
    · exact newChanged_nodup hs.toKeyed ht.toKeyed
  · intro i hi hmem
    obtain ⟨k, hk, hik⟩ := mem_look.mp hi
    simp only [Dict.keys, List.map_map] at hmem
    obtain ⟨e, he, hname⟩ := List.mem_map.mp hmem
    simp only [List.mem_filter, Bool.not_eq_true'] at he
    simp only [Function.comp] at hname
    have hge := get?_of_entry hs.toKeyed he.1
    have ve : e.2 ∈ s.indexes.values := Dict.mem_values.mpr ⟨_, he.1⟩
    have vi : i ∈ t.indexes.values := Dict.mem_values.mpr ⟨_, Dict.mem_of_get? hik⟩
    have ni := ht.idxName _ _ (Dict.mem_of_get? hik)
    have ne := hs.idxName _ _ he.1
    obtain ⟨k', b, hb, hsame, hrel⟩ := kept_counterpart hs ht ps pt hge he.2
    have vb : b ∈ t.indexes.values := Dict.mem_values.mpr ⟨_, Dict.mem_of_get? hb⟩
    unfold keyName at hname
    cases pe : e.2.isPrimary with
    | false =>
      cases pi : i.isPrimary with
      | false =>
        simp only [pe, pi, Bool.false_eq_true, if_false] at hname
        have hke : e.1 = k := by rw [← ne, ← ni, hname]
        rcases List.mem_append.mp hk with h | h
        · exact (newKeys_mem.mp h).2.1 (hke ▸ Dict.mem_keys_of_get? hge)
        · have hd := he.2
          rw [hke] at hd
          simp [keyDropped, h] at hd
      | true =>
        simp only [pe, pi, if_true, Bool.false_eq_true, if_false] at hname
        exact hs.noPrimaryName e.2 ve pe hname
    | true =>
      cases pi : i.isPrimary with
      | false =>
        simp only [pe, pi, if_true, Bool.false_eq_true, if_false] at hname
        exact ht.noPrimaryName i vi pi hname.symm
      | true =>
        -- both primary: the counterpart of the kept primary key is the new one
        have pb : b.isPrimary = true := by rw [← hsame.2.1]; exact pe
        have hbi := ht.onePrimary b i vb vi pb pi
        have nb := ht.idxName _ _ (Dict.mem_of_get? hb)
        have hkk : k' = k := by rw [← nb, ← ni, hbi]
        rcases hrel with h | h
        · -- same name
          have hke : e.1 = k := by rw [← h]; exact hkk
          rcases List.mem_append.mp hk with h' | h'
          · exact (newKeys_mem.mp h').2.1 (hke ▸ Dict.mem_keys_of_get? hge)
          · have hd := he.2
            rw [hke] at hd
            simp [keyDropped, h'] at hd
        · have hm := (matchedKeys_spec s t hs.toKeyed).2.2 _ h
          rcases List.mem_append.mp hk with h' | h'
          · exact (newKeys_mem.mp h').2.2 (List.mem_map.mpr ⟨_, h, hkk⟩)
          · obtain ⟨x, y, hx, _⟩ := changedKeys_mem.mp h'
            have : k' ∉ s.indexes.keys := (mem_added.mp hm.2.1).2
            exact this (hkk ▸ Dict.mem_keys_of_get? hx)

/-- the columns of all keys exist in the target -/
theorem finalKeys_cols {s t : Table} (hs : s.Valid) (ht : t.Valid) (ps : s.Plain) (pt : t.Plain) :
    ∀ e ∈ finalKeys s t, ∀ c ∈ e.2.columns, c ∈ t.columns.keys := by
  intro e he
  rcases List.mem_append.mp he with h | h
  · obtain ⟨x, hx, rfl⟩ := List.mem_map.mp h
    simp only [List.mem_filter, Bool.not_eq_true'] at hx
    obtain ⟨k', b, hb, hsame, _⟩ := kept_counterpart hs ht ps pt (get?_of_entry hs.toKeyed hx.1) hx.2
    rw [hsame.1]
    exact (ht.idxCols b (Dict.mem_values.mpr ⟨_, Dict.mem_of_get? hb⟩)).2
  · obtain ⟨i, hi, rfl⟩ := List.mem_map.mp h
    obtain ⟨k, _, hik⟩ := mem_look.mp hi
    exact (ht.idxCols i (Dict.mem_values.mpr ⟨_, Dict.mem_of_get? hik⟩)).2

end Mygrations

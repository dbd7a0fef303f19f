import Verif.Proofs.Phases2

/-! # A migration which was interrupted meets the conditions of a migration again -/

namespace Mygrations
open Table MySQL Mygration

/-- keys under the tool's names -/
def named (K : Dict Index) : Dict Index := K.map (fun e => (e.2.name, e.2))

theorem named_ofTable {a : Table} (ha : a.Keyed) : named (ofTable a).keys = a.indexes := by
  rw [ofTable_keys, named, List.map_map]
  conv => rhs; rw [← List.map_id a.indexes]
  apply List.map_congr_left
  rintro ⟨k, i⟩ h
  simp [ha.idxName _ _ h]

/-- a table which is described by what the server has -/
theorem described {a : Table} {st : STable} (ha : a.Keyed) (h : ofTable a = st) :
    a.columns = st.cols ∧ a.indexes = named st.keys ∧ a.constraints = st.fks := by
  subst h
  exact ⟨(ofTable_cols ha).symm, (named_ofTable ha).symm, (ofTable_fks ha).symm⟩

theorem mem_named {K : Dict Index} {i : Index} (h : i ∈ (named K).values) : ∃ x, (x, i) ∈ K := by
  obtain ⟨k, hk⟩ := Dict.mem_values.mp h
  obtain ⟨e, he, heq⟩ := List.mem_map.mp hk
  simp only [Prod.mk.injEq] at heq
  exact ⟨e.1, by rw [← heq.2]; exact he⟩

/-- where a migration from `f` to `t` is, and the tables `d` which are there -/
structure Mid [PyNum] (c : Bool) (f t : Dict Table) (N : Str → Dict Column) (w : Where) (d : Dict Table) : Prop where
  setup : Setup c f t N
  ord : w.Ordered f t
  keyed : KeyedTables d
  get : ∀ n, (d.get? n).map ofTable = tabsAt f t N w n
  order : ∀ x y, Before (overlap f t) x y → Before (overlap d t) x y

section
variable [PyNum] {c : Bool} {f t d : Dict Table} {N : Str → Dict Column} {w : Where}

theorem Mid.keyedTable (h : Mid c f t N w d) {n : Str} {a : Table} (ha : d.get? n = some a) : a.Keyed := h.keyed.keyed _ _ (Dict.mem_of_get? ha)

theorem Mid.at (h : Mid c f t N w d) {n : Str} {a : Table} (ha : d.get? n = some a) : tabsAt f t N w n = some (ofTable a) := by
  rw [← h.get, ha]; rfl

/-- the three kinds of tables: as before, updated, created -/
theorem Mid.view (h : Mid c f t N w d) {n : Str} {s : Table} (hs : d.get? n = some s) :
    (∃ a, f.get? n = some a ∧ s.columns = a.columns ∧ s.indexes = a.indexes ∧ (t.get? n ≠ none → w.g n < 3)) ∨
    (∃ a b, f.get? n = some a ∧ t.get? n = some b ∧ s.columns = N n ∧ s.indexes = named (finalKeys a b) ∧ 3 ≤ w.g n) ∨
    (∃ b, f.get? n = none ∧ t.get? n = some b ∧ s.columns = b.columns ∧ s.indexes = b.indexes ∧ s.constraints = b.constraints ∧ w.cr n = true) := by
  have hat := h.at hs
  have ks := h.keyedTable hs
  unfold tabsAt at hat
  cases ha : f.get? n with
  | none =>
    cases hb : t.get? n with
    | none => simp [ha, hb] at hat
    | some b =>
      simp only [ha, hb] at hat
      split at hat
      · rename_i hcr
        simp only [Option.some.injEq] at hat
        obtain ⟨h1, h2, h3⟩ := described ks hat.symm
        have kb := h.setup.tgt.keyedTable hb
        rw [ofTable_cols kb] at h1
        rw [named_ofTable kb] at h2
        rw [ofTable_fks kb] at h3
        exact .inr (.inr ⟨b, rfl, rfl, h1, h2, h3, hcr⟩)
      · cases hat
  | some a =>
    have ka := h.setup.src.keyedTable ha
    have hk := named_ofTable ka
    cases hb : t.get? n with
    | none =>
      simp only [ha, hb] at hat
      split at hat
      · cases hat
      · simp only [Option.some.injEq] at hat
        obtain ⟨h1, h2, _⟩ := described ks hat.symm
        simp only [goneTab] at h1 h2
        exact .inl ⟨a, rfl, h1, h2.trans hk, by simp⟩
    | some b =>
      simp only [ha, hb, Option.some.injEq] at hat
      obtain ⟨h1, h2, _⟩ := described ks hat.symm
      generalize w.g n = g at h1 h2
      rcases g with _ | _ | _ | _ | _ | g <;> simp only [stageTab] at h1 h2
      · exact .inl ⟨a, rfl, h1, h2.trans hk, by simp⟩
      · exact .inl ⟨a, rfl, h1, h2.trans hk, by simp⟩
      · exact .inl ⟨a, rfl, h1, h2.trans hk, by simp⟩
      · exact .inr (.inl ⟨a, b, rfl, rfl, h1, h2, by simp⟩)
      · exact .inr (.inl ⟨a, b, rfl, rfl, h1, h2, by simp⟩)
      · exact .inr (.inl ⟨a, b, rfl, rfl, h1, h2, by simp⟩)

/-- the two kinds of foreign keys: of before, and declared -/
theorem Mid.fk (h : Mid c f t N w d) {n : Str} {s : Table} (hs : d.get? n = some s) {k : Constraint} (hk : k ∈ s.constraints.values) :
    OldFk f t w n k.name k ∨ NewFk f t w n k.name k := by
  have ks := h.keyedTable hs
  have := tab_fk (x := k.name) (k := k) h.setup (h.at hs) (by rw [ofTable_fks ks]; exact Dict.mem_of_get? (value_get? ks hk))
  exact this.imp And.left And.left

/-- a declared table which is missing is still to be created, and nothing is updated -/
theorem Mid.missing (h : Mid c f t N w d) {n : Str} (hd : d.get? n = none) (ht : t.get? n ≠ none) :
    f.get? n = none ∧ ∀ p, f.get? p ≠ none → t.get? p ≠ none → w.g p < 3 := by
  have hat := h.get n
  rw [hd] at hat
  cases hb : t.get? n with
  | none => exact absurd hb ht
  | some b =>
    cases ha : f.get? n with
    | some a => simp [tabsAt, ha, hb] at hat
    | none =>
      refine ⟨rfl, fun p hf ht => ?_⟩
      simp only [tabsAt, ha, hb, Option.map_none] at hat
      have hcr : w.cr n = false := by
        cases hcr : w.cr n with
        | false => rfl
        | true => simp [hcr] at hat
      by_cases hg : 3 ≤ w.g p
      · have := (h.ord.first p hg hf ht n).2
        rw [hcr] at this
        cases this
      · omega

theorem Mid.low (h : Mid c f t N w d) {n : Str} (hg : w.g n = 0) : ∀ p, f.get? p ≠ none → t.get? p ≠ none → w.g p < 3 := by
  intro p hf ht
  by_cases hp : 3 ≤ w.g p
  · have := (h.ord.first p hp hf ht n).1
    omega
  · omega

theorem Mid.types (h : Mid c f t N w d) {n x : Str} (hc : TypeChanges d t n x) : TypeChanges f t n x := by
  obtain ⟨s, b, u, v, hs, hb, hu, hv, hne⟩ := hc
  rcases h.view hs with ⟨a, ha, h1, _⟩ | ⟨a, b', ha, hb', h1, _⟩ | ⟨b', ha, hb', h1, _⟩
  · rw [h1] at hu
    exact ⟨a, b, u, v, ha, hb, hu, hv, hne⟩
  · rw [hb] at hb'
    cases hb'
    rw [h1] at hu
    have hok := h.setup.cols n a b ha hb
    cases hau : a.columns.get? x with
    | none =>
      rw [hok.new x (Dict.get?_eq_none.mp hau), hv] at hu
      cases hu
      simp [Column.TypeDiffers] at hne
    | some u' =>
      rcases hok.common x u' v hau hv with ⟨_, h2⟩ | ⟨_, h2⟩
      · rw [hu] at h2
        cases h2
        exact ⟨a, b, u, v, ha, hb, hau, hv, hne⟩
      · rw [hu] at h2
        cases h2
        simp [Column.TypeDiffers] at hne
  · rw [hb] at hb'
    cases hb'
    rw [h1, hv] at hu
    cases hu
    simp [Column.TypeDiffers] at hne

theorem Mid.retyped (h : Mid c f t N w d) {n x : Str} (hc : Retyped d t n x) : Retyped f t n x := by
  obtain ⟨s, b, u, v, hs, hb, hu, hv, hne, h5, h6⟩ := hc
  obtain ⟨a, b', u', v', ha, hb', hu', hv', _⟩ := h.types ⟨s, b, u, v, hs, hb, hu, hv, hne⟩
  rw [hb] at hb'
  cases hb'
  rw [hv] at hv'
  cases hv'
  have : u' = u := by
    rcases h.view hs with ⟨a', ha', h1, _⟩ | ⟨a', b', ha', hb', h1, _⟩ | ⟨b', ha', _⟩
    · rw [ha] at ha'
      cases ha'
      rw [h1, hu'] at hu
      cases hu
      rfl
    · rw [ha] at ha'
      cases ha'
      rcases (h.setup.cols n a b ha hb).common x u' v hu' hv with ⟨_, h2⟩ | ⟨_, h2⟩
      · rw [h1, h2] at hu
        cases hu
        rfl
      · rw [h1, h2] at hu
        cases hu
        exact absurd rfl h5
    · rw [ha] at ha'; cases ha'
  subst this
  exact ⟨a, b, u', v, ha, hb, hu', hv, hne, h5, h6⟩

theorem Mid.touched (h : Mid c f t N w d) {n : Str} {k : Constraint} (ht : Touched d t n k) : Touched f t n k := by
  obtain ⟨m, x, h1, h2⟩ := ht
  exact ⟨m, x, h.types h1, h2⟩

theorem Mid.touched_low (h : Mid c f t N w d) (hl : ∀ p, f.get? p ≠ none → t.get? p ≠ none → w.g p < 3) {n : Str} {k : Constraint}
    (ht : Touched f t n k) : Touched d t n k := by
  obtain ⟨m, x, ⟨a, b, u, v, ha, hb, hu, hv, hne⟩, h2⟩ := ht
  refine ⟨m, x, ?_, h2⟩
  have hg := hl m (by simp [ha]) (by simp [hb])
  cases hs : d.get? m with
  | none => rw [(h.missing hs (by simp [hb])).1] at ha; cases ha
  | some s =>
    rcases h.view hs with ⟨a', ha', h1, _⟩ | ⟨a', b', ha', hb', h1, _, h3⟩ | ⟨b', ha', _⟩
    · rw [ha] at ha'
      cases ha'
      exact ⟨s, b, u, v, hs, hb, by rw [h1]; exact hu, hv, hne⟩
    · omega
    · rw [ha] at ha'; cases ha'

theorem Mid.created_types (h : Mid c f t N w d) {n x : Str} (hf : f.get? n = none) : ¬ TypeChanges d t n x := by
  intro hc
  obtain ⟨a, _, _, _, ha, _⟩ := h.types hc
  rw [hf] at ha
  cases ha

/-! ## The keys of an updated table -/

theorem mem_finalKeys {a b : Table} (ka : a.Keyed) (kb : b.Keyed) {x : Str} {i : Index} (h : (x, i) ∈ finalKeys a b) : x = keyName i ∧
    ((a.indexes.get? i.name = some i ∧ keyDropped a b i.name = false) ∨ (b.indexes.get? i.name = some i ∧ i.name ∈ newKeys a b ++ changedKeys a b)) := by
  rcases List.mem_append.mp h with h | h
  · obtain ⟨e, he, heq⟩ := List.mem_map.mp h
    simp only [List.mem_filter, Bool.not_eq_true'] at he
    simp only [Prod.mk.injEq] at heq
    obtain ⟨rfl, rfl⟩ := heq
    have hn := ka.idxName _ _ he.1
    exact ⟨rfl, .inl ⟨by rw [hn]; exact get?_of_entry ka he.1, by rw [hn]; exact he.2⟩⟩
  · obtain ⟨j, hj, heq⟩ := List.mem_map.mp h
    simp only [Prod.mk.injEq] at heq
    obtain ⟨rfl, rfl⟩ := heq
    obtain ⟨k, hk, hg⟩ := mem_look.mp hj
    have hn := kb.idxName _ _ (Dict.mem_of_get? hg)
    exact ⟨rfl, .inr ⟨by rw [hn]; exact hg, by rw [hn]; exact hk⟩⟩

theorem addNamed_nodup {V : Type} {name : V → Str} : ∀ {vs : List V} {d d' : Dict V}, vs.foldlM (addNamed name) d = some d' → d.keys.Nodup → d'.keys.Nodup
  | [], d, d', h, hn => by
    simp only [List.foldlM_nil, Option.pure_def, Option.some.injEq] at h
    exact h ▸ hn
  | v :: vs, d, d', h, hn => by
    rw [List.foldlM_cons] at h
    simp only [addNamed] at h
    split at h
    · cases h
    · rename_i hh
      simp only [Option.bind_eq_bind, Option.bind_some] at h
      refine addNamed_nodup h ?_
      rw [Dict.keys_append, List.nodup_append]
      refine ⟨hn, by simp, ?_⟩
      intro x hx y hy e
      simp only [Dict.keys, List.map_cons, List.map_nil, List.mem_singleton] at hy
      subst hy
      subst e
      exact hh (Dict.has_iff.mpr hx)

theorem finalKeys_nodup {a b : Table} (va : a.Valid) (vb : b.Valid) (pa : a.Plain) (pb : b.Plain) : (finalKeys a b).keys.Nodup := by
  refine addNamed_nodup (keys_added va vb pa pb) ?_
  have hd := distinct_of_valid va
  simp only [STable.distinct, Bool.and_eq_true, decide_eq_true_eq] at hd
  have := hd.1.2
  rw [ofTable_keys] at this
  exact this.sublist (List.Sublist.map _ (List.Sublist.map _ List.filter_sublist))

theorem named_finalKeys_nodup {a b : Table} (ka : a.Keyed) (kb : b.Keyed) : (named (finalKeys a b)).keys.Nodup := by
  simp only [named, finalKeys, List.map_append, List.map_map, Dict.keys, List.nodup_append]
  have h1 : (a.indexes.filter (fun e => !keyDropped a b e.1)).map (Prod.fst ∘ (fun e : Str × Index => (e.2.name, e.2)) ∘ fun e => (keyName e.2, e.2)) =
      Dict.keys (a.indexes.filter (fun e => !keyDropped a b e.1)) := by
    apply List.map_congr_left
    rintro ⟨k, i⟩ h
    exact ka.idxName _ _ (List.mem_filter.mp h).1
  have h2 : (look b.indexes (newKeys a b ++ changedKeys a b)).map (Prod.fst ∘ (fun e : Str × Index => (e.2.name, e.2)) ∘ fun i => (keyName i, i)) =
      newKeys a b ++ changedKeys a b := by
    rw [look_map b.indexes _ _ newChanged_sub id]
    · simp
    · intro k v hv
      exact (kb.idxName _ _ (Dict.mem_of_get? hv)).symm
  rw [h1, h2]
  refine ⟨?_, newChanged_nodup ka kb, ?_⟩
  · rw [Dict.keys_filter_key (fun k => !keyDropped a b k)]
    exact ka.idxNodup.filter _
  · intro x hx y hy e
    subst e
    rw [Dict.keys_filter_key (fun k => !keyDropped a b k), List.mem_filter] at hx
    rcases List.mem_append.mp hy with h | h
    · exact (newKeys_mem.mp h).2.1 hx.1
    · have := keyDropped_iff.mpr (List.mem_append_right (goneKeys a b) h)
      simp [this] at hx

/-! ## The tables are accepted -/

theorem Mid.valid (h : Mid c f t N w d) {n : Str} {s : Table} (hs : d.get? n = some s) : s.Valid ∧ s.Plain := by
  have ks := h.keyedTable hs
  have hfk : ∀ k ∈ s.constraints.values, (OldFk f t w n k.name k ∨ NewFk f t w n k.name k) := fun k hk => h.fk hs hk
  have hplain : ∀ k ∈ s.constraints.values, PlainName k.name ∧ PlainName k.column ∧ PlainName k.ftable ∧ PlainName k.fcolumn := by
    intro k hk
    rcases hfk k hk with ⟨⟨a, ha, hka⟩, _⟩ | ⟨⟨b, k', hb, hkb, e1, e2, e3, e4, _⟩, _⟩
    · exact (h.setup.src.valid n a ha).2.fk k (get?_value hka)
    · rw [e1, e2, e3, e4]
      exact (h.setup.tgt.valid n b hb).2.fk k' (get?_value hkb)
  rcases h.view hs with ⟨a, ha, h1, h2, h3⟩ | ⟨a, b, ha, hb, h1, h2, h3⟩ | ⟨b, ha, hb, h1, h2, h3, _⟩
  · obtain ⟨va, pa⟩ := h.setup.src.valid n a ha
    refine ⟨⟨ks, by rw [h1]; exact va.hasCols, ?_, ?_, ?_, ?_⟩, ?_, hplain⟩
    · rw [h2]; exact va.onePrimary
    · rw [h2]; exact va.noPrimaryName
    · rw [h1, h2]; exact va.idxCols
    · intro k hk
      rw [h1]
      rcases hfk k hk with ⟨⟨a', ha', hka⟩, _⟩ | ⟨⟨b, k', hb, hkb, _⟩, hn⟩
      · rw [ha] at ha'
        cases ha'
        exact va.fkCols k (get?_value hka)
      · have hg := h3 (by simp [hb])
        rcases hn a ha with h4 | h4
        · omega
        · omega
    · rw [h2]; exact pa.idx
  · obtain ⟨va, pa⟩ := h.setup.src.valid n a ha
    obtain ⟨vb, pb⟩ := h.setup.tgt.valid n b hb
    have hok := h.setup.cols n a b ha hb
    have hk : ∀ i ∈ s.indexes.values, i ∈ a.indexes.values ∨ i ∈ b.indexes.values := by
      intro i hi
      rw [h2] at hi
      obtain ⟨x, hx⟩ := mem_named hi
      rcases (mem_finalKeys va.toKeyed vb.toKeyed hx).2 with ⟨h, _⟩ | ⟨h, _⟩
      · exact .inl (Dict.mem_values.mpr ⟨_, Dict.mem_of_get? h⟩)
      · exact .inr (Dict.mem_values.mpr ⟨_, Dict.mem_of_get? h⟩)
    refine ⟨⟨ks, ?_, ?_, ?_, ?_, ?_⟩, ?_, hplain⟩
    · rw [h1]
      intro he
      have hne := vb.hasCols
      cases hbc : b.columns with
      | nil => exact hne hbc
      | cons e l =>
        have := (hok.names e.1).mpr (by rw [hbc]; simp [Dict.keys])
        rw [he] at this
        simp [Dict.keys] at this
    · intro i j hi hj pi pj
      rw [h2] at hi hj
      obtain ⟨x, hx⟩ := mem_named hi
      obtain ⟨y, hy⟩ := mem_named hj
      have ex := (mem_finalKeys va.toKeyed vb.toKeyed hx).1
      have ey := (mem_finalKeys va.toKeyed vb.toKeyed hy).1
      rw [keyName, if_pos pi] at ex
      rw [keyName, if_pos pj] at ey
      subst ex
      subst ey
      have hn := finalKeys_nodup va vb pa pb
      have e1 := Dict.get?_of_mem hn hx
      rw [Dict.get?_of_mem hn hy] at e1
      cases e1
      rfl
    · intro i hi
      rcases hk i hi with h | h
      · exact va.noPrimaryName i h
      · exact vb.noPrimaryName i h
    · intro i hi
      refine ⟨?_, ?_⟩
      · rcases hk i hi with h | h
        · exact (va.idxCols i h).1
        · exact (vb.idxCols i h).1
      · intro x hx
        rw [h2] at hi
        obtain ⟨y, hy⟩ := mem_named hi
        rw [h1]
        exact (hok.names x).mpr (finalKeys_cols va vb pa pb _ hy x hx)
    · intro k hk
      rw [h1]
      rcases hfk k hk with ⟨_, _, h4, _⟩ | ⟨⟨b', k', hb', hkb, _, e2, _⟩, _⟩
      · have := h4 (by simp [hb])
        omega
      · rw [hb] at hb'
        cases hb'
        rw [e2]
        exact (hok.names _).mpr (vb.fkCols k' (get?_value hkb))
    · intro i hi
      rcases hk i hi with h | h
      · exact pa.idx i h
      · exact pb.idx i h
  · obtain ⟨vb, pb⟩ := h.setup.tgt.valid n b hb
    refine ⟨⟨ks, by rw [h1]; exact vb.hasCols, ?_, ?_, ?_, ?_⟩, ?_, hplain⟩
    · rw [h2]; exact vb.onePrimary
    · rw [h2]; exact vb.noPrimaryName
    · rw [h1, h2]; exact vb.idxCols
    · rw [h1, h3]; exact vb.fkCols
    · rw [h2]; exact pb.idx

/-- a column of a table is one of before or a declared one -/
theorem Mid.col (h : Mid c f t N w d) {n x : Str} {s : Table} {u : Column} (hs : d.get? n = some s) (hu : s.columns.get? x = some u) :
    (∃ a, f.get? n = some a ∧ a.columns.get? x = some u) ∨ (∃ b, t.get? n = some b ∧ b.columns.get? x = some u) := by
  rcases h.view hs with ⟨a, ha, h1, _⟩ | ⟨a, b, ha, hb, h1, _⟩ | ⟨b, ha, hb, h1, _⟩
  · exact .inl ⟨a, ha, by rw [← h1]; exact hu⟩
  · rw [h1] at hu
    have hok := h.setup.cols n a b ha hb
    obtain ⟨v, hv⟩ := Dict.exists_get? ((hok.names x).mp (Dict.mem_keys_of_get? hu))
    cases hau : a.columns.get? x with
    | none =>
      rw [hok.new x (Dict.get?_eq_none.mp hau)] at hu
      exact .inr ⟨b, hb, hu⟩
    | some u' =>
      rcases hok.common x u' v hau hv with ⟨_, h2⟩ | ⟨_, h2⟩
      · rw [hu] at h2
        cases h2
        exact .inl ⟨a, ha, hau⟩
      · rw [hu] at h2
        cases h2
        exact .inr ⟨b, hb, hv⟩
  · exact .inr ⟨b, hb, by rw [← h1]; exact hu⟩

theorem Mid.accepted (h : Mid c f t N w d) : Accepted false d := by
  refine ⟨h.keyed, fun n s hs => h.valid hs, ?_, ?_, ?_⟩
  · intro n s hs x u hu
    rcases h.col hs hu with ⟨a, ha, h1⟩ | ⟨b, hb, h1⟩
    · exact h.setup.src.tidy n a ha x u h1
    · exact h.setup.tgt.tidy n b hb x u h1
  · intro n s hs k hk
    rcases h.fk hs hk with ⟨⟨a, ha, hka⟩, _⟩ | ⟨⟨b, k', hb, hkb, e1, _, _, _, e5, _⟩, _⟩
    · exact h.setup.src.actions n a ha k (get?_value hka)
    · rw [e1, e5]
      exact h.setup.tgt.actions n b hb k' (get?_value hkb)
  · have hat : At ⟨false, ofTables d⟩ (tabsAt f t N w) :=
      ⟨rfl, by simp only [ofTables_keys]; exact h.keyed.nodup, fun n => by rw [ofTables_get?, h.get]⟩
    exact hat.consistent.mpr (tabs_cons h.setup h.ord)

/-! ## The migration is untroubled -/

theorem Mid.untroubled (h : Mid c f t N w d) : Untroubled d t := by
  have hu := h.setup.ok
  constructor
  · -- primary
    intro n s b hs hb k i j hi hj hp
    rcases h.view hs with ⟨a, ha, _, h2, _⟩ | ⟨a, b', ha, hb', _, h2, _⟩ | ⟨b', ha, hb', _, h2, _⟩
    · rw [h2] at hi
      exact hu.primary n a b ha hb k i j hi hj hp
    · rw [hb] at hb'
      cases hb'
      have ka := h.setup.src.keyedTable ha
      have kb := h.setup.tgt.keyedTable hb
      rw [h2] at hi
      obtain ⟨e, he, heq⟩ := List.mem_map.mp (Dict.mem_of_get? hi)
      simp only [Prod.mk.injEq] at heq
      obtain ⟨rfl, rfl⟩ := heq
      rcases (mem_finalKeys ka kb (x := e.1) (i := e.2) he).2 with ⟨h3, _⟩ | ⟨h3, _⟩
      · exact hu.primary n a b ha hb _ _ j h3 hj hp
      · rw [hj] at h3
        cases h3
        exact .inr ⟨hp, rfl⟩
    · rw [hb] at hb'
      cases hb'
      rw [h2, hj] at hi
      cases hi
      exact .inr ⟨hp, rfl⟩
  · -- renames
    intro n s b k k' l hs hb hk htouch hkn hlike hl
    have hlike' := hlike
    obtain ⟨l₁, l₂, hv, hcols, _⟩ := hlike'
    have hk' : k' ∈ b.constraints.values := by rw [hv]; simp
    rcases h.fk hs hk with ⟨⟨a, ha, hka⟩, h2, h3, _⟩ | ⟨⟨b', k'', hb', hkb, _⟩, _⟩
    · have hg : w.g n = 0 := by
        apply Classical.byContradiction
        intro hg
        exact h2 (by omega) ⟨h.touched htouch, .inr ⟨b, hb, k', hk', .inr hcols⟩⟩
      have ks := h.keyedTable hs
      have hla : a.constraints.get? k'.name = some l := by
        have hln := get?_name ks hl
        rcases h.fk hs (get?_value hl) with ⟨⟨a', ha', hla⟩, _⟩ | ⟨_, h4⟩
        · rw [ha] at ha'
          cases ha'
          rw [← hln]
          exact hla
        · rcases h4 a ha with h4 | h4 <;> omega
      exact h.touched_low (h.low hg) (hu.renames n a b k k' l ha hb (get?_value hka) (h.touched htouch) hkn hlike hla)
    · rw [hb] at hb'
      cases hb'
      exact absurd (Dict.mem_keys_of_get? hkb) hkn
  · -- dropped
    intro n s k m b hs hn hk hb hx
    rcases h.fk hs hk with ⟨⟨a, ha, hka⟩, h2, _⟩ | ⟨⟨b', _, hb', _⟩, _⟩
    · have ht := hu.dropped n a k m b ha hn (get?_value hka) hb hx
      have hg : w.g n = 0 := by
        apply Classical.byContradiction
        intro hg
        exact h2 (by omega) ⟨ht, .inl hn⟩
      exact h.touched_low (h.low hg) ht
    · rw [hn] at hb'; cases hb'
  · -- created
    intro m b hb hm n s hs x hx hx'
    obtain ⟨hf, _⟩ := h.missing hm (by simp [hb])
    obtain ⟨k, hk⟩ := Dict.exists_get? hx'
    have hkn := get?_name (h.keyedTable hs) hk
    rcases h.fk hs (get?_value hk) with ⟨⟨a, ha, hka⟩, _⟩ | ⟨⟨b', _, hb', hkb, _⟩, _⟩
    · rw [hkn] at hka
      exact hu.created m b hb hf n a ha x hx (Dict.mem_keys_of_get? hka)
    · rw [hkn] at hkb
      refine accepted_unique h.setup.tgt hb hb' ?_ hx (Dict.mem_keys_of_get? hkb)
      rintro rfl
      rw [hm] at hs
      cases hs
  · -- parents
    intro m b k s hb hm hk hs
    obtain ⟨hf, hl⟩ := h.missing hm (by simp [hb])
    have kb := h.setup.tgt.keyedTable hb
    obtain ⟨p, hp⟩ := accepted_parent h.setup.tgt hb (value_get? kb hk)
    rcases h.view hs with ⟨a, ha, h1, h2, _⟩ | ⟨a, b', ha, hb', _, _, h3⟩ | ⟨b', ha, hb', h1, h2, _⟩
    · obtain ⟨⟨g1, u, v, g2, g3, g4⟩, g5⟩ := hu.parents m b k a hb hf hk ha
      refine ⟨⟨?_, u, v, g2, by rw [h1]; exact g3, g4⟩, fun hc => g5 (h.retyped hc)⟩
      rw [STable.leads, ofTable_keys] at g1 ⊢
      rw [h2]; exact g1
    · have := hl _ (by rw [ha]; simp) (by rw [hb']; simp)
      omega
    · obtain ⟨τ, ⟨q, hq, u, hu1, hu2, hu3⟩, hpar⟩ := accepted_fits h.setup.tgt hb (value_get? kb hk)
      rw [hb] at hq
      cases hq
      obtain ⟨q, hq, v, hv1, hv2, hv3⟩ := hpar p hp
      rw [hb'] at hq
      cases hq
      refine ⟨⟨?_, u, v, hu1, by rw [h1]; exact hv1, by rw [linkable_iff, hu3, hv3]⟩, fun hc => h.created_types ha hc.types⟩
      rw [STable.leads, ofTable_keys, h2, ← ofTable_keys]
      exact hv2
  · -- leaving
    intro n s k b hs hk hstay hne hd hb
    rcases h.fk hs hk with ⟨⟨a, ha, hka⟩, h2, h3, _⟩ | ⟨⟨b', k', hb', hkb, hsame⟩, _⟩
    · have hmove : Linked a k b → Linked s k b := by
        rintro ⟨g1, u, v, g2, g3, g4⟩
        refine ⟨g1, u, v, ?_, g3, g4⟩
        rcases h.view hs with ⟨a', ha', h1, _⟩ | ⟨a', b', ha', hb', _, _, h4⟩ | ⟨b', ha', _⟩
        · rw [ha] at ha'
          cases ha'
          rw [h1]; exact g2
        · have := h3 (by simp [hb'])
          omega
        · rw [ha] at ha'; cases ha'
      cases hp : f.get? k.ftable with
      | none =>
        exact .inl ⟨hmove (hu.dangling n a k b ha (get?_value hka) hp hb), fun hc => h.created_types hp hc.types⟩
      | some p =>
        rcases hu.leaving n a k b ha (get?_value hka) hstay hne (by simp [hp]) hb with ⟨g1, g3⟩ | ⟨g1, g2⟩ | g1
        · exact .inl ⟨hmove g1, fun hc => g3 (h.retyped hc)⟩
        · have hg : w.g n = 0 := by
            apply Classical.byContradiction
            intro hg
            exact h2 (by omega) ⟨g1, g2⟩
          exact .inr (.inl ⟨h.touched_low (h.low hg) g1, g2⟩)
        · exact .inr (.inr (h.order _ _ g1))
    · exact absurd ⟨b', k', hb', hkb, hsame⟩ hstay
  · -- dangling
    intro n s k b hs hk hd hb
    obtain ⟨hf, hl⟩ := h.missing hd (by simp [hb])
    rcases h.fk hs hk with ⟨⟨a, ha, hka⟩, h2, h3, _⟩ | ⟨⟨b', k', hb', hkb, _, e2, e3, e4, _⟩, hn⟩
    · obtain ⟨g1, u, v, g2, g3, g4⟩ := hu.dangling n a k b ha (get?_value hka) hf hb
      refine ⟨g1, u, v, ?_, g3, g4⟩
      rcases h.view hs with ⟨a', ha', h1, _⟩ | ⟨a', b', ha', hb', _, _, h4⟩ | ⟨b', ha', _⟩
      · rw [ha] at ha'
        cases ha'
        rw [h1]; exact g2
      · have := hl n (by rw [ha']; simp) (by rw [hb']; simp)
        omega
      · rw [ha] at ha'; cases ha'
    · rcases h.view hs with ⟨a, ha, _⟩ | ⟨a, _, ha, _⟩ | ⟨b'', ha, hb'', h1, _⟩
      · rcases hn a ha with h4 | h4
        · have := hl n (by simp [ha]) (by simp [hb']); omega
        · have := hl n (by simp [ha]) (by simp [hb']); omega
      · rcases hn a ha with h4 | h4
        · have := hl n (by simp [ha]) (by simp [hb']); omega
        · have := hl n (by simp [ha]) (by simp [hb']); omega
      · rw [hb'] at hb''
        cases hb''
        obtain ⟨τ, ⟨q, hq, u, hu1, _, hu3⟩, hpar⟩ := accepted_fits h.setup.tgt hb' hkb
        rw [hb'] at hq
        cases hq
        obtain ⟨q, hq, v, hv1, hv2, hv3⟩ := hpar b (by rw [← e3]; exact hb)
        rw [← e3, hb] at hq
        cases hq
        rw [← e4] at hv1 hv2
        refine ⟨hv2, u, v, by rw [h1, e2]; exact hu1, hv1, ?_⟩
        rw [linkable_iff, hu3, hv3]

end

end Mygrations

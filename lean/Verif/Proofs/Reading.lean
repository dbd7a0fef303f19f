import Verif.Proofs.Resume

/-! # Planning again, and reading what the server has -/

namespace Mygrations
open Table MySQL Mygration

/-! ## Order -/

theorem before_iff {l : List Str} {x y : Str} : Before l x y ↔ List.Sublist [x, y] l := by
  constructor
  · rintro ⟨a, b, c, rfl⟩
    have h1 : List.Sublist [y] (b ++ y :: c) := List.singleton_sublist.mpr (by simp)
    have h2 : List.Sublist [x, y] (x :: (b ++ y :: c)) := h1.cons_cons x
    have := h2.trans (List.sublist_append_right a _)
    simpa using this
  · intro h
    induction l with
    | nil => cases h
    | cons z l ih =>
      cases h with
      | cons _ h =>
        obtain ⟨a, b, c, rfl⟩ := ih h
        exact ⟨z :: a, b, c, rfl⟩
      | cons_cons _ h =>
        obtain ⟨a, b, rfl⟩ := List.append_of_mem (List.singleton_sublist.mp h)
        exact ⟨[], a, b, rfl⟩

theorem before_filter {l : List Str} {x y : Str} {p : Str → Bool} : Before (l.filter p) x y ↔ Before l x y ∧ p x = true ∧ p y = true := by
  simp only [before_iff]
  constructor
  · intro h
    have hx : x ∈ l.filter p := h.subset (by simp)
    have hy : y ∈ l.filter p := h.subset (by simp)
    exact ⟨h.trans List.filter_sublist, (List.mem_filter.mp hx).2, (List.mem_filter.mp hy).2⟩
  · rintro ⟨h, hx, hy⟩
    have := h.filter p
    simpa [List.filter_cons, hx, hy] using this

theorem before_append_left {l l' : List Str} {x y : Str} (h : Before l x y) : Before (l ++ l') x y := by
  rw [before_iff] at h ⊢
  exact h.trans (List.sublist_append_left _ _)

theorem overlap_order {f t d : Dict Table} (h : ∀ x y, Before f.keys x y → x ∈ d.keys → y ∈ d.keys → Before d.keys x y)
    (hk : ∀ n, n ∈ overlap f t → n ∈ d.keys) : ∀ x y, Before (overlap f t) x y → Before (overlap d t) x y := by
  intro x y hb
  have hx := hk x (by obtain ⟨a, b, c, e⟩ := hb; rw [e]; simp)
  have hy := hk y (by obtain ⟨a, b, c, e⟩ := hb; rw [e]; simp)
  obtain ⟨h1, h2, h3⟩ := before_filter.mp hb
  exact before_filter.mpr ⟨h x y h1 hx hy, h2, h3⟩

section
variable [PyNum]

/-! ## Planning again -/

/-- two columns can be compared -/
def Comparable (a b : Column) : Prop := a.render = b.render ∨ ∃ v, a.sameAs b = .ok v

theorem changedColumnOps_ok_iff {s t : Table} : ∀ {ks : List Str}, (∃ ops, changedColumnOps s t ks = .ok ops) ↔
    ∀ k ∈ ks, ∃ a b, s.columns.get? k = some a ∧ t.columns.get? k = some b ∧ Comparable a b
  | [] => by simp [changedColumnOps]
  | k :: ks => by
    have ih := changedColumnOps_ok_iff (s := s) (t := t) (ks := ks)
    simp only [List.forall_mem_cons]
    rw [← ih]
    simp only [changedColumnOps]
    cases ha : s.columns.get? k with
    | none => simp
    | some a =>
      cases hb : t.columns.get? k with
      | none => simp
      | some b =>
        simp only [Option.some.injEq, exists_and_left, exists_eq_left', Comparable]
        by_cases hr : a.render = b.render
        · simp [hr]
        · simp only [hr, if_false, false_or]
          cases hs : a.sameAs b with
          | error e => simp
          | ok v =>
            cases v with
            | true => simp
            | false =>
              simp only [Except.ok.injEq, exists_eq', true_and]
              cases changedColumnOps s t ks with
              | error e => simp [Except.map]
              | ok ops => simp [Except.map]

theorem toSplit_ok_iff {s t : Table} (ht : t.Keyed) : (∃ d, s.toSplit t = .ok d) ↔
    ∀ k ∈ overlap s.columns t.columns, ∃ a b, s.columns.get? k = some a ∧ t.columns.get? k = some b ∧ Comparable a b := by
  rw [← changedColumnOps_ok_iff]
  simp only [toSplit, addedColumnOps_added s t ht]
  cases changedColumnOps s t (overlap s.columns t.columns) with
  | error e => simp
  | ok ops => simp

theorem updateTables_ok {cyc : List (Str × Str)} {f t : Dict Table} : ∀ {ns : List Str},
    (∀ n ∈ ns, ∃ a b, f.get? n = some a ∧ t.get? n = some b ∧ ∃ d, a.toSplit b = .ok d) → ∃ p, updateTables cyc f t ns = .ok p
  | [], _ => ⟨_, rfl⟩
  | n :: ns, h => by
    obtain ⟨a, b, ha, hb, d, hd⟩ := h n (by simp)
    obtain ⟨⟨p, q⟩, hp⟩ := updateTables_ok (cyc := cyc) (fun n hn => h n (List.mem_cons_of_mem _ hn))
    simp only [updateTables, ha, hb, updateTable, hd, hp]
    exact ⟨_, rfl⟩

theorem process_ok {t f : Dict Table} {b : Bool}
    (h : ∀ n ∈ overlap f t, ∃ a b, f.get? n = some a ∧ t.get? n = some b ∧ ∃ d, a.toSplit b = .ok d) : ∃ ops, process t (some f) b = .ok ops := by
  obtain ⟨⟨p, q⟩, hp⟩ := updateTables_ok (cyc := cycledNames (cycles (some f) t)) h
  simp only [process, Option.getD_some, hp]
  exact ⟨_, rfl⟩

variable {c : Bool} {f t d : Dict Table} {N : Str → Dict Column} {w : Where}

theorem Mid.plan (h : Mid c f t N w d) {ops : List Op} {b : Bool} (hp : process t (some f) b = .ok ops) : ∃ ops', process t (some d) true = .ok ops' := by
  apply process_ok
  intro n hn
  obtain ⟨h1, h2⟩ := get?_overlap.mp hn
  cases hs : d.get? n with
  | none => exact absurd hs h1
  | some s =>
    cases hb : t.get? n with
    | none => exact absurd hb h2
    | some b =>
      have kb := h.setup.tgt.keyedTable hb
      refine ⟨s, b, rfl, rfl, (toSplit_ok_iff kb).mpr ?_⟩
      intro x hx
      obtain ⟨hx1, hx2⟩ := mem_overlap.mp hx
      obtain ⟨u, hu⟩ := Dict.exists_get? hx1
      obtain ⟨v, hv⟩ := Dict.exists_get? hx2
      refine ⟨u, v, hu, hv, ?_⟩
      rcases h.col hs hu with ⟨a, ha, h3⟩ | ⟨b', hb', h3⟩
      · obtain ⟨a', b', ha', hb', hd⟩ := (process_eq (from? := some f) h.setup.src.toKeyedTables hp).2 n
          (get?_overlap.mpr ⟨by simp [ha], by simp [hb]⟩)
        simp only [Option.getD_some] at ha' hb'
        rw [ha] at ha'
        cases ha'
        rw [hb] at hb'
        cases hb'
        obtain ⟨u', v', g1, g2, g3⟩ := (toSplit_ok_iff kb).mp ⟨_, hd⟩ x (mem_overlap.mpr ⟨Dict.mem_keys_of_get? h3, hx2⟩)
        rw [h3] at g1
        rw [hv] at g2
        cases g1
        cases g2
        exact g3
      · rw [hb] at hb'
        cases hb'
        rw [hv] at h3
        cases h3
        exact .inl rfl

/-! ## Reading what the server has -/

/-- the description of a table -/
def tableOf (n : Str) (st : STable) : Table := { name := n, columns := st.cols, indexes := named st.keys, constraints := st.fks }

/-- everything of the table has its own name -/
structure NamedTab (st : STable) : Prop where
  cols : st.cols.keys.Nodup
  colName : ∀ k c, (k, c) ∈ st.cols → c.name = k
  keys : (named st.keys).keys.Nodup
  keyName : ∀ k i, (k, i) ∈ st.keys → k = keyName i
  fks : st.fks.keys.Nodup
  fkName : ∀ k l, (k, l) ∈ st.fks → l.name = k

theorem NamedTab.keyed {st : STable} (h : NamedTab st) (n : Str) : (tableOf n st).Keyed := by
  refine ⟨h.cols, h.colName, h.keys, ?_, h.fks, h.fkName⟩
  intro k i hi
  obtain ⟨e, _, heq⟩ := List.mem_map.mp hi
  simp only [Prod.mk.injEq] at heq
  rw [← heq.1, ← heq.2]

theorem NamedTab.ofTable {st : STable} (h : NamedTab st) (n : Str) : ofTable (tableOf n st) = st := by
  have hk := h.keyed n
  have h1 : (MySQL.ofTable (tableOf n st)).keys = st.keys := by
    rw [ofTable_keys]
    simp only [tableOf, named, List.map_map]
    conv => rhs; rw [← List.map_id st.keys]
    apply List.map_congr_left
    rintro ⟨k, i⟩ hi
    simp [h.keyName _ _ hi]
  have h2 := ofTable_cols hk
  have h3 := ofTable_fks hk
  rw [← show (⟨(MySQL.ofTable (tableOf n st)).cols, (MySQL.ofTable (tableOf n st)).keys, (MySQL.ofTable (tableOf n st)).fks⟩ : STable) =
    MySQL.ofTable (tableOf n st) from rfl, h1, h2, h3]
  rfl

theorem ofTable_named {a : Table} (ka : a.Keyed) : NamedTab (ofTable a) := by
  refine ⟨?_, ?_, ?_, ?_, ?_, ?_⟩
  · rw [ofTable_cols ka]; exact ka.colNodup
  · rw [ofTable_cols ka]; exact ka.colName
  · rw [named_ofTable ka]; exact ka.idxNodup
  · intro k i hi
    rw [ofTable_keys] at hi
    obtain ⟨e, _, heq⟩ := List.mem_map.mp hi
    simp only [Prod.mk.injEq] at heq
    rw [← heq.1, ← heq.2]
  · rw [ofTable_fks ka]; exact ka.fkNodup
  · rw [ofTable_fks ka]; exact ka.fkName

theorem tabs_named (h : Setup c f t N) {n : Str} {st : STable} (hn : tabsAt f t N w n = some st) : NamedTab st := by
  unfold tabsAt at hn
  cases ha : f.get? n with
  | none =>
    cases hb : t.get? n with
    | none => simp [ha, hb] at hn
    | some b =>
      simp only [ha, hb] at hn
      split at hn
      · cases hn
        exact ofTable_named (h.tgt.keyedTable hb)
      · cases hn
  | some a =>
    have ka := h.src.keyedTable ha
    have hna := ofTable_named ka
    have old : ∀ F : Dict Constraint, F.keys.Nodup → (∀ k l, (k, l) ∈ F → l.name = k) → NamedTab ⟨a.columns, (ofTable a).keys, F⟩ :=
      fun F h1 h2 => ⟨ka.colNodup, ka.colName, hna.keys, hna.keyName, h1, h2⟩
    have hf1 : ∀ k l, (k, l) ∈ fks1 (cycles (some f) t) n a → l.name = k := by
      intro k l hl
      exact ka.fkName _ _ (List.mem_filter.mp hl).1
    cases hb : t.get? n with
    | none =>
      simp only [ha, hb] at hn
      split at hn
      · cases hn
      · cases hn
        simp only [goneTab]
        split
        · exact old _ ka.fkNodup ka.fkName
        · exact old _ (fks1_nodup ka) hf1
    | some b =>
      simp only [ha, hb, Option.some.injEq] at hn
      subst hn
      have kb := h.tgt.keyedTable hb
      have hok := h.cols n a b ha hb
      have hcols : ∀ k u, (k, u) ∈ N n → u.name = k := by
        intro k u hu
        have hu := Dict.get?_of_mem hok.nodup hu
        obtain ⟨v, hv⟩ := Dict.exists_get? ((hok.names k).mp (Dict.mem_keys_of_get? hu))
        have hvn := kb.colName _ _ (Dict.mem_of_get? hv)
        cases hau : a.columns.get? k with
        | none =>
          rw [hok.new k (Dict.get?_eq_none.mp hau), hv] at hu
          cases hu
          exact hvn
        | some u' =>
          rcases hok.common k u' v hau hv with ⟨_, h2⟩ | ⟨_, h2⟩
          · rw [hu] at h2
            cases h2
            exact ka.colName _ _ (Dict.mem_of_get? hau)
          · rw [hu] at h2
            cases h2
            exact hvn
      have new : ∀ F : Dict Constraint, F.keys.Nodup → (∀ k l, (k, l) ∈ F → l.name = k) → NamedTab ⟨N n, finalKeys a b, F⟩ :=
        fun F h1 h2 => ⟨hok.nodup, hcols, named_finalKeys_nodup ka kb, fun k i hi => (mem_finalKeys ka kb hi).1, h1, h2⟩
      have hf2 : ∀ k l, (k, l) ∈ fks2 (cycles (some f) t) n a b → l.name = k := by
        intro k l hl
        exact hf1 _ _ (List.mem_filter.mp hl).1
      have hf3 : ∀ k l, (k, l) ∈ fks3 (cycles (some f) t) n a b → l.name = k := by
        intro k l hl
        rcases List.mem_append.mp hl with hl | hl
        · exact hf2 _ _ hl
        · obtain ⟨x, _, heq⟩ := List.mem_map.mp hl
          simp only [Prod.mk.injEq] at heq
          rw [← heq.1, ← heq.2]
      have hf4 : ∀ k l, (k, l) ∈ fks4 (cycles (some f) t) n a b → l.name = k := by
        intro k l hl
        rcases List.mem_append.mp hl with hl | hl
        · exact hf3 _ _ hl
        · obtain ⟨x, _, heq⟩ := List.mem_map.mp hl
          simp only [Prod.mk.injEq] at heq
          rw [← heq.1, ← heq.2]
      generalize w.g n = g
      rcases g with _ | _ | _ | _ | _ | g <;> simp only [stageTab]
      · exact old _ ka.fkNodup ka.fkName
      · exact old _ (fks1_nodup ka) hf1
      · exact old _ (fks2_nodup ka) hf2
      · exact new _ (fks2_nodup ka) hf2
      · exact new _ (fks3_nodup h.src h.tgt h.ok ha hb) hf3
      · exact new _ (fks4_nodup h.src h.tgt h.ok ha hb) hf4

/-- the tables under the given names -/
def readTables (db : SDb) (ns : List Str) : Dict Table := ns.filterMap (fun n => (db.tables.get? n).map (fun st => (n, tableOf n st)))

theorem readTables_keys {db : SDb} : ∀ {ns : List Str}, (∀ n ∈ ns, n ∈ db.tables.keys) → (readTables db ns).keys = ns
  | [], _ => rfl
  | n :: ns, h => by
    obtain ⟨st, hst⟩ := Dict.exists_get? (h n (by simp))
    have ih := readTables_keys (db := db) (ns := ns) (fun m hm => h m (List.mem_cons_of_mem _ hm))
    simp only [readTables, List.filterMap_cons, hst, Option.map_some] at ih ⊢
    simp only [Dict.keys, List.map_cons] at ih ⊢
    rw [ih]

/-- whatever the server has during a migration can be read -/
theorem reading_exists (h : Setup c f t N) {db : SDb} (hn : db.tables.keys.Nodup) (hg : ∀ n, db.tables.get? n = tabsAt f t N w n) :
    ∃ d, Reading f db d := by
  let ns := f.keys.filter (fun n => db.tables.has n) ++ db.tables.keys.filter (fun n => !f.has n)
  have hsub : ∀ n ∈ ns, n ∈ db.tables.keys := by
    intro n hn
    rcases List.mem_append.mp hn with hn | hn
    · exact Dict.has_iff.mp (List.mem_filter.mp hn).2
    · exact (List.mem_filter.mp hn).1
  have hsup : ∀ n ∈ db.tables.keys, n ∈ ns := by
    intro n hn
    by_cases hf : n ∈ f.keys
    · exact List.mem_append_left _ (List.mem_filter.mpr ⟨hf, Dict.has_iff.mpr hn⟩)
    · exact List.mem_append_right _ (List.mem_filter.mpr ⟨hn, by rw [Dict.has_eq_false.mpr hf]; rfl⟩)
  have hkeys := readTables_keys hsub
  have hnd : (readTables db ns).keys.Nodup := by
    rw [hkeys, List.nodup_append]
    refine ⟨h.src.nodup.filter _, hn.filter _, ?_⟩
    intro x hx y hy e
    subst e
    have h1 := (List.mem_filter.mp hx).1
    have h2 := (List.mem_filter.mp hy).2
    rw [Dict.has_iff.mpr h1] at h2
    cases h2
  have hmem : ∀ n s, (n, s) ∈ readTables db ns → ∃ st, db.tables.get? n = some st ∧ s = tableOf n st := by
    intro n s hs
    obtain ⟨m, _, hm⟩ := List.mem_filterMap.mp hs
    cases hst : db.tables.get? m with
    | none => simp [hst] at hm
    | some st =>
      simp only [hst, Option.map_some, Option.some.injEq, Prod.mk.injEq] at hm
      obtain ⟨rfl, rfl⟩ := hm
      exact ⟨st, hst, rfl⟩
  refine ⟨readTables db ns, ⟨hnd, ?_, ?_⟩, ⟨hn, ?_⟩, ?_⟩
  · intro n s hs
    obtain ⟨st, _, rfl⟩ := hmem n s hs
    rfl
  · intro n s hs
    obtain ⟨st, hst, rfl⟩ := hmem n s hs
    exact (tabs_named h (by rw [← hg]; exact hst)).keyed n
  · intro n
    cases hst : db.tables.get? n with
    | none =>
      have : (readTables db ns).get? n = none := by
        rw [Dict.get?_eq_none, hkeys]
        intro hm
        exact Dict.get?_eq_none.mp hst (hsub n hm)
      rw [this]; rfl
    | some st =>
      have hm : (n, tableOf n st) ∈ readTables db ns :=
        List.mem_filterMap.mpr ⟨n, hsup n (Dict.mem_keys_of_get? hst), by simp [hst]⟩
      rw [Dict.get?_of_mem hnd hm, Option.map_some, (tabs_named h (by rw [← hg]; exact hst)).ofTable n]
  · intro x y hb hx hy
    rw [hkeys] at hx hy ⊢
    exact before_append_left (before_filter.mpr ⟨hb, Dict.has_iff.mpr (hsub x hx), Dict.has_iff.mpr (hsub y hy)⟩)

/-- what the tool reads during a migration -/
theorem mid_of_reading (h : Setup c f t N) (hw : w.Ordered f t) {db : SDb} (hg : ∀ n, db.tables.get? n = tabsAt f t N w n) (hr : Reading f db d) :
    Mid c f t N w d := by
  have hget : ∀ n, (d.get? n).map ofTable = tabsAt f t N w n := fun n => by rw [← hg, hr.describes.get]
  refine ⟨h, hw, hr.keyed, hget, overlap_order hr.order ?_⟩
  intro n hn
  obtain ⟨h1, h2⟩ := get?_overlap.mp hn
  have := hget n
  cases ha : f.get? n with
  | none => exact absurd ha h1
  | some a =>
    cases hb : t.get? n with
    | none => exact absurd hb h2
    | some b =>
      cases hd : d.get? n with
      | none => simp [tabsAt, ha, hb, hd] at this
      | some s => exact Dict.mem_keys_of_get? hd

end

end Mygrations

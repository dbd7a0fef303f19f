import Verif.Proofs.Exec

/-! # The foreign keys of a table, phase by phase -/

namespace Mygrations
open Table MySQL Mygration

/-- a foreign key is taken away at first -/
def cycSrc (cs : List Cycle) (n x : Str) : Bool := cs.any (fun c => c.table = n && c.name = x)

/-- the foreign keys after the temporary drops -/
def fks1 (cs : List Cycle) (n : Str) (a : Table) : Dict Constraint := a.constraints.filter (fun e => !cycSrc cs n e.1)

/-- the foreign keys after the drops of the table's turn -/
def fks2 (cs : List Cycle) (n : Str) (a b : Table) : Dict Constraint :=
  (fks1 cs n a).filter (fun e => !((ownDrops (cycledNames cs) a b n).map Constraint.name).contains e.1)

/-- the foreign keys after the additions of the table's turn -/
def fks3 (cs : List Cycle) (n : Str) (a b : Table) : Dict Constraint :=
  fks2 cs n a b ++ (ownAdds (cycledNames cs) a b n).map (fun k => (k.name, k))

/-- the foreign keys in the end -/
def fks4 (cs : List Cycle) (n : Str) (a b : Table) : Dict Constraint :=
  fks3 cs n a b ++ (((cycleTargets cs []).filter (fun e => e.1 = n)).map Prod.snd).map (fun k => (k.name, k))

section
variable {f t : Dict Table} {c c' : Bool}

theorem Accepted.keyedTable (hf : Accepted c f) {n : Str} {a : Table} (h : f.get? n = some a) : a.Keyed :=
  hf.keyed _ _ (Dict.mem_of_get? h)

theorem value_get? {a : Table} (ha : a.Keyed) {k : Constraint} (h : k ∈ a.constraints.values) : a.constraints.get? k.name = some k := by
  obtain ⟨j, hj⟩ := Dict.mem_values.mp h
  rw [ha.fkName _ _ hj]
  exact Dict.get?_of_mem ha.fkNodup hj

theorem get?_value {a : Table} {x : Str} {k : Constraint} (h : a.constraints.get? x = some k) : k ∈ a.constraints.values :=
  Dict.mem_values.mpr ⟨_, Dict.mem_of_get? h⟩

theorem get?_name {a : Table} (ha : a.Keyed) {x : Str} {k : Constraint} (h : a.constraints.get? x = some k) : k.name = x :=
  ha.fkName _ _ (Dict.mem_of_get? h)

theorem cycSrc_iff (hf : Accepted c f) (ht : Accepted c' t) {n x : Str} {a : Table} {k : Constraint} (ha : f.get? n = some a)
    (hk : a.constraints.get? x = some k) :
    cycSrc (cycles (some f) t) n x = true ↔ Touched f t n k ∧ HasCounterpart t n k := by
  simp only [cycSrc, List.any_eq_true, Bool.and_eq_true, decide_eq_true_eq]
  have hkn := get?_name (hf.keyedTable ha) hk
  constructor
  · rintro ⟨y, hy, rfl, rfl⟩
    obtain ⟨s, h1, h2, h3, h4⟩ := mem_fksToCycle hy
    have h1' := Dict.get?_of_mem hf.nodup h1
    rw [ha] at h1'
    cases h1'
    have h2' := Dict.get?_of_mem (hf.keyedTable ha).fkNodup h2
    rw [hk] at h2'
    cases h2'
    refine ⟨(involves_iff hf.toKeyedTables).mp h3, ?_⟩
    rcases (cycleOk hf.toKeyedTables ht.toKeyedTables hy).target with ⟨_, h5⟩ | ⟨d, k', h5, _, h6, h7⟩
    · exact .inl h5
    · refine .inr ⟨d, h5, k', get?_value h6, ?_⟩
      rcases h7 with h7 | ⟨_, h7⟩
      · exact .inl (h7.trans hkn.symm)
      · right
        have := List.find?_some h7
        simpa [Constraint.SameColumns] using this
  · rintro ⟨h1, h2⟩
    obtain ⟨y, hy⟩ := hasCounterpart_cycle ht.toKeyedTables hkn h2
    obtain ⟨e1, e2, _⟩ := cycleFor_spec hy
    exact ⟨y, fksToCycle_mem (Dict.mem_of_get? ha) (Dict.mem_of_get? hk) ((involves_iff hf.toKeyedTables).mpr h1) hy, e1, e2⟩

theorem mem_fks1 (hf : Accepted c f) (ht : Accepted c' t) {n x : Str} {a : Table} {k : Constraint} (ha : f.get? n = some a) :
    (x, k) ∈ fks1 (cycles (some f) t) n a ↔ a.constraints.get? x = some k ∧ ¬ (Touched f t n k ∧ HasCounterpart t n k) := by
  simp only [fks1, List.mem_filter, Bool.not_eq_true']
  constructor
  · rintro ⟨h1, h2⟩
    have h1 := Dict.get?_of_mem (hf.keyedTable ha).fkNodup h1
    refine ⟨h1, fun h => ?_⟩
    rw [(cycSrc_iff hf ht ha h1).mpr h] at h2
    cases h2
  · rintro ⟨h1, h2⟩
    refine ⟨Dict.mem_of_get? h1, ?_⟩
    cases hc : cycSrc (cycles (some f) t) n x with
    | false => rfl
    | true => exact absurd ((cycSrc_iff hf ht ha h1).mp hc) h2

theorem sameFk_of_render (hf : Accepted c f) (ht : Accepted c' t) {n m : Str} {a b : Table} {x y : Str} {k k' : Constraint}
    (ha : f.get? n = some a) (hb : t.get? m = some b) (hk : a.constraints.get? x = some k) (hk' : b.constraints.get? y = some k')
    (h : k.render = k'.render) : k.SameFk k' :=
  Constraint.render_inj ((hf.valid n a ha).2.fk k (get?_value hk)) ((ht.valid m b hb).2.fk k' (get?_value hk'))
    (hf.actions n a ha k (get?_value hk)).2 (ht.actions m b hb k' (get?_value hk')).2 h

theorem Retyped.types [PyNum] {f t : Dict Table} {n c : Str} (h : Retyped f t n c) : TypeChanges f t n c := by
  obtain ⟨a, b, u, v, h1, h2, h3, h4, h5, _⟩ := h
  exact ⟨a, b, u, v, h1, h2, h3, h4, h5⟩

theorem firstLike_iff {b : Table} {k k' : Constraint} : findMatchingConstraint b k = some k' ↔ FirstLike b k k' := by
  unfold findMatchingConstraint FirstLike
  rw [List.find?_eq_some_iff_append]
  simp only [decide_eq_true_eq, Bool.not_eq_true', decide_eq_false_iff_not, Constraint.SameColumns]
  constructor
  · rintro ⟨h1, l₁, l₂, h2, h3⟩
    exact ⟨l₁, l₂, h2, h1, h3⟩
  · rintro ⟨l₁, l₂, h2, h1, h3⟩
    exact ⟨h1, l₁, l₂, h2, h3⟩

theorem mem_fks2 [PyNum] (hf : Accepted c f) (ht : Accepted c' t) (hu : Untroubled f t) {n x : Str} {a b : Table} {k : Constraint}
    (ha : f.get? n = some a) (hb : t.get? n = some b) :
    (x, k) ∈ fks2 (cycles (some f) t) n a b ↔ (x, k) ∈ fks1 (cycles (some f) t) n a ∧
      ∃ k', b.constraints.get? x = some k' ∧ k.render = k'.render := by
  have ka := hf.keyedTable ha
  have kb := ht.keyedTable hb
  simp only [fks2, List.mem_filter, Bool.not_eq_true', List.contains_eq_mem, decide_eq_false_iff_not, ownDrops_names ka]
  constructor
  · rintro ⟨h1, h2⟩
    refine ⟨h1, ?_⟩
    obtain ⟨g1, g2⟩ := (mem_fks1 hf ht ha).mp h1
    apply Classical.byContradiction
    intro hno
    have hgone : x ∈ goneFks a b := goneFks_mem.mpr ⟨k, g1, fun k' hk' hr => hno ⟨k', hk', hr⟩⟩
    have hcyc : (n, x) ∈ cycledNames (cycles (some f) t) := by
      apply Classical.byContradiction
      intro hc
      exact h2 ⟨hgone, hc⟩
    have hsrc : ¬ cycSrc (cycles (some f) t) n x = true := fun h => g2 ((cycSrc_iff hf ht ha g1).mp h)
    obtain ⟨y, hy, hyt, hor⟩ := mem_cycledNames hcyc
    simp only at hyt hor
    have hok := cycleOk hf.toKeyedTables ht.toKeyedTables hy
    rcases hor with hor | ⟨kk, hor⟩
    · exact hsrc (by simp only [cycSrc, List.any_eq_true]; exact ⟨y, hy, by simp [hyt, hor]⟩)
    · rcases hok.target with ⟨h5, _⟩ | ⟨d, k', h5, h6, h7, h8⟩
      · rw [hor] at h5; cases h5
      · rw [hor] at h6
        cases h6
        rw [hyt, hb] at h5
        cases h5
        rcases h8 with h8 | ⟨h8, h9⟩
        · exact hsrc (by simp only [cycSrc, List.any_eq_true]; exact ⟨y, hy, by simp [hyt, h8]⟩)
        · obtain ⟨s, hs1, hs2⟩ := hok.source
          rw [hyt, ha] at hs1
          cases hs1
          have hysrc : cycSrc (cycles (some f) t) n y.name = true := by
            simp only [cycSrc, List.any_eq_true]; exact ⟨y, hy, by simp [hyt]⟩
          have htouch := ((cycSrc_iff hf ht ha hs2).mp hysrc).1
          have := hu.renames n a b y.source kk k ha hb (get?_value hs2) htouch
            (by rw [hok.sname]; exact Dict.get?_eq_none.mp h8) (firstLike_iff.mp h9) (by rw [get?_name kb h7]; exact g1)
          exact g2 ⟨this, .inr ⟨b, hb, kk, get?_value h7, .inl (get?_name ka g1).symm⟩⟩
  · rintro ⟨h1, k', hk', hr⟩
    refine ⟨h1, fun hm => ?_⟩
    obtain ⟨g1, _⟩ := (mem_fks1 hf ht ha).mp h1
    obtain ⟨a', ha', hg⟩ := goneFks_mem.mp hm.1
    rw [g1] at ha'
    cases ha'
    exact hg k' hk' hr

theorem fks1_nodup {cs : List Cycle} {n : Str} {a : Table} (ha : a.Keyed) : (fks1 cs n a).keys.Nodup := by
  rw [fks1, Dict.keys_filter_key (fun x => !cycSrc cs n x)]
  exact ha.fkNodup.filter _

theorem fks2_nodup {cs : List Cycle} {n : Str} {a b : Table} (ha : a.Keyed) : (fks2 cs n a b).keys.Nodup := by
  rw [fks2, Dict.keys_filter_key (fun x => !((ownDrops (cycledNames cs) a b n).map Constraint.name).contains x)]
  exact (fks1_nodup ha).filter _

theorem keys_named (l : List Constraint) : Dict.keys (l.map (fun k => (k.name, k))) = l.map Constraint.name := by
  simp [Dict.keys]

theorem mem_ownAdds {cs : List Cycle} {n : Str} {a b : Table} {k : Constraint} (hb : b.Keyed)
    (h : k ∈ ownAdds (cycledNames cs) a b n) :
    b.constraints.get? k.name = some k ∧ k.name ∈ newFks a b ∧ (n, k.name) ∉ cycledNames cs := by
  obtain ⟨h1, h2⟩ := List.mem_filter.mp h
  obtain ⟨x, hx, hg⟩ := mem_look.mp h1
  rw [get?_name hb hg]
  exact ⟨hg, hx, by rw [get?_name hb hg] at h2; simpa using h2⟩

theorem ownAdds_fresh [PyNum] (hf : Accepted c f) (ht : Accepted c' t) (hu : Untroubled f t) {n : Str} {a b : Table}
    (ha : f.get? n = some a) (hb : t.get? n = some b) :
    ∀ k ∈ ownAdds (cycledNames (cycles (some f) t)) a b n, k.name ∉ (fks2 (cycles (some f) t) n a b).keys := by
  intro k hk hm
  obtain ⟨k0, hk0⟩ := Dict.exists_get? hm
  obtain ⟨h1, k', h2, h3⟩ := (mem_fks2 hf ht hu ha hb).mp (Dict.mem_of_get? hk0)
  obtain ⟨g1, g2, _⟩ := mem_ownAdds (ht.keyedTable hb) hk
  obtain ⟨b', hb', hne⟩ := newFks_mem.mp g2
  rw [h2] at hb'
  cases hb'
  exact hne k0 ((mem_fks1 hf ht ha).mp h1).1 h3

theorem ownAdds_nodup {cs : List Cycle} {n : Str} {a b : Table} (ha : a.Keyed) (hb : b.Keyed) :
    ((ownAdds (cycledNames cs) a b n).map Constraint.name).Nodup := by
  rw [ownAdds_names hb]
  exact (newFks_nodup ha hb).filter _

theorem fks3_nodup [PyNum] (hf : Accepted c f) (ht : Accepted c' t) (hu : Untroubled f t) {n : Str} {a b : Table}
    (ha : f.get? n = some a) (hb : t.get? n = some b) : (fks3 (cycles (some f) t) n a b).keys.Nodup := by
  rw [fks3, Dict.keys_append, keys_named, List.nodup_append]
  refine ⟨fks2_nodup (hf.keyedTable ha), ownAdds_nodup (hf.keyedTable ha) (ht.keyedTable hb), ?_⟩
  intro x hx y hy e
  subst e
  obtain ⟨k, hk, rfl⟩ := List.mem_map.mp hy
  exact ownAdds_fresh hf ht hu ha hb k hk hx

/-- the foreign keys which are added again -/
def againFks (cs : List Cycle) (n : Str) : List Constraint := ((cycleTargets cs []).filter (fun e => e.1 = n)).map Prod.snd

theorem mem_cycleTargets {cs : List Cycle} {n : Str} {k : Constraint} (h : (n, k) ∈ cycleTargets cs []) :
    ∃ x ∈ cs, x.table = n ∧ ∃ m, x.target = some (k, m) := by
  have : (n, AlterOp.addConstraint k) ∈ cycleAdds cs [] := by
    rw [cycleAdds_eq]
    exact List.mem_map.mpr ⟨_, h, rfl⟩
  obtain ⟨x, hx, k', m, h1, h2, _⟩ := mem_cycleAdds this
  cases h2
  exact ⟨x, hx, rfl, m, h1⟩

theorem mem_againFks (hf : Accepted c f) (ht : Accepted c' t) {n : Str} {b : Table} {k : Constraint} (hb : t.get? n = some b)
    (h : k ∈ againFks (cycles (some f) t) n) :
    b.constraints.get? k.name = some k ∧ (n, k.name) ∈ cycledNames (cycles (some f) t) := by
  obtain ⟨⟨m, k0⟩, h1, rfl⟩ := List.mem_map.mp h
  obtain ⟨h0, h2⟩ := List.mem_filter.mp h1
  simp only [decide_eq_true_eq] at h2
  subst h2
  obtain ⟨x, hx, rfl, m, hm⟩ := mem_cycleTargets h0
  rcases (cycleOk hf.toKeyedTables ht.toKeyedTables hx).target with ⟨h5, _⟩ | ⟨d, k', h5, h6, h7, _⟩
  · rw [hm] at h5; cases h5
  · rw [hm] at h6
    cases h6
    rw [hb] at h5
    cases h5
    exact ⟨h7, mem_cycledNames_target hx hm (ht.actions _ _ hb _ (get?_value h7)).1⟩

theorem againFks_nodup (hf : Accepted c f) (ht : Accepted c' t) (n : Str) : ((againFks (cycles (some f) t) n).map Constraint.name).Nodup :=
  names_nodup (cycleTargets_nodup (from? := some f) ht.toKeyedTables hf.toKeyedTables) n

theorem again_fresh [PyNum] (hf : Accepted c f) (ht : Accepted c' t) (hu : Untroubled f t) {n : Str} {a b : Table}
    (ha : f.get? n = some a) (hb : t.get? n = some b) :
    ∀ k ∈ againFks (cycles (some f) t) n, k.name ∉ (fks3 (cycles (some f) t) n a b).keys := by
  intro k hk hm
  obtain ⟨g1, g2⟩ := mem_againFks hf ht hb hk
  rw [fks3, Dict.keys_append, keys_named, List.mem_append] at hm
  rcases hm with hm | hm
  · -- the name is that of a foreign key which stays
    obtain ⟨k0, hk0⟩ := Dict.exists_get? hm
    obtain ⟨h0, _⟩ := (mem_fks2 hf ht hu ha hb).mp (Dict.mem_of_get? hk0)
    obtain ⟨h1, h2⟩ := (mem_fks1 hf ht ha).mp h0
    clear h0
    have hcp : HasCounterpart t n k0 := .inr ⟨b, hb, k, get?_value g1, .inl (get?_name (hf.keyedTable ha) h1).symm⟩
    have hnt : ¬ Touched f t n k0 := fun h => h2 ⟨h, hcp⟩
    obtain ⟨⟨m, k1⟩, h4, he⟩ := List.mem_map.mp hk
    obtain ⟨h3, h5⟩ := List.mem_filter.mp h4
    clear h4
    simp only [decide_eq_true_eq] at h5 he
    subst h5
    subst he
    obtain ⟨x, hx, hxt, m', hm'⟩ := mem_cycleTargets h3
    have hok := cycleOk hf.toKeyedTables ht.toKeyedTables hx
    obtain ⟨s, hs1, hs2⟩ := hok.source
    rw [hxt, ha] at hs1
    cases hs1
    have hsrc : cycSrc (cycles (some f) t) m x.name = true := by
      simp only [cycSrc, List.any_eq_true]; exact ⟨x, hx, by simp [hxt]⟩
    have htouch := ((cycSrc_iff hf ht ha hs2).mp hsrc).1
    rcases hok.target with ⟨h6, _⟩ | ⟨d, k', h6, h7, h8, h9⟩
    · rw [hm'] at h6; cases h6
    · rw [hm'] at h7
      cases h7
      rcases h9 with h9 | ⟨h9, h10⟩
      · rw [h9, hs2] at h1
        cases h1
        exact hnt htouch
      · rw [hxt, hb] at h6
        cases h6
        exact hnt (hu.renames m a b x.source k1 k0 ha hb (get?_value hs2) htouch
            (by rw [hok.sname]; exact Dict.get?_eq_none.mp h9) (firstLike_iff.mp h10) h1)
  · obtain ⟨k0, hk0, he⟩ := List.mem_map.mp hm
    obtain ⟨_, _, h3⟩ := mem_ownAdds (ht.keyedTable hb) hk0
    rw [he] at h3
    exact h3 g2

theorem fks4_nodup [PyNum] (hf : Accepted c f) (ht : Accepted c' t) (hu : Untroubled f t) {n : Str} {a b : Table}
    (ha : f.get? n = some a) (hb : t.get? n = some b) : (fks4 (cycles (some f) t) n a b).keys.Nodup := by
  rw [fks4, Dict.keys_append, keys_named, List.nodup_append]
  refine ⟨fks3_nodup hf ht hu ha hb, againFks_nodup hf ht n, ?_⟩
  intro x hx y hy e
  subst e
  obtain ⟨k, hk, rfl⟩ := List.mem_map.mp hy
  exact again_fresh hf ht hu ha hb k hk hx

/-- the foreign keys from the late phase on are declared -/
theorem mem_fks4 [PyNum] (hf : Accepted c f) (ht : Accepted c' t) (hu : Untroubled f t) {n : Str} {a b : Table}
    (ha : f.get? n = some a) (hb : t.get? n = some b) {x : Str} {k : Constraint} (h : (x, k) ∈ fks4 (cycles (some f) t) n a b) :
    ∃ k', b.constraints.get? x = some k' ∧ k.SameFk k' := by
  have same : ∀ k : Constraint, k.SameFk k := fun k => ⟨rfl, rfl, rfl, rfl, rfl, rfl⟩
  simp only [fks4, fks3, List.mem_append, List.mem_map, Prod.mk.injEq] at h
  rcases h with (h | ⟨k0, hk0, rfl, rfl⟩) | ⟨k0, hk0, rfl, rfl⟩
  · obtain ⟨h1, k', h2, h3⟩ := (mem_fks2 hf ht hu ha hb).mp h
    exact ⟨k', h2, sameFk_of_render hf ht ha hb ((mem_fks1 hf ht ha).mp h1).1 h2 h3⟩
  · exact ⟨k0, (mem_ownAdds (ht.keyedTable hb) hk0).1, same k0⟩
  · obtain ⟨e, he, rfl⟩ := hk0
    exact ⟨e.2, (mem_againFks hf ht hb (List.mem_map.mpr ⟨e, he, rfl⟩)).1, same _⟩

/-- a declared foreign key under a cycled name is added again -/
theorem again_complete (hf : Accepted c f) (ht : Accepted c' t) {n : Str} {b : Table} (hb : t.get? n = some b) {x : Str}
    (hx : x ∈ b.constraints.keys) (hc : (n, x) ∈ cycledNames (cycles (some f) t)) : x ∈ (againFks (cycles (some f) t) n).map Constraint.name := by
  obtain ⟨k', hk'⟩ := Dict.exists_get? hx
  have key : ∀ y ∈ cycles (some f) t, y.table = n → (∃ kk, y.target = some (kk, x)) → x ∈ (againFks (cycles (some f) t) n).map Constraint.name := by
    rintro y hy hyt ⟨kk, htg⟩
    obtain ⟨z, hz, k1, h1, h2, h3⟩ := cycleAdds_complete (done := []) hy htg (by simp)
    rw [cycleAdds_eq] at h3
    obtain ⟨e, he, heq⟩ := List.mem_map.mp h3
    simp only [Prod.mk.injEq, AlterOp.addConstraint.injEq] at heq
    have hm : e.2 ∈ againFks (cycles (some f) t) n :=
      List.mem_map.mpr ⟨e, List.mem_filter.mpr ⟨he, by rw [decide_eq_true_eq, heq.1, hyt]⟩, rfl⟩
    refine List.mem_map.mpr ⟨e.2, hm, ?_⟩
    rcases (cycleOk hf.toKeyedTables ht.toKeyedTables hz).target with ⟨h5, _⟩ | ⟨d, k2, _, h6, _⟩
    · rw [h1] at h5; cases h5
    · rw [h1] at h6
      cases h6
      rw [heq.2]
  obtain ⟨y, hy, hyt, hor⟩ := mem_cycledNames hc
  simp only at hyt hor
  rcases hor with hor | hor
  · apply key y hy hyt
    rcases (cycleOk hf.toKeyedTables ht.toKeyedTables hy).target with ⟨_, h5⟩ | ⟨d, k2, h5, h6, h7, h8⟩
    · rw [hyt, hb] at h5; cases h5
    · rw [hyt, hb] at h5
      cases h5
      rcases h8 with h8 | ⟨h8, _⟩
      · exact ⟨k2, by rw [h6, h8, hor]⟩
      · rw [hor, hk'] at h8; cases h8
  · exact key y hy hyt hor

theorem fks4_complete [PyNum] (hf : Accepted c f) (ht : Accepted c' t) (hu : Untroubled f t) {n : Str} {a b : Table}
    (ha : f.get? n = some a) (hb : t.get? n = some b) {x : Str} (hx : x ∈ b.constraints.keys) :
    x ∈ (fks4 (cycles (some f) t) n a b).keys := by
  obtain ⟨k', hk'⟩ := Dict.exists_get? hx
  have ka := hf.keyedTable ha
  have kb := ht.keyedTable hb
  simp only [fks4, fks3, Dict.keys_append, keys_named, List.mem_append]
  by_cases hc : (n, x) ∈ cycledNames (cycles (some f) t)
  · -- it is taken away and added again, unless it is only the name of a renamed one
    exact .inr (again_complete hf ht hb hx hc)
  · by_cases hn : x ∈ newFks a b
    · left; right
      rw [ownAdds_names kb, List.mem_filter]
      exact ⟨hn, by simpa using hc⟩
    · left; left
      have : ∃ k0, a.constraints.get? x = some k0 ∧ k0.render = k'.render := by
        apply Classical.byContradiction
        intro hno
        exact hn (newFks_mem.mpr ⟨k', hk', fun k0 h0 hr => hno ⟨k0, h0, hr⟩⟩)
      obtain ⟨k0, h0, hr⟩ := this
      have hm : (x, k0) ∈ fks2 (cycles (some f) t) n a b := by
        rw [mem_fks2 hf ht hu ha hb, mem_fks1 hf ht ha]
        refine ⟨⟨h0, fun h => ?_⟩, k', hk', hr⟩
        have := (cycSrc_iff hf ht ha h0).mpr h
        simp only [cycSrc, List.any_eq_true, Bool.and_eq_true, decide_eq_true_eq] at this
        obtain ⟨y, hy, h1, h2⟩ := this
        apply hc
        have := mem_cycledNames_source hy
        rwa [h1, h2] at this
      exact List.mem_map_of_mem hm

end

end Mygrations

import Verif.Model.CoreOps
import Verif.Props.C07

/-! # Replaying the operations of the core package -/

namespace Mygrations
open Table MySQL

namespace Core

theorem applyOps_append (t : Table) (a b : List AlterOp) :
    applyOps t (a ++ b) = match applyOps t a with | .ok t' => applyOps t' b | .error e => .error e := by
  induction a generalizing t with
  | nil => rfl
  | cons op a ih =>
    simp only [List.cons_append, applyOps]
    cases applyOp t op with
    | error e => rfl
    | ok t' => exact ih t'

/-- Is this `RemoveColumn`? -/
def dropsColumn : AlterOp → Bool
  | .removeColumn _ => true
  | _ => false

/-- apart from keys and `RemoveColumn`, both packages do the same -/
theorem applyOps_same : ∀ (ops : List AlterOp) (t : Table), (∀ o ∈ ops, o.onKey = false ∧ dropsColumn o = false) → applyOps t ops = t.applyOps ops
  | [], _, _ => rfl
  | o :: ops, t, h => by
    have ho := h o List.mem_cons_self
    have : applyOp t o = t.applyOp o := by
      cases o <;> simp_all [AlterOp.onKey, dropsColumn, applyOp, Table.applyOp]
    simp only [applyOps, Table.applyOps, this]
    cases t.applyOp o with
    | error e => rfl
    | ok t' => exact applyOps_same ops t' (fun o ho => h o (List.mem_cons_of_mem _ ho))

/-- tables which differ at most in their keys -/
structure SameButKeys (t t' : Table) : Prop where
  name : t'.name = t.name
  columns : t'.columns = t.columns
  constraints : t'.constraints = t.constraints

theorem SameButKeys.trans {a b c : Table} (h : SameButKeys a b) (h' : SameButKeys b c) : SameButKeys a c :=
  ⟨h'.name.trans h.name, h'.columns.trans h.columns, h'.constraints.trans h.constraints⟩

theorem addIndex_ok {t : Table} {i : Index} (h : i.name ∉ t.indexes.keys) (hc : i.columns ≠ []) :
    ∃ t', t.addIndex i = .ok t' ∧ t'.indexes = t.indexes ++ [(i.name, i)] ∧ SameButKeys t t' := by
  unfold addIndex
  rw [Dict.has_eq_false.mpr h]
  simp only [Bool.false_eq_true, if_false]
  cases ht : t.indexedCache with
  | none => exact ⟨_, rfl, Dict.set_of_not_mem i h, rfl, rfl, rfl⟩
  | some s =>
    cases hi : i.columns with
    | nil => exact absurd hi hc
    | cons c cs => exact ⟨_, rfl, Dict.set_of_not_mem i h, rfl, rfl, rfl⟩

theorem removeIndex_ok {t : Table} {n : Str} {i : Index} (hn : t.indexes.keys.Nodup) (h : t.indexes.get? n = some i) (hc : i.columns ≠ []) :
    ∃ t', t.removeIndex n = .ok t' ∧ t'.indexes = t.indexes.filter (fun e => e.1 ≠ n) ∧ SameButKeys t t' := by
  unfold removeIndex
  rw [h]
  cases hi : i.columns with
  | nil => exact absurd hi hc
  | cons c cs =>
    simp only [hi]
    exact ⟨_, rfl, Dict.erase_eq_filter n hn, rfl, rfl, rfl⟩

theorem changeIndex_ok {t : Table} {i old : Index} (h : t.indexes.get? i.name = some old) (ho : old.columns ≠ []) (hc : i.columns ≠ []) :
    ∃ t', t.changeIndex i = .ok t' ∧ t'.indexes = t.indexes.set i.name i ∧ SameButKeys t t' := by
  unfold changeIndex
  rw [h]
  cases ht : t.indexedCache with
  | none => exact ⟨_, rfl, rfl, rfl, rfl, rfl⟩
  | some s =>
    cases hi : i.columns with
    | nil => exact absurd hi hc
    | cons c cs =>
      cases hoc : old.columns with
      | nil => exact absurd hoc ho
      | cons c' cs' =>
        simp only [hoc]
        exact ⟨_, rfl, rfl, rfl, rfl, rfl⟩

theorem applyOps_addKeys : ∀ (is : List Index) (t : Table), (is.map Index.name).Nodup → (∀ i ∈ is, i.name ∉ t.indexes.keys) → (∀ i ∈ is, i.columns ≠ []) →
    ∃ t', applyOps t (is.map .addKey) = .ok t' ∧ t'.indexes = t.indexes ++ is.map (fun i => (i.name, i)) ∧ SameButKeys t t'
  | [], t, _, _, _ => ⟨t, rfl, by simp, rfl, rfl, rfl⟩
  | i :: is, t, hn, hf, hc => by
    simp only [List.map_cons, List.nodup_cons] at hn
    obtain ⟨t1, h1, h2, h3⟩ := addIndex_ok (hf i List.mem_cons_self) (hc i List.mem_cons_self)
    obtain ⟨t2, h4, h5, h6⟩ := applyOps_addKeys is t1 hn.2 (by
      intro j hj hm
      rw [h2] at hm
      simp only [Dict.keys, List.map_append, List.mem_append, List.map_cons, List.map_nil, List.mem_singleton] at hm
      rcases hm with hm | hm
      · exact hf j (List.mem_cons_of_mem _ hj) hm
      · exact hn.1 (hm ▸ List.mem_map_of_mem hj)) (fun j hj => hc j (List.mem_cons_of_mem _ hj))
    refine ⟨t2, ?_, ?_, h3.trans h6⟩
    · simp only [List.map_cons, applyOps, applyOp, h1]
      exact h4
    · rw [h5, h2]
      simp

theorem applyOps_removeKeys : ∀ (is : List Index) (t : Table), t.indexes.keys.Nodup → (is.map Index.name).Nodup →
    (∀ i ∈ is, ∃ j, t.indexes.get? i.name = some j ∧ j.columns ≠ []) →
    ∃ t', applyOps t (is.map .removeKey) = .ok t' ∧ t'.indexes = t.indexes.filter (fun e => !(is.map Index.name).contains e.1) ∧ SameButKeys t t'
  | [], t, _, _, _ => ⟨t, rfl, (List.filter_eq_self.mpr (by simp)).symm, rfl, rfl, rfl⟩
  | i :: is, t, hk, hn, hc => by
    simp only [List.map_cons, List.nodup_cons] at hn
    obtain ⟨j, hj, hjc⟩ := hc i List.mem_cons_self
    obtain ⟨t1, h1, h2, h3⟩ := removeIndex_ok hk hj hjc
    have hget : ∀ n, n ≠ i.name → t1.indexes.get? n = t.indexes.get? n := by
      intro n hne
      rw [h2, Dict.get?_filter_key (fun x => decide (x ≠ i.name))]
      simp [hne]
    obtain ⟨t2, h4, h5, h6⟩ := applyOps_removeKeys is t1 (by
      rw [h2, Dict.keys_filter_key (fun x => decide (x ≠ i.name))]
      exact hk.filter _) hn.2 (by
      intro x hx
      obtain ⟨y, hy, hyc⟩ := hc x (List.mem_cons_of_mem _ hx)
      refine ⟨y, ?_, hyc⟩
      rw [hget]
      · exact hy
      · intro e
        exact hn.1 (e ▸ List.mem_map_of_mem hx))
    refine ⟨t2, ?_, ?_, h3.trans h6⟩
    · simp only [List.map_cons, applyOps, applyOp, h1]
      exact h4
    · rw [h5, h2, List.filter_filter]
      apply List.filter_congr
      intro e _
      simp only [List.map_cons, List.contains_cons]
      by_cases he : e.1 = i.name <;> simp [he]

theorem applyOps_changeKeys : ∀ (is : List Index) (t : Table), (is.map Index.name).Nodup → (∀ i ∈ is, i.columns ≠ []) →
    (∀ i ∈ is, ∃ j, t.indexes.get? i.name = some j ∧ j.columns ≠ []) →
    ∃ t', applyOps t (is.map .changeKey) = .ok t' ∧ t'.indexes.keys = t.indexes.keys ∧
      (∀ n, t'.indexes.get? n = (Dict.get? (is.map (fun i => (i.name, i))) n).or (t.indexes.get? n)) ∧ SameButKeys t t'
  | [], t, _, _, _ => ⟨t, rfl, rfl, fun n => by simp, rfl, rfl, rfl⟩
  | i :: is, t, hn, hi, hc => by
    simp only [List.map_cons, List.nodup_cons] at hn
    obtain ⟨j, hj, hjc⟩ := hc i List.mem_cons_self
    obtain ⟨t1, h1, h2, h3⟩ := changeIndex_ok hj hjc (hi i List.mem_cons_self)
    have hget : ∀ n, t1.indexes.get? n = if n = i.name then some i else t.indexes.get? n := by
      intro n
      rw [h2, Dict.get?_set]
      by_cases hne : n = i.name
      · simp [hne]
      · have : ¬ i.name = n := fun e => hne e.symm
        simp [hne, this]
    obtain ⟨t2, h4, hk, h5, h6⟩ := applyOps_changeKeys is t1 hn.2 (fun x hx => hi x (List.mem_cons_of_mem _ hx)) (by
      intro x hx
      obtain ⟨y, hy, hyc⟩ := hc x (List.mem_cons_of_mem _ hx)
      refine ⟨y, ?_, hyc⟩
      rw [hget, if_neg]
      · exact hy
      · intro e
        exact hn.1 (e ▸ List.mem_map_of_mem hx))
    refine ⟨t2, ?_, ?_, ?_, h3.trans h6⟩
    · simp only [List.map_cons, applyOps, applyOp, h1]
      exact h4
    · rw [hk, h2, Dict.keys_set_of_mem i (Dict.mem_keys_of_get? hj)]
    · intro n
      rw [h5 n, hget n]
      simp only [List.map_cons, Dict.get?]
      by_cases hne : n = i.name
      · subst hne
        have : Dict.get? (is.map (fun i => (i.name, i))) i.name = none := by
          apply Dict.get?_eq_none.mpr
          intro hm
          apply hn.1
          simpa [Dict.keys, Function.comp_def] using hm
        simp [this]
      · have : ¬ i.name = n := fun e => hne e.symm
        simp [hne, this]

end Core

theorem perm_of_get? {V : Type} {d d' : Dict V} (hn : (Dict.keys d).Nodup) (hn' : (Dict.keys d').Nodup) (h : ∀ k, Dict.get? d k = Dict.get? d' k) :
    d.Perm d' := by
  have nd : ∀ {l : Dict V}, (Dict.keys l).Nodup → l.Nodup := fun h => (List.pairwise_map.mp h).imp (fun hne e => hne (congrArg Prod.fst e))
  apply (List.perm_ext_iff_of_nodup (nd hn) (nd hn')).mpr
  rintro ⟨k, v⟩
  constructor
  · intro hm
    have := Dict.get?_of_mem hn hm
    rw [h] at this
    exact Dict.mem_of_get? this
  · intro hm
    have := Dict.get?_of_mem hn' hm
    rw [← h] at this
    exact Dict.mem_of_get? this

theorem Paired.perm {A B : Type} {R : A → B → Prop} {as as' : List A} (hp : as.Perm as') : ∀ {bs : List B}, Paired R as bs →
    ∃ bs', bs.Perm bs' ∧ Paired R as' bs' := by
  induction hp with
  | nil => intro bs h; exact ⟨bs, .refl _, h⟩
  | cons a _ ih =>
    intro bs h
    cases h with
    | cons hab h =>
      obtain ⟨bs', h1, h2⟩ := ih h
      exact ⟨_, h1.cons _, .cons hab h2⟩
  | swap a b l =>
    intro bs h
    cases h with
    | cons h1 h =>
      cases h with
      | cons h2 h => exact ⟨_, .swap _ _ _, .cons h2 (.cons h1 h)⟩
  | trans _ _ ih1 ih2 =>
    intro bs h
    obtain ⟨b1, p1, h1⟩ := ih1 h
    obtain ⟨b2, p2, h2⟩ := ih2 h1
    exact ⟨b2, p1.trans p2, h2⟩

end Mygrations

namespace Mygrations
open Table MySQL

/-- every key has columns -/
def Table.KeysHaveCols (t : Table) : Prop := ∀ i ∈ t.indexes.values, i.columns ≠ []

theorem look_keyNames {t : Table} (ht : t.Keyed) (ks : List Str) (h : ∀ k ∈ ks, k ∈ t.indexes.keys) : (look t.indexes ks).map Index.name = ks := by
  have := look_map t.indexes Index.name ks h id (fun k v hkv => (ht.idxName _ _ (Dict.mem_of_get? hkv)).symm)
  simpa using this

theorem look_cols {t : Table} (hc : t.KeysHaveCols) {ks : List Str} : ∀ i ∈ look t.indexes ks, i.columns ≠ [] := by
  intro i hi
  obtain ⟨k, _, hk⟩ := mem_look.mp hi
  exact hc i (Dict.mem_values.mpr ⟨k, Dict.mem_of_get? hk⟩)

/-- a dictionary of some keys, under their names -/
theorem look_get? {t : Table} (ht : t.Keyed) (ks : List Str) (h : ∀ k ∈ ks, k ∈ t.indexes.keys) (n : Str) :
    Dict.get? ((look t.indexes ks).map (fun i => (i.name, i))) n = if n ∈ ks then t.indexes.get? n else none := by
  induction ks with
  | nil => simp [look]
  | cons k ks ih =>
    obtain ⟨i, hi⟩ := Dict.exists_get? (h k List.mem_cons_self)
    have hn := ht.idxName _ _ (Dict.mem_of_get? hi)
    have ih := ih (fun x hx => h x (List.mem_cons_of_mem _ hx))
    simp only [look, List.filterMap_cons, hi, List.map_cons, Dict.get?_cons, hn] at ih ⊢
    by_cases hk : k = n
    · subst hk
      simp [hi]
    · have hk' : ¬ n = k := fun e => hk e.symm
      simp [hk, hk', ih]

theorem keysOf_nodup {t : Table} (ht : t.Keyed) {ks : List Str} (h : ∀ k ∈ ks, k ∈ t.indexes.keys) (hn : ks.Nodup) :
    (Dict.keys ((look t.indexes ks).map (fun i => (i.name, i)))).Nodup := by
  have : Dict.keys ((look t.indexes ks).map (fun i => (i.name, i))) = ks := by
    have := look_keyNames ht ks h
    simpa [Dict.keys, Function.comp_def] using this
  rw [this]
  exact hn

/-- replaying the operations on keys -/
theorem core_keyOps {s t u : Table} (hs : s.Keyed) (ht : t.Keyed) (hsc : s.KeysHaveCols) (htc : t.KeysHaveCols) (hu : u.indexes = s.indexes) :
    ∃ u', Core.applyOps u (keyOps s t) = .ok u' ∧ Core.SameButKeys u u' ∧ u'.indexes.keys.Nodup ∧
      ∀ n, u'.indexes.get? n = if n ∈ newKeys s t ++ changedKeys s t then t.indexes.get? n else if n ∈ goneKeys s t then none else s.indexes.get? n := by
  have hnew : ∀ k ∈ newKeys s t, k ∈ t.indexes.keys := fun k hk => newChanged_sub k (List.mem_append.mpr (.inl hk))
  have hchg : ∀ k ∈ changedKeys s t, k ∈ t.indexes.keys := fun k hk => newChanged_sub k (List.mem_append.mpr (.inr hk))
  have hgone : ∀ k ∈ goneKeys s t, k ∈ s.indexes.keys := fun k hk => goneChanged_sub k (List.mem_append.mpr (.inl hk))
  have nnew := (List.nodup_append.mp (newChanged_nodup hs ht)).1
  have nchg := (List.nodup_append.mp (newChanged_nodup hs ht)).2.1
  have ngone := (List.nodup_append.mp (goneChanged_nodup (t := t) hs)).1
  rw [keyOps_eq, Core.applyOps_append, Core.applyOps_append]
  -- the new keys
  obtain ⟨u1, a1, a2, a3⟩ := Core.applyOps_addKeys (look t.indexes (newKeys s t)) u (by rw [look_keyNames ht _ hnew]; exact nnew) (by
      intro i hi
      obtain ⟨k, hk, hg⟩ := mem_look.mp hi
      rw [ht.idxName _ _ (Dict.mem_of_get? hg), hu]
      exact (newKeys_mem.mp hk).2.1) (look_cols htc)
  have g1 : ∀ n, u1.indexes.get? n = if n ∈ newKeys s t then t.indexes.get? n else s.indexes.get? n := by
    intro n
    rw [a2, hu, Dict.get?_append, look_get? ht _ hnew]
    by_cases hn : n ∈ newKeys s t
    · rw [if_pos hn, if_pos hn, Dict.get?_eq_none.mpr (newKeys_mem.mp hn).2.1]
      rfl
    · simp [hn]
  have k1 : u1.indexes.keys = s.indexes.keys ++ newKeys s t := by
    have := look_keyNames ht _ hnew
    rw [a2, hu]
    simp [Dict.keys, Function.comp_def] at this ⊢
    exact this
  have n1 : u1.indexes.keys.Nodup := by
    rw [k1, List.nodup_append]
    refine ⟨hs.idxNodup, nnew, ?_⟩
    intro a ha b hb e
    subst e
    exact (newKeys_mem.mp hb).2.1 ha
  -- the old keys
  obtain ⟨u2, b1, b2, b3⟩ := Core.applyOps_removeKeys (look s.indexes (goneKeys s t)) u1 n1 (by rw [look_keyNames hs _ hgone]; exact ngone) (by
      intro i hi
      obtain ⟨k, hk, hg⟩ := mem_look.mp hi
      rw [hs.idxName _ _ (Dict.mem_of_get? hg)]
      refine ⟨i, ?_, look_cols hsc i hi⟩
      rw [g1, if_neg]
      · exact hg
      · intro hm
        exact (newKeys_mem.mp hm).2.1 (hgone k hk))
  rw [look_keyNames hs _ hgone] at b2
  have g2 : ∀ n, u2.indexes.get? n = if n ∈ goneKeys s t then none else u1.indexes.get? n := by
    intro n
    rw [b2, Dict.get?_filter_key (fun x => !(goneKeys s t).contains x)]
    by_cases hn : n ∈ goneKeys s t <;> simp [hn]
  -- the changed keys
  have old : ∀ k ∈ changedKeys s t, ∃ a, s.indexes.get? k = some a ∧ u2.indexes.get? k = some a := by
    intro k hk
    obtain ⟨a, b, ha, hb, _⟩ := changedKeys_mem.mp hk
    refine ⟨a, ha, ?_⟩
    rw [g2, if_neg, g1, if_neg]
    · exact ha
    · exact fun hm => (newKeys_mem.mp hm).2.1 (Dict.mem_keys_of_get? ha)
    · exact fun hm => (goneKeys_mem.mp hm).2.1 (Dict.mem_keys_of_get? hb)
  obtain ⟨u3, c1, ck, c2, c3⟩ := Core.applyOps_changeKeys (look t.indexes (changedKeys s t)) u2 (by rw [look_keyNames ht _ hchg]; exact nchg) (look_cols htc) (by
      intro i hi
      obtain ⟨k, hk, hg⟩ := mem_look.mp hi
      rw [ht.idxName _ _ (Dict.mem_of_get? hg)]
      obtain ⟨a, ha, hu2⟩ := old k hk
      exact ⟨a, hu2, hsc a (Dict.mem_values.mpr ⟨k, Dict.mem_of_get? ha⟩)⟩)
  refine ⟨u3, by simp only [a1, b1, c1], (a3.trans b3).trans c3, ?_, ?_⟩
  · rw [ck, b2, Dict.keys_filter_key (fun x => !(goneKeys s t).contains x)]
    exact n1.filter _
  · intro n
    rw [c2 n, look_get? ht _ hchg, g2, g1]
    by_cases h1 : n ∈ changedKeys s t
    · have := hchg n h1
      obtain ⟨b, hb⟩ := Dict.exists_get? this
      simp [h1, hb]
    · by_cases h2 : n ∈ newKeys s t
      · have : n ∉ goneKeys s t := fun hm => (newKeys_mem.mp h2).2.1 (hgone n hm)
        simp [h1, h2, this]
      · simp [h1, h2]

/-- the keys of a table which has been brought in line by replaying the operations on keys: those of the target, one for one -/
theorem core_keys_stand {s t r : Table} (hs : s.Valid) (ht : t.Valid) (ps : s.Plain) (pt : t.Plain) (hr : r.indexes.keys.Nodup)
    (hg : ∀ n, r.indexes.get? n = if n ∈ newKeys s t ++ changedKeys s t then t.indexes.get? n else if n ∈ goneKeys s t then none else s.indexes.get? n) :
    ∃ js : List Index, js.Perm t.indexes.values ∧ Paired (fun i j => KeyStands s t (keyName i, i) j) r.indexes.values js := by
  let D : Dict Index := s.indexes.filter (fun e => !keyDropped s t e.1) ++ (look t.indexes (newKeys s t ++ changedKeys s t)).map (fun i => (i.name, i))
  have hsub := newChanged_sub (s := s) (t := t)
  have hDk : Dict.keys D = (s.indexes.keys.filter (fun k => !keyDropped s t k)) ++ (newKeys s t ++ changedKeys s t) := by
    have h1 := look_keyNames ht.toKeyed _ hsub
    have h2 := Dict.keys_filter_key (fun k => !keyDropped s t k) s.indexes
    simp only [D, Dict.keys, List.map_append, List.map_map, Function.comp_def] at h1 h2 ⊢
    rw [h2, h1]
  have hDn : (Dict.keys D).Nodup := by
    rw [hDk, List.nodup_append]
    refine ⟨hs.idxNodup.filter _, newChanged_nodup hs.toKeyed ht.toKeyed, ?_⟩
    intro a ha b hb e
    subst e
    obtain ⟨ha, hd⟩ := List.mem_filter.mp ha
    rcases List.mem_append.mp hb with hb | hb
    · exact (newKeys_mem.mp hb).2.1 ha
    · rw [keyDropped_iff.mpr (List.mem_append.mpr (.inr hb))] at hd
      cases hd
  have hperm : r.indexes.Perm D := by
    apply perm_of_get? hr hDn
    intro n
    rw [hg n, Dict.get?_append, look_get? ht.toKeyed _ hsub, Dict.get?_filter_key (fun k => !keyDropped s t k)]
    by_cases h1 : n ∈ newKeys s t ++ changedKeys s t
    · rw [if_pos h1, if_pos h1]
      have : (if (!keyDropped s t n) = true then s.indexes.get? n else none) = none := by
        rcases List.mem_append.mp h1 with h | h
        · rw [Dict.get?_eq_none.mpr (newKeys_mem.mp h).2.1]
          split <;> rfl
        · rw [keyDropped_iff.mpr (List.mem_append.mpr (.inr h))]
          rfl
      rw [this]
      rfl
    · rw [if_neg h1, if_neg h1]
      have h2 : n ∉ changedKeys s t := fun h => h1 (List.mem_append.mpr (.inr h))
      by_cases h3 : n ∈ goneKeys s t
      · rw [if_pos h3, keyDropped_iff.mpr (List.mem_append.mpr (.inl h3))]
        rfl
      · have : keyDropped s t n = false := by
          cases hk : keyDropped s t n with
          | false => rfl
          | true =>
            rcases List.mem_append.mp (keyDropped_iff.mp hk) with h | h
            · exact absurd h h3
            · exact absurd h h2
        rw [if_neg h3, this]
        simp
  obtain ⟨js, j1, j2⟩ := finalKeys_stand hs ht ps pt
  have hf : finalKeys s t = (Dict.values D).map (fun i => (keyName i, i)) := by
    simp [finalKeys, D, Dict.values, Function.comp_def]
  rw [hf] at j2
  have j3 : Paired (fun i j => KeyStands s t (keyName i, i) j) (Dict.values D) js := by
    generalize Dict.values D = is at j2
    clear j1 hf hperm hDn hDk
    induction is generalizing js with
    | nil => cases j2; exact .nil
    | cons i is ih =>
      cases j2 with
      | cons h1 h2 => exact .cons h1 (ih _ h2)
  obtain ⟨js', p1, p2⟩ := Paired.perm (hperm.symm.map Prod.snd) j3
  exact ⟨js', p1.symm.trans j1, p2⟩

end Mygrations

import Verif.Proofs.AlterAll
import Verif.Props.C02

/-! # C04, C05: keys and foreign keys -/

namespace Mygrations
open Table MySQL

theorem Paired.append {A B : Type} {R : A → B → Prop} {as as' : List A} {bs bs' : List B} (h : Paired R as bs) (h' : Paired R as' bs') :
    Paired R (as ++ as') (bs ++ bs') := by
  induction h with
  | nil => exact h'
  | cons r _ ih => exact .cons r ih

theorem Paired.map {A B C : Type} {R : A → B → Prop} {f : C → A} {g : C → B} {cs : List C} (h : ∀ c ∈ cs, R (f c) (g c)) :
    Paired R (cs.map f) (cs.map g) := by
  induction cs with
  | nil => exact .nil
  | cons c cs ih => exact .cons (h c (by simp)) (ih (fun c hc => h c (List.mem_cons_of_mem _ hc)))

/-- the name of the target key which stands for a kept source key -/
def partner (s t : Table) (k : Str) : Str :=
  if t.indexes.has k then k else ((matchedKeys s t).find? (fun p => p.1 = k)).elim k Prod.snd

theorem partner_common {s t : Table} {k : Str} (h : k ∈ t.indexes.keys) : partner s t k = k := by
  simp [partner, Dict.has_iff.mpr h]

theorem partner_matched {s t : Table} (hs : s.Keyed) {k k' : Str} (h : (k, k') ∈ matchedKeys s t) : partner s t k = k' := by
  obtain ⟨n1, n2, hall⟩ := matchedKeys_spec s t hs
  have hk := (mem_removed.mp (hall _ h).1).2
  simp only [partner, Dict.has_eq_false.mpr hk, Bool.false_eq_true, if_false]
  cases hf : (matchedKeys s t).find? (fun p => p.1 = k) with
  | none =>
    have := List.find?_eq_none.mp hf _ h
    simp at this
  | some p =>
    have hp := List.find?_some hf
    have hm := List.mem_of_find?_eq_some hf
    simp only [decide_eq_true_eq] at hp
    obtain ⟨p1, p2⟩ := p
    simp only at hp
    subst hp
    have h1 : Dict.get? (matchedKeys s t) p1 = some p2 := Dict.get?_of_mem n1 hm
    have h2 : Dict.get? (matchedKeys s t) p1 = some k' := Dict.get?_of_mem n1 h
    rw [h1] at h2
    simpa using h2

/-- What the tool considers the same key: same columns, same kind, and the same name unless one of the two
names is that of a foreign key. -/
def KeyStands (s t : Table) (e : Str × Index) (j : Index) : Prop :=
  e.2.SameKey j ∧
  (e.1 = keyName j ∨ e.1 ∈ s.constraints.keys ++ t.constraints.keys ∨ keyName j ∈ s.constraints.keys ++ t.constraints.keys)

/-- the keys after the migration stand for the target's, one for one -/
theorem finalKeys_stand {s t : Table} (hs : s.Valid) (ht : t.Valid) (ps : s.Plain) (pt : t.Plain) :
    ∃ js : List Index, js.Perm t.indexes.values ∧ Paired (KeyStands s t) (finalKeys s t) js := by
  obtain ⟨n1, n2, hall⟩ := matchedKeys_spec s t hs.toKeyed
  -- names of the kept keys
  let kept := (s.indexes.filter (fun e => !keyDropped s t e.1))
  have hkept : ∀ e ∈ kept, s.indexes.get? e.1 = some e.2 ∧ keyDropped s t e.1 = false := by
    intro e he
    simp only [kept, List.mem_filter, Bool.not_eq_true'] at he
    exact ⟨get?_of_entry hs.toKeyed he.1, he.2⟩
  have hpart : ∀ e ∈ kept, ∃ b, t.indexes.get? (partner s t e.1) = some b ∧ KeyStands s t (keyName e.2, e.2) b ∧
      (partner s t e.1 = e.1 ∨ (e.1, partner s t e.1) ∈ matchedKeys s t) := by
    intro e he
    obtain ⟨h1, h2⟩ := hkept e he
    obtain ⟨k', b, hb, hsame, hor⟩ := kept_counterpart hs ht ps pt h1 h2
    have va : e.2 ∈ s.indexes.values := Dict.mem_values.mpr ⟨_, Dict.mem_of_get? h1⟩
    have vb : b ∈ t.indexes.values := Dict.mem_values.mpr ⟨_, Dict.mem_of_get? hb⟩
    have na := hs.idxName _ _ (Dict.mem_of_get? h1)
    have nb := ht.idxName _ _ (Dict.mem_of_get? hb)
    rcases hor with hor | hor
    · subst hor
      rw [partner_common (Dict.mem_keys_of_get? hb)]
      refine ⟨b, hb, ⟨hsame, .inl ?_⟩, .inl rfl⟩
      simp only [keyName, hsame.2.1, na, nb]
    · rw [partner_matched hs.toKeyed hor]
      refine ⟨b, hb, ⟨hsame, ?_⟩, .inr hor⟩
      by_cases hpr : e.2.isPrimary = true
      · left; simp [keyName, hpr, ← hsame.2.1]
      · right
        obtain ⟨_, _, ri, ai, g1, g2, _, _, g5⟩ := hall _ hor
        have hpr' : b.isPrimary = false := by rw [← hsame.2.1]; simpa using hpr
        simp only [keyName, hpr, hpr', Bool.false_eq_true, if_false, na, nb]
        exact g5
  -- the list of target keys
  let ks := kept.map (fun e => partner s t e.1) ++ (newKeys s t ++ changedKeys s t)
  have hnodup : ks.Nodup := by
    rw [List.nodup_append]
    refine ⟨?_, newChanged_nodup hs.toKeyed ht.toKeyed, ?_⟩
    · have : kept.map (fun e => partner s t e.1) = (Dict.keys kept).map (partner s t) := by simp [Dict.keys]
      rw [this]
      have hkn : (Dict.keys kept).Nodup := by
        simp only [kept]
        rw [Dict.keys_filter_key (fun k => !keyDropped s t k)]
        exact hs.idxNodup.filter _
      refine nodup_map_on ?_ hkn
      intro a ha b hb hab
      obtain ⟨va, hva⟩ := Dict.exists_get? ha
      obtain ⟨vb, hvb⟩ := Dict.exists_get? hb
      obtain ⟨_, _, _, ora⟩ := hpart _ (Dict.mem_of_get? hva)
      obtain ⟨_, _, _, orb⟩ := hpart _ (Dict.mem_of_get? hvb)
      simp only at ora orb
      have hsa := Dict.mem_keys_of_get? (hkept _ (Dict.mem_of_get? hva)).1
      have hsb := Dict.mem_keys_of_get? (hkept _ (Dict.mem_of_get? hvb)).1
      simp only at hsa hsb
      rcases ora with ora | ora <;> rcases orb with orb | orb
      · rw [← ora, hab, orb]
      · exfalso
        have := (mem_added.mp (hall _ orb).2.1).2
        simp only at this
        rw [← hab, ora] at this
        exact this hsa
      · exfalso
        have := (mem_added.mp (hall _ ora).2.1).2
        simp only at this
        rw [hab, orb] at this
        exact this hsb
      · rw [hab] at ora
        have hs2 : (matchedKeys s t).map Prod.snd |>.Nodup := n2
        clear hpart hkept
        revert ora orb hs2
        generalize partner s t b = p
        induction matchedKeys s t with
        | nil => intro h; simp at h
        | cons x xs ih =>
          intro h1 h2 h3
          simp only [List.map_cons, List.nodup_cons] at h3
          simp only [List.mem_cons] at h1 h2
          rcases h1 with h1 | h1 <;> rcases h2 with h2 | h2
          · rw [← h1] at h2; simp only [Prod.mk.injEq] at h2; exact h2.1.symm
          · exfalso; apply h3.1; rw [← h1]; exact List.mem_map.mpr ⟨_, h2, rfl⟩
          · exfalso; apply h3.1; rw [← h2]; exact List.mem_map.mpr ⟨_, h1, rfl⟩
          · exact ih h1 h2 h3.2
    · intro a ha b hb hab
      subst hab
      obtain ⟨e, he, rfl⟩ := List.mem_map.mp ha
      obtain ⟨bb, hbb, _, hor⟩ := hpart e he
      obtain ⟨g1, g2⟩ := hkept e he
      rcases List.mem_append.mp hb with hb | hb
      · rcases hor with hor | hor
        · rw [hor] at hb
          exact (newKeys_mem.mp hb).2.1 (Dict.mem_keys_of_get? g1)
        · exact (newKeys_mem.mp hb).2.2 (List.mem_map.mpr ⟨_, hor, rfl⟩)
      · rcases hor with hor | hor
        · rw [hor] at hb
          rw [keyDropped, List.contains_eq_mem, List.contains_eq_mem] at g2
          simp [hb] at g2
        · obtain ⟨x, y, hx, _⟩ := changedKeys_mem.mp hb
          exact (mem_added.mp (hall _ hor).2.1).2 (Dict.mem_keys_of_get? hx)
  have hmem : ∀ k, k ∈ ks ↔ k ∈ t.indexes.keys := by
    intro k
    simp only [ks, List.mem_append]
    constructor
    · rintro (h | h)
      · obtain ⟨e, he, rfl⟩ := List.mem_map.mp h
        obtain ⟨b, hb, _⟩ := hpart e he
        exact Dict.mem_keys_of_get? hb
      · exact newChanged_sub (s := s) k (List.mem_append.mpr h)
    · intro hk
      by_cases hks : k ∈ s.indexes.keys
      · by_cases hch : k ∈ changedKeys s t
        · exact .inr (.inr hch)
        · left
          obtain ⟨a, ha⟩ := Dict.exists_get? hks
          have hg : k ∉ goneKeys s t := fun h => (goneKeys_mem.mp h).2.1 hk
          refine List.mem_map.mpr ⟨(k, a), ?_, partner_common hk⟩
          simp only [kept, List.mem_filter, Bool.not_eq_true', keyDropped, List.contains_eq_mem, hg, hch]
          exact ⟨Dict.mem_of_get? ha, by simp⟩
      · by_cases hm : k ∈ (matchedKeys s t).map Prod.snd
        · left
          obtain ⟨⟨k0, k1⟩, hp, rfl⟩ := List.mem_map.mp hm
          obtain ⟨hr, _, ri, ai, g1, _⟩ := hall _ hp
          simp only at g1 hr
          have hkt := (mem_removed.mp hr).2
          have hg : k0 ∉ goneKeys s t := fun h => (goneKeys_mem.mp h).2.2 (List.mem_map.mpr ⟨_, hp, rfl⟩)
          have hch : k0 ∉ changedKeys s t := by
            intro h
            obtain ⟨_, y, _, hy, _⟩ := changedKeys_mem.mp h
            exact hkt (Dict.mem_keys_of_get? hy)
          refine List.mem_map.mpr ⟨(k0, ri), ?_, partner_matched hs.toKeyed hp⟩
          simp only [kept, List.mem_filter, Bool.not_eq_true', keyDropped, List.contains_eq_mem, hg, hch]
          exact ⟨Dict.mem_of_get? g1, by simp⟩
        · exact .inr (.inl (newKeys_mem.mpr ⟨hk, hks, hm⟩))
  have hperm : ks.Perm t.indexes.keys := (List.perm_ext_iff_of_nodup hnodup ht.idxNodup).mpr hmem
  refine ⟨look t.indexes ks, ?_, ?_⟩
  · have h1 : (look t.indexes ks).Perm (look t.indexes t.indexes.keys) := hperm.filterMap _
    have h2 : look t.indexes t.indexes.keys = t.indexes.values := by
      simp only [look, Dict.keys, Dict.values, List.filterMap_map]
      have gen : ∀ l : Dict Index, (∀ e ∈ l, t.indexes.get? e.1 = some e.2) →
          l.filterMap (t.indexes.get? ∘ Prod.fst) = l.map Prod.snd := by
        intro l
        induction l with
        | nil => intro _; rfl
        | cons e l ih =>
          intro hl
          simp only [List.filterMap_cons, Function.comp, hl e (by simp), List.map_cons]
          rw [← ih (fun e he => hl e (List.mem_cons_of_mem _ he))]
      exact gen _ (fun e he => get?_of_entry ht.toKeyed he)
    rw [← h2]; exact h1
  · have h1 : look t.indexes ks = look t.indexes (kept.map (fun e => partner s t e.1)) ++ look t.indexes (newKeys s t ++ changedKeys s t) := by
      simp only [look, ks, List.filterMap_append]
    rw [h1, finalKeys]
    apply Paired.append
    · have hpart' := hpart
      clear hperm hmem hnodup hkept hpart
      change Paired (KeyStands s t) (kept.map (fun e => (keyName e.2, e.2))) (look t.indexes (kept.map (fun e => partner s t e.1)))
      generalize kept = kept at hpart'
      induction kept with
      | nil => exact .nil
      | cons e es ih =>
        obtain ⟨b, hb, hst, _⟩ := hpart' e (by simp)
        simp only [look, List.map_cons, List.filterMap_cons, hb]
        exact .cons hst (ih (fun e he => hpart' e (List.mem_cons_of_mem _ he)))
    · have : look t.indexes (newKeys s t ++ changedKeys s t) = (look t.indexes (newKeys s t ++ changedKeys s t)).map id := by simp
      conv => arg 3; rw [this]
      exact Paired.map (fun c _ => ⟨⟨rfl, rfl, rfl⟩, .inl rfl⟩)

/-- **C04**.  After executing `source.to(target)` the keys are exactly the target's, one for one, up to names when
a foreign-key name is involved (MySQL names the keys it creates for foreign keys after them). -/
theorem C04 [PyNum] (s t : Table) (hs : s.Valid) (ht : t.Valid) (ps : s.Plain) (pt : t.Plain)
    (as : List Alter) (h : s.to t = .ok as) (st : STable) (he : execAlters (ofTable s) as = some st) :
    ∃ js : List Index, js.Perm t.indexes.values ∧ Paired (KeyStands s t) st.keys js := by
  have hp := primary_fails hs ht ps pt h he
  obtain ⟨c, keys, f, he', _, hk, _⟩ := to_exec hs ht ps pt hp h
  rw [he] at he'
  simp only [Option.some.injEq] at he'
  subst he'
  simp only
  subst hk
  exact finalKeys_stand hs ht ps pt

/-- **C05**.  After executing `source.to(target)` the foreign keys are exactly the target's: same names, and under
each name the same definition. -/
theorem C05 [PyNum] (s t : Table) (hs : s.Keyed) (ht : t.Keyed) (ps : s.Plain) (pt : t.Plain)
    (as' : ∀ k ∈ s.constraints.values, GoodAction k.onDelete) (at' : ∀ k ∈ t.constraints.values, GoodAction k.onDelete)
    (as : List Alter) (h : s.to t = .ok as) (st : STable) (he : execAlters (ofTable s) as = some st) :
    st.fks.keys.Nodup ∧ (∀ n, n ∈ st.fks.keys ↔ n ∈ t.constraints.keys) ∧
    ∀ n a b, st.fks.get? n = some a → t.constraints.get? n = some b → a.SameFk b := by
  have hf := (to_result hs ht h he).2
  rw [hf]
  have hget := finalFks_get? (s := s) (t := t) ht
  have hiff : ∀ n, n ∈ (finalFks s t).keys ↔ n ∈ t.constraints.keys := by
    intro n
    rw [Dict.mem_keys_iff, hget n]
    by_cases hn : n ∈ newFks s t
    · rw [if_pos hn, ← Dict.mem_keys_iff]
    · rw [if_neg hn]
      by_cases hnt : n ∈ t.constraints.keys
      · rw [if_pos hnt, ← Dict.mem_keys_iff]
        constructor
        · exact fun _ => hnt
        · intro _
          apply Classical.byContradiction
          intro hns
          obtain ⟨b, hb⟩ := Dict.exists_get? hnt
          exact hn (newFks_mem.mpr ⟨b, hb, fun a ha => absurd (Dict.mem_keys_of_get? ha) hns⟩)
      · simp [hnt]
  refine ⟨?_, hiff, ?_⟩
  · have h1 : (finalFks s t).keys = (keptFks s t).keys ++ newFks s t := by
      have := look_names ht (newFks s t) newFks_sub
      simp only [finalFks, Dict.keys_append]
      congr 1
      conv => rhs; rw [← this]
      simp [Dict.keys]
    rw [h1, List.nodup_append]
    refine ⟨?_, newFks_nodup hs ht, ?_⟩
    · rw [keptFks, Dict.keys_filter_key (fun k => !(goneFks s t).contains k)]
      exact hs.fkNodup.filter _
    · intro a ha b hb hab
      subst hab
      obtain ⟨v, hv⟩ := Dict.exists_get? ha
      obtain ⟨h1, b, h2, h3⟩ := keptFks_mem (Dict.mem_of_get? hv) hs
      obtain ⟨b', hb', hr⟩ := newFks_mem.mp hb
      rw [h2] at hb'
      simp only [Option.some.injEq] at hb'
      exact hr v h1 (hb' ▸ h3)
  · intro n a b ha hb
    rw [hget n] at ha
    by_cases hn : n ∈ newFks s t
    · rw [if_pos hn, hb] at ha
      simp only [Option.some.injEq] at ha
      subst ha
      exact ⟨rfl, rfl, rfl, rfl, rfl, rfl⟩
    · rw [if_neg hn, if_pos (Dict.mem_keys_of_get? hb)] at ha
      have hr : a.render = b.render := by
        apply Classical.byContradiction
        intro hne
        exact hn (newFks_mem.mpr ⟨b, hb, fun a' ha' => by
          rw [ha] at ha'; simp only [Option.some.injEq] at ha'; exact ha' ▸ hne⟩)
      have va : a ∈ s.constraints.values := Dict.mem_values.mpr ⟨_, Dict.mem_of_get? ha⟩
      have vb : b ∈ t.constraints.values := Dict.mem_values.mpr ⟨_, Dict.mem_of_get? hb⟩
      exact Constraint.render_inj (ps.fk a va) (pt.fk b vb) (as' a va) (at' b vb) hr

section
open Examples
attribute [local instance] exactNum

/-- the hypotheses of C04 and C05 can be met: keys are renamed, changed, added and dropped, foreign keys are
added and changed -/
example : posts.Valid ∧ posts'.Valid ∧ posts.Plain ∧ posts'.Plain ∧
    (∀ k ∈ posts.constraints.values, GoodAction k.onDelete) ∧ (∀ k ∈ posts'.constraints.values, GoodAction k.onDelete) ∧
    ∃ as st, posts.to posts' = .ok as ∧ execAlters (ofTable posts) as = some st ∧
      st.keys.keys = [py"PRIMARY", py"posts_user_fk", py"editor_id", py"body", py"by_title"] ∧
      st.fks.keys = [py"posts_user_fk", py"posts_slug_fk", py"posts_editor_fk"] :=
  ⟨posts_valid, posts'_valid, posts_plain, posts'_plain, by unfold GoodAction; decide, by unfold GoodAction; decide,
    _, _, rfl, rfl, by decide, by decide⟩
end

end Mygrations

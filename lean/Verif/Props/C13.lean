import Verif.Props.C11
import Verif.Spec.Server

/-! # C13: when a foreign key is out of the way of a change of type -/

namespace Mygrations
open Table MySQL Mygration

/-- where a statement that changes columns or keys stands in the plan -/
theorem alter_place [PyNum] {t f : Dict Table} {checks : Bool} {ops pre post : List Op} {a : Alter}
    (hf : KeyedTables f) (h : Mygration.process t (some f) checks = .ok ops)
    (hsplit : ops = pre ++ .alter a :: post) (hchg : (Op.alter a).changesColumnsOrKeys = true) :
    ∃ P Q, ((overlap f t).flatMap (nowOf (cycledNames (cycles (some f) t)) f t)).map Op.alter = P ++ .alter a :: Q ∧
      pre = ((if checks then [Op.disableChecks] else []) ++ (added f t).filterMap (fun n => (t.get? n).map Op.createTable) ++
        (groupAlters (cycleDrops (cycles (some f) t))).map Op.alter) ++ P := by
  have hs := sections (from? := some f) hf h
  have hops := process_middle (from? := some f) hf h
  rw [hsplit] at hops
  have hcr : ∀ o : Op, o.isCreate = true ∨ o.isDrop = true → o ≠ .alter a := by
    intro o ho he; subst he; simp [Op.isCreate, Op.isDrop] at ho
  refine split_middle (C := ((overlap f t).flatMap (laterOf (cycledNames (cycles (some f) t)) f t)).map Op.alter ++
      ((groupAlters (cycleAdds (cycles (some f) t) [])).map Op.alter ++ (removed f t).map Op.removeTable) ++
      (if checks then [Op.enableChecks] else [])) (post := post) ?_ ?_ ?_
  · rw [hops]; simp [middle]
  · intro hm
    simp only [List.mem_append] at hm
    rcases hm with (hm | hm) | hm
    · cases checks <;> simp at hm
    · exact hcr _ (.inl (hs.creates _ hm)) rfl
    · rw [(hs.temp _ hm).2.1] at hchg; cases hchg
  · intro hm
    simp only [List.mem_append] at hm
    rcases hm with (hm | hm | hm) | hm
    · rw [(hs.later _ hm).2.1] at hchg; cases hchg
    · rw [(hs.again _ hm).2.1] at hchg; cases hchg
    · exact hcr _ (.inr (hs.drops _ hm)) rfl
    · cases checks <;> simp at hm

theorem nowOf_table [PyNum] {cyc : List (Str × Str)} {f t : Dict Table} {m : Str} {b : Alter} (hb : b ∈ nowOf cyc f t m) :
    b.table = m := by
  simp only [nowOf, alterIf, List.mem_append] at hb
  rcases hb with hb | hb <;> split at hb <;> simp at hb <;> rw [hb]

/-- a foreign key without counterpart is not dropped temporarily, but for good -/
theorem gone_not_cycled [PyNum] {t f : Dict Table} (ht : KeyedTables t) (hf : KeyedTables f) {n : Str} {s d : Table} {k : Constraint}
    (hn : f.get? n = some s) (hd : t.get? n = some d) (hk : k ∈ s.constraints.values) (hcp : ¬ HasCounterpart t n k) :
    k.name ∈ goneFks s d ∧ (n, k.name) ∉ cycledNames (cycles (some f) t) := by
  have hkget : s.constraints.get? k.name = some k := by
    obtain ⟨j, hj⟩ := Dict.mem_values.mp hk
    have hK := hf.keyed _ _ (Dict.mem_of_get? hn)
    rw [hK.fkName _ _ hj]
    exact Dict.get?_of_mem hK.fkNodup hj
  have hnd : ∀ k' ∈ d.constraints.values, k'.name ≠ k.name ∧ ¬ k'.SameColumns k := by
    intro k' hk'
    constructor
    · intro h0; exact hcp (.inr ⟨d, hd, k', hk', .inl h0⟩)
    · intro h0; exact hcp (.inr ⟨d, hd, k', hk', .inr h0⟩)
  have hkd : k.name ∉ d.constraints.keys := by
    intro hkd
    obtain ⟨k', hk'⟩ := Dict.exists_get? hkd
    have := (ht.keyed _ _ (Dict.mem_of_get? hd)).fkName _ _ (Dict.mem_of_get? hk')
    exact (hnd k' (Dict.mem_values.mpr ⟨_, Dict.mem_of_get? hk'⟩)).1 this
  refine ⟨goneFks_mem.mpr ⟨k, hkget, fun b hb => absurd (Dict.mem_keys_of_get? hb) hkd⟩, ?_⟩
  intro hc
  obtain ⟨x, hx, hxt, hxn⟩ := mem_cycledNames hc
  have hok := cycles_ok (from? := some f) ht hf x hx
  obtain ⟨⟨s'', h1, h2⟩, h3, h4⟩ := hok
  rcases h4 with ⟨_, h5⟩ | ⟨d', k', h5, h6, h7, h8⟩
  · rw [hxt] at h5; rw [hd] at h5; cases h5
  · rw [hxt] at h5; rw [hd] at h5; cases h5
    rcases hxn with hxn | ⟨k'', hxn⟩
    · simp only at hxt hxn
      rw [Option.getD_some, hxt, hn] at h1; cases h1
      rw [hxn, hkget] at h2
      simp only [Option.some.injEq] at h2
      rcases h8 with h8 | ⟨_, h8⟩
      · exact hkd (by rw [← hxn, ← h8]; exact Dict.mem_keys_of_get? h7)
      · rw [← h2] at h8
        have hq := List.find?_some h8
        simp only [decide_eq_true_eq] at hq
        exact (hnd k' (List.mem_of_find?_eq_some h8)).2 hq
    · rw [h6] at hxn
      simp only [Option.some.injEq, Prod.mk.injEq] at hxn
      rw [hxn.2] at h7
      exact hkd (Dict.mem_keys_of_get? h7)

theorem before_of_nodup {l o1 o2 : List Str} {x y : Str} (hl : l.Nodup) (ho : l = o1 ++ y :: o2) :
    Mygrations.Before l x y ↔ x ∈ o1 := by
  constructor
  · rintro ⟨l1, l2, l3, h⟩
    have h' : (l1 ++ x :: l2) ++ y :: l3 = o1 ++ y :: o2 := by rw [← h, ← ho]
    have hnd1 := hl; rw [h] at hnd1
    have hnd2 := hl; rw [ho] at hnd2
    rw [List.nodup_append] at hnd1 hnd2
    rcases List.append_eq_append_iff.mp h' with ⟨r, h1, h2⟩ | ⟨r, h1, h2⟩
    · rw [h1]; simp
    · cases r with
      | nil => simp only [List.append_nil] at h1; rw [← h1]; simp
      | cons z r =>
        simp only [List.cons_append, List.cons.injEq] at h2
        exact absurd rfl (hnd1.2.2 y (by rw [h1, h2.1]; simp) y List.mem_cons_self)
  · intro hx
    obtain ⟨l1, l2, rfl⟩ := List.append_of_mem hx
    exact ⟨l1, l2, o2, ho⟩

theorem before_filterKeys {l : List Str} (hl : l.Nodup) {p : Str → Bool} {x y : Str} (hx : p x = true) (hy : p y = true) :
    Mygrations.Before (l.filter p) x y ↔ Mygrations.Before l x y := by
  constructor
  · intro h
    have hyl : y ∈ l := by
      obtain ⟨l1, l2, l3, h⟩ := h
      have : y ∈ l.filter p := by rw [h]; simp
      exact (List.mem_filter.mp this).1
    obtain ⟨o1, o2, ho⟩ := List.append_of_mem hyl
    have hf : l.filter p = o1.filter p ++ y :: o2.filter p := by rw [ho, List.filter_append, List.filter_cons_of_pos hy]
    have := (before_of_nodup (hl.filter p) hf).mp h
    exact (before_of_nodup hl ho).mpr (List.mem_filter.mp this).1
  · rintro ⟨l1, l2, l3, h⟩
    exact ⟨l1.filter p, l2.filter p, l3.filter p, by
      rw [h, List.filter_append, List.filter_append, List.filter_cons_of_pos hx, List.filter_cons_of_pos hy]⟩

/-- **C13** (exact).  A statement changes the columns or keys of a table, among them a column whose type changes, and
`k` is a foreign key of the live table `n` on this column.  The foreign key has been dropped before exactly if `n` is
the table itself, or `n` is to be dropped, or the declared schema has a counterpart of the foreign key, or the server
lists `n` before the table which is changed.  It is never added again before the statement. -/
theorem C13_iff [PyNum] (t f : Dict Table) (checks : Bool) (ops pre post : List Op) (a : Alter)
    (ht : KeyedTables t) (hf : KeyedTables f) (h : Mygration.process t (some f) checks = .ok ops)
    (hsplit : ops = pre ++ .alter a :: post) (hchg : (Op.alter a).changesColumnsOrKeys = true)
    (c : Str) (htc : TypeChanges f t a.table c)
    (n : Str) (s : Table) (k : Constraint) (hn : f.get? n = some s) (hk : k ∈ s.constraints.values)
    (hu : Uses n k a.table c) :
    ((n, k.name) ∈ pre.flatMap Op.dropsFk ↔ n = a.table ∨ HasCounterpart t n k ∨ Mygrations.Before f.keys n a.table) ∧
    (n, k.name) ∉ pre.flatMap Op.addsFk := by
  have hdiff := (process_eq (from? := some f) hf h).2
  simp only [Option.getD_some] at hdiff
  have hs := sections (from? := some f) hf h
  obtain ⟨P, Q, hP, hpre⟩ := alter_place hf h hsplit hchg
  refine ⟨?_, ?_⟩
  · by_cases hna : n = a.table
    · exact ⟨fun _ => .inl hna, fun _ => (C13_partial t f checks ops pre post a ht hf h hsplit hchg c htc n s k hn hk hu (.inl hna)).1⟩
    by_cases hcp : HasCounterpart t n k
    · exact ⟨fun _ => .inr (.inl hcp), fun _ => (C13_partial t f checks ops pre post a ht hf h hsplit hchg c htc n s k hn hk hu (.inr hcp)).1⟩
    simp only [hna, hcp, false_or]
    have ⟨d, hd⟩ : ∃ d, t.get? n = some d := by
      cases hd : t.get? n with
      | none => exact absurd (.inl hd) hcp
      | some d => exact ⟨d, rfl⟩
    obtain ⟨hgone, hnc⟩ := gone_not_cycled ht hf hn hd hk hcp
    -- the turn of the table which is changed
    have hmem : Op.alter a ∈ ((overlap f t).flatMap (nowOf (cycledNames (cycles (some f) t)) f t)).map Op.alter := by rw [hP]; simp
    simp only [List.mem_map, Op.alter.injEq, exists_eq_right, List.mem_flatMap] at hmem
    obtain ⟨m, hm, ham⟩ := hmem
    have hma := nowOf_table ham
    subst hma
    obtain ⟨o1, o2, ho⟩ := List.append_of_mem hm
    have hov : (overlap f t).Nodup := overlap_nodup hf.nodup
    have hov' := hov
    rw [ho, List.nodup_append] at hov'
    obtain ⟨_, hov2, hov3⟩ := hov'
    have hnot : ∀ l : List Str, a.table ∉ l → Op.alter a ∉ (l.flatMap (nowOf (cycledNames (cycles (some f) t)) f t)).map Op.alter := by
      intro l hl hh
      simp only [List.mem_map, Op.alter.injEq, exists_eq_right, List.mem_flatMap] at hh
      obtain ⟨m', hm', hh⟩ := hh
      exact hl (nowOf_table hh ▸ hm')
    have hP' := hP
    rw [ho, List.flatMap_append, List.flatMap_cons, List.map_append, List.map_append] at hP'
    obtain ⟨p, q, hpq, hPp⟩ := split_middle hP'
      (hnot o1 (fun h0 => hov3 _ h0 _ List.mem_cons_self rfl)) (hnot o2 (List.nodup_cons.mp hov2).1)
    have hpa : ∀ x ∈ p.flatMap Op.dropsFk, x.1 = a.table := by
      intro x hx
      obtain ⟨o, hop, hx⟩ := List.mem_flatMap.mp hx
      have : o ∈ (nowOf (cycledNames (cycles (some f) t)) f t a.table).map Op.alter := by rw [hpq]; exact List.mem_append_left _ hop
      obtain ⟨b, hb, rfl⟩ := List.mem_map.mp this
      simp only [Op.dropsFk, List.mem_map] at hx
      obtain ⟨_, _, rfl⟩ := hx
      exact nowOf_table hb
    have hno : n ∈ overlap f t := by
      rw [mem_overlap]; exact ⟨Dict.mem_keys_of_get? hn, Dict.mem_keys_of_get? hd⟩
    have hbf : Mygrations.Before f.keys n a.table ↔ n ∈ o1 := by
      have h1 := before_filterKeys (l := f.keys) hf.nodup (p := fun k => t.has k) (List.mem_filter.mp hno).2 (List.mem_filter.mp hm).2
      rw [← h1]
      exact before_of_nodup hov ho
    rw [hbf, hpre, hPp]
    simp only [List.flatMap_append, List.mem_append]
    constructor
    · rintro (((hx | hx) | hx) | (hx | hx))
      · cases checks <;> simp [Op.dropsFk] at hx
      · obtain ⟨o, ho', hx⟩ := List.mem_flatMap.mp hx
        have := hs.creates o ho'
        cases o <;> simp [Op.isCreate, Op.dropsFk] at this hx
      · rw [mem_group_drops] at hx
        obtain ⟨e, he, h1, h2⟩ := hx
        rw [cycleDrops_eq] at he
        obtain ⟨e', he', rfl⟩ := List.mem_map.mp he
        simp only [cycleSources, List.mem_map] at he'
        obtain ⟨x, hx, rfl⟩ := he'
        have hsn := (cycles_ok (from? := some f) ht hf x hx).sname
        have h3 : k.name = x.source.name := by simpa [clauses, droppedFks] using h2
        have h4 := mem_cycledNames_source hx
        simp only at h1
        rw [h1, ← hsn, ← h3] at h4
        exact absurd h4 hnc
      · obtain ⟨o, ho', hx⟩ := List.mem_flatMap.mp hx
        obtain ⟨b, hb, rfl⟩ := List.mem_map.mp ho'
        obtain ⟨m', hm', hb⟩ := List.mem_flatMap.mp hb
        simp only [Op.dropsFk, List.mem_map, Prod.mk.injEq] at hx
        obtain ⟨_, _, h1, _⟩ := hx
        rw [nowOf_table hb] at h1
        exact h1 ▸ hm'
      · exact absurd (hpa _ hx) hna
    · intro hn1
      refine .inr (.inl ?_)
      obtain ⟨s', d', hs', hd', hdf⟩ := hdiff n hno
      rw [hn] at hs'; cases hs'
      rw [hd] at hd'; cases hd'
      have hdr := nowOf_drops (cyc := cycledNames (cycles (some f) t)) hdf
      have hk1 : (n, k.name) ∈ ((nowOf (cycledNames (cycles (some f) t)) f t n).map Op.alter).flatMap Op.dropsFk := by
        rw [hdr]
        have hin : k.name ∈ (ownDrops (cycledNames (cycles (some f) t)) s d n).map Constraint.name := by
          rw [ownDrops_names (hf.keyed _ _ (Dict.mem_of_get? hn)), List.mem_filter]
          exact ⟨hgone, by simpa using hnc⟩
        obtain ⟨k', hk', he⟩ := List.mem_map.mp hin
        exact List.mem_map.mpr ⟨k', hk', by rw [he]⟩
      obtain ⟨o, ho', hx⟩ := List.mem_flatMap.mp hk1
      obtain ⟨b, hb, rfl⟩ := List.mem_map.mp ho'
      exact List.mem_flatMap.mpr ⟨.alter b, List.mem_map_of_mem (List.mem_flatMap.mpr ⟨n, hn1, hb⟩), hx⟩
  · rw [hpre]
    simp only [List.flatMap_append, List.mem_append]
    rintro (((hm | hm) | hm) | hm)
    · cases checks <;> simp [Op.addsFk] at hm
    · obtain ⟨o, ho, hp⟩ := List.mem_flatMap.mp hm
      obtain ⟨m, hm, hno⟩ := List.mem_filterMap.mp ho
      cases hg : t.get? m with
      | none => simp [hg] at hno
      | some d =>
        simp only [hg, Option.map_some, Option.some.injEq] at hno
        rw [← hno] at hp
        simp only [Op.addsFk, List.mem_map, Prod.mk.injEq] at hp
        obtain ⟨k', _, h1, _⟩ := hp
        rw [ht.name _ _ (Dict.mem_of_get? hg)] at h1
        exact (mem_added.mp hm).2 (h1 ▸ Dict.mem_keys_of_get? hn)
    · obtain ⟨o, ho, hp⟩ := List.mem_flatMap.mp hm
      rw [(hs.temp o ho).2.2.2] at hp; simp at hp
    · obtain ⟨o, ho, hp⟩ := List.mem_flatMap.mp hm
      rw [(hs.now o (by rw [Option.getD_some, hP]; exact List.mem_append_left _ ho)).2.2] at hp; simp at hp

/-- **C13 is false** of every foreign key which the declared schema drops, in a table which the server lists after the
one whose column changes its type: the foreign key is in place when the type is changed. -/
theorem C13_refuted [PyNum] (t f : Dict Table) (checks : Bool) (ops pre post : List Op) (a : Alter)
    (ht : KeyedTables t) (hf : KeyedTables f) (h : Mygration.process t (some f) checks = .ok ops)
    (hsplit : ops = pre ++ .alter a :: post) (hchg : (Op.alter a).changesColumnsOrKeys = true)
    (c : Str) (htc : TypeChanges f t a.table c)
    (n : Str) (s : Table) (k : Constraint) (hn : f.get? n = some s) (hk : k ∈ s.constraints.values)
    (hu : Uses n k a.table c) (hcp : ¬ HasCounterpart t n k) (hafter : Mygrations.Before f.keys a.table n) :
    (n, k.name) ∉ pre.flatMap Op.dropsFk := by
  intro hd
  obtain ⟨l1, l2, l3, hl⟩ := hafter
  have hnd := hf.nodup
  rw [hl, List.nodup_append] at hnd
  rcases ((C13_iff t f checks ops pre post a ht hf h hsplit hchg c htc n s k hn hk hu).1.mp hd) with h1 | h1 | h1
  · exact hnd.2.2 a.table (by simp) n List.mem_cons_self h1.symm
  · exact hcp h1
  · have hbn := (before_of_nodup (x := n) (y := a.table) hf.nodup (o1 := l1) (o2 := l2 ++ n :: l3) (by rw [hl]; simp)).mp h1
    exact hnd.2.2 n (by simp [hbn]) n List.mem_cons_self rfl

namespace Examples

/-- `live` as a server lists it which has `comments` first -/
def liveReordered : Dict Table := db [comments py"INT", users py"INT", mk py"old" [idCol] [pk] []]

theorem users_change (f : Dict Table) (hf : f.get? py"users" = some (users py"INT")) : TypeChanges f freed py"users" py"id" :=
  ⟨users py"INT", users py"BIGINT", { idCol with ctype := py"INT" }, { idCol with ctype := py"BIGINT" },
    hf, by decide, by decide, by decide, .inl (by decide)⟩

theorem no_counterpart : ¬ HasCounterpart freed py"comments" (fk py"comments_user_fk" py"user_id" py"users" py"id") := by
  rintro (h | ⟨d, h, k', hk', _⟩)
  · revert h; decide
  · have : d = freeComments py"BIGINT" := by
      have h2 : freed.get? py"comments" = some (freeComments py"BIGINT") := by decide
      rw [h2] at h; cases h; rfl
    subst this
    revert hk'; simp [freeComments, mk, Dict.values]

end Examples

open Examples in
/-- both outcomes of `C13_iff` occur: with `users` listed first the foreign key is in place, with `comments` listed first it is not -/
example : Mygrations.Before live.keys py"users" py"comments" ∧ Mygrations.Before liveReordered.keys py"comments" py"users" ∧
    TypeChanges live freed py"users" py"id" ∧ TypeChanges liveReordered freed py"users" py"id" ∧
    ¬ HasCounterpart freed py"comments" (fk py"comments_user_fk" py"user_id" py"users" py"id") ∧
    KeyedTables live ∧ KeyedTables liveReordered ∧ KeyedTables freed :=
  ⟨⟨[], [], [py"old"], by decide⟩, ⟨[], [], [py"old"], by decide⟩, users_change _ (by decide), users_change _ (by decide), no_counterpart,
    live_keyed, keyedTables_of_check (by decide) (by decide), freed_keyed⟩

end Mygrations

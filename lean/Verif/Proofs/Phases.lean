import Verif.Proofs.States

/-! # The phases of a migration -/

namespace Mygrations
open Table MySQL Mygration

theorem runs_list {α : Type} {P : Tabs → Prop} (S : List α → Tabs) (ops : α → List Op) : ∀ (l pre : List α), P (S pre) →
    (∀ a x b, l = a ++ x :: b → Runs P (S (pre ++ a)) (ops x) (S (pre ++ a ++ [x]))) → Runs P (S pre) (l.flatMap ops) (S (pre ++ l))
  | [], pre, hp, _ => by simpa using Runs.nil hp
  | x :: l, pre, hp, h => by
    have h1 := h [] x l rfl
    simp only [List.append_nil] at h1
    have h2 := runs_list S ops l (pre ++ [x]) h1.last (by
      intro a y b e
      have := h (x :: a) y b (by rw [e]; rfl)
      simpa using this)
    simpa using h1.append h2

section
variable [PyNum] {c : Bool} {f t : Dict Table} {N : Str → Dict Column} {w : Where}

theorem tabsAt_congr {w w' : Where} (hg : ∀ n, f.get? n ≠ none → t.get? n ≠ none → w.g n = w'.g n)
    (hd : ∀ n, f.get? n ≠ none → t.get? n = none → w.dr n = w'.dr n ∧ (w.g n = 0 ↔ w'.g n = 0))
    (hc : ∀ n, f.get? n = none → t.get? n ≠ none → w.cr n = w'.cr n) : tabsAt f t N w = tabsAt f t N w' := by
  funext n
  unfold tabsAt
  cases ha : f.get? n with
  | none =>
    cases hb : t.get? n with
    | none => rfl
    | some b => simp only [hc n ha (by simp [hb])]
  | some a =>
    cases hb : t.get? n with
    | none =>
      have := hd n (by simp [ha]) hb
      simp only [this.1, goneTab, this.2]
    | some b => simp only [hg n (by simp [ha]) (by simp [hb])]

/-- a database as it is during the migration -/
def During (f t : Dict Table) (N : Str → Dict Column) (σ : Tabs) : Prop := ∃ w : Where, w.Ordered f t ∧ σ = tabsAt f t N w

/-- table `n` moves to stage `j` -/
def Where.to (w : Where) (n : Str) (j : Nat) : Where := { w with g := fun m => if m = n then j else w.g m }

theorem tabsAt_other {n m : Str} (j : Nat) (e : m ≠ n) : tabsAt f t N (w.to n j) m = tabsAt f t N w m := by
  have hg : (w.to n j).g m = w.g m := by simp [Where.to, e]
  unfold tabsAt
  rw [hg]
  rfl

theorem tabsAt_to {n : Str} {a b : Table} (ha : f.get? n = some a) (hb : t.get? n = some b) (j : Nat) :
    (tabsAt f t N w).put n (some (stageTab (cycles (some f) t) (N n) n a b j)) = tabsAt f t N (w.to n j) := by
  funext m
  by_cases e : m = n
  · subst e
    simp [Tabs.put_same, tabsAt, ha, hb, Where.to]
  · rw [Tabs.put_other _ _ e, tabsAt_other j e]

theorem tabsAt_gone {n : Str} {a : Table} (ha : f.get? n = some a) (hb : t.get? n = none) (hd : w.dr n = false) (j : Nat) :
    (tabsAt f t N w).put n (some (goneTab (cycles (some f) t) n a j)) = tabsAt f t N (w.to n j) := by
  funext m
  by_cases e : m = n
  · subst e
    simp [Tabs.put_same, tabsAt, ha, hb, Where.to, hd]
  · rw [Tabs.put_other _ _ e, tabsAt_other j e]

theorem noBreak_fkOnly {σ : Tabs} {n : Str} {st : STable} {cl : List Clause} (h : FkOnly cl) : NoBreak σ n st cl := by
  intro e he
  rw [h.2.1] at he
  cases he

/-- one statement on a table which stays -/
theorem run_stage (h : Setup c f t N) {n : Str} {a b : Table} {i j : Nat} (ha : f.get? n = some a) (hb : t.get? n = some b)
    (hg : w.g n = i) (ops : List AlterOp)
    (hex : alterTable (stageTab (cycles (some f) t) (N n) n a b i) (ops.flatMap clauses) = some (stageTab (cycles (some f) t) (N n) n a b j))
    (hbr : NoBreak (tabsAt f t N w) n (stageTab (cycles (some f) t) (N n) n a b i) (ops.flatMap clauses))
    (hw : w.Ordered f t) (ho : (w.to n j).Ordered f t) : Runs (During f t N) (tabsAt f t N w) [.alter ⟨n, ops⟩] (tabsAt f t N (w.to n j)) := by
  rw [← tabsAt_to ha hb]
  refine runs_alter (a := ⟨n, ops⟩) (st := stageTab (cycles (some f) t) (N n) n a b i) ?_ hex hbr ?_ ⟨w, hw, rfl⟩ ?_
  · simp [tabsAt, ha, hb, hg]
  · rw [tabsAt_to ha hb]
    exact tabs_cons h ho
  · rw [tabsAt_to ha hb]
    exact ⟨_, ho, rfl⟩

theorem run_stageIf (h : Setup c f t N) {n : Str} {a b : Table} {i j : Nat} (ha : f.get? n = some a) (hb : t.get? n = some b)
    (hg : w.g n = i) (ops : List AlterOp)
    (hnil : ops = [] → stageTab (cycles (some f) t) (N n) n a b i = stageTab (cycles (some f) t) (N n) n a b j)
    (hex : alterTable (stageTab (cycles (some f) t) (N n) n a b i) (ops.flatMap clauses) = some (stageTab (cycles (some f) t) (N n) n a b j))
    (hbr : NoBreak (tabsAt f t N w) n (stageTab (cycles (some f) t) (N n) n a b i) (ops.flatMap clauses))
    (hw : w.Ordered f t) (ho : (w.to n j).Ordered f t) : Runs (During f t N) (tabsAt f t N w) ((alterIf n ops).map .alter) (tabsAt f t N (w.to n j)) := by
  by_cases he : ops = []
  · have e : tabsAt f t N (w.to n j) = tabsAt f t N w := by
      rw [← tabsAt_to ha hb, ← hnil he]
      funext m
      by_cases e : m = n
      · subst e
        rw [Tabs.put_same]
        simp [tabsAt, ha, hb, hg]
      · rw [Tabs.put_other _ _ e]
    rw [e]
    simp only [alterIf, he, if_true, List.map_nil]
    exact Runs.nil ⟨w, hw, rfl⟩
  · simp only [alterIf, he, if_false, List.map_cons, List.map_nil]
    exact run_stage h ha hb hg ops hex hbr hw ho

/-! ## Creating tables -/

theorem distinct_of_valid {b : Table} (vb : b.Valid) : (ofTable b).distinct = true := by
  have hk := vb.toKeyed
  simp only [STable.distinct, Bool.and_eq_true, decide_eq_true_eq, ofTable_cols hk, ofTable_fks hk]
  refine ⟨⟨hk.colNodup, ?_⟩, hk.fkNodup⟩
  rw [ofTable_keys]
  simp only [Dict.keys, List.map_map]
  apply nodup_map_on
  · rintro ⟨x, i⟩ hi ⟨y, j⟩ hj he
    have vi := Dict.mem_values.mpr ⟨_, hi⟩
    have vj := Dict.mem_values.mpr ⟨_, hj⟩
    have ni := hk.idxName _ _ hi
    have nj := hk.idxName _ _ hj
    simp only [Function.comp, keyName] at he
    have : i = j ∨ i.name = j.name := by
      by_cases pi : i.isPrimary = true <;> by_cases pj : j.isPrimary = true
      · exact .inl (vb.onePrimary i j vi vj pi pj)
      · simp only [pi, pj, if_true, if_false] at he
        exact absurd he.symm (vb.noPrimaryName j vj (by simpa using pj))
      · simp only [pi, pj, if_true, if_false] at he
        exact absurd he (vb.noPrimaryName i vi (by simpa using pi))
      · simp only [pi, pj, if_false] at he
        exact .inr he
    rcases this with e | e
    · subst e
      rw [← ni, ← nj]
    · rw [ni, nj] at e
      subst e
      have h1 := Dict.get?_of_mem hk.idxNodup hi
      rw [Dict.get?_of_mem hk.idxNodup hj] at h1
      cases h1
      rfl
  · exact nodup_of_keys hk.idxNodup

theorem ok_of_valid {b : Table} (vb : b.Valid) : (ofTable b).ok = true := by
  have hk := vb.toKeyed
  simp only [STable.ok, Bool.and_eq_true, List.all_eq_true, ofTable_cols hk, ofTable_fks hk, Bool.not_eq_true', Dict.has_iff]
  refine ⟨⟨?_, fun e he x hx => (validKeys vb e he).2 x hx⟩, fun e he => vb.fkCols e.2 (Dict.mem_values.mpr ⟨_, he⟩)⟩
  have := vb.hasCols
  cases hc : b.columns with
  | nil => exact absurd hc this
  | cons => rfl

theorem ordered_low (g : Str → Nat) (cr dr : Str → Bool) (hg : ∀ n, g n < 3) : Where.Ordered f t ⟨g, cr, dr⟩ := by
  constructor
  · intro p hp; have := hg p; simp only at hp; omega
  · intro n p _ hp; have := hg p; simp only at hp; omega
  · intro p hp; have := hg p; simp only at hp; omega

theorem phase_creates (h : Setup c f t N) :
    Runs (During f t N) (tabsAt f t N ⟨fun _ => 0, fun _ => false, fun _ => false⟩) ((added f t).filterMap (fun n => (t.get? n).map .createTable))
      (tabsAt f t N ⟨fun _ => 0, fun _ => true, fun _ => false⟩) := by
  have hfm : (added f t).filterMap (fun n => (t.get? n).map Op.createTable) = (added f t).flatMap (fun n => ((t.get? n).map Op.createTable).toList) := by
    generalize added f t = l
    induction l with
    | nil => rfl
    | cons x l ih => cases hx : t.get? x <;> simp [List.filterMap_cons, hx, ih]
  rw [hfm]
  have := runs_list (P := During f t N) (fun l => tabsAt f t N ⟨fun _ => 0, fun n => l.contains n, fun _ => false⟩)
    (fun n => ((t.get? n).map Op.createTable).toList) (added f t) [] ⟨_, ordered_low _ _ _ (by simp), rfl⟩ ?_
  · simp only [List.nil_append, List.contains_nil] at this
    rw [tabsAt_congr (w := ⟨fun _ => 0, fun _ => true, fun _ => false⟩) (w' := ⟨fun _ => 0, fun n => (added f t).contains n, fun _ => false⟩)]
    · exact this
    · simp
    · simp
    · intro n h1 h2
      have : n ∈ added f t := by
        rw [mem_added]
        refine ⟨?_, Dict.get?_eq_none.mp h1⟩
        obtain ⟨b, hb⟩ := Option.ne_none_iff_exists'.mp h2
        exact Dict.mem_keys_of_get? hb
      simp [this]
  · intro pre n post he
    have hmem : n ∈ added f t := by rw [he]; simp
    obtain ⟨h1, h2⟩ := mem_added.mp hmem
    obtain ⟨b, hb⟩ := Dict.exists_get? h1
    have ha := Dict.get?_eq_none.mpr h2
    obtain ⟨vb, _⟩ := h.tgt.valid n b hb
    have hname : b.name = n := h.tgt.name _ _ (Dict.mem_of_get? hb)
    have hnd : n ∉ pre := by
      have := added_nodup (f := f) h.tgt.nodup
      rw [he, List.nodup_append] at this
      intro hp
      exact this.2.2 n hp n (by simp) rfl
    have heq : (tabsAt f t N ⟨fun _ => 0, fun m => ([] ++ pre).contains m, fun _ => false⟩).put b.name (some (ofTable b)) =
        tabsAt f t N ⟨fun _ => 0, fun m => ([] ++ pre ++ [n]).contains m, fun _ => false⟩ := by
      funext m
      by_cases e : m = n
      · subst e
        rw [hname, Tabs.put_same]
        simp [tabsAt, ha, hb]
      · rw [hname, Tabs.put_other _ _ e]
        simp [tabsAt, e]
    simp only [hb, Option.map_some, Option.toList_some]
    rw [← heq]
    refine runs_create ?_ (ok_of_valid vb) (distinct_of_valid vb) ?_ ⟨_, ordered_low _ _ _ (by simp), rfl⟩ ?_
    · rw [hname]
      simp [tabsAt, ha, hb, hnd]
    · rw [heq]
      exact tabs_cons h (ordered_low _ _ _ (by simp))
    · rw [heq]
      exact ⟨_, ordered_low _ _ _ (by simp), rfl⟩

/-! ## Cycled foreign keys -/

theorem group_tables_nodup {l pre post : List Alter} {a : Alter} {r : List (Str × AlterOp)} (hl : l = groupAlters r) (he : l = pre ++ a :: post) :
    a.table ∉ pre.map Alter.table := by
  have := groups_nodup r
  rw [← groupAlters_tables, ← hl, he, List.map_append, List.nodup_append] at this
  intro hp
  exact this.2.2 _ hp a.table (by simp) rfl

/-- the names which are taken away from a table at first -/
def tempNames (cs : List Cycle) (n : Str) : List Str := (((cycleSources cs).filter (fun e => e.1 = n)).map Prod.snd).map Constraint.name

omit [PyNum] in
theorem mem_tempNames {c' : Bool} (hf : Accepted c f) (ht : Accepted c' t) {n x : Str} : x ∈ tempNames (cycles (some f) t) n ↔ cycSrc (cycles (some f) t) n x = true := by
  simp only [tempNames, cycleSources, cycSrc, List.any_eq_true, List.mem_map, List.mem_filter, Bool.and_eq_true, decide_eq_true_eq]
  constructor
  · rintro ⟨k, ⟨e, ⟨⟨y, hy, rfl⟩, h2⟩, rfl⟩, rfl⟩
    exact ⟨y, hy, h2, (cycleOk hf.toKeyedTables ht.toKeyedTables hy).sname.symm⟩
  · rintro ⟨y, hy, h1, h2⟩
    exact ⟨y.source, ⟨(y.table, y.source), ⟨⟨y, hy, rfl⟩, h1⟩, rfl⟩, (cycleOk hf.toKeyedTables ht.toKeyedTables hy).sname.trans h2⟩

omit [PyNum] in
theorem temp_alter {c' : Bool} (hf : Accepted c f) (ht : Accepted c' t) {n : Str} {a : Table} (ha : f.get? n = some a) (ops : List AlterOp)
    (ho : ops = (((cycleSources (cycles (some f) t)).filter (fun e => e.1 = n)).map Prod.snd).map AlterOp.removeConstraint) :
    FkOnly (ops.flatMap clauses) ∧
    alterTable ⟨a.columns, (ofTable a).keys, a.constraints⟩ (ops.flatMap clauses) = some ⟨a.columns, (ofTable a).keys, fks1 (cycles (some f) t) n a⟩ := by
  obtain ⟨va, _⟩ := hf.valid n a ha
  have hcl := removeConstraint_clauses (((cycleSources (cycles (some f) t)).filter (fun e => e.1 = n)).map Prod.snd)
  simp only [← ho] at hcl
  refine ⟨hcl.1, fkAlter_exec hcl.1 va.hasCols (validKeys va) (F₀ := fks1 (cycles (some f) t) n a) ?_ ?_ ?_⟩
  · rw [hcl.2.1, dropNames_spec]
    · congr 1
      unfold fks1
      apply List.filter_congr
      intro e _
      have := mem_tempNames hf ht (n := n) (x := e.1)
      unfold tempNames at this
      congr 1
      rw [Bool.eq_iff_iff, List.contains_iff_mem]
      exact this
    · intro x hx
      have := (mem_tempNames hf ht (n := n) (x := x)).mp hx
      simp only [cycSrc, List.any_eq_true, Bool.and_eq_true, decide_eq_true_eq] at this
      obtain ⟨y, hy, h1, h2⟩ := this
      obtain ⟨s, hs, hk⟩ := (cycleOk hf.toKeyedTables ht.toKeyedTables hy).source
      rw [h1, ha] at hs
      cases hs
      rw [← h2]
      exact Dict.mem_keys_of_get? hk
    · exact names_nodup (cycleSources_nodup (from? := some f) ht.toKeyedTables hf.toKeyedTables) n
  · rw [hcl.2.2]; rfl
  · intro e he
    have : e ∈ a.constraints := (List.mem_filter.mp he).1
    exact va.fkCols e.2 (Dict.mem_values.mpr ⟨_, this⟩)

theorem phase_temp (h : Setup c f t N) :
    Runs (During f t N) (tabsAt f t N ⟨fun _ => 0, fun _ => true, fun _ => false⟩) ((groupAlters (cycleDrops (cycles (some f) t))).map .alter)
      (tabsAt f t N ⟨fun _ => 1, fun _ => true, fun _ => false⟩) := by
  have hfm : (groupAlters (cycleDrops (cycles (some f) t))).map Op.alter = (groupAlters (cycleDrops (cycles (some f) t))).flatMap (fun a => [Op.alter a]) := by
    simp [← List.map_eq_flatMap]
  rw [hfm]
  have := runs_list (P := During f t N) (fun l : List Alter => tabsAt f t N ⟨fun n => if n ∈ l.map Alter.table then 1 else 0, fun _ => true, fun _ => false⟩)
    (fun a => [Op.alter a]) (groupAlters (cycleDrops (cycles (some f) t))) [] ⟨_, ordered_low _ _ _ (by simp), rfl⟩ ?_
  · simp only [List.nil_append, List.map_nil, List.not_mem_nil, if_false] at this
    refine Eq.mp ?_ this
    congr 1
    -- tables without cycled foreign keys do not change
    funext n
    unfold tabsAt
    cases ha : f.get? n with
    | none => cases t.get? n <;> rfl
    | some a =>
      have hsame : n ∉ (groupAlters (cycleDrops (cycles (some f) t))).map Alter.table → fks1 (cycles (some f) t) n a = a.constraints := by
        intro hn
        rw [fks1, List.filter_eq_self]
        intro e he
        simp only [Bool.not_eq_true']
        cases hc : cycSrc (cycles (some f) t) n e.1 with
        | false => rfl
        | true =>
          exfalso
          simp only [cycSrc, List.any_eq_true, Bool.and_eq_true, decide_eq_true_eq] at hc
          obtain ⟨y, hy, h1, _⟩ := hc
          apply hn
          rw [groupAlters_tables, mem_groups_keys, cycleDrops]
          simp only [List.map_map, List.mem_map]
          exact ⟨y, hy, h1⟩
      cases hb : t.get? n with
      | none =>
        simp only [goneTab]
        by_cases hn : n ∈ (groupAlters (cycleDrops (cycles (some f) t))).map Alter.table
        · simp [hn]
        · simp [hn, hsame hn]
      | some b =>
        by_cases hn : n ∈ (groupAlters (cycleDrops (cycles (some f) t))).map Alter.table
        · simp [hn]
        · simp [hn, hsame hn, stageTab]
  · intro pre x post he
    have hnd := group_tables_nodup rfl he
    have hx : x ∈ groupAlters (cycleDrops (cycles (some f) t)) := by rw [he]; simp
    have hx' := hx
    rw [cycleDrops_eq] at hx'
    have hops := group_removeOnly hx'
    have hk : x.table ∈ (groupAlters (cycleDrops (cycles (some f) t))).map Alter.table := List.mem_map_of_mem hx
    rw [groupAlters_tables, mem_groups_keys, cycleDrops] at hk
    simp only [List.map_map, List.mem_map, Function.comp] at hk
    obtain ⟨y, hy, hyt⟩ := hk
    obtain ⟨s, hs, _⟩ := (cycleOk h.src.toKeyedTables h.tgt.toKeyedTables hy).source
    rw [hyt] at hs
    obtain ⟨hfk, hex⟩ := temp_alter h.src h.tgt hs x.ops hops
    have hto : tabsAt f t N ⟨fun n => if n ∈ ([] ++ pre ++ [x]).map Alter.table then 1 else 0, fun _ => true, fun _ => false⟩ =
        tabsAt f t N ((⟨fun n => if n ∈ ([] ++ pre).map Alter.table then 1 else 0, fun _ => true, fun _ => false⟩ : Where).to x.table 1) := by
      congr 2
      funext m
      by_cases e : m = x.table
      · simp [e]
      · simp [e]
    have hlow : ((⟨fun n => if n ∈ ([] ++ pre).map Alter.table then 1 else 0, fun _ => true, fun _ => false⟩ : Where).to x.table 1).Ordered f t := by
      apply ordered_low
      intro n
      simp only
      split
      · omega
      · split <;> omega
    have hlow' : (⟨fun n => if n ∈ ([] ++ pre).map Alter.table then 1 else 0, fun _ => true, fun _ => false⟩ : Where).Ordered f t := by
      apply ordered_low
      intro n
      split <;> omega
    rw [hto]
    cases hb : t.get? x.table with
    | some b =>
      refine run_stage h hs hb (i := 0) ?_ x.ops hex (noBreak_fkOnly hfk) hlow' hlow
      simp [hnd]
    | none =>
      rw [← tabsAt_gone hs hb rfl]
      refine runs_alter (a := x) (st := goneTab (cycles (some f) t) x.table s 0) ?_ (by simpa [goneTab] using hex) (noBreak_fkOnly hfk) ?_ ⟨_, hlow', rfl⟩ ?_
      · simp only [tabsAt, hs, hb]
        simp [hnd]
      · rw [tabsAt_gone hs hb rfl]
        exact tabs_cons h hlow
      · rw [tabsAt_gone hs hb rfl]
        exact ⟨_, hlow, rfl⟩

end

end Mygrations

import Verif.Proofs.PlanFks

/-! # The parts of a plan and their effect on foreign keys -/

namespace Mygrations
open Table MySQL

namespace Mygration

theorem droppedFks_flatMap (ops : List AlterOp) : droppedFks (ops.flatMap clauses) = ops.flatMap (fun o => droppedFks (clauses o)) := by
  induction ops with
  | nil => rfl
  | cons o ops ih => simp [ih]

theorem addedFks_flatMap (ops : List AlterOp) : addedFks (ops.flatMap clauses) = ops.flatMap (fun o => addedFks (clauses o)) := by
  induction ops with
  | nil => rfl
  | cons o ops ih => simp [ih]

theorem alterIf_dropsFk (n : Str) (ops : List AlterOp) :
    ((alterIf n ops).map Op.alter).flatMap Op.dropsFk = (droppedFks (ops.flatMap clauses)).map (fun x => (n, x)) := by
  unfold alterIf
  split
  · rename_i h; simp [h]
  · simp [Op.dropsFk]

theorem alterIf_addsFk (n : Str) (ops : List AlterOp) :
    ((alterIf n ops).map Op.alter).flatMap Op.addsFk = (addedFks (ops.flatMap clauses)).map (fun k => (n, k.name)) := by
  unfold alterIf
  split
  · rename_i h; simp [h]
  · simp [Op.addsFk]

theorem strip_removed (cyc : List (Str × Str)) (n : Str) (l : List Constraint) :
    stripCycled cyc n (l.map .removeConstraint) = (l.filter (fun k => !cyc.contains (n, k.name))).map .removeConstraint := by
  unfold stripCycled
  rw [List.filter_map]; rfl

theorem strip_added (cyc : List (Str × Str)) (n : Str) (l : List Constraint) :
    stripCycled cyc n (l.map .addConstraint) = (l.filter (fun k => !cyc.contains (n, k.name))).map .addConstraint := by
  unfold stripCycled
  rw [List.filter_map]; rfl

/-- foreign keys which table `n` loses in its own turn -/
def ownDrops (cyc : List (Str × Str)) (a b : Table) (n : Str) : List Constraint :=
  (look a.constraints (goneFks a b)).filter (fun k => !cyc.contains (n, k.name))

/-- foreign keys which table `n` gets in the late phase -/
def ownAdds (cyc : List (Str × Str)) (a b : Table) (n : Str) : List Constraint :=
  (look b.constraints (newFks a b)).filter (fun k => !cyc.contains (n, k.name))

theorem nowOf_eq [PyNum] {cyc : List (Str × Str)} {f t : Dict Table} {n : Str} {a b : Table}
    (h : a.toSplit b = .ok (diffOf f t n)) :
    nowOf cyc f t n = alterIf n ((ownDrops cyc a b n).map .removeConstraint) ++ alterIf n (diffOf f t n).kitchenSink := by
  rw [nowOf, (toSplit_fks h).1, removedFkOps_eq, strip_removed]; rfl

theorem laterOf_eq [PyNum] {cyc : List (Str × Str)} {f t : Dict Table} {n : Str} {a b : Table}
    (h : a.toSplit b = .ok (diffOf f t n)) :
    laterOf cyc f t n = alterIf n ((ownAdds cyc a b n).map .addConstraint) := by
  rw [laterOf, (toSplit_fks h).2, addedFkOps_eq, strip_added]; rfl

theorem nowOf_drops [PyNum] {cyc : List (Str × Str)} {f t : Dict Table} {n : Str} {a b : Table}
    (h : a.toSplit b = .ok (diffOf f t n)) :
    ((nowOf cyc f t n).map Op.alter).flatMap Op.dropsFk = (ownDrops cyc a b n).map (fun k => (n, k.name)) := by
  rw [nowOf_eq h, List.map_append, List.flatMap_append, alterIf_dropsFk, alterIf_dropsFk,
    (kitchen_clauses (kitchenSink_noFk h)).1, (removeConstraint_clauses _).2.1]
  simp

theorem nowOf_adds [PyNum] {cyc : List (Str × Str)} {f t : Dict Table} {n : Str} {a b : Table}
    (h : a.toSplit b = .ok (diffOf f t n)) :
    ((nowOf cyc f t n).map Op.alter).flatMap Op.addsFk = [] := by
  rw [nowOf_eq h, List.map_append, List.flatMap_append, alterIf_addsFk, alterIf_addsFk,
    (kitchen_clauses (kitchenSink_noFk h)).2, (removeConstraint_clauses _).2.2]
  simp

theorem laterOf_drops [PyNum] {cyc : List (Str × Str)} {f t : Dict Table} {n : Str} {a b : Table}
    (h : a.toSplit b = .ok (diffOf f t n)) :
    ((laterOf cyc f t n).map Op.alter).flatMap Op.dropsFk = [] := by
  rw [laterOf_eq h, alterIf_dropsFk, (addConstraint_clauses _).2.1]; rfl

theorem laterOf_adds [PyNum] {cyc : List (Str × Str)} {f t : Dict Table} {n : Str} {a b : Table}
    (h : a.toSplit b = .ok (diffOf f t n)) :
    ((laterOf cyc f t n).map Op.alter).flatMap Op.addsFk = (ownAdds cyc a b n).map (fun k => (n, k.name)) := by
  rw [laterOf_eq h, alterIf_addsFk, (addConstraint_clauses _).2.2]

theorem ownDrops_names {cyc : List (Str × Str)} {a b : Table} (ha : a.Keyed) (n : Str) :
    (ownDrops cyc a b n).map Constraint.name = (goneFks a b).filter (fun k => !cyc.contains (n, k)) := by
  rw [← look_names ha (goneFks a b) goneFks_sub, List.filter_map]
  rfl

theorem ownAdds_names {cyc : List (Str × Str)} {a b : Table} (hb : b.Keyed) (n : Str) :
    (ownAdds cyc a b n).map Constraint.name = (newFks a b).filter (fun k => !cyc.contains (n, k)) := by
  rw [← look_names hb (newFks a b) newFks_sub, List.filter_map]
  rfl

theorem nodup_pair {l : List Str} (n : Str) (h : l.Nodup) : (l.map (fun x => (n, x))).Nodup :=
  nodup_map_on (fun a _ b _ h => by simpa using h) h

/-- grouping does not change which foreign keys are dropped -/
theorem mem_group_drops {l : List (Str × AlterOp)} {p : Str × Str} :
    p ∈ ((groupAlters l).map Op.alter).flatMap Op.dropsFk ↔ ∃ e ∈ l, e.1 = p.1 ∧ p.2 ∈ droppedFks (clauses e.2) := by
  simp only [List.mem_flatMap, List.mem_map]
  constructor
  · rintro ⟨o, ⟨a, ha, rfl⟩, hp⟩
    simp only [Op.dropsFk, List.mem_map, droppedFks_flatMap, List.mem_flatMap, mem_groupAlters ha, List.mem_filter] at hp
    obtain ⟨x, ⟨op, ⟨e, ⟨he, het⟩, rfl⟩, hx⟩, rfl⟩ := hp
    exact ⟨e, he, by simpa using het, hx⟩
  · rintro ⟨e, he, h1, h2⟩
    have hk : e.1 ∈ Dict.keys (groups l) := mem_groups_keys.mpr (List.mem_map_of_mem he)
    rw [← groupAlters_tables, List.mem_map] at hk
    obtain ⟨a, ha, hat⟩ := hk
    refine ⟨_, ⟨a, ha, rfl⟩, ?_⟩
    simp only [Op.dropsFk, List.mem_map, droppedFks_flatMap, List.mem_flatMap, mem_groupAlters ha, List.mem_filter]
    exact ⟨p.2, ⟨e.2, ⟨e, ⟨he, by simp [hat]⟩, rfl⟩, h2⟩, by rw [hat, h1]⟩

theorem mem_group_adds {l : List (Str × AlterOp)} {p : Str × Str} :
    p ∈ ((groupAlters l).map Op.alter).flatMap Op.addsFk ↔ ∃ e ∈ l, e.1 = p.1 ∧ p.2 ∈ (addedFks (clauses e.2)).map Constraint.name := by
  simp only [List.mem_flatMap, List.mem_map]
  constructor
  · rintro ⟨o, ⟨a, ha, rfl⟩, hp⟩
    simp only [Op.addsFk, List.mem_map, addedFks_flatMap, List.mem_flatMap, mem_groupAlters ha, List.mem_filter] at hp
    obtain ⟨x, ⟨op, ⟨e, ⟨he, het⟩, rfl⟩, hx⟩, rfl⟩ := hp
    exact ⟨e, he, by simpa using het, x, hx, rfl⟩
  · rintro ⟨e, he, h1, k, h2, h3⟩
    have hk : e.1 ∈ Dict.keys (groups l) := mem_groups_keys.mpr (List.mem_map_of_mem he)
    rw [← groupAlters_tables, List.mem_map] at hk
    obtain ⟨a, ha, hat⟩ := hk
    refine ⟨_, ⟨a, ha, rfl⟩, ?_⟩
    simp only [Op.addsFk, List.mem_map, addedFks_flatMap, List.mem_flatMap, mem_groupAlters ha, List.mem_filter]
    exact ⟨k, ⟨e.2, ⟨e, ⟨he, by simp [hat]⟩, rfl⟩, h2⟩, by rw [hat, h1, h3]⟩

theorem groups_pairwise (l : List (Str × AlterOp)) : (groupAlters l).Pairwise (fun a b => a.table ≠ b.table) := by
  have := groups_nodup l
  rw [← groupAlters_tables] at this
  rw [List.Nodup, List.pairwise_map] at this
  exact this

theorem names_nodup {l : List (Str × Constraint)} (h : (l.map (fun e => (e.1, e.2.name))).Nodup) (n : Str) :
    (((l.filter (fun e => e.1 = n)).map Prod.snd).map Constraint.name).Nodup := by
  have h' := (List.Nodup.sublist ((List.filter_sublist (p := fun e => e.1 = n)).map _) h)
  rw [List.map_map]
  rw [List.Nodup, List.pairwise_map] at h' ⊢
  refine h'.imp_of_mem ?_
  intro a b ha hb hab he
  simp only [List.mem_filter, decide_eq_true_eq] at ha hb
  apply hab
  simp only [Function.comp] at he
  rw [ha.2, hb.2, he]

theorem group_drops_nodup {l : List (Str × Constraint)} (h : (l.map (fun e => (e.1, e.2.name))).Nodup) :
    (((groupAlters (l.map (fun e => (e.1, .removeConstraint e.2)))).map Op.alter).flatMap Op.dropsFk).Nodup := by
  rw [List.flatMap_map, List.Nodup, List.pairwise_flatMap]
  constructor
  · intro a ha
    have : a.ops = ((l.filter (fun e => e.1 = a.table)).map Prod.snd).map AlterOp.removeConstraint := by
      rw [mem_groupAlters ha, List.filter_map, List.map_map, List.map_map]; rfl
    simp only [Op.dropsFk]
    rw [this, (removeConstraint_clauses _).2.1]
    exact nodup_pair _ (names_nodup h _)
  · refine (groups_pairwise _).imp ?_
    intro a b hab x hx y hy
    simp only [Op.dropsFk, List.mem_map] at hx hy
    obtain ⟨_, _, rfl⟩ := hx
    obtain ⟨_, _, rfl⟩ := hy
    simp [hab]

theorem group_adds_nodup {l : List (Str × Constraint)} (h : (l.map (fun e => (e.1, e.2.name))).Nodup) :
    (((groupAlters (l.map (fun e => (e.1, .addConstraint e.2)))).map Op.alter).flatMap Op.addsFk).Nodup := by
  rw [List.flatMap_map, List.Nodup, List.pairwise_flatMap]
  constructor
  · intro a ha
    have : a.ops = ((l.filter (fun e => e.1 = a.table)).map Prod.snd).map AlterOp.addConstraint := by
      rw [mem_groupAlters ha, List.filter_map, List.map_map, List.map_map]; rfl
    simp only [Op.addsFk]
    rw [this, (addConstraint_clauses _).2.2]
    have := nodup_pair a.table (names_nodup h a.table)
    rw [List.map_map] at this
    exact this
  · refine (groups_pairwise _).imp ?_
    intro a b hab x hx y hy
    simp only [Op.addsFk, List.mem_map] at hx hy
    obtain ⟨_, _, rfl⟩ := hx
    obtain ⟨_, _, rfl⟩ := hy
    simp [hab]

/-! ## The parts of a plan -/

theorem alter_removeOnly {a : Alter} {l : List Constraint} (h : a.ops = l.map .removeConstraint) :
    (Op.alter a).changesColumnsOrKeys = false ∧ (Op.alter a).altersInFk = false ∧ (Op.alter a).addsFk = [] := by
  obtain ⟨⟨h1, h2, h3, h4, h5⟩, h6, h7⟩ := removeConstraint_clauses l
  rw [← h] at h1 h2 h3 h4 h5 h6 h7
  simp [Op.changesColumnsOrKeys, Op.altersInFk, Op.alterClauses, Op.addsFk, h1, h2, h3, h4, h5, h7]

theorem alter_addOnly {a : Alter} {l : List Constraint} (h : a.ops = l.map .addConstraint) :
    (Op.alter a).changesColumnsOrKeys = false ∧ (Op.alter a).dropsFk = [] := by
  obtain ⟨⟨h1, h2, h3, h4, h5⟩, h6, h7⟩ := addConstraint_clauses l
  rw [← h] at h1 h2 h3 h4 h5 h6 h7
  simp [Op.changesColumnsOrKeys, Op.alterClauses, Op.dropsFk, h1, h2, h3, h4, h5, h6]

/-- the sources of the temporary drops -/
def cycleSources (cs : List Cycle) : List (Str × Constraint) := cs.map (fun x => (x.table, x.source))

theorem cycleDrops_eq (cs : List Cycle) : cycleDrops cs = (cycleSources cs).map (fun e => (e.1, .removeConstraint e.2)) := by
  simp [cycleDrops, cycleSources]

/-- the constraints which are added again -/
def cycleTargets : List Cycle → List (Str × Str) → List (Str × Constraint)
  | [], _ => []
  | c :: cs, done =>
    match c.target with
    | none => cycleTargets cs done
    | some (k, n) =>
      if done.contains (c.table, n) then cycleTargets cs done
      else (c.table, k) :: cycleTargets cs (done ++ [(c.table, n)])

theorem cycleAdds_eq (cs : List Cycle) : ∀ done, cycleAdds cs done = (cycleTargets cs done).map (fun e => (e.1, .addConstraint e.2)) := by
  induction cs with
  | nil => intro done; rfl
  | cons x cs ih =>
    intro done
    simp only [cycleAdds, cycleTargets]
    cases x.target with
    | none => exact ih done
    | some p =>
      obtain ⟨k, n⟩ := p
      simp only
      split
      · exact ih done
      · simp [ih]

theorem group_removeOnly {l : List (Str × Constraint)} {a : Alter}
    (h : a ∈ groupAlters (l.map (fun e => (e.1, .removeConstraint e.2)))) :
    a.ops = ((l.filter (fun e => e.1 = a.table)).map Prod.snd).map AlterOp.removeConstraint := by
  rw [mem_groupAlters h, List.filter_map, List.map_map, List.map_map]; rfl

theorem group_addOnly {l : List (Str × Constraint)} {a : Alter}
    (h : a ∈ groupAlters (l.map (fun e => (e.1, .addConstraint e.2)))) :
    a.ops = ((l.filter (fun e => e.1 = a.table)).map Prod.snd).map AlterOp.addConstraint := by
  rw [mem_groupAlters h, List.filter_map, List.map_map, List.map_map]; rfl

theorem cycles_ok {t : Dict Table} {from? : Option (Dict Table)} (ht : KeyedTables t) (hf : KeyedTables (from?.getD [])) :
    ∀ x ∈ cycles from? t, CycleOk (from?.getD []) t x := by
  intro x hx
  cases from? with
  | none => simp [cycles] at hx
  | some f => exact cycleOk hf ht hx

theorem cycles_nodup {t : Dict Table} {from? : Option (Dict Table)} (hf : KeyedTables (from?.getD [])) :
    ((cycles from? t).map (fun x => (x.table, x.name))).Nodup := by
  cases from? with
  | none => simp [cycles]
  | some f => exact fksToCycle_nodup hf

theorem cycleSources_nodup {t : Dict Table} {from? : Option (Dict Table)} (ht : KeyedTables t) (hf : KeyedTables (from?.getD [])) :
    ((cycleSources (cycles from? t)).map (fun e => (e.1, e.2.name))).Nodup := by
  have := cycles_nodup (t := t) hf
  rw [cycleSources, List.map_map]
  have he : (cycles from? t).map (fun x => (x.table, x.name)) =
      (cycles from? t).map ((fun e : Str × Constraint => (e.1, e.2.name)) ∘ fun x => (x.table, x.source)) := by
    apply List.map_congr_left
    intro x hx
    simp [(cycles_ok ht hf x hx).sname]
  rw [← he]
  exact this

theorem cycleTargets_nodup {t : Dict Table} {from? : Option (Dict Table)} (ht : KeyedTables t) (hf : KeyedTables (from?.getD [])) :
    ((cycleTargets (cycles from? t) []).map (fun e => (e.1, e.2.name))).Nodup := by
  have hn : ∀ x ∈ cycles from? t, ∀ k n, x.target = some (k, n) → n = k.name := by
    intro x hx k n hxt
    rcases (cycles_ok ht hf x hx).target with ⟨h1, _⟩ | ⟨d, k', _, h2, _⟩
    · rw [h1] at hxt; cases hxt
    · rw [h2] at hxt; cases hxt; rfl
  have := cycleAdds_nodup hn []
  rw [cycleAdds_eq, List.map_map] at this
  exact this

/-- a plan without the toggles -/
def middle [PyNum] (t : Dict Table) (from? : Option (Dict Table)) : List Op :=
  let f := from?.getD []
  let cs := cycles from? t
  (added f t).filterMap (fun n => (t.get? n).map .createTable) ++
  ((groupAlters (cycleDrops cs)).map .alter ++
  (((overlap f t).flatMap (nowOf (cycledNames cs) f t)).map .alter ++
  (((overlap f t).flatMap (laterOf (cycledNames cs) f t)).map .alter ++
  ((groupAlters (cycleAdds cs [])).map .alter ++
  (removed f t).map .removeTable))))

theorem process_middle [PyNum] {t : Dict Table} {from? : Option (Dict Table)} {b : Bool} {ops : List Op}
    (hf : KeyedTables (from?.getD [])) (h : process t from? b = .ok ops) :
    ops = (if b then [.disableChecks] else []) ++ middle t from? ++ (if b then [.enableChecks] else []) := by
  rw [(process_eq hf h).1]
  simp [middle]

/-- the facts about the sections of a plan -/
structure Sections [PyNum] (t : Dict Table) (from? : Option (Dict Table)) : Prop where
  creates : ∀ o ∈ (added (from?.getD []) t).filterMap (fun n => (t.get? n).map Op.createTable), o.isCreate = true
  temp : ∀ o ∈ (groupAlters (cycleDrops (cycles from? t))).map Op.alter,
    o.isAlter = true ∧ o.changesColumnsOrKeys = false ∧ o.altersInFk = false ∧ o.addsFk = []
  now : ∀ o ∈ ((overlap (from?.getD []) t).flatMap (nowOf (cycledNames (cycles from? t)) (from?.getD []) t)).map Op.alter,
    o.isAlter = true ∧ o.altersInFk = false ∧ o.addsFk = []
  later : ∀ o ∈ ((overlap (from?.getD []) t).flatMap (laterOf (cycledNames (cycles from? t)) (from?.getD []) t)).map Op.alter,
    o.isAlter = true ∧ o.changesColumnsOrKeys = false ∧ o.dropsFk = []
  again : ∀ o ∈ (groupAlters (cycleAdds (cycles from? t) [])).map Op.alter,
    o.isAlter = true ∧ o.changesColumnsOrKeys = false ∧ o.dropsFk = []
  drops : ∀ o ∈ (removed (from?.getD []) t).map Op.removeTable, o.isDrop = true

theorem sections [PyNum] {t : Dict Table} {from? : Option (Dict Table)} {b : Bool} {ops : List Op}
    (hf : KeyedTables (from?.getD [])) (h : process t from? b = .ok ops) : Sections t from? := by
  have hdiff := (process_eq hf h).2
  constructor
  · intro o ho
    obtain ⟨n, _, hn⟩ := List.mem_filterMap.mp ho
    cases hg : t.get? n with
    | none => simp [hg] at hn
    | some d => simp only [hg, Option.map_some, Option.some.injEq] at hn; rw [← hn]; rfl
  · intro o ho
    obtain ⟨a, ha, rfl⟩ := List.mem_map.mp ho
    rw [cycleDrops_eq] at ha
    exact ⟨rfl, alter_removeOnly (group_removeOnly ha)⟩
  · intro o ho
    obtain ⟨a, ha, rfl⟩ := List.mem_map.mp ho
    obtain ⟨n, hn, ha⟩ := List.mem_flatMap.mp ha
    obtain ⟨x, y, hx, hy, hd⟩ := hdiff n hn
    rw [nowOf_eq hd, List.mem_append] at ha
    rcases ha with ha | ha
    · unfold alterIf at ha
      split at ha
      · simp at ha
      · simp only [List.mem_singleton] at ha
        exact ⟨rfl, (alter_removeOnly (a := a) (by rw [ha])).2⟩
    · unfold alterIf at ha
      split at ha
      · simp at ha
      · simp only [List.mem_singleton] at ha
        have hk := (kitchen_clauses (kitchenSink_noFk hd)).2
        refine ⟨rfl, ?_, ?_⟩
        · rw [ha]; simp [Op.altersInFk, Op.alterClauses, hk]
        · rw [ha]; simp [Op.addsFk, hk]
  · intro o ho
    obtain ⟨a, ha, rfl⟩ := List.mem_map.mp ho
    obtain ⟨n, hn, ha⟩ := List.mem_flatMap.mp ha
    obtain ⟨x, y, hx, hy, hd⟩ := hdiff n hn
    rw [laterOf_eq hd] at ha
    unfold alterIf at ha
    split at ha
    · simp at ha
    · simp only [List.mem_singleton] at ha
      exact ⟨rfl, alter_addOnly (a := a) (by rw [ha])⟩
  · intro o ho
    obtain ⟨a, ha, rfl⟩ := List.mem_map.mp ho
    rw [cycleAdds_eq] at ha
    exact ⟨rfl, alter_addOnly (group_addOnly ha)⟩
  · intro o ho
    obtain ⟨n, _, rfl⟩ := List.mem_map.mp ho
    rfl

end Mygration
end Mygrations

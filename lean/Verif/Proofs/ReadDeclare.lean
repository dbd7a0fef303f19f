import Verif.Proofs.ReadProcess

/-! # `CREATE TABLE` with definitions in any order is turned into the table -/

namespace Mygrations

theorem bareName_eq (t c f : Str) : bareName t c f = (t ++ py"_" ++ c ++ py"_" ++ f ++ py"_fk").take 64 := rfl

theorem indexesOf_append (all : List Src) : ∀ (xs b ys : List Src), indexesOf all b (xs ++ ys) = indexesOf all b xs ++ indexesOf all (b ++ xs) ys
  | [], b, ys => by simp [indexesOf]
  | x :: xs, b, ys => by
    rw [List.cons_append, indexesOf, indexesOf, indexesOf_append all xs]
    simp [List.append_assoc]

theorem indexesOf_mem (all : List Src) : ∀ (xs b : List Src) (e : Str × Index), e ∈ indexesOf all b xs →
    ((∃ w, Src.index e.2 w ∈ xs) ∧ e.1 = e.2.name) ∨
    ∃ k w, Src.bare k w ∈ xs ∧ e = (k.column, { rawName := k.column, columns := [k.column], itype := py"index" }) ∧ all.any (Src.covers k.column) = false
  | [], _, _, h => by cases h
  | x :: xs, b, e, h => by
    rw [indexesOf, List.mem_append] at h
    rcases h with h | h
    · cases x with
      | column c _ => cases h
      | constraint k _ => cases h
      | index i w =>
        simp only [Src.keys, List.mem_singleton] at h
        subst h
        exact Or.inl ⟨⟨w, List.mem_cons_self⟩, rfl⟩
      | bare k w =>
        simp only [Src.keys] at h
        split at h
        · cases h
        · rename_i hn
          rw [List.mem_singleton] at h
          simp only [Bool.or_eq_true, not_or, Bool.not_eq_true] at hn
          exact Or.inr ⟨k, w, List.mem_cons_self, h, hn.1⟩
    · rcases indexesOf_mem all xs _ e h with ⟨⟨v, h1⟩, h2⟩ | ⟨k, w, h1, h2, h3⟩
      · exact Or.inl ⟨⟨v, List.mem_cons_of_mem _ h1⟩, h2⟩
      · exact Or.inr ⟨k, w, List.mem_cons_of_mem _ h1, h2, h3⟩

/-- a column of a foreign key without a name has a key, if the table declares none for it -/
theorem indexesOf_bare {all : List Src} : ∀ (xs b : List Src) (c : Str), all.any (Src.covers c) = false → b.any (Src.bareOn c) = false → xs.any (Src.bareOn c) = true →
    ∃ e ∈ indexesOf all b xs, e.1 = c ∧ e.2.columns = [c]
  | [], _, _, _, _, h => by cases h
  | x :: xs, b, c, hc, hb, h => by
    by_cases hx : x.bareOn c = true
    · cases x with
      | column _ _ => cases hx
      | index _ => cases hx
      | constraint _ _ => cases hx
      | bare k w =>
        have hk : k.column = c := by simpa [Src.bareOn] using hx
        refine ⟨(k.column, { rawName := k.column, columns := [k.column], itype := py"index" }), ?_, hk, by simp [hk]⟩
        rw [indexesOf, List.mem_append]
        left
        simp only [Src.keys, hk, hc, hb, Bool.or_false, Bool.false_eq_true, if_false, List.mem_singleton]
    · simp only [Bool.not_eq_true] at hx
      rw [List.any_cons, hx, Bool.false_or] at h
      obtain ⟨e, he, h1, h2⟩ := indexesOf_bare xs (b ++ [x]) c hc (by simp [hb, hx]) h
      exact ⟨e, by rw [indexesOf]; exact List.mem_append_right _ he, h1, h2⟩

theorem allRead_covers : ∀ {ds : List Src} {xs : List Definition} (c : Str), AllRead ds xs → xs.any (indexesColumn c) = ds.any (Src.covers c)
  | _, _, _, .nil => rfl
  | _, _, c, .cons (d := d) (x := x) hd h => by
    rw [List.any_cons, List.any_cons, allRead_covers c h]
    congr 1
    cases d with
    | column _ => obtain ⟨_, _, rfl, _⟩ := hd; rfl
    | index i => cases hd; rfl
    | constraint k => cases hd; rfl
    | bare k => obtain ⟨n, rfl⟩ := hd; rfl

/-- what is known about the table after some of its definitions -/
structure Partly (name : Str) (all before : List Src) (t : Table) : Prop where
  named : t.name = name
  columns : Paired (fun a b => b.1 = a.1 ∧ SameColumn a.2 b.2) (before.filterMap Src.column?) t.columns
  usual : ∀ e ∈ t.columns, e.2.parsingErrors = [] ∧ e.2.UsualLength
  noted : t.noted = before.filterMap Src.remarks?
  indexes : Paired (fun a b => b.1 = a.1 ∧ SameIndex a.2 b.2) (indexesOf all [] before) t.indexes
  constraints : Paired (fun a b => b.1 = a.1 ∧ b.2 = { a.2 with parsingErrors := [] }) (before.filterMap (Src.constraint? name)) t.constraints
  cache : t.indexedCache = none
  errors : t.globalErrors = []
  rows : t.rows = none
  tracking : t.tracking = false

theorem Paired.keysEq {A B : Type} {R : A → B → Prop} {a : List (Str × A)} {b : List (Str × B)} (h : Paired (fun x y => y.1 = x.1 ∧ R x.2 y.2) a b) :
    Dict.keys b = Dict.keys a := by
  induction h with
  | nil => rfl
  | cons h _ ih => simp [Dict.keys, h.1] at ih ⊢; exact ih

theorem Paired.indexColumns {a b : List (Str × Index)} (h : Paired (fun x y => y.1 = x.1 ∧ SameIndex x.2 y.2) a b) :
    b.map (fun e => e.2.columns) = a.map (fun e => e.2.columns) := by
  induction h with
  | nil => rfl
  | cons h _ ih => simp [h.2.columns, ih]

theorem Paired.snoc {A B : Type} {R : A → B → Prop} {as : List A} {bs : List B} {a : A} {b : B} (h : Paired R as bs) (hab : R a b) : Paired R (as ++ [a]) (bs ++ [b]) := by
  induction h with
  | nil => exact .cons hab .nil
  | cons h _ ih => exact .cons h ih

theorem plain_keyNe {i : Index} (hp : i.Plain) : i.name ≠ [] := by
  unfold Index.name
  split
  · assumption
  · obtain ⟨x, xs, hx⟩ := List.exists_cons_of_ne_nil hp.columns.1
    rw [hx]
    exact (hp.columns.2 x (by rw [hx]; simp)).1

theorem Partly.noted_same {name : Str} {all before : List Src} {t : Table} (h : Partly name all before t) {d : Src} (h2 : d.remarks? = none) :
    t.noted = (before ++ [d]).filterMap Src.remarks? := by
  rw [List.filterMap_append, ← h.noted]
  simp [h2]

theorem add_step {name : Str} {all before : List Src} {allx : List Definition} {t : Table} {d : Src} {x : Definition} (hall : AllRead all allx)
    (hsub : ∀ y ∈ before ++ [d], y ∈ all) (hplain : ∀ y ∈ all, y.Plain) (hx : d.Read x) (h : Partly name all before t)
    (hc : (Dict.keys ((before ++ [d]).filterMap Src.column?)).Nodup) (hi : (Dict.keys (indexesOf all [] (before ++ [d]))).Nodup)
    (hk : (Dict.keys ((before ++ [d]).filterMap (Src.constraint? name))).Nodup) :
    ∃ t', addDefinition allx t x = .ok t' ∧ Partly name all (before ++ [d]) t' ∧ t'.options = t.options := by
  have hidx : indexesOf all [] (before ++ [d]) = indexesOf all [] before ++ indexesOf all before [d] := by
    rw [indexesOf_append, List.nil_append]
  rw [hidx] at hi
  rw [List.filterMap_append] at hc hk
  have kc := h.columns.keysEq
  have ki := h.indexes.keysEq
  have kk := Paired.keysEq (R := fun (a b : Constraint) => b = { a with parsingErrors := [] }) h.constraints
  have hkeys : ∀ key ∈ Dict.keys t.indexes, key ≠ [] := by
    intro key hkey
    rw [ki] at hkey
    obtain ⟨e, he, rfl⟩ := List.mem_map.mp hkey
    rcases indexesOf_mem all _ _ e he with ⟨⟨v, h1⟩, h2⟩ | ⟨k, w, h1, h2, _⟩
    · rw [h2]
      have := hplain _ (hsub _ (List.mem_append_left _ h1))
      exact plain_keyNe this.1
    · rw [h2]
      have : ({ k with name := py"name" } : Constraint).Plain := (hplain _ (hsub _ (List.mem_append_left _ h1))).1
      exact this.column.1
  cases d with
  | column c sty =>
    obtain ⟨pc, c', rfl, hd, hs, he, hp, hnm, hw⟩ := hx
    have hnot : c.name ∉ Dict.keys t.columns := by
      rw [kc]
      intro hm
      rw [Dict.keys_append, List.nodup_append] at hc
      exact hc.2.2 _ hm c.name (by simp [Src.column?, Dict.keys]) rfl
    have h0 : Dict.has t.columns c.name = false := Dict.has_eq_false.mpr hnot
    refine ⟨{ t with columns := t.columns ++ [(c.name, c')] }, ?_, ?_, rfl⟩
    · simp only [addDefinition, hnm, h0, Bool.false_eq_true, if_false, hd, Table.addColumn, hs.name, hp]
    · refine ⟨h.named, ?_, ?_, ?_, ?_, ?_, h.cache, h.errors, h.rows, h.tracking⟩
      · rw [List.filterMap_append]
        exact h.columns.snoc ⟨rfl, hs⟩
      · intro e hm
        rcases List.mem_append.mp hm with hm | hm
        · exact h.usual e hm
        · rw [List.mem_singleton] at hm; subst hm; exact he
      · rw [List.filterMap_append, ← h.noted]
        simp [Table.noted, Src.remarks?, hw]
      · rw [hidx]; simpa [indexesOf, Src.keys] using h.indexes
      · rw [show List.filterMap (Src.constraint? name) (before ++ [_]) = _ from (List.filterMap_append ..).trans (List.append_nil _)]; exact h.constraints
  | index i w =>
    cases hx
    have hp : i.Plain := (hplain (Src.index i w) (hsub (Src.index i w) (by simp))).1
    have hnot : i.name ∉ Dict.keys t.indexes := by
      rw [ki]
      intro hm
      rw [Dict.keys_append, List.nodup_append] at hi
      exact hi.2.2 _ hm i.name (by simp [indexesOf, Src.keys, Dict.keys]) rfl
    have hraw : Dict.has t.indexes i.rawName = false := by
      rw [Dict.has_eq_false]
      intro hm
      have hne := hkeys _ hm
      have : i.name = i.rawName := by unfold Index.name; rw [if_pos hne]
      exact hnot (by rw [this]; exact hm)
    let j : Index := { rawName := i.rawName, columns := i.columns, itype := lower i.indexType }
    have hjn : j.name = i.name := rfl
    have h0 : Dict.has t.indexes j.name = false := Dict.has_eq_false.mpr hnot
    have hraw' : Dict.has t.indexes j.rawName = false := hraw
    refine ⟨{ t with primary := if j.isPrimary then some j else t.primary, indexes := t.indexes ++ [(i.name, j)] }, ?_, ?_, rfl⟩
    · show addDefinition allx t (.index j) = _
      simp only [addDefinition, hraw', Table.addIndex, h0, Bool.false_eq_true, if_false, h.cache]
      rw [hjn, Dict.set_of_not_mem _ hnot]
    · refine ⟨h.named, ?_, h.usual, (show _ = _ from h.noted_same rfl), ?_, ?_, h.cache, h.errors, h.rows, h.tracking⟩
      · rw [show List.filterMap Src.column? (before ++ [_]) = _ from (List.filterMap_append ..).trans (List.append_nil _)]; exact h.columns
      · rw [hidx]
        refine h.indexes.snoc ⟨rfl, rfl, rfl, ?_⟩
        show upper (lower i.indexType) = i.indexType
        rcases hp.type with ⟨h, _⟩ | ⟨h, _⟩ | ⟨h, _⟩ <;> rw [h] <;> decide
      · rw [show List.filterMap (Src.constraint? name) (before ++ [_]) = _ from (List.filterMap_append ..).trans (List.append_nil _)]; exact h.constraints
  | constraint c w =>
    cases hx
    have hnot : c.name ∉ Dict.keys t.constraints := by
      rw [kk]
      intro hm
      rw [Dict.keys_append, List.nodup_append] at hk
      exact hk.2.2 _ hm c.name (by simp [Src.constraint?, Dict.keys]) rfl
    have h0 : Dict.has t.constraints c.name = false := Dict.has_eq_false.mpr hnot
    refine ⟨{ t with constraints := t.constraints ++ [(c.name, { c with parsingErrors := [] })] }, ?_, ?_, rfl⟩
    · simp only [addDefinition, Bool.false_eq_true, if_false, h0, Table.addConstraint, Bool.false_and]
      rw [Dict.set_of_not_mem _ hnot]
    · refine ⟨h.named, ?_, h.usual, (show _ = _ from h.noted_same rfl), ?_, ?_, h.cache, h.errors, h.rows, h.tracking⟩
      · rw [show List.filterMap Src.column? (before ++ [_]) = _ from (List.filterMap_append ..).trans (List.append_nil _)]; exact h.columns
      · rw [hidx]; simpa [indexesOf, Src.keys] using h.indexes
      · rw [List.filterMap_append]; exact h.constraints.snoc ⟨rfl, rfl⟩
  | bare k w =>
    obtain ⟨n, rfl⟩ := hx
    let fk : Str := (name ++ py"_" ++ k.column ++ py"_" ++ k.ftable ++ py"_fk").take 64
    have hbn : bareName t.name k.column k.ftable = fk := by rw [bareName_eq, h.named]
    have hnot : fk ∉ Dict.keys t.constraints := by
      rw [kk]
      intro hm
      rw [Dict.keys_append, List.nodup_append] at hk
      exact hk.2.2 _ hm fk (by simp [Src.constraint?, Dict.keys, fk]) rfl
    have h0 : Dict.has t.constraints fk = false := Dict.has_eq_false.mpr hnot
    let k' : Constraint := { k with name := fk, parsingErrors := [] }
    let t1 : Table := { t with constraints := t.constraints ++ [(fk, k')] }
    have hcons : Paired (fun a b => b.1 = a.1 ∧ b.2 = { a.2 with parsingErrors := [] }) ((before ++ [Src.bare k w]).filterMap (Src.constraint? name)) t1.constraints := by
      rw [List.filterMap_append]
      exact h.constraints.snoc ⟨rfl, rfl⟩
    have hcols : Paired (fun a b => b.1 = a.1 ∧ SameColumn a.2 b.2) ((before ++ [Src.bare k w]).filterMap Src.column?) t.columns := by
      rw [show List.filterMap Src.column? (before ++ [_]) = _ from (List.filterMap_append ..).trans (List.append_nil _)]; exact h.columns
    have hany : t.indexes.values.any (fun i => i.columns.contains k.column) = (indexesOf all [] before).any (fun e => e.2.columns.contains k.column) := by
      have h1 := h.indexes.indexColumns
      have h2 : ∀ l : List (Str × Index), l.any (fun e => e.2.columns.contains k.column) = (l.map (fun e => e.2.columns)).any (fun c => c.contains k.column) := by
        intro l; simp [List.any_map, Function.comp_def]
      have h3 : t.indexes.values.any (fun i => i.columns.contains k.column) = List.any t.indexes (fun e => e.2.columns.contains k.column) := by
        simp [Dict.values, List.any_map, Function.comp_def]
      rw [h3, h2, h2, h1]
    have step : addDefinition allx t (.constraint { k with name := n, parsingErrors := [] } true) =
        if !(t.indexes.has k.column || t.indexes.values.any (fun i => i.columns.contains k.column)) && !all.any (Src.covers k.column) then
          t1.addIndex { rawName := k.column, columns := [k.column], itype := py"index" }
        else .ok t1 := by
      have h0' : Dict.has t.constraints (bareName t.name k.column k.ftable) = false := by rw [hbn]; exact h0
      simp only [addDefinition, if_true, h0', Bool.false_eq_true, if_false, Table.addConstraint, Bool.true_and]
      rw [hbn, Dict.set_of_not_mem _ hnot, allRead_covers k.column hall]
    by_cases hneed : (all.any (Src.covers k.column) || before.any (Src.bareOn k.column)) = true
    · have hnone : indexesOf all before [Src.bare k w] = [] := by simp only [indexesOf, Src.keys, hneed, if_true, List.append_nil]
      refine ⟨t1, ?_, ⟨h.named, hcols, h.usual, (show _ = _ from h.noted_same rfl), ?_, hcons, h.cache, h.errors, h.rows, h.tracking⟩, rfl⟩
      · rw [step]
        split
        · rename_i hh
          exfalso
          simp only [Bool.and_eq_true, Bool.not_eq_true', Bool.or_eq_false_iff] at hh
          obtain ⟨⟨_, h2⟩, h3⟩ := hh
          rw [h3, Bool.false_or] at hneed
          obtain ⟨e, he, _, hec⟩ := indexesOf_bare before [] k.column h3 rfl hneed
          rw [hany, List.any_eq_false] at h2
          exact h2 e he (by rw [hec]; simp)
        · rfl
      · rw [hidx, hnone, List.append_nil]; exact h.indexes
    · simp only [Bool.not_eq_true, Bool.or_eq_false_iff] at hneed
      have hone : indexesOf all before [Src.bare k w] = [(k.column, { rawName := k.column, columns := [k.column], itype := py"index" })] := by
        simp only [indexesOf, Src.keys, hneed.1, hneed.2, Bool.or_false, Bool.false_eq_true, if_false, List.append_nil]
      have hpk : ({ k with name := py"name" } : Constraint).Plain := (hplain _ (hsub (Src.bare k w) (by simp))).1
      have hin : (Index.name { rawName := k.column, columns := [k.column], itype := py"index" }) = k.column := by
        unfold Index.name; rw [if_pos hpk.column.1]
      have hnotI : k.column ∉ Dict.keys t.indexes := by
        rw [ki]
        intro hm
        rw [hone, Dict.keys_append, List.nodup_append] at hi
        exact hi.2.2 _ hm k.column (by simp [Dict.keys]) rfl
      have h0I : Dict.has t.indexes k.column = false := Dict.has_eq_false.mpr hnotI
      have hanyF : (indexesOf all [] before).any (fun e => e.2.columns.contains k.column) = false := by
        rw [List.any_eq_false]
        intro e he hc
        rcases indexesOf_mem all _ _ e he with ⟨⟨v, h1⟩, _⟩ | ⟨k2, w2, h1, h2, _⟩
        · have := hneed.1
          rw [List.any_eq_false] at this
          exact this _ (hsub _ (List.mem_append_left _ h1)) (by simpa [Src.covers] using hc)
        · have := hneed.2
          rw [List.any_eq_false] at this
          refine this _ h1 ?_
          rw [h2] at hc
          simp at hc
          simp [Src.bareOn, hc]
      refine ⟨{ t1 with indexes := t.indexes ++ [(k.column, { rawName := k.column, columns := [k.column], itype := py"index" })] }, ?_,
        ⟨h.named, hcols, h.usual, (show _ = _ from h.noted_same rfl), ?_, hcons, h.cache, h.errors, h.rows, h.tracking⟩, rfl⟩
      · rw [step, hany, hanyF, h0I, hneed.1]
        simp only [Bool.or_false, Bool.not_false, Bool.and_true, if_true, Table.addIndex, hin]
        have h0I' : Dict.has t1.indexes k.column = false := h0I
        have hprim : Index.isPrimary { rawName := k.column, columns := [k.column], itype := py"index" } = false := rfl
        simp only [h0I', Bool.false_eq_true, if_false, hprim]
        show (match t1.indexedCache with | none => _ | some s => _) = _
        have hcache : t1.indexedCache = none := h.cache
        simp only [hcache]
        have : Dict.set t1.indexes k.column { rawName := k.column, columns := [k.column], itype := py"index" } = t.indexes ++ [(k.column, { rawName := k.column, columns := [k.column], itype := py"index" })] :=
          Dict.set_of_not_mem _ hnotI
        rw [this]
      · rw [hidx, hone]
        exact h.indexes.snoc ⟨rfl, rfl, rfl, rfl⟩

theorem add_all {name : Str} {all : List Src} {allx : List Definition} (hall : AllRead all allx) (hplain : ∀ y ∈ all, y.Plain)
    (hc : (Dict.keys (all.filterMap Src.column?)).Nodup) (hi : (Dict.keys (indexesOf all [] all)).Nodup)
    (hk : (Dict.keys (all.filterMap (Src.constraint? name))).Nodup) :
    ∀ (ds : List Src) (xs : List Definition) (before : List Src) (t : Table), AllRead ds xs → before ++ ds = all → Partly name all before t →
    ∃ t', addDefinitions allx t xs = .ok t' ∧ Partly name all all t' ∧ t'.options = t.options
  | _, _, before, t, .nil, he, h => by
    rw [List.append_nil] at he
    subst he
    exact ⟨t, rfl, h, rfl⟩
  | _, _, before, t, .cons (d := d) (x := x) (ds := ds) (xs := xs) hd hr, he, h => by
    have he' : (before ++ [d]) ++ ds = all := by rw [← he]; simp
    have sub : ∀ {A : Type} (f : Src → Option (Str × A)), (Dict.keys (all.filterMap f)).Nodup → (Dict.keys ((before ++ [d]).filterMap f)).Nodup := by
      intro A f hn
      rw [← he', List.filterMap_append, Dict.keys_append] at hn
      exact (List.nodup_append.mp hn).1
    have subi : (Dict.keys (indexesOf all [] (before ++ [d]))).Nodup := by
      have h1 : indexesOf all [] all = indexesOf all [] (before ++ [d]) ++ indexesOf all (before ++ [d]) ds := by
        conv => lhs; rw [← he']
        rw [indexesOf_append, List.nil_append, he']
      rw [h1, Dict.keys_append] at hi
      exact (List.nodup_append.mp hi).1
    obtain ⟨t1, h1, h2, h3⟩ := add_step hall (by intro y hy; rw [← he']; exact List.mem_append_left _ hy) hplain hd h (sub _ hc) subi (sub _ hk)
    obtain ⟨t2, h4, h5, h6⟩ := add_all hall hplain hc hi hk ds xs (before ++ [d]) t1 hr he' h2
    refine ⟨t2, ?_, h5, h6.trans h3⟩
    simp only [addDefinitions, h1]
    exact h4

theorem declare_process {d : TableDecl} {xs : List Definition} (h : d.Ok) (hxs : AllRead d.defs xs) :
    ∃ t', createProcess (createVals d.name xs d.options) = .ok t' ∧ SameTable d.table t' ∧ t'.JustRead ∧ t'.noted = d.defs.filterMap Src.remarks? := by
  have hdefs : (topNodes (createVals d.name xs d.options) py"definitions").filterMap CreateNode.toDefinition = xs := by
    have : topNodes (createVals d.name xs d.options) py"definitions" = xs.map .definition := rfl
    rw [this, filterMap_definitions]
  have hopts : (topNodes (createVals d.name xs d.options) py"table_options").filterMap CreateNode.toOption = d.options := by
    unfold createVals
    split
    · rename_i ho; rw [ho]; rfl
    · exact filterMap_options d.options
  have hname : stripTicks (topText (createVals d.name xs d.options) py"name") = d.name := quoted_strip h.name
  have hsemi : Dict.has (createVals d.name xs d.options) py"closing_semicolon" = true := by
    unfold createVals
    split <;> rfl
  obtain ⟨t', h1, h2, h3⟩ := add_all (name := d.name) hxs h.plain h.columnNames h.indexNames h.constraintNames d.defs xs []
    { name := d.name, options := d.options.filter (fun o => o.name ≠ py"AUTO_INCREMENT") } hxs rfl
    ⟨rfl, .nil, (fun e he => by cases he), rfl, .nil, .nil, rfl, rfl, rfl, rfl⟩
  refine ⟨t', ?_, ⟨h2.named, h2.columns, h2.indexes, h2.constraints, h3⟩, ⟨h2.errors, h2.rows, h2.tracking, fun e he => (h2.usual e he).1, fun e he => (h2.usual e he).2⟩, h2.noted⟩
  unfold createProcess
  simp only [hdefs, hopts, hname, hsemi, if_true]
  rw [h1]

theorem add_upto {name : Str} {all : List Src} {allx : List Definition} (hall : AllRead all allx) (hplain : ∀ y ∈ all, y.Plain) {done : List Src}
    (hsub : ∀ y ∈ done, y ∈ all) (hc : (Dict.keys (done.filterMap Src.column?)).Nodup) (hi : (Dict.keys (indexesOf all [] done)).Nodup)
    (hk : (Dict.keys (done.filterMap (Src.constraint? name))).Nodup) :
    ∀ (ds : List Src) (xs : List Definition) (before : List Src) (t : Table), AllRead ds xs → before ++ ds = done → Partly name all before t →
    ∃ t', addDefinitions allx t xs = .ok t' ∧ Partly name all done t'
  | _, _, before, t, .nil, he, h => by
    rw [List.append_nil] at he
    subst he
    exact ⟨t, rfl, h⟩
  | _, _, before, t, .cons (d := d) (x := x) (ds := ds) (xs := xs) hd hr, he, h => by
    have he' : (before ++ [d]) ++ ds = done := by rw [← he]; simp
    have sub : ∀ {A : Type} (f : Src → Option (Str × A)), (Dict.keys (done.filterMap f)).Nodup → (Dict.keys ((before ++ [d]).filterMap f)).Nodup := by
      intro A f hn
      rw [← he', List.filterMap_append, Dict.keys_append] at hn
      exact (List.nodup_append.mp hn).1
    have subi : (Dict.keys (indexesOf all [] (before ++ [d]))).Nodup := by
      have h1 : indexesOf all [] done = indexesOf all [] (before ++ [d]) ++ indexesOf all (before ++ [d]) ds := by
        rw [← he', indexesOf_append, List.nil_append]
      rw [h1, Dict.keys_append] at hi
      exact (List.nodup_append.mp hi).1
    obtain ⟨t1, h1, h2, _⟩ := add_step hall (by intro y hy; exact hsub y (by rw [← he']; exact List.mem_append_left _ hy)) hplain hd h (sub _ hc) subi (sub _ hk)
    obtain ⟨t2, h4, h5⟩ := add_upto hall hplain hsub hc hi hk ds xs (before ++ [d]) t1 hr he' h2
    refine ⟨t2, ?_, h5⟩
    simp only [addDefinitions, h1]
    exact h4

theorem allRead_split {ds : List Src} : ∀ {before : List Src} {xs : List Definition}, AllRead (before ++ ds) xs →
    ∃ ys zs, xs = ys ++ zs ∧ AllRead before ys ∧ AllRead ds zs
  | [], xs, h => ⟨[], xs, rfl, .nil, h⟩
  | _ :: _, _, .cons hd hr => by
    obtain ⟨ys, zs, rfl, h1, h2⟩ := allRead_split hr
    exact ⟨_ :: ys, zs, rfl, .cons hd h1, h2⟩

theorem addDefinitions_append {all : List Definition} : ∀ {xs : List Definition} {t t' : Table} (ys : List Definition),
    addDefinitions all t xs = .ok t' → addDefinitions all t (xs ++ ys) = addDefinitions all t' ys
  | [], _, _, _, h => by cases h; rfl
  | x :: xs, t, t', ys, h => by
    simp only [addDefinitions, List.cons_append] at h ⊢
    split at h
    · cases h
    · exact addDefinitions_append ys h

end Mygrations

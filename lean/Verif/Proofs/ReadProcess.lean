import Verif.Proofs.ReadTop
import Verif.Spec.Dump

/-! # What was read of a `CREATE TABLE` is turned into the table -/

namespace Mygrations

/-- the definitions of a table, in the order in which they are written -/
def Table.srcs (t : Table) : List Src :=
  t.columns.values.map (Src.column · .usual) ++ (t.indexes.values.map (Src.index · py"KEY") ++ t.constraints.values.map (Src.constraint · .both))

/-- the warnings of the reader about the columns -/
def Table.noted (t : Table) : Dict (List Str) := t.columns.map (fun e => (e.1, e.2.parsingWarnings))

theorem allRead_append : ∀ {a b : List Src} {xs : List Definition}, AllRead (a ++ b) xs → ∃ ys zs, xs = ys ++ zs ∧ AllRead a ys ∧ AllRead b zs
  | [], b, xs, h => ⟨[], xs, rfl, .nil, h⟩
  | d :: a, b, _, .cons hd h => by
    obtain ⟨ys, zs, rfl, h1, h2⟩ := allRead_append h
    exact ⟨_ :: ys, zs, rfl, .cons hd h1, h2⟩

theorem add_columns (all : List Definition) : ∀ (es : List (Str × Column)) (xs ys : List Definition) (t : Table),
    AllRead ((es.map Prod.snd).map (Src.column · .usual)) xs → (∀ e ∈ es, e.2.name = e.1) → (Dict.keys t.columns ++ es.map Prod.fst).Nodup →
    ∃ new : Dict Column, Paired (fun a b => b.1 = a.1 ∧ SameColumn a.2 b.2) es new ∧ (∀ e ∈ new, e.2.parsingErrors = [] ∧ e.2.UsualLength) ∧
      new.map (fun e => (e.1, e.2.parsingWarnings)) = es.map (fun e => (e.1, e.2.remarks .usual)) ∧
      addDefinitions all t (xs ++ ys) = addDefinitions all { t with columns := t.columns ++ new } ys
  | [], _, ys, t, .nil, _, _ => ⟨[], .nil, by simp, rfl, by simp⟩
  | (k, c) :: es, _, ys, t, .cons (x := x) (xs := xs) hx h, hn, hk => by
    obtain ⟨pc, c', rfl, hd, hs, he, hp, hnm, hw⟩ := hx
    have hname : c.name = k := hn (k, c) List.mem_cons_self
    have hc' : c'.name = k := hs.name.trans hname
    have hnot : k ∉ Dict.keys t.columns := by
      intro hm
      rw [List.nodup_append] at hk
      exact hk.2.2 k hm k (by simp) rfl
    obtain ⟨new, h1, h2, h4, h3⟩ := add_columns all es xs ys { t with columns := t.columns ++ [(k, c')] } h (fun e he => hn e (List.mem_cons_of_mem _ he)) (by
      simpa [Dict.keys] using hk)
    refine ⟨(k, c') :: new, .cons ⟨rfl, hs⟩ h1, ?_, by rw [List.map_cons, List.map_cons, h4, hw], ?_⟩
    · intro e hm
      rcases List.mem_cons.mp hm with rfl | hm
      · exact he
      · exact h2 e hm
    · have hstep : addDefinition all t (.column pc) = .ok { t with columns := t.columns ++ [(k, c')] } := by
        have h0 : Dict.has t.columns k = false := Dict.has_eq_false.mpr hnot
        simp only [addDefinition, hnm, hname, h0, Bool.false_eq_true, if_false, hd, Table.addColumn, hc', hp]
      show addDefinitions all t (.column pc :: (xs ++ ys)) = _
      simp only [addDefinitions, hstep]
      rw [h3]
      simp

theorem sameIndex_name {i : Index} {ty : Str} : Index.name { rawName := i.rawName, columns := i.columns, itype := ty } = i.name := rfl

theorem add_indexes (all : List Definition) : ∀ (es : List (Str × Index)) (xs ys : List Definition) (t : Table),
    AllRead ((es.map Prod.snd).map (Src.index · py"KEY")) xs → (∀ e ∈ es, e.2.name = e.1) → (∀ e ∈ es, e.2.Plain) → (∀ k ∈ Dict.keys t.indexes, k ≠ []) → t.indexedCache = none →
    (Dict.keys t.indexes ++ es.map Prod.fst).Nodup →
    ∃ (new : Dict Index) (p : Option Index), Paired (fun a b => b.1 = a.1 ∧ SameIndex a.2 b.2) es new ∧
      addDefinitions all t (xs ++ ys) = addDefinitions all { t with indexes := t.indexes ++ new, primary := p } ys
  | [], _, ys, t, .nil, _, _, _, _, _ => ⟨[], t.primary, .nil, by simp⟩
  | (k, i) :: es, _, ys, t, .cons (x := x) (xs := xs) hx h, hn, hpl, hz, hcache, hk => by
    cases hx
    have hname : i.name = k := hn (k, i) List.mem_cons_self
    have hp : i.Plain := hpl (k, i) List.mem_cons_self
    have hnot : k ∉ Dict.keys t.indexes := by
      intro hm
      rw [List.nodup_append] at hk
      exact hk.2.2 k hm k (by simp) rfl
    have hkne : k ≠ [] := by
      rw [← hname]
      unfold Index.name
      split
      · assumption
      · obtain ⟨x, xs, hx⟩ := List.exists_cons_of_ne_nil hp.columns.1
        rw [hx]
        exact (hp.columns.2 x (by rw [hx]; simp)).1
    have hraw : Dict.has t.indexes i.rawName = false := by
      rw [Dict.has_eq_false]
      intro hm
      rcases hp.type with ⟨_, h⟩ | ⟨_, h | h⟩ | ⟨_, h⟩
      · exact hz _ hm h
      · exact hz _ hm h
      · have : i.name = i.rawName := by unfold Index.name; rw [if_pos h.1]
        exact hnot (by rw [← hname, this]; exact hm)
      · have : i.name = i.rawName := by unfold Index.name; rw [if_pos h.1]
        exact hnot (by rw [← hname, this]; exact hm)
    let j : Index := { rawName := i.rawName, columns := i.columns, itype := lower i.indexType }
    have hjn : j.name = k := hname
    let t' : Table := { t with primary := if j.isPrimary then some j else t.primary, indexes := t.indexes ++ [(k, j)] }
    obtain ⟨new, p, h1, h3⟩ := add_indexes all es xs ys t' h (fun e he => hn e (List.mem_cons_of_mem _ he)) (fun e he => hpl e (List.mem_cons_of_mem _ he))
      (by
        intro k' hk'
        simp only [t', Dict.keys_append, List.mem_append] at hk'
        rcases hk' with hk' | hk'
        · exact hz k' hk'
        · simp [Dict.keys] at hk'; rw [hk']; exact hkne)
      hcache (by simpa [Dict.keys, t'] using hk)
    refine ⟨(k, j) :: new, p, .cons ⟨rfl, rfl, rfl, ?_⟩ h1, ?_⟩
    · show upper (lower i.indexType) = i.indexType
      rcases hp.type with ⟨h, _⟩ | ⟨h, _⟩ | ⟨h, _⟩ <;> rw [h] <;> decide
    · have hstep : addDefinition all t (.index j) = .ok t' := by
        have h0 : Dict.has t.indexes k = false := Dict.has_eq_false.mpr hnot
        have hraw' : Dict.has t.indexes j.rawName = false := hraw
        simp only [addDefinition, hraw', Table.addIndex, hjn, h0, Bool.false_eq_true, if_false, hcache]
        rw [Dict.set_of_not_mem _ hnot]
        simp only [t', hcache]
      show addDefinitions all t (.index j :: (xs ++ ys)) = _
      simp only [addDefinitions, hstep]
      rw [h3]
      simp [t']

theorem add_constraints (all : List Definition) : ∀ (es : List (Str × Constraint)) (xs ys : List Definition) (t : Table),
    AllRead ((es.map Prod.snd).map (Src.constraint · .both)) xs → (∀ e ∈ es, e.2.name = e.1) → (Dict.keys t.constraints ++ es.map Prod.fst).Nodup →
    ∃ new : Dict Constraint, Paired (fun a b => b.1 = a.1 ∧ b.2 = { a.2 with parsingErrors := [] }) es new ∧
      addDefinitions all t (xs ++ ys) = addDefinitions all { t with constraints := t.constraints ++ new } ys
  | [], _, ys, t, .nil, _, _ => ⟨[], .nil, by simp⟩
  | (k, c) :: es, _, ys, t, .cons (x := x) (xs := xs) hx h, hn, hk => by
    cases hx
    have hname : c.name = k := hn (k, c) List.mem_cons_self
    have hnot : k ∉ Dict.keys t.constraints := by
      intro hm
      rw [List.nodup_append] at hk
      exact hk.2.2 k hm k (by simp) rfl
    let c' : Constraint := { c with parsingErrors := [] }
    obtain ⟨new, h1, h3⟩ := add_constraints all es xs ys { t with constraints := t.constraints ++ [(k, c')] } h (fun e he => hn e (List.mem_cons_of_mem _ he)) (by
      simpa [Dict.keys] using hk)
    refine ⟨(k, c') :: new, .cons ⟨rfl, rfl⟩ h1, ?_⟩
    have hc' : c'.name = k := hname
    have hstep : addDefinition all t (.constraint c' false) = .ok { t with constraints := t.constraints ++ [(k, c')] } := by
      have h0 : Dict.has t.constraints k = false := Dict.has_eq_false.mpr hnot
      simp only [addDefinition, Bool.false_eq_true, if_false, hc', h0, Table.addConstraint, Bool.false_and]
      rw [Dict.set_of_not_mem _ hnot]
    show addDefinitions all t (.constraint c' false :: (xs ++ ys)) = _
    simp only [addDefinitions, hstep]
    rw [h3]
    simp

theorem filterMap_definitions (xs : List Definition) : (xs.map CreateNode.definition).filterMap CreateNode.toDefinition = xs := by
  induction xs with
  | nil => rfl
  | cons x xs ih => simp [CreateNode.toDefinition, ih]

theorem filterMap_options (os : List TableOpt) : (os.map CreateNode.option).filterMap CreateNode.toOption = os := by
  induction os with
  | nil => rfl
  | cons x xs ih => simp [CreateNode.toOption, ih]

theorem quoted_strip {n : Str} (hn : Ident n) : stripTicks (quoted '`' n) = n := by
  have := stripTicks_ident hn
  simpa [quoted] using this

theorem create_process {t : Table} {xs : List Definition} (h : t.Readable) (hxs : AllRead t.srcs xs) :
    ∃ t', createProcess (createVals t.name xs t.options) = .ok t' ∧ SameTable t t' ∧ t'.JustRead ∧
      t'.noted = t.columns.map (fun e => (e.1, e.2.remarks .usual)) := by
  obtain ⟨xc, xr, rfl, h1, hr⟩ := allRead_append hxs
  obtain ⟨xi, xk, rfl, h2, h3⟩ := allRead_append hr
  have hdefs : (topNodes (createVals t.name (xc ++ (xi ++ xk)) t.options) py"definitions").filterMap CreateNode.toDefinition = xc ++ (xi ++ xk) := by
    have : topNodes (createVals t.name (xc ++ (xi ++ xk)) t.options) py"definitions" = (xc ++ (xi ++ xk)).map .definition := rfl
    rw [this, filterMap_definitions]
  have hopts : (topNodes (createVals t.name (xc ++ (xi ++ xk)) t.options) py"table_options").filterMap CreateNode.toOption = t.options := by
    unfold createVals
    split
    · rename_i ho; rw [ho]; rfl
    · have := filterMap_options t.options
      exact this
  have hname : stripTicks (topText (createVals t.name (xc ++ (xi ++ xk)) t.options) py"name") = t.name := quoted_strip h.name
  have hsemi : Dict.has (createVals t.name (xc ++ (xi ++ xk)) t.options) py"closing_semicolon" = true := by
    unfold createVals
    split <;> rfl
  obtain ⟨cols, c1, c2, c4, c3⟩ := add_columns (xc ++ (xi ++ xk)) t.columns xc (xi ++ xk)
    { name := t.name, options := t.options.filter (fun o => o.name ≠ py"AUTO_INCREMENT") } h1
    (fun e he => h.keyed.colName e.1 e.2 he) (by simpa [Dict.keys] using h.keyed.colNodup)
  obtain ⟨idxs, p, i1, i3⟩ := add_indexes (xc ++ (xi ++ xk)) t.indexes xi xk
    { name := t.name, options := t.options.filter (fun o => o.name ≠ py"AUTO_INCREMENT"), columns := cols } h2
    (fun e he => h.keyed.idxName e.1 e.2 he) (fun e he => h.indexes e.2 (Dict.mem_values.mpr ⟨e.1, he⟩)) (by simp [Dict.keys]) rfl
    (by simpa [Dict.keys] using h.keyed.idxNodup)
  obtain ⟨fks, k1, k3⟩ := add_constraints (xc ++ (xi ++ xk)) t.constraints xk []
    { name := t.name, options := t.options.filter (fun o => o.name ≠ py"AUTO_INCREMENT"), columns := cols, indexes := idxs, primary := p } h3
    (fun e he => h.keyed.fkName e.1 e.2 he) (by simpa [Dict.keys] using h.keyed.fkNodup)
  refine ⟨{ name := t.name, options := t.options.filter (fun o => o.name ≠ py"AUTO_INCREMENT"), columns := cols, indexes := idxs, primary := p, constraints := fks },
    ?_, ⟨rfl, c1, i1, k1, rfl⟩, ⟨rfl, rfl, rfl, fun e he => (c2 e he).1, fun e he => (c2 e he).2⟩, c4⟩
  unfold createProcess
  simp only [hdefs, hopts, hname, hsemi, if_true]
  simp only [List.nil_append, List.append_nil, addDefinitions] at c3 i3 k3
  rw [c3, i3, k3]

end Mygrations

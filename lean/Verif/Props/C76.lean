import Verif.Props.C69
import Verif.Props.C73
import Verif.Props.C27

/-! # C76: schema files which pass the check can be installed on an empty server -/

namespace Mygrations
open Sql MySQL Mygration Table Command Database

/-! ## Specification -/

/-- The definitions of the table are written in an ordinary way: there are no backticks in names, the columns are ordinary, and only the primary
key is called `PRIMARY`. -/
structure Table.Worded (t : Table) : Prop where
  plain : t.Plain
  columns : ∀ c ∈ t.columns.values, c.Tidy
  primary : ∀ i ∈ t.indexes.values, i.isPrimary = false → i.name ≠ py"PRIMARY"

/-- What the check of a table with a date column does not see (its `AttributeError` is swallowed, and so is what was found before): that there is at
most one primary key, and that keys and foreign keys are complete and on columns which exist. -/
structure Table.Right (t : Table) : Prop where
  onePrimary : ∀ i j, i ∈ t.indexes.values → j ∈ t.indexes.values → i.isPrimary → j.isPrimary → i = j
  keys : ∀ i ∈ t.indexes.values, i.columns ≠ [] ∧ ∀ c ∈ i.columns, c ∈ t.columns.keys
  actions : ∀ k ∈ t.constraints.values, k.name ≠ [] ∧ GoodAction k.onDelete

/-- The check of some column of the table raises an exception. -/
def Table.Raises [PyNum] (t : Table) : Prop := ∃ c ∈ t.columns.values, c.schemaCheck.2 ≠ none

/-! ## Proofs -/

/-- nobody has asked yet which columns have keys -/
def Uncached (t : Table) : Prop := t.indexedCache = none

theorem Uncached.addColumn {t t' : Table} {c : Column} (h : Uncached t) (hc : t.addColumn c .last = .ok t') : Uncached t' := by
  unfold Table.addColumn at hc
  split at hc
  · cases hc
  · cases hc; exact h

theorem Uncached.addIndex {t t' : Table} {i : Index} (h : Uncached t) (hi : t.addIndex i = .ok t') : Uncached t' := by
  unfold Table.addIndex at hi
  split at hi
  · cases hi
  · unfold Uncached at h
    simp only [h] at hi
    cases hi
    exact rfl

theorem Uncached.addConstraint {t t' : Table} {k : Constraint} (h : Uncached t) (hk : t.addConstraint k = .ok t') : Uncached t' := by
  unfold Table.addConstraint at hk
  split at hk
  · cases hk
  · cases hk; exact h

theorem Uncached.addDefinition {all : List Definition} {t t' : Table} {d : Definition} (h : Uncached t) (hd : addDefinition all t d = .ok t') : Uncached t' := by
  cases d with
  | column c =>
    unfold Mygrations.addDefinition at hd
    simp only at hd
    split at hd
    · cases hd
      exact h
    · split at hd
      · cases hd
      · split at hd
        · cases hd
        · rename_i col _ _ t1 h1
          have k1 := h.addColumn h1
          split at hd
          · exact k1.addIndex hd
          · cases hd
            exact k1
  | index i =>
    unfold Mygrations.addDefinition at hd
    simp only at hd
    split at hd
    · cases hd
      exact h
    · exact h.addIndex hd
  | constraint k bare =>
    unfold Mygrations.addDefinition at hd
    simp only at hd
    obtain ⟨k', hk'⟩ : ∃ k', k' = (if bare then { k with name := bareName t.name k.column k.ftable } else k) := ⟨_, rfl⟩
    simp only [← hk'] at hd
    split at hd
    · cases hd
      exact h
    · split at hd
      · cases hd
      · rename_i t1 h1
        have k1 := h.addConstraint h1
        split at hd
        · exact k1.addIndex hd
        · cases hd
          exact k1

theorem Uncached.addDefinitions {all : List Definition} : ∀ {ds : List Definition} {t t' : Table}, Uncached t → addDefinitions all t ds = .ok t' → Uncached t'
  | [], t, t', h, hd => by cases hd; exact h
  | d :: ds, t, t', h, hd => by
    unfold Mygrations.addDefinitions at hd
    split at hd
    · cases hd
    · rename_i t1 h1
      exact Uncached.addDefinitions (h.addDefinition h1) hd

theorem parseCreate_uncached {s rest : Str} {t : Table} (h : parseCreate s = .ok (t, rest)) : Uncached t := by
  unfold parseCreate at h
  split at h
  · cases h
  · split at h
    · split at h
      · cases h
      · rename_i t1 h1
        cases h
        unfold createProcess at h1
        simp only at h1
        split at h1
        · cases h1
        · rename_i t2 h2
          have k2 : Uncached t2 := Uncached.addDefinitions (t := { name := _, options := _ }) rfl h2
          split at h1
          · cases h1; exact k2
          · cases h1; exact k2
    · cases h
      exact rfl

theorem readLoop_uncached : ∀ (n : Nat) (st : ReaderState) (s : Str), (∀ k t, (k, t) ∈ st.tables → Uncached t) →
    ∀ k t, (k, t) ∈ (readLoop n st s).1.tables → Uncached t
  | n, st, [], h => by rw [readLoop_nil]; exact h
  | 0, st, c :: cs, h => by rw [readLoop_zero st (by simp)]; exact h
  | n + 1, st, c :: cs, h => by
    rw [readLoop_succ n st (by simp)]
    unfold readStep
    split
    · exact h
    · split
      · exact readLoop_uncached n _ _ h
      · split
        · split
          · exact h
          · rename_i t rest ht
            refine readLoop_uncached n _ _ ?_
            intro k x hk
            rcases Dict.mem_set hk with ⟨_, rfl⟩ | hk
            · exact parseCreate_uncached ht
            · exact h k x hk
        · split
          · split
            · exact h
            · exact readLoop_uncached n _ _ h
          · exact h

section
variable [PyNum]

theorem new_uncached {sources : List Str} {d : Database} (h : FileDatabase.new sources = .ok d) (hq : ∀ f ∈ sources, (readSource f).2 = none)
    (hn : (sources.flatMap (fun f => (readSource f).1.tables.keys)).Nodup) : ∀ t ∈ d.tables.values, Uncached t := by
  intro t ht
  obtain ⟨k, hk⟩ := Dict.mem_values.mp ht
  have h1 := congrArg Database.tables (new_shape h hq hn).1
  have h2 : (k, t.outline) ∈ d.outline.tables := List.mem_map.mpr ⟨_, hk, rfl⟩
  rw [h1] at h2
  simp only [List.mem_map, Prod.mk.injEq] at h2
  obtain ⟨⟨k', t'⟩, he, _, h3⟩ := h2
  obtain ⟨f, _, hf⟩ := List.mem_flatMap.mp he
  have h4 : Uncached t' := readLoop_uncached _ _ _ (fun _ _ h => by cases h) k' t' hf
  have h5 : t'.outline.indexedCache = t.outline.indexedCache := congrArg Table.indexedCache h3
  exact h5.symm.trans h4

/-- the files have no errors: in terms of what they are -/
theorem files_flawless {sources : List Str} {d : Database} (h : FileDatabase.new sources = .ok d) (hq : ∀ f ∈ sources, (readSource f).2 = none)
    (hn : (sources.flatMap (fun f => (readSource f).1.tables.keys)).Nodup) (he : d.errors.1 = .ok []) : Flawless d.tables (Database.allRows d.rows) := by
  obtain ⟨_, a1, a2, _, a4, a5, a6, _⟩ := new_shape h hq hn
  refine ((errors_flawless a4 a5 a6 (by rw [a1]; exact hn) (fun x hx => ?_)).mp he).2
  rw [a2] at hx
  obtain ⟨f, _, hf⟩ := List.mem_flatMap.mp (mem_allRows_filed.mp hx).1
  exact (mem_insertsIn hf).1

/-- what the check of a table finds -/
theorem schema_clean {t : Table} (h : askTable Found.schema [] [] t = .ok []) (hq : ∀ c ∈ t.columns.values, c.schemaCheck.2 = none) :
    t.name ≠ [] ∧ t.columns ≠ [] ∧ (∀ c ∈ t.columns.values, c.schemaCheck.1 = []) ∧ (∀ i ∈ t.indexes.values, i.schemaErrors = []) ∧
    (∀ k ∈ t.constraints.values, k.schemaErrors = []) ∧ t.structureErrors = [] := by
  unfold askTable findAll at h
  rw [columnErrors_quiet hq] at h
  simp only [List.contains_nil, Bool.false_eq_true, if_false, Except.ok.injEq, List.append_eq_nil_iff, List.map_eq_nil_iff, List.flatMap_eq_nil_iff] at h
  obtain ⟨⟨⟨⟨⟨h1, h2⟩, h3⟩, h4⟩, h5⟩, h6⟩ := h
  refine ⟨fun e => ?_, fun e => ?_, h3, h4, h5, h6⟩
  · rw [if_pos e] at h1; cases h1
  · rw [if_pos e] at h2; cases h2

omit [PyNum] in
theorem structure_clean {t : Table} (h : t.structureErrors = []) :
    (t.indexes.values.filter Index.isPrimary).length ≤ 1 ∧ ∀ i ∈ t.indexes.values, ∀ c ∈ i.columns, c ∈ t.columns.keys := by
  unfold structureErrors at h
  simp only [List.append_eq_nil_iff, List.flatMap_eq_nil_iff, List.map_eq_nil_iff, List.filter_eq_nil_iff] at h
  obtain ⟨⟨h1, _⟩, h2⟩ := h
  refine ⟨?_, fun i hi c hc => ?_⟩
  · by_cases hl : (t.indexes.values.filter Index.isPrimary).length > 1
    · rw [if_pos hl] at h1; cases h1
    · omega
  · have := h2 i hi c hc
    simp only [Bool.not_eq_true', Bool.not_eq_false] at this
    exact Dict.has_iff.mp this

theorem two_of_filter {α : Type} {p : α → Bool} {a b : α} : ∀ {l : List α}, (l.filter p).length ≤ 1 → a ∈ l → b ∈ l → p a = true → p b = true → a = b := by
  intro l hl ha hb pa pb
  have h1 : a ∈ l.filter p := List.mem_filter.mpr ⟨ha, pa⟩
  have h2 : b ∈ l.filter p := List.mem_filter.mpr ⟨hb, pb⟩
  match hf : l.filter p, hl with
  | [], _ => rw [hf] at h1; cases h1
  | [x], _ =>
    rw [hf] at h1 h2
    rw [List.mem_singleton.mp h1, List.mem_singleton.mp h2]
  | x :: y :: r, hl => simp at hl

/-- two tables have no name of a foreign key in common, if no name is there twice -/
theorem apart {f : Table → List Str} : ∀ {l : Dict Table} {n n' : Str} {t t' : Table}, (n, t) ∈ l → (n', t') ∈ l → n ≠ n' → (l.values.flatMap f).Nodup →
    ∀ {x : Str}, x ∈ f t → x ∈ f t' → False
  | [], _, _, _, _, h, _, _, _, _, _, _ => by cases h
  | e :: l, n, n', t, t', h, h', hne, hn, x, hx, hx' => by
    have hn' : (f e.2 ++ (Dict.values l).flatMap f).Nodup := hn
    rw [List.nodup_append] at hn'
    obtain ⟨_, h2, h3⟩ := hn'
    rcases List.mem_cons.mp h with rfl | hm
    · rcases List.mem_cons.mp h' with e' | hm'
      · cases e'; exact hne rfl
      · exact h3 x hx x (List.mem_flatMap.mpr ⟨t', Dict.mem_values.mpr ⟨n', hm'⟩, hx'⟩) rfl
    · rcases List.mem_cons.mp h' with e' | hm'
      · cases e'
        exact h3 x hx' x (List.mem_flatMap.mpr ⟨t, Dict.mem_values.mpr ⟨n, hm⟩, hx⟩) rfl
      · exact apart hm hm' hne h2 hx hx'

/-- a table without errors is right, if its check works -/
theorem clean_right {t : Table} (h : askTable Found.schema [] [] t = .ok []) (hq : t.Raises → t.Right) : t.columns ≠ [] ∧ t.Right := by
  by_cases hr : t.Raises
  · obtain ⟨c, hc, _⟩ := hr
    exact ⟨fun e => (by rw [e] at hc; cases hc), hq ⟨c, hc, by assumption⟩⟩
  · have quiet : ∀ c ∈ t.columns.values, c.schemaCheck.2 = none := fun c hc => by
      cases he : c.schemaCheck.2 with
      | none => rfl
      | some e => exact absurd ⟨c, hc, by rw [he]; simp⟩ hr
    obtain ⟨_, h1, _, h2, h3, h4⟩ := schema_clean h quiet
    obtain ⟨h5, h6⟩ := structure_clean h4
    refine ⟨h1, fun i j hi hj pi pj => two_of_filter h5 hi hj pi pj, fun i hi => ⟨fun e => ?_, h6 i hi⟩, fun k hk => ?_⟩
    · have := h2 i hi
      unfold Index.schemaErrors at this
      rw [if_pos e] at this
      simp at this
    · have := h3 k hk
      unfold Constraint.schemaErrors at this
      simp only [List.append_eq_nil_iff] at this
      obtain ⟨⟨⟨⟨⟨⟨h1, h2⟩, h3⟩, h4⟩, _⟩, _⟩, _⟩ := this
      refine ⟨fun e => absurd (if_pos e ▸ h4) (by simp), ?_⟩
      by_cases hc : Constraint.allowedActions.contains k.onDelete = true
      · have := List.contains_iff_mem.mp hc
        unfold Constraint.allowedActions at this
        unfold GoodAction
        simp only [List.mem_cons, List.not_mem_nil, or_false] at this ⊢
        rcases this with h | h | h | h | h <;> simp [h]
      · rw [if_neg hc] at h2; cases h2

/-! ## The properties -/

/-- **C76, what the check accepts, MySQL accepts.**  The files are read without exceptions, no table is declared twice, nothing is reported, tables
whose check raises are right, and the definitions are written in an ordinary way: then every table is one which MySQL accepts and all foreign keys fit. -/
theorem C76_accepted_partial (sources : List Str) (files : Database) (hf : FileDatabase.new sources = .ok files)
    (hr : ∀ f ∈ sources, (readSource f).2 = none) (hn : (sources.flatMap (fun f => Dict.keys (readSource f).1.tables)).Nodup)
    (hq : ∀ t ∈ files.tables.values, t.Raises → t.Right) (he : files.errors.1 = .ok []) (hw : ∀ t ∈ files.tables.values, t.Worded) : Accepted true files.tables := by
  have hk := (FileDatabase.new_kept hf).toKeyedTables
  have fl := files_flawless hf hr hn he
  have hv : ∀ n t, files.tables.get? n = some t → t ∈ files.tables.values := fun n t h => Dict.mem_values.mpr ⟨n, Dict.mem_of_get? h⟩
  have right := fun t (ht : t ∈ files.tables.values) => clean_right (fl.schema t ht) (hq t ht)
  have hidx : ∀ t ∈ files.tables.values, t.IndexesHaveColumns := fun t ht i hi => ((right t ht).2.keys i hi).1
  have h27 : ∀ n t, files.tables.get? n = some t → t.Keyed ∧ t.IndexesHaveColumns ∧ t.CacheRight := fun n t h =>
    ⟨hk.keyed n t (Dict.mem_of_get? h), hidx t (hv n t h), fresh_right (new_uncached hf hr hn t (hv n t h))⟩
  have hfk : ∀ n t, files.tables.get? n = some t → ∀ k ∈ t.constraints.values, FkValid files.tables t k := by
    intro n t h k hkt
    obtain ⟨r, h1, h2⟩ := C27 files.tables h27 t (h27 n t h) k
    have h3 := fl.fks (t, k) (List.mem_flatMap.mpr ⟨t, hv n t h, List.mem_map.mpr ⟨k, hkt, rfl⟩⟩)
    rw [h1] at h3
    cases h3
    exact h2.mp rfl
  refine ⟨hk, ?_, ?_, ?_, ?_⟩
  · intro n t h
    obtain ⟨c1, c2⟩ := right t (hv n t h)
    refine ⟨⟨hk.keyed n t (Dict.mem_of_get? h), c1, c2.onePrimary, (hw t (hv n t h)).primary, c2.keys, fun k hkt => ?_⟩, (hw t (hv n t h)).plain⟩
    obtain ⟨_, _, col, _, _, h1, _⟩ := hfk n t h k hkt
    exact Dict.mem_keys_of_get? h1
  · intro n t h k c hc
    exact (hw t (hv n t h)).columns c (Dict.mem_values.mpr ⟨k, Dict.mem_of_get? hc⟩)
  · intro n t h k hkt
    exact (right t (hv n t h)).2.actions k hkt
  · have hleads : ∀ n t c, files.tables.get? n = some t → t.Indexed c → (ofTable t).leads c = true := by
      intro n t c h hi
      obtain ⟨_, i, hi, hc⟩ := hi
      unfold STable.leads
      rw [List.any_eq_true]
      obtain ⟨m, hm⟩ := Dict.mem_values.mp hi
      exact ⟨(keyName i, i), by rw [ofTable_keys]; exact List.mem_map.mpr ⟨_, hm, rfl⟩, by simpa using hc⟩
    unfold SDb.consistent
    simp only [Bool.and_eq_true, List.all_eq_true, Bool.or_eq_true, decide_eq_true_eq]
    refine ⟨fun e hE k hkE => ?_, fun e hE e' hE' => ?_⟩
    · obtain ⟨⟨n, t⟩, hm, rfl⟩ := List.mem_map.mp hE
      have hg := Dict.get?_of_mem hk.nodup hm
      have hky := hk.keyed n t hm
      simp only [ofTable_fks hky] at hkE
      obtain ⟨kn, k⟩ := k
      obtain ⟨ft, fcol, col, f1, f2, f3, f4, f5, f6, _, _, _, f7, _⟩ := hfk n t hg k (Dict.mem_values.mpr ⟨kn, hkE⟩)
      have hft := hk.keyed _ ft (Dict.mem_of_get? f1)
      unfold MySQL.fits
      simp only [ofTable_cols hky, f3, ofTables_get?, f1, Option.map_some, ofTable_cols hft, f2, Bool.and_eq_true, MySQL.linkable, decide_eq_true_eq]
      exact ⟨hleads n t _ hg f4, hleads _ ft _ f1 f5, f6, f7⟩
    · obtain ⟨⟨n, t⟩, hm, rfl⟩ := List.mem_map.mp hE
      obtain ⟨⟨n', t'⟩, hm', rfl⟩ := List.mem_map.mp hE'
      by_cases hne : n = n'
      · exact Or.inl hne
      · refine Or.inr fun k hkE => ?_
        have hky := hk.keyed n t hm
        have hky' := hk.keyed n' t' hm'
        simp only [ofTable_fks hky] at hkE
        simp only [ofTable_fks hky', Bool.not_eq_true']
        cases hh : t'.constraints.has k.1 with
        | false => rfl
        | true =>
          exfalso
          obtain ⟨k', hk'⟩ := Dict.exists_get? (Dict.has_iff.mp hh)
          have hk'm := Dict.mem_of_get? hk'
          have nodup := fl.fkNames
          unfold allConstraints at nodup
          rw [List.map_flatMap] at nodup
          have names : ∀ x : Table, (x.constraints.values.map (fun k => (x, k))).map (fun x => x.2.name) = x.constraints.values.map Constraint.name := fun x => by
            rw [List.map_map]; rfl
          simp only [names] at nodup
          refine apart (l := files.tables) hm hm' hne nodup (x := k.1) ?_ ?_
          · exact List.mem_map.mpr ⟨k.2, Dict.mem_values.mpr ⟨k.1, hkE⟩, hky.fkName k.1 k.2 hkE⟩
          · exact List.mem_map.mpr ⟨k', Dict.mem_values.mpr ⟨k.1, hk'm⟩, hky'.fkName k.1 k' hk'm⟩

omit [PyNum] in
theorem sound_tidy {c : Column} (h : c.Sound) : c.Tidy := by
  have word : ∀ {v : Str}, Ident v → v ≠ [] ∧ '\'' ∉ v := fun hv => ⟨hv.1, fun hm => absurd (hv.2 _ hm) (by decide)⟩
  refine ⟨fun hm => absurd (h.plain.name.2 _ hm) (by decide), ?_, ?_, h.plain.noValues, ?_, ?_, ?_⟩
  · refine upper_isWord ?_
    have := h.plain.type
    show ∀ x ∈ c.columnType, isWord x = true
    generalize c.columnType = ty at this
    generalize c.cls = cl at this
    revert ty
    cases cl <;> decide
  · obtain ⟨shown, hs, _⟩ := h.plain.len
    have digit : ∀ {d : Str}, Digits d → ∀ x ∈ d, (isDigit x || x == ',') = true := fun hd x hx => by rw [hd.2 x hx]; rfl
    generalize c.len = l at hs
    cases hs with
    | none => exact .inl rfl
    | empty => exact .inr ⟨[], rfl, fun _ h => (by cases h)⟩
    | one hd => exact .inr ⟨_, rfl, digit hd⟩
    | two ha hb =>
      refine .inr ⟨_, rfl, fun x hx => ?_⟩
      rcases List.mem_append.mp hx with hx | hx
      · rcases List.mem_append.mp hx with hx | hx
        · exact digit ha x hx
        · rw [List.mem_singleton.mp hx]; decide
      · exact digit hb x hx
  · intro d hd
    obtain ⟨shown, _, _, hdef⟩ := h.plain.len
    have bare : ∀ {v : Str}, Bare v → '\'' ∉ v := fun hv hm => (hv _ hm).2.2.2.2.1 rfl
    rcases (hdef d hd).1 with ⟨hb, _⟩ | ⟨_, a, x, b, rfl, ha, hx, hb⟩
    · exact bare hb
    · simp only [List.mem_append, List.mem_cons, List.not_mem_nil, or_false, not_or]
      refine ⟨⟨bare ha, by decide⟩, fun e => ?_, bare hb⟩
      rw [← e] at hx
      exact absurd hx (by decide)
  · intro d hd
    obtain ⟨h1, h2⟩ := (h.charset (upper d) (by unfold Column.characterSet; rw [hd]; rfl)).2
    have := upper_isWord h2
    exact word ⟨fun e => h1 (by rw [e]; rfl), this⟩
  · intro d hd
    obtain ⟨h1, h2⟩ := h.collate (upper d) (by unfold Column.collate; rw [hd]; rfl)
    exact word ⟨fun e => h1 (by rw [e]; rfl), upper_isWord h2⟩

omit [PyNum] in
theorem sound_worded {t : Table} (h : t.Sound) (hp : ∀ i ∈ t.indexes.values, i.isPrimary = false → i.name ≠ py"PRIMARY") : t.Worded := by
  have plain : ∀ {v : Str}, Ident v → PlainName v := fun hv hm => absurd (hv.2 _ hm) (by decide)
  refine ⟨⟨fun i hi => ?_, fun k hk => ?_⟩, fun c hc => sound_tidy (h.columns c hc).1, hp⟩
  · obtain ⟨h1, h2⟩ := (h.indexes i hi).columns
    refine ⟨?_, fun c hc => plain (h2 c hc)⟩
    unfold Index.name
    split
    · rename_i hr
      rcases (h.indexes i hi).type with ⟨_, e⟩ | ⟨_, e | e⟩ | ⟨_, e⟩
      · exact absurd e hr
      · exact absurd e hr
      · exact plain e
      · exact plain e
    · cases hc : i.columns with
      | nil => exact absurd hc h1
      | cons c cs => exact plain (h2 c (by rw [hc]; exact List.mem_cons_self))
  · have := h.constraints k hk
    exact ⟨plain this.name, plain this.column, plain this.ftable, plain this.fcolumn⟩

/-- **C76.**  Schema files which the check accepts are installed on an empty server: `apply` succeeds, and then the server has exactly the declared
tables as they are declared, and exactly the declared rows with the declared values.

The hypotheses: the files are read without exceptions (`hr`), no table is declared twice (`hn`), tables whose check raises are right (`hq`), MySQL reads the
definitions as they are meant (`hs`), no other key is called `PRIMARY` (`hp`), and tables with declared rows have a column `id` (`hid`). -/
theorem C76_partial (srv : Server) (sources : List Str) (force : Bool) (files : Database) (dflt : ColumnSql → Option Str)
    (hf : FileDatabase.new sources = .ok files)
    (hr : ∀ f ∈ sources, (readSource f).2 = none) (hn : (sources.flatMap (fun f => Dict.keys (readSource f).1.tables)).Nodup)
    (hq : ∀ t ∈ files.tables.values, t.Raises → t.Right) (he : files.errors.1 = .ok []) (hs : ∀ t ∈ files.tables.values, t.Sound)
    (hp : ∀ t ∈ files.tables.values, ∀ i ∈ t.indexes.values, i.isPrimary = false → i.name ≠ py"PRIMARY")
    (hid : ∀ t ∈ files.tables.values, t.tracking = true → py"id" ∈ t.columns.keys)
    (hempty : srv.tableNames = []) (hsrv : srv.Follows dflt ⟨⟨true, []⟩, fun _ _ => none⟩) :
    ∃ o db g, (Command.apply srv sources force).result = .ok o ∧
      (Command.apply srv sources force).events = (plan srv sources force).events ++ o.output.map .sent ++ [.committed] ∧
      World.sendAll dflt ⟨⟨true, []⟩, fun _ _ => none⟩ o.output = some ⟨SDb.sql db, g⟩ ∧
      db.checks = true ∧ (∀ n, db.tables.get? n = (files.tables.get? n).map ofTable) ∧
      (∀ n i, (g n i).isSome = true ↔ ∃ t rows, files.tables.get? n = some t ∧ t.rows = some rows ∧ i ∈ rows.keys) ∧
      (∀ n t rows i r, files.tables.get? n = some t → t.rows = some rows → rows.get? i = some r →
        ∃ cells, g n i = some cells ∧ ∀ c v, Dict.get? r c = some v → cells c = v.cell) := by
  have hk := FileDatabase.new_kept hf
  have hnone : ∀ n, Dict.get? ([] : Dict Table) n = none := fun _ => rfl
  have hl : (LiveDatabase.new srv).result = .ok {} := by
    unfold LiveDatabase.new Driver.tables
    rw [hempty]
    rfl
  have hacc := C76_accepted_partial sources files hf hr hn hq he (fun t ht => sound_worded (hs t ht) (hp t ht))
  have hm : Migratable true ([] : Dict Table) files.tables :=
    { source := ⟨⟨List.nodup_nil, fun _ _ h => (by cases h), fun _ _ h => (by cases h)⟩, fun _ _ h => (by cases h), fun _ _ h => (by cases h),
        fun _ _ h => (by cases h), rfl⟩
      target := hacc
      untroubled := ⟨fun _ _ _ h => (by cases h), fun _ _ _ _ _ _ h => (by cases h), fun _ _ _ _ _ h => (by cases h), fun _ _ _ _ _ _ h => (by cases h),
        fun _ _ _ _ _ _ _ h => (by cases h), fun _ _ _ _ h => (by cases h), fun _ _ _ _ h => (by cases h)⟩
      named := fun _ h => (by cases h)
      sound := hs
      tables := fun _ h => (by cases h)
      columns := fun _ _ _ h => (by cases h) }
  have hfit : RowsFit ([] : Dict Table) files.tables :=
    ⟨hid, fun _ _ _ _ h => (by cases h), fun t ht _ new hnew i r hir => C69_fits sources files hf he hn t ht new hnew i r hir⟩
  obtain ⟨o, db, g, h1, h2, h3, h4, h5⟩ := C69_partial srv sources force files {} (fun _ _ => none) ⟨true, []⟩ true dflt hf he hl
    ⟨List.nodup_nil, fun _ => rfl⟩ rfl ⟨fun _ _ h => (by cases h), fun _ _ _ => rfl⟩ hm hfit
    ⟨fun _ _ _ _ h => (by cases h), fun _ _ _ _ _ _ _ h => (by cases h)⟩ (fun _ _ _ h => (by cases h)) hsrv
  have own : ∀ n t, files.tables.get? n = some t → t ∈ files.tables.values ∧ t.name = n ∧ t.tracking = t.rows.isSome := fun n t h =>
    ⟨Dict.mem_values.mpr ⟨n, Dict.mem_of_get? h⟩, hk.name n t (Dict.mem_of_get? h), (hk.kept n t (Dict.mem_of_get? h)).known⟩
  refine ⟨o, db, g, h1, h2, h3, h4.checks, fun n => ?_, fun n i => ?_, fun n t rows i r ht hrows hir => ?_⟩
  · cases ht : files.tables.get? n with
    | some t => exact h4.created n t rfl ht
    | none =>
      refine Dict.get?_eq_none.mpr (fun hm => ?_)
      exact absurd ((h4.names n).mp hm) (Dict.get?_eq_none.mp ht)
  · constructor
    · intro hi
      cases ht : files.tables.get? n with
      | none =>
        rw [h5.gone n (Dict.get?_eq_none.mp ht) i] at hi
        cases hi
      | some t =>
        obtain ⟨o1, o2, o3⟩ := own n t ht
        cases hrows : t.rows with
        | none =>
          rw [hrows] at o3
          have := h5.fresh t o1 o3 i rfl
          rw [o2] at this
          rw [this] at hi
          cases hi
        | some rows =>
          rw [hrows] at o3
          obtain ⟨new, n1, n2⟩ := h5.ids t o1 o3
          rw [hrows] at n1
          cases n1
          exact ⟨t, rows, rfl, hrows, (n2 i).mp (by rw [o2]; exact hi)⟩
    · rintro ⟨t, rows, ht, hrows, hi⟩
      obtain ⟨o1, o2, o3⟩ := own n t ht
      rw [hrows] at o3
      obtain ⟨new, n1, n2⟩ := h5.ids t o1 o3
      rw [hrows] at n1
      cases n1
      rw [← o2]
      exact (n2 i).mpr hi
  · obtain ⟨o1, o2, o3⟩ := own n t ht
    rw [hrows] at o3
    have := h5.values t o1 o3 rows i r hrows hir (Or.inl rfl)
    rw [o2] at this
    exact this

end

/-! ## Examples and refutations -/

section Examples
attribute [local instance] exactNum

/-- an empty server which does what MySQL does -/
def emptyServer : Server where
  tableNames := []
  createText _ := .ok none
  select _ := .ok []
  fails _ _ := none

/-- a table with a date and rows, and one with a foreign key -/
def freshSources : List Str :=
  [py"CREATE TABLE notes (id INT(10) NOT NULL, user_id INT(10), PRIMARY KEY (id), KEY by_user (user_id), CONSTRAINT notes_user FOREIGN KEY (user_id) REFERENCES users (id) ON DELETE CASCADE ON UPDATE CASCADE);",
   py"CREATE TABLE users (id INT(10) NOT NULL, name VARCHAR(50), born DATETIME(6), PRIMARY KEY (id), KEY by_name (name)); INSERT INTO users (id, name) VALUES (1, 'ann'), (2, 'bob');"]

def freshFiles : Database := match FileDatabase.new freshSources with | .ok d => d | .error _ => {}

theorem freshFiles_eq : FileDatabase.new freshSources = .ok freshFiles := by decide +kernel

theorem fresh_sound : ∀ t ∈ freshFiles.tables.values, t.Sound := by
  have : ∀ x ∈ freshFiles.tables.values, Examples.easyTable x = true := by decide +kernel
  exact fun x hx => (Examples.sound_of_easyTable (this x hx)).1

theorem fresh_dated : ∀ t ∈ freshFiles.tables.values, t.Raises → t.Right := by
  have h : ∀ t ∈ freshFiles.tables.values, (t.indexes.values.filter Index.isPrimary).length ≤ 1 ∧
      (∀ i ∈ t.indexes.values, i.columns ≠ [] ∧ ∀ c ∈ i.columns, c ∈ t.columns.keys) ∧
      ∀ k ∈ t.constraints.values, k.name ≠ [] ∧ k.onDelete = py"CASCADE" := by decide +kernel
  intro t ht _
  obtain ⟨h1, h2, h3⟩ := h t ht
  exact ⟨fun i j hi hj pi pj => two_of_filter h1 hi hj pi pj, h2, fun k hk => ⟨(h3 k hk).1, by rw [(h3 k hk).2]; unfold GoodAction; decide⟩⟩

theorem fresh_primary : ∀ t ∈ freshFiles.tables.values, ∀ i ∈ t.indexes.values, i.isPrimary = false → i.name ≠ py"PRIMARY" := by decide +kernel

/-- there is a table whose check raises -/
example : ∃ t ∈ freshFiles.tables.values, ∃ c ∈ t.columns.values, c.schemaCheck.2 ≠ none := by decide +kernel

example : ∃ o db g, (Command.apply emptyServer freshSources false).result = .ok o ∧
      (Command.apply emptyServer freshSources false).events = (plan emptyServer freshSources false).events ++ o.output.map .sent ++ [.committed] ∧
      World.sendAll (fun _ => none) ⟨⟨true, []⟩, fun _ _ => none⟩ o.output = some ⟨SDb.sql db, g⟩ ∧
      db.checks = true ∧ (∀ n, db.tables.get? n = (freshFiles.tables.get? n).map ofTable) ∧
      (∀ n i, (g n i).isSome = true ↔ ∃ t rows, freshFiles.tables.get? n = some t ∧ t.rows = some rows ∧ i ∈ rows.keys) ∧
      (∀ n t rows i r, freshFiles.tables.get? n = some t → t.rows = some rows → rows.get? i = some r →
        ∃ cells, g n i = some cells ∧ ∀ c v, Dict.get? r c = some v → cells c = v.cell) :=
  C76_partial emptyServer freshSources false freshFiles _ freshFiles_eq (by decide +kernel) (by decide +kernel)
    fresh_dated (by decide +kernel) fresh_sound fresh_primary (by decide +kernel) rfl (fun _ _ _ => rfl)

example : Accepted true freshFiles.tables :=
  C76_accepted_partial freshSources freshFiles freshFiles_eq (by decide +kernel) (by decide +kernel) fresh_dated (by decide +kernel)
    (fun t ht => sound_worded (fresh_sound t ht) (fresh_primary t ht))

/-- a key on a column which the table does not have; the table has a date -/
def datedSources : List Str := [py"CREATE TABLE events (id INT(10) NOT NULL, day DATE, PRIMARY KEY (id), KEY by_place (place));"]

/-- a second key is called `PRIMARY` -/
def primarySources : List Str := [py"CREATE TABLE events (id INT(10) NOT NULL, place INT(10), PRIMARY KEY (id), KEY `PRIMARY` (place));"]

/-- **C76 fails for a table with a date**: a key on a column which is not there is not reported, `apply` is not refused, and MySQL refuses the
`CREATE TABLE` (the check of a date column raises an `AttributeError`, which is swallowed together with what was found before: C33). -/
theorem C76_dated_refuted : ∃ files o, FileDatabase.new datedSources = .ok files ∧ files.errors.1 = .ok [] ∧
    (Command.apply emptyServer datedSources false).result = .ok o ∧ World.sendAll (fun _ => none) ⟨⟨true, []⟩, fun _ _ => none⟩ o.output = none := by
  refine ⟨match FileDatabase.new datedSources with | .ok d => d | .error _ => {},
    match (Command.apply emptyServer datedSources false).result with | .ok o => o | .error _ => ⟨[], true⟩, ?_, ?_, ?_, ?_⟩
  · decide +kernel
  · decide +kernel
  · decide +kernel
  · rw [← Option.isNone_iff_eq_none]; decide +kernel

/-- **C76 fails for a key which is called `PRIMARY`.** -/
theorem C76_primary_refuted : ∃ files o, FileDatabase.new primarySources = .ok files ∧ files.errors.1 = .ok [] ∧
    (Command.apply emptyServer primarySources false).result = .ok o ∧ World.sendAll (fun _ => none) ⟨⟨true, []⟩, fun _ _ => none⟩ o.output = none := by
  refine ⟨match FileDatabase.new primarySources with | .ok d => d | .error _ => {},
    match (Command.apply emptyServer primarySources false).result with | .ok o => o | .error _ => ⟨[], true⟩, ?_, ?_, ?_, ?_⟩
  · decide +kernel
  · decide +kernel
  · decide +kernel
  · rw [← Option.isNone_iff_eq_none]; decide +kernel

end Examples

end Mygrations

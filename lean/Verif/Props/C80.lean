import Verif.Model.CoreOps
import Verif.Props.C66

/-! # C80: the operations of the core package -/

namespace Mygrations
open Sql Table

/-- A name which can be put in backticks. -/
def Quotable (n : Str) : Prop := n ≠ [] ∧ '`' ∉ n

/-- A clause of the core package which MySQL can read: see `AlterOp.Sound`; a column which is dropped can have any name. -/
def AlterOp.CoreSound : AlterOp → Prop
  | .removeColumn c => Quotable c.name
  | o => o.Sound

/-- An operation of the core package which MySQL can read: see `Op.Sound`; tables and columns which are dropped can have any name. -/
def Op.CoreSound : Op → Prop
  | .alter a => Ident a.table ∧ a.ops ≠ [] ∧ ∀ o ∈ a.ops, o.CoreSound
  | .removeTable n => Quotable n
  | op => op.Sound

theorem core_reads_op {o : AlterOp} (h : o.CoreSound) : ∃ cs, Reads clause (Core.renderOp o) cs ∧ Paired ClauseSql.Is cs (MySQL.clauses o) := by
  cases o with
  | removeColumn c =>
    refine ⟨[.dropColumn c.name], ?_, .cons (.dropColumn c.name) .nil⟩
    have := lexes_drop.append (goes_space (lexes_ident h.2))
    refine Reads.one (ts := [.word py"DROP", .ident c.name]) (by simpa [Core.renderOp] using this) (flat_noSym (noSym_cons (by simp) (noSym_cons (by simp) noSym_nil))) ?_
    have : clause [.word py"DROP", .ident c.name] = (nameTok (.ident c.name)).map .dropColumn := rfl
    rw [this, nameTok_ident h.1]
    rfl
  | addColumn c p => exact reads_op (o := .addColumn c p) h
  | changeColumn c => exact reads_op (o := .changeColumn c) h
  | addKey i => exact reads_op (o := .addKey i) h
  | changeKey i => exact reads_op (o := .changeKey i) h
  | removeKey i => exact reads_op (o := .removeKey i) h
  | addConstraint k => exact reads_op (o := .addConstraint k) h
  | changeConstraint k => exact reads_op (o := .changeConstraint k) h
  | removeConstraint k => exact reads_op (o := .removeConstraint k) h

theorem core_read_alter {a : Alter} (hn : Ident a.table) (hne : a.ops ≠ []) (h : ∀ o ∈ a.ops, o.CoreSound) :
    ∃ cs, readStatement (Core.renderAlter a) = some (.alterTable a.table cs) ∧ Paired ClauseSql.Is cs (a.ops.flatMap MySQL.clauses) := by
  classical
  let f : AlterOp → List ClauseSql := fun o => if h : o.CoreSound then Classical.choose (core_reads_op h) else []
  have hf : ∀ o ∈ a.ops, Reads clause (Core.renderOp o) (f o) ∧ Paired ClauseSql.Is (f o) (MySQL.clauses o) := by
    intro o ho
    have := Classical.choose_spec (core_reads_op (h o ho))
    simpa only [f, dif_pos (h o ho)] using this
  obtain ⟨tss, h1, h2, h3, h4⟩ := reads_join breaks_space rfl Core.renderOp f hne (fun o ho => (hf o ho).1)
  refine ⟨_, ?_, paired_flatMap (fun o ho => (hf o ho).2)⟩
  have l : Lexes py"ALTER TABLE" [.word py"ALTER", .word py"TABLE"] := ⟨_, _, _, rfl, rfl, rfl⟩
  have hl := (l.append (goes_space (lexes_ident (ident_noTick hn)))).append ((goes_space h3).append goes_end)
  have hl' : Lexes (Core.renderAlter a) ([.word py"ALTER", .word py"TABLE", .ident a.table] ++ (commas tss ++ [.sym ';'])) := by
    simpa [Core.renderAlter] using hl
  rw [hl'.read]
  have hp := parts_commas h1 h2 (c := ';') (.inl rfl) []
  simp [stmt, isKw, hp, nameTok_ident hn.1, h4, show upper py"ALTER" = py"ALTER" from rfl, show upper py"TABLE" = py"TABLE" from rfl]

theorem core_reads_append {B : Type} {f : List Tok → Option B} {a b : Str} {as bs : List B} (ha : Reads f a as) (hb : Reads f b bs) :
    Reads f (a ++ ',' :: b) (as ++ bs) := by
  obtain ⟨ta, a1, a2, a3, a4⟩ := ha
  obtain ⟨tb, b1, b2, b3, b4⟩ := hb
  refine ⟨ta ++ tb, by simp [a1], ?_, ?_, every_append f a4 b4⟩
  · intro ts h
    rcases List.mem_append.mp h with h | h
    · exact a2 ts h
    · exact b2 ts h
  · rw [commas_append a1 b1]
    exact a3.append (goes_comma b3)

theorem core_reads_join {A B : Type} {f : List Tok → Option B} (g : A → Str) (h : A → List B) :
    ∀ {as : List A}, as ≠ [] → (∀ a ∈ as, Reads f (g a) (h a)) → Reads f (join [','] (as.map g)) (as.flatMap h)
  | [], hne, _ => absurd rfl hne
  | [a], _, ha => by simpa [join] using ha a List.mem_cons_self
  | a :: b :: as, _, ha => by
    have ih := core_reads_join g h (as := b :: as) (by simp) (fun x hx => ha x (List.mem_cons_of_mem _ hx))
    have := core_reads_append (ha a List.mem_cons_self) ih
    simpa [join] using this

theorem core_read_create {t : Table} (h : t.Sound) : readStatement (Core.renderCreate t false) = some (.createTable t.name
    (t.columns.values.map (fun c => .column c.sql []) ++ t.indexes.values.map (fun i => .key i.sql) ++ t.constraints.values.map (fun k => .fk k.sql))
    (t.options.map (fun o => (splitOn ' ' o.name, o.value)))) := by
  let items : List (Str × ItemSql) := t.columns.values.map (fun c => (c.render, .column c.sql [])) ++ t.indexes.values.map (fun i => (i.render, .key i.sql)) ++
    t.constraints.values.map (fun k => (k.render, .fk k.sql))
  have hne : items ≠ [] := by
    have : t.columns.values ≠ [] := by
      have := h.hasColumns
      intro e
      exact this (List.map_eq_nil_iff.mp e)
    intro e
    have e1 := (List.append_eq_nil_iff.mp (List.append_eq_nil_iff.mp e).1).1
    exact this (List.map_eq_nil_iff.mp e1)
  have hi : ∀ x ∈ items, Reads definition x.1 [x.2] := by
    intro x hx
    rcases List.mem_append.mp hx with hx | hx
    · rcases List.mem_append.mp hx with hx | hx
      · obtain ⟨c, hc, rfl⟩ := List.mem_map.mp hx
        exact reads_column (h.columns c hc).1 (h.columns c hc).2
      · obtain ⟨i, hi, rfl⟩ := List.mem_map.mp hx
        exact reads_index (h.indexes i hi)
    · obtain ⟨k, hk, rfl⟩ := List.mem_map.mp hx
      exact reads_constraint (h.constraints k hk)
  obtain ⟨tss, h1, h2, h3, h4⟩ := core_reads_join Prod.fst (fun x => [x.2]) hne hi
  have l : Lexes py"CREATE TABLE" [.word py"CREATE", .word py"TABLE"] := ⟨_, _, _, rfl, rfl, rfl⟩
  have ho := goes_options h.options
  have hl := (((l.append (goes_space (lexes_ident (ident_noTick h.name)))).append (goes_space (lexes_nil.append (goes_open h3)))).append
    (goes_close lexes_nil)).append (ho.append goes_end)
  have hl' : Lexes (Core.renderCreate t false) ([.word py"CREATE", .word py"TABLE", .ident t.name, .sym '('] ++ (commas tss ++ .sym ')' ::
      (t.options.flatMap TableOpt.toks ++ [.sym ';']))) := by
    simpa [Core.renderCreate, items, Function.comp_def] using hl
  rw [hl'.read]
  have hp := parts_commas h1 h2 (c := ')') (.inr rfl) (t.options.flatMap TableOpt.toks ++ [.sym ';'])
  have he : items.flatMap (fun x => [x.2]) = t.columns.values.map (fun c => .column c.sql []) ++ t.indexes.values.map (fun i => .key i.sql) ++
      t.constraints.values.map (fun k => .fk k.sql) := by
    rw [show items.flatMap (fun x => [x.2]) = items.map Prod.snd from List.map_eq_flatMap.symm]
    simp [items, Function.comp_def]
  rw [he] at h4
  simp [stmt, isKw, hp, nameTok_ident h.name.1, h4, options_toks, show upper py"CREATE" = py"CREATE" from rfl, show upper py"TABLE" = py"TABLE" from rfl]

/-- **C80** (partial): MySQL reads the text of an operation of the core package as what the operation stands for, whatever the names of the tables and
columns which are dropped (compare C66).  Missing: what `Op.CoreSound` still excludes; `C80_update_refuted` and C51. -/
theorem C80_partial (op : Op) (h : op.CoreSound) : ∃ st, readStatement (Core.render op) = some st ∧ op.Means st := by
  cases op with
  | disableChecks => exact ⟨_, by decide +kernel, .disableChecks⟩
  | enableChecks => exact ⟨_, by decide +kernel, .enableChecks⟩
  | createTable t => exact ⟨_, core_read_create h, .createTable t⟩
  | alter a =>
    obtain ⟨cs, h1, h2⟩ := core_read_alter h.1 h.2.1 h.2.2
    exact ⟨_, h1, .alter a cs h2⟩
  | removeTable n =>
    refine ⟨.dropTable n, ?_, .removeTable n⟩
    have l : Lexes py"DROP TABLE" [.word py"DROP", .word py"TABLE"] := ⟨_, _, _, rfl, rfl, rfl⟩
    have hl := (l.append (goes_space (lexes_ident h.2))).append goes_end
    have hl' : Lexes (Core.render (.removeTable n)) [.word py"DROP", .word py"TABLE", .ident n, .sym ';'] := by simpa [Core.render] using hl
    rw [hl'.read]
    have : stmt [.word py"DROP", .word py"TABLE", .ident n, .sym ';'] = (nameTok (.ident n)).map .dropTable := rfl
    rw [this, nameTok_ident h.1]
    rfl
  | rowInsert t r =>
    refine ⟨_, ?_, .rowInsert t r⟩
    have : Core.render (.rowInsert t r) = renderInsert t r := by simp [Core.render, Core.renderAdd, renderInsert, Dict.keys, Dict.values, Function.comp_def]
    rw [this]
    exact read_insert h.1 h.2
  | rowUpdate t r =>
    obtain ⟨h1, h2, ⟨v, h3, h4, h5⟩, h6⟩ := h
    exact ⟨_, read_update h1 h3 h4 h5 h2 h6, .rowUpdate t r v h3⟩
  | rowDelete t i => exact ⟨_, read_delete h.1 h.2.1 h.2.2, .rowDelete t i⟩

theorem quotable_ident {n : Str} (h : Ident n) : Quotable n := ⟨h.1, ident_noTick h⟩

theorem core_of_sound {o : AlterOp} (h : o.Sound) : o.CoreSound := by
  cases o with
  | removeColumn c => exact quotable_ident h.1
  | _ => exact h

/-- what the diff of a table is made of -/
theorem core_toSplit [PyNum] {s t : Table} {d : Diff} (hk : t.Keyed) (hs : s.Named) (ht : t.Sound)
    (h : s.toSplit t = .ok d) :
    (∀ o ∈ d.removedFks, o.CoreSound) ∧ (∀ o ∈ d.kitchenSink, o.CoreSound) ∧ (∀ o ∈ d.fks, o.CoreSound) := by
  simp only [toSplit] at h
  cases ha : addedColumnOps t (added s.columns t.columns) with
  | error e => simp [ha] at h
  | ok adds =>
    simp only [ha] at h
    cases hc : changedColumnOps s t (overlap s.columns t.columns) with
    | error e => simp [hc] at h
    | ok changes =>
      simp only [hc, Except.ok.injEq] at h
      subst h
      refine ⟨?_, ?_, ?_⟩
      · intro o ho
        simp only [removedFkOps, List.mem_filterMap, Option.map_eq_some_iff] at ho
        obtain ⟨k, _, x, hx, rfl⟩ := ho
        exact hs.constraints x (values_of_get? hx)
      · intro o ho
        simp only [List.mem_append] at ho
        rcases ho with ((ho | ho) | ho) | ho
        · exact core_of_sound (addedColumnOps_sound hk ht ha o ho)
        · exact core_of_sound (changedColumnOps_sound ht hc o ho)
        · simp only [removedColumnOps, List.mem_filterMap, Option.map_eq_some_iff] at ho
          obtain ⟨k, hk, c, hc, rfl⟩ := ho
          exact quotable_ident (hs.columns c (values_of_get? hc))
        · exact core_of_sound (keyOps_sound hs ht o ho)
      · intro o ho
        simp only [addedFkOps, List.mem_filterMap, Option.map_eq_some_iff] at ho
        obtain ⟨k, _, x, hx, rfl⟩ := ho
        exact ht.constraints x (values_of_get? hx)

theorem core_alterIf {n : Str} {ops : List AlterOp} (hn : Ident n) (h : ∀ o ∈ ops, o.CoreSound) : ∀ a ∈ alterIf n ops, (Op.alter a).CoreSound := by
  intro a ha
  unfold alterIf at ha
  split at ha
  · cases ha
  · rename_i hne
    rw [List.mem_singleton.mp ha]
    exact ⟨hn, hne, h⟩

theorem core_stripCycled {cyc : List (Str × Str)} {n : Str} {ops : List AlterOp} (h : ∀ o ∈ ops, o.CoreSound) :
    ∀ o ∈ Mygration.stripCycled cyc n ops, o.CoreSound := fun o ho => h o (List.mem_filter.mp ho).1

theorem core_groupAlters {l : List (Str × AlterOp)} (h : ∀ e ∈ l, Ident e.1 ∧ e.2.CoreSound) : ∀ a ∈ Mygration.groupAlters l, (Op.alter a).CoreSound := by
  intro a ha
  have hops := Mygration.mem_groupAlters ha
  have ht : a.table ∈ l.map Prod.fst := by
    rw [← Mygration.mem_groups_keys, ← Mygration.groupAlters_tables]
    exact List.mem_map_of_mem ha
  obtain ⟨e, he, hea⟩ := List.mem_map.mp ht
  refine ⟨hea ▸ (h e he).1, ?_, ?_⟩
  · rw [hops]
    have : e.2 ∈ (l.filter (fun e => e.1 = a.table)).map Prod.snd := List.mem_map_of_mem (List.mem_filter.mpr ⟨he, by simpa using hea⟩)
    exact List.ne_nil_of_mem this
  · intro o ho
    rw [hops] at ho
    obtain ⟨x, hx, rfl⟩ := List.mem_map.mp ho
    exact (h x (List.mem_filter.mp hx).1).2

/-- **C80** (partial), for plans: if the declared tables are sound, every operation of a plan, written by the core package, is read by MySQL as it was
planned, also if tables or columns whose name is a reserved word have to be dropped (refuted for the operations which the migrations use,
`C66_plan_refuted`). -/
theorem C80_plan_partial [PyNum] (t : Dict Table) (from? : Option (Dict Table)) (checks : Bool) (ops : List Op)
    (ht : KeyedTables t) (hf : KeyedTables (from?.getD [])) (hts : ∀ x ∈ t.values, x.Sound) (hfs : ∀ x ∈ (from?.getD []).values, x.Named)
    (h : Mygration.process t from? checks = .ok ops) : ∀ op ∈ ops, ∃ st, readStatement (Core.render op) = some st ∧ op.Means st := by
  intro op hop
  apply C80_partial
  obtain ⟨hops, hdiff⟩ := Mygration.process_eq hf h
  have hnf : ∀ n a, (n, a) ∈ from?.getD [] → Ident n ∧ a.Named := by
    intro n a hna
    have := hfs a (Dict.mem_values.mpr ⟨n, hna⟩)
    exact ⟨hf.name n a hna ▸ this.name, this⟩
  have hcyc : ∀ x ∈ Mygration.cycles from? t, ∃ f, from? = some f ∧ Mygration.CycleOk f t x := by
    intro x hx
    cases from? with
    | none => cases hx
    | some f => exact ⟨f, rfl, Mygration.cycleOk hf ht hx⟩
  have hnow : ∀ n ∈ overlap (from?.getD []) t, Ident n ∧ (∀ o ∈ (Mygration.diffOf (from?.getD []) t n).removedFks, o.CoreSound) ∧
      (∀ o ∈ (Mygration.diffOf (from?.getD []) t n).kitchenSink, o.CoreSound) ∧ (∀ o ∈ (Mygration.diffOf (from?.getD []) t n).fks, o.CoreSound) := by
    intro n hn
    obtain ⟨a, b, ha, hb, hab⟩ := hdiff n hn
    have h1 := hnf n a (Dict.mem_of_get? ha)
    refine ⟨h1.1, ?_⟩
    exact core_toSplit (ht.keyed n b (Dict.mem_of_get? hb)) h1.2 (hts b (values_of_get? hb)) hab
  rw [hops] at hop
  simp only [List.mem_append] at hop
  rcases hop with ((((((hop | hop) | hop) | hop) | hop) | hop) | hop) | hop
  · split at hop
    · rw [List.mem_singleton.mp hop]; trivial
    · cases hop
  · simp only [List.mem_filterMap, Option.map_eq_some_iff] at hop
    obtain ⟨n, _, x, hx, rfl⟩ := hop
    exact hts x (values_of_get? hx)
  · obtain ⟨a, ha, rfl⟩ := List.mem_map.mp hop
    refine core_groupAlters ?_ a ha
    intro e he
    obtain ⟨x, hx, rfl⟩ := List.mem_map.mp he
    obtain ⟨f, hfe, hok⟩ := hcyc x hx
    subst hfe
    obtain ⟨s, h1, h2⟩ := hok.source
    have := hnf _ s (Dict.mem_of_get? h1)
    exact ⟨this.1, this.2.constraints _ (values_of_get? h2)⟩
  · obtain ⟨a, ha, rfl⟩ := List.mem_map.mp hop
    obtain ⟨n, hn, ha⟩ := List.mem_flatMap.mp ha
    obtain ⟨h1, h2, h3, h4⟩ := hnow n hn
    rcases List.mem_append.mp ha with ha | ha
    · exact core_alterIf h1 (core_stripCycled h2) a ha
    · exact core_alterIf h1 h3 a ha
  · obtain ⟨a, ha, rfl⟩ := List.mem_map.mp hop
    obtain ⟨n, hn, ha⟩ := List.mem_flatMap.mp ha
    obtain ⟨h1, h2, h3, h4⟩ := hnow n hn
    exact core_alterIf h1 (core_stripCycled h4) a ha
  · obtain ⟨a, ha, rfl⟩ := List.mem_map.mp hop
    refine core_groupAlters ?_ a ha
    intro e he
    obtain ⟨x, hx, k, n, hk, rfl, _⟩ := Mygration.mem_cycleAdds he
    obtain ⟨f, hfe, hok⟩ := hcyc x hx
    subst hfe
    obtain ⟨s, h1, _⟩ := hok.source
    refine ⟨(hnf _ s (Dict.mem_of_get? h1)).1, ?_⟩
    rcases hok.target with ⟨h2, _⟩ | ⟨d, k', h2, h3, h4, _⟩
    · rw [h2] at hk; cases hk
    · rw [h3] at hk
      cases hk
      exact (hts d (values_of_get? h2)).constraints _ (values_of_get? h4)
  · obtain ⟨n, hn, rfl⟩ := List.mem_map.mp hop
    have hn := List.mem_filter.mp hn
    obtain ⟨a, ha⟩ := Dict.exists_get? hn.1
    exact quotable_ident (hnf n a (Dict.mem_of_get? ha)).1
  · split at hop
    · rw [List.mem_singleton.mp hop]; trivial
    · cases hop

/-- **C80 is false** of texts with a quote: as in C25, `UPDATE` does not escape it, and MySQL reads something else than what was asked for. -/
theorem C80_update_refuted : ∃ (r : Row) (st : Stmt), RowNames py"users" r ∧ (∃ c ∈ r.keys, c ≠ py"id") ∧ r.get? py"id" = some (.str py"1") ∧
    readStatement (Core.render (.rowUpdate py"users" r)) = some st ∧ ¬ (Op.rowUpdate py"users" r).Means st := by
  refine ⟨[(py"id", .str py"1"), (py"name", .str py"x', admin='1")], .update py"users" [⟨py"name", some py"x"⟩, ⟨py"admin", some py"1"⟩] ⟨py"id", some py"1"⟩,
    ⟨by decide, by decide⟩, by decide, by decide, by decide +kernel, ?_⟩
  intro h
  generalize hst : Stmt.update py"users" [⟨py"name", some py"x"⟩, ⟨py"admin", some py"1"⟩] ⟨py"id", some py"1"⟩ = st at h
  cases h with
  | rowUpdate _ _ v hv =>
    injection hst with _ h2 _
    revert h2
    decide

/-- **C80**, for rows: both packages write the same text for `INSERT`, `UPDATE`, `DELETE` and for the toggles, so what C66 says about these holds here. -/
theorem C80_rows (op : Op) (h : ∀ t, op ≠ .createTable t) (ha : ∀ a, op ≠ .alter a) (hn : ∀ n, op ≠ .removeTable n) : Core.render op = op.render := by
  cases op with
  | createTable t => exact absurd rfl (h t)
  | alter a => exact absurd rfl (ha a)
  | removeTable n => exact absurd rfl (hn n)
  | rowInsert t r => simp [Core.render, Core.renderAdd, Op.render, renderInsert, Dict.keys, Dict.values, Function.comp_def]
  | _ => rfl

namespace Examples

/-- dropping the table `order` and a column `key` of another table: no statement of a plan does this, those of the core package do -/
example : (Op.removeTable py"order").CoreSound ∧ readStatement (Op.render (.removeTable py"order")) = none ∧
    readStatement (Core.render (.removeTable py"order")) = some (.dropTable py"order") ∧
    (Op.alter ⟨py"posts", [.removeColumn (textCol py"key" py"9"), .addColumn (intCol py"rank") .first]⟩).CoreSound ∧
    readStatement (Op.render (.alter ⟨py"posts", [.removeColumn (textCol py"key" py"9")]⟩)) = none :=
  ⟨⟨by decide, by decide⟩, by decide +kernel, by decide +kernel, ⟨by decide +kernel, by decide, by
    intro o ho
    rcases List.mem_cons.mp ho with rfl | ho
    · exact ⟨by decide, by decide⟩
    · rw [List.mem_singleton.mp ho]
      have := sound_of_easy (c := intCol py"rank") (by decide +kernel)
      exact ⟨this.1, this.2, fun a h => by cases h⟩⟩, by decide +kernel⟩

end Examples

end Mygrations

import Verif.Proofs.StmtSql
import Verif.Proofs.PlanFks
import Verif.Proofs.Rows
import Verif.Props.C11
import Verif.Props.C17
import Verif.Props.C24
import Verif.Props.C51

/-! # C66: what MySQL reads in the statements of a plan -/

namespace Mygrations
open Sql Table

/-! ## One statement -/

theorem read_insert {t : Str} {r : Row} (hn : RowNames t r) (hne : r ≠ []) :
    readStatement (renderInsert t r) = some (.insert t r.keys (r.values.map PyVal.cell)) := by
  obtain ⟨⟨h1, h2⟩, h3⟩ := hn
  have hk : Dict.keys r ≠ [] := fun e => hne (List.map_eq_nil_iff.mp e)
  have hv : (r.values.map PyVal.cell) ≠ [] := fun e => hne (List.map_eq_nil_iff.mp (List.map_eq_nil_iff.mp e))
  have e1 : r.map (fun e => [Tok.ident e.1]) = r.keys.map (fun c => [.ident c]) := by simp [Dict.keys]
  have e2 : r.map (fun e => [valueTok e.2.cell]) = (r.values.map PyVal.cell).map (fun v => [valueTok v]) := by simp [Dict.values]
  have hcols := fun x => names_cols hk (fun c hc => (h3 c hc).1) x
  have hlits := literals_toks hv [.sym ';']
  rw [readStatement, C26 t r h2 (fun c hc => (h3 c hc).2), e1, e2]
  have hlen : (r.values.map PyVal.cell).length = r.keys.length := by simp [Dict.keys, Dict.values]
  simp only [nameToks] at hcols
  generalize r.values.map PyVal.cell = vs at hv hlits hlen ⊢
  simp [stmt, isKw, nameTok_ident h1, hcols, hlits, hlen, show upper py"INSERT" = py"INSERT" from rfl, show upper py"INTO" = py"INTO" from rfl,
    show upper py"VALUES" = py"VALUES" from rfl]

theorem read_update {t : Str} {r : Row} {v : PyVal} (hn : RowNames t r) (hid : r.get? py"id" = some v) (h1 : '\'' ∉ v.toStr) (h2 : '\\' ∉ v.toStr)
    (hc : ∃ c ∈ r.keys, c ≠ py"id") (hq : ∀ c v s, (c, v) ∈ r → v.cell = some s → '\'' ∉ s) :
    readStatement (renderUpdate t r) =
      some (.update t ((r.filter (fun e => e.1 ≠ py"id")).map (fun e => ⟨e.1, e.2.cell⟩)) ⟨py"id", some v.toStr⟩) := by
  obtain ⟨⟨ht1, ht2⟩, hk⟩ := hn
  obtain ⟨c, hc, hcid⟩ := hc
  let es : List (Str × Option Str) := (r.filter (fun e => e.1 ≠ py"id")).map (fun e => (e.1, e.2.cell))
  have hes : es ≠ [] := by
    obtain ⟨x, hx⟩ := Dict.exists_get? hc
    have hm : (c, x) ∈ r.filter (fun e => e.1 ≠ py"id") := List.mem_filter.mpr ⟨Dict.mem_of_get? hx, by simpa using hcid⟩
    intro e
    rw [List.map_eq_nil_iff.mp e] at hm
    cases hm
  have hne : ∀ e ∈ es, e.1 ≠ [] := by
    intro e he
    obtain ⟨x, hx, rfl⟩ := List.mem_map.mp he
    exact (hk x.1 (List.mem_map_of_mem (List.mem_filter.mp hx).1)).1
  have ha := assignments_toks v.toStr hes hne
  have e1 : (r.filter (fun e => e.1 ≠ py"id")).map (fun e => [Tok.ident e.1, .sym '=', valueTok e.2.cell]) =
      es.map (fun e => [.ident e.1, .sym '=', valueTok e.2]) := by simp [es]
  have e2 : (r.filter (fun e => e.1 ≠ py"id")).map (fun e => Equation.mk e.1 e.2.cell) = es.map (fun e => ⟨e.1, e.2⟩) := by simp [es]
  rw [readStatement, C25_partial t r v ht2 (fun c hc => (hk c hc).2) hq hid h1 h2, e1, e2]
  simp only [List.cons_append, List.nil_append] at ha ⊢
  simp [stmt, isKw, nameTok_ident ht1, ha, show upper py"UPDATE" = py"UPDATE" from rfl, show upper py"SET" = py"SET" from rfl]

theorem read_delete {t i : Str} (ht : t ≠ [] ∧ '`' ∉ t) (h1 : '\'' ∉ i) (h2 : '\\' ∉ i) :
    readStatement (renderDelete t i) = some (.delete t ⟨py"id", some i⟩) := by
  have l1 : Lexes py"DELETE FROM" [.word py"DELETE", .word py"FROM"] := ⟨_, _, _, rfl, rfl, rfl⟩
  have l2 : Lexes py"WHERE id" [.word py"WHERE", .word py"id"] := ⟨_, _, _, rfl, rfl, rfl⟩
  have hl := (((l1.append (goes_space (lexes_ident ht.2))).append (goes_space l2)).append (goes_equals (lexes_text h1 h2))).append goes_end
  have hl' : Lexes (renderDelete t i) [.word py"DELETE", .word py"FROM", .ident t, .word py"WHERE", .word py"id", .sym '=', .str i, .sym ';'] := by
    simpa [renderDelete] using hl
  have hid : nameTok (.word py"id") = some py"id" := by decide +kernel
  rw [hl'.read]
  simp [stmt, isKw, nameTok_ident ht.1, hid, literal, show upper py"DELETE" = py"DELETE" from rfl, show upper py"FROM" = py"FROM" from rfl,
    show upper py"WHERE" = py"WHERE" from rfl]

theorem lexes_dropTable {n : Str} (h : Ident n) : Lexes (Op.render (.removeTable n)) [.word py"DROP", .word py"TABLE", .word n, .sym ';'] := by
  have l : Lexes py"DROP TABLE" [.word py"DROP", .word py"TABLE"] := ⟨_, _, _, rfl, rfl, rfl⟩
  have := (l.append (goes_space (lexes_ofWord h.1 h.2))).append goes_end
  simpa [Op.render] using this

theorem read_dropTable {n : Str} (h : Ident n) : readStatement (Op.render (.removeTable n)) = if Sql.bareName n then some (.dropTable n) else none := by
  rw [(lexes_dropTable h).read]
  have : stmt [.word py"DROP", .word py"TABLE", .word n, .sym ';'] = (nameTok (.word n)).map .dropTable := rfl
  rw [this, nameTok]
  split <;> rfl

/-- **C66** (partial): MySQL reads the text of an operation, and reads it as what the operation stands for.  `Op.Sound`
excludes what is refuted below and in C25 and C51. -/
theorem C66_partial (op : Op) (h : op.Sound) : ∃ st, readStatement op.render = some st ∧ op.Means st := by
  cases op with
  | disableChecks => exact ⟨_, by decide +kernel, .disableChecks⟩
  | enableChecks => exact ⟨_, by decide +kernel, .enableChecks⟩
  | createTable t => exact ⟨_, read_create h, .createTable t⟩
  | alter a =>
    obtain ⟨cs, h1, h2⟩ := read_alter h.1 h.2.1 h.2.2
    exact ⟨_, h1, .alter a cs h2⟩
  | removeTable n => exact ⟨_, by rw [read_dropTable h.1, h.2]; rfl, .removeTable n⟩
  | rowInsert t r => exact ⟨_, read_insert h.1 h.2, .rowInsert t r⟩
  | rowUpdate t r =>
    obtain ⟨h1, h2, ⟨v, h3, h4, h5⟩, h6⟩ := h
    exact ⟨_, read_update h1 h3 h4 h5 h2 h6, .rowUpdate t r v h3⟩
  | rowDelete t i => exact ⟨_, read_delete h.1 h.2.1 h.2.2, .rowDelete t i⟩

/-- **C66 is false** of tables whose name is a reserved word: MySQL reads no statement which drops them. -/
theorem C66_dropTable_refuted (n : Str) (h : Ident n) (hr : Sql.bareName n = false) : readStatement (Op.render (.removeTable n)) = none := by
  rw [read_dropTable h, hr]
  rfl

theorem every_none {A B : Type} {f : A → Option B} : ∀ {as : List A} {a : A}, a ∈ as → f a = none → every f as = none
  | b :: as, a, h, ha => by
    rw [every]
    rcases List.mem_cons.mp h with rfl | h
    · rw [ha]
    · cases f b with
      | none => rfl
      | some _ => simp [every_none h ha]

/-- parts of a list which may not be read -/
def Splits (s : Str) (tss : List (List Tok)) : Prop := tss ≠ [] ∧ (∀ ts ∈ tss, Flat ts) ∧ Lexes s (commas tss)

theorem Reads.splits {B : Type} {f : List Tok → Option B} {s : Str} {bs : List B} (h : Reads f s bs) : ∃ tss, Splits s tss := by
  obtain ⟨tss, h1, h2, h3, _⟩ := h
  exact ⟨tss, h1, h2, h3⟩

theorem Splits.append {a b : Str} {ta tb : List (List Tok)} (ha : Splits a ta) (hb : Splits b tb) : Splits (a ++ py", " ++ b) (ta ++ tb) := by
  obtain ⟨a1, a2, a3⟩ := ha
  obtain ⟨b1, b2, b3⟩ := hb
  refine ⟨by simp [a1], ?_, ?_⟩
  · intro ts h
    rcases List.mem_append.mp h with h | h
    · exact a2 ts h
    · exact b2 ts h
  · rw [commas_append a1 b1, List.append_assoc]
    exact a3.append (goes_comma (lexes_nil.append (goes_space b3)))

theorem splits_join {A : Type} (g : A → Str) {x : A} {ts : List Tok} (hx : Splits (g x) [ts]) : ∀ {as : List A}, as ≠ [] →
    (∀ a ∈ as, ∃ tss, Splits (g a) tss) → ∃ tss, Splits (join py", " (as.map g)) tss ∧ (x ∈ as → ts ∈ tss)
  | [], h, _ => absurd rfl h
  | [a], _, h => by
    by_cases hxa : x = a
    · subst hxa
      exact ⟨[ts], hx, fun _ => List.mem_cons_self⟩
    · obtain ⟨tss, ht⟩ := h a List.mem_cons_self
      exact ⟨tss, ht, fun hm => absurd (List.mem_singleton.mp hm) hxa⟩
  | a :: b :: as, _, h => by
    obtain ⟨tb, hb, hm⟩ := splits_join g hx (as := b :: as) (by simp) (fun y hy => h y (List.mem_cons_of_mem _ hy))
    have : ∃ ta, Splits (g a) ta ∧ (x = a → ts ∈ ta) := by
      by_cases hxa : x = a
      · subst hxa
        exact ⟨[ts], hx, fun _ => List.mem_cons_self⟩
      · obtain ⟨ta, ha⟩ := h a List.mem_cons_self
        exact ⟨ta, ha, fun e => absurd e hxa⟩
    obtain ⟨ta, ha, hma⟩ := this
    refine ⟨ta ++ tb, by simpa [join] using ha.append hb, ?_⟩
    intro hx
    rcases List.mem_cons.mp hx with e | hx
    · exact List.mem_append.mpr (.inl (hma e))
    · exact List.mem_append.mpr (.inr (hm hx))

/-- **C66 is false** of columns whose name is a reserved word: MySQL reads no statement in which they are dropped, whatever
else there is in it. -/
theorem C66_dropColumn_refuted (a : Alter) (c : Column) (ht : Ident a.table) (hc : .removeColumn c ∈ a.ops) (hn : Ident c.name)
    (hr : Sql.bareName c.name = false) (hrest : ∀ o ∈ a.ops, (∃ d, o = .removeColumn d ∧ Ident d.name) ∨ o.Sound) : readStatement (Op.render (.alter a)) = none := by
  have hx' : ∀ d : Column, Ident d.name → Splits (AlterOp.removeColumn d).render [[.word py"DROP", .word d.name]] := by
    intro d hn
    refine ⟨by simp, ?_, ?_⟩
    · intro ts h
      rw [List.mem_singleton.mp h]
      exact flat_noSym (noSym_cons (by simp) (noSym_cons (by simp) noSym_nil))
    · exact lexes_drop.append (goes_space (lexes_ofWord hn.1 hn.2))
  have hx := hx' c hn
  have hall : ∀ o ∈ a.ops, ∃ tss, Splits o.render tss := by
    intro o ho
    rcases hrest o ho with ⟨d, rfl, hd⟩ | h
    · exact ⟨_, hx' d hd⟩
    · obtain ⟨cs, h1, _⟩ := reads_op h
      exact h1.splits
  obtain ⟨tss, ⟨h1, h2, h3⟩, h4⟩ := splits_join AlterOp.render hx (List.ne_nil_of_mem hc) hall
  have l : Lexes py"ALTER TABLE" [.word py"ALTER", .word py"TABLE"] := ⟨_, _, _, rfl, rfl, rfl⟩
  have hl := (l.append (goes_space (lexes_ident (ident_noTick ht)))).append ((goes_space h3).append goes_end)
  have hl' : Lexes (Op.render (.alter a)) ([.word py"ALTER", .word py"TABLE", .ident a.table] ++ (commas tss ++ [.sym ';'])) := by
    simpa [Alter.render, Op.render] using hl
  rw [hl'.read]
  have hp := parts_commas h1 h2 (c := ';') (.inl rfl) []
  have hcl : clause [.word py"DROP", .word c.name] = none := by
    have : clause [.word py"DROP", .word c.name] = (nameTok (.word c.name)).map .dropColumn := rfl
    rw [this, nameTok, hr]
    rfl
  have he := every_none (h4 hc) hcl
  simp [stmt, isKw, hp, nameTok_ident ht.1, he, show upper py"ALTER" = py"ALTER" from rfl, show upper py"TABLE" = py"TABLE" from rfl]

/-! ## The statements of a plan -/

/-- A table of the database: its names are words, and its keys and foreign keys are plain.  Nothing is said about the columns. -/
structure Table.Named (t : Table) : Prop where
  name : Ident t.name
  columns : ∀ c ∈ t.columns.values, Ident c.name
  indexes : ∀ i ∈ t.indexes.values, i.Plain
  constraints : ∀ k ∈ t.constraints.values, k.Plain

theorem values_of_get? {V : Type} {d : Dict V} {k : Str} {v : V} (h : d.get? k = some v) : v ∈ d.values := Dict.mem_values.mpr ⟨k, Dict.mem_of_get? h⟩

theorem columnBefore_mem {t : Table} {n a : Str} (h : t.columnBefore n = .ok (.after a)) : a ∈ t.columns.keys := by
  have aux : ∀ (ks : List Str) (prev : Option Str) (p : Pos), columnBeforeAux n prev ks = some p → p = .after a → prev = some a ∨ a ∈ ks := by
    intro ks
    induction ks with
    | nil => intro prev p h; cases h
    | cons k ks ih =>
      intro prev p h hp
      rw [columnBeforeAux.eq_def] at h
      dsimp only at h
      split at h
      · cases prev with
        | none => simp at h; rw [← h] at hp; cases hp
        | some q =>
          simp at h
          rw [← h] at hp
          cases hp
          exact .inl rfl
      · rcases ih _ _ h hp with h | h
        · cases h
          exact .inr List.mem_cons_self
        · exact .inr (List.mem_cons_of_mem _ h)
  unfold columnBefore at h
  split at h
  · rename_i p hp
    cases h
    rcases aux _ _ _ hp rfl with h | h
    · cases h
    · exact h
  · cases h

theorem addedColumnOps_sound {t : Table} (hk : t.Keyed) (h : t.Sound) : ∀ {ks : List Str} {ops : List AlterOp}, addedColumnOps t ks = .ok ops → ∀ o ∈ ops, o.Sound := by
  intro ks
  induction ks with
  | nil => intro ops h; cases h; intro o ho; cases ho
  | cons k ks ih =>
    intro ops ho
    simp only [addedColumnOps] at ho
    cases hc : t.columns.get? k with
    | none => simp [hc] at ho
    | some c =>
      simp only [hc] at ho
      cases hb : t.columnBefore k with
      | error e => simp [hb] at ho
      | ok p =>
        simp only [hb] at ho
        cases hr : addedColumnOps t ks with
        | error e => simp [hr, Except.map] at ho
        | ok l =>
          simp only [hr, Except.map, Except.ok.injEq] at ho
          intro o hm
          rw [← ho] at hm
          rcases List.mem_cons.mp hm with rfl | hm
          · refine ⟨(h.columns c (values_of_get? hc)).1, (h.columns c (values_of_get? hc)).2, ?_⟩
            intro a ha
            subst ha
            obtain ⟨d, hd⟩ := Dict.exists_get? (columnBefore_mem hb)
            have := (h.columns d (values_of_get? hd)).1.plain.name
            rwa [hk.colName a d (Dict.mem_of_get? hd)] at this
          · exact ih hr o hm

theorem changedColumnOps_sound [PyNum] {s t : Table} (h : t.Sound) : ∀ {ks : List Str} {ops : List AlterOp}, changedColumnOps s t ks = .ok ops → ∀ o ∈ ops, o.Sound := by
  intro ks
  induction ks with
  | nil => intro ops h; cases h; intro o ho; cases ho
  | cons k ks ih =>
    intro ops ho
    simp only [changedColumnOps] at ho
    cases ha : s.columns.get? k with
    | none => simp [ha] at ho
    | some a =>
      cases hb : t.columns.get? k with
      | none => simp [ha, hb] at ho
      | some b =>
        simp only [ha, hb] at ho
        split at ho
        · exact ih ho
        · split at ho
          · cases ho
          · exact ih ho
          · cases hr : changedColumnOps s t ks with
            | error e => simp [hr, Except.map] at ho
            | ok l =>
              simp only [hr, Except.map, Except.ok.injEq] at ho
              intro o hm
              rw [← ho] at hm
              rcases List.mem_cons.mp hm with rfl | hm
              · exact h.columns b (values_of_get? hb)
              · exact ih hr o hm

theorem keyOps_sound {s t : Table} (hs : s.Named) (ht : t.Sound) : ∀ o ∈ keyOps s t, o.Sound := by
  intro o ho
  simp only [keyOps, List.mem_append, List.mem_filterMap, Option.map_eq_some_iff] at ho
  rcases ho with (⟨k, _, i, hi, rfl⟩ | ⟨k, _, i, hi, rfl⟩) | ⟨k, _, h⟩
  · exact ht.indexes i (values_of_get? hi)
  · exact hs.indexes i (values_of_get? hi)
  · split at h
    · rename_i a b ha hb
      split at h
      · cases h
      · split at h
        · cases h
        · cases h
          exact ht.indexes b (values_of_get? hb)
    · cases h

/-- what the diff of a table is made of -/
theorem toSplit_sound [PyNum] {s t : Table} {d : Diff} (hk : t.Keyed) (hsk : s.Keyed) (hs : s.Named) (ht : t.Sound)
    (hd : ∀ c ∈ removed s.columns t.columns, Sql.bareName c = true) (h : s.toSplit t = .ok d) :
    (∀ o ∈ d.removedFks, o.Sound) ∧ (∀ o ∈ d.kitchenSink, o.Sound) ∧ (∀ o ∈ d.fks, o.Sound) := by
  simp only [toSplit] at h
  cases ha : addedColumnOps t (added s.columns t.columns) with
  | error e => simp [ha] at h
  | ok adds =>
    simp only [ha] at h
    cases hc : changedColumnOps s t (overlap s.columns t.columns) with
    | error e => simp [hc] at h
    | ok changes =>
      simp only [hc, Except.ok.injEq] at h
      subst h
      refine ⟨?_, ?_, ?_⟩
      · intro o ho
        simp only [removedFkOps, List.mem_filterMap, Option.map_eq_some_iff] at ho
        obtain ⟨k, _, x, hx, rfl⟩ := ho
        exact hs.constraints x (values_of_get? hx)
      · intro o ho
        simp only [List.mem_append] at ho
        rcases ho with ((ho | ho) | ho) | ho
        · exact addedColumnOps_sound hk ht ha o ho
        · exact changedColumnOps_sound ht hc o ho
        · simp only [removedColumnOps, List.mem_filterMap, Option.map_eq_some_iff] at ho
          obtain ⟨k, hk, c, hc, rfl⟩ := ho
          refine ⟨hs.columns c (values_of_get? hc), ?_⟩
          rw [hsk.colName k c (Dict.mem_of_get? hc)]
          exact hd k hk
        · exact keyOps_sound hs ht o ho
      · intro o ho
        simp only [addedFkOps, List.mem_filterMap, Option.map_eq_some_iff] at ho
        obtain ⟨k, _, x, hx, rfl⟩ := ho
        exact ht.constraints x (values_of_get? hx)

theorem alterIf_sound {n : Str} {ops : List AlterOp} (hn : Ident n) (h : ∀ o ∈ ops, o.Sound) : ∀ a ∈ alterIf n ops, (Op.alter a).Sound := by
  intro a ha
  unfold alterIf at ha
  split at ha
  · cases ha
  · rename_i hne
    rw [List.mem_singleton.mp ha]
    exact ⟨hn, hne, h⟩

theorem stripCycled_sound {cyc : List (Str × Str)} {n : Str} {ops : List AlterOp} (h : ∀ o ∈ ops, o.Sound) :
    ∀ o ∈ Mygration.stripCycled cyc n ops, o.Sound := fun o ho => h o (List.mem_filter.mp ho).1

theorem groupAlters_sound {l : List (Str × AlterOp)} (h : ∀ e ∈ l, Ident e.1 ∧ e.2.Sound) : ∀ a ∈ Mygration.groupAlters l, (Op.alter a).Sound := by
  intro a ha
  have hops := Mygration.mem_groupAlters ha
  have ht : a.table ∈ l.map Prod.fst := by
    rw [← Mygration.mem_groups_keys, ← Mygration.groupAlters_tables]
    exact List.mem_map_of_mem ha
  obtain ⟨e, he, hea⟩ := List.mem_map.mp ht
  refine ⟨hea ▸ (h e he).1, ?_, ?_⟩
  · rw [hops]
    have : e.2 ∈ (l.filter (fun e => e.1 = a.table)).map Prod.snd := List.mem_map_of_mem (List.mem_filter.mpr ⟨he, by simpa using hea⟩)
    exact List.ne_nil_of_mem this
  · intro o ho
    rw [hops] at ho
    obtain ⟨x, hx, rfl⟩ := List.mem_map.mp ho
    exact (h x (List.mem_filter.mp hx).1).2

/-- **C66** (partial), for plans: if the declared tables are sound, and no table or column whose name is a reserved word has
to be dropped, then every statement of the plan is read by MySQL as the operation which was planned. -/
theorem C66_plan_partial [PyNum] (t : Dict Table) (from? : Option (Dict Table)) (checks : Bool) (ops : List Op)
    (ht : KeyedTables t) (hf : KeyedTables (from?.getD [])) (hts : ∀ x ∈ t.values, x.Sound) (hfs : ∀ x ∈ (from?.getD []).values, x.Named)
    (htables : ∀ n ∈ (from?.getD []).keys, n ∉ t.keys → Sql.bareName n = true)
    (hcolumns : ∀ n a b, (from?.getD []).get? n = some a → t.get? n = some b → ∀ c ∈ a.columns.keys, c ∉ b.columns.keys → Sql.bareName c = true)
    (h : Mygration.process t from? checks = .ok ops) : ∀ op ∈ ops, ∃ st, readStatement op.render = some st ∧ op.Means st := by
  intro op hop
  apply C66_partial
  obtain ⟨hops, hdiff⟩ := Mygration.process_eq hf h
  have hnf : ∀ n a, (n, a) ∈ from?.getD [] → Ident n ∧ a.Named := by
    intro n a hna
    have := hfs a (Dict.mem_values.mpr ⟨n, hna⟩)
    exact ⟨hf.name n a hna ▸ this.name, this⟩
  have hcyc : ∀ x ∈ Mygration.cycles from? t, ∃ f, from? = some f ∧ Mygration.CycleOk f t x := by
    intro x hx
    cases from? with
    | none => cases hx
    | some f => exact ⟨f, rfl, Mygration.cycleOk hf ht hx⟩
  have hnow : ∀ n ∈ overlap (from?.getD []) t, Ident n ∧ (∀ o ∈ (Mygration.diffOf (from?.getD []) t n).removedFks, o.Sound) ∧
      (∀ o ∈ (Mygration.diffOf (from?.getD []) t n).kitchenSink, o.Sound) ∧ (∀ o ∈ (Mygration.diffOf (from?.getD []) t n).fks, o.Sound) := by
    intro n hn
    obtain ⟨a, b, ha, hb, hab⟩ := hdiff n hn
    have h1 := hnf n a (Dict.mem_of_get? ha)
    refine ⟨h1.1, ?_⟩
    refine toSplit_sound (ht.keyed n b (Dict.mem_of_get? hb)) (hf.keyed n a (Dict.mem_of_get? ha)) h1.2 (hts b (values_of_get? hb)) ?_ hab
    intro c hc
    have hc := List.mem_filter.mp hc
    exact hcolumns n a b ha hb c hc.1 (by simpa [← Dict.has_iff] using hc.2)
  rw [hops] at hop
  simp only [List.mem_append] at hop
  rcases hop with ((((((hop | hop) | hop) | hop) | hop) | hop) | hop) | hop
  · split at hop
    · rw [List.mem_singleton.mp hop]; trivial
    · cases hop
  · simp only [List.mem_filterMap, Option.map_eq_some_iff] at hop
    obtain ⟨n, _, x, hx, rfl⟩ := hop
    exact hts x (values_of_get? hx)
  · obtain ⟨a, ha, rfl⟩ := List.mem_map.mp hop
    refine groupAlters_sound ?_ a ha
    intro e he
    obtain ⟨x, hx, rfl⟩ := List.mem_map.mp he
    obtain ⟨f, hfe, hok⟩ := hcyc x hx
    subst hfe
    obtain ⟨s, h1, h2⟩ := hok.source
    have := hnf _ s (Dict.mem_of_get? h1)
    exact ⟨this.1, this.2.constraints _ (values_of_get? h2)⟩
  · obtain ⟨a, ha, rfl⟩ := List.mem_map.mp hop
    obtain ⟨n, hn, ha⟩ := List.mem_flatMap.mp ha
    obtain ⟨h1, h2, h3, h4⟩ := hnow n hn
    rcases List.mem_append.mp ha with ha | ha
    · exact alterIf_sound h1 (stripCycled_sound h2) a ha
    · exact alterIf_sound h1 h3 a ha
  · obtain ⟨a, ha, rfl⟩ := List.mem_map.mp hop
    obtain ⟨n, hn, ha⟩ := List.mem_flatMap.mp ha
    obtain ⟨h1, h2, h3, h4⟩ := hnow n hn
    exact alterIf_sound h1 (stripCycled_sound h4) a ha
  · obtain ⟨a, ha, rfl⟩ := List.mem_map.mp hop
    refine groupAlters_sound ?_ a ha
    intro e he
    obtain ⟨x, hx, k, n, hk, rfl, _⟩ := Mygration.mem_cycleAdds he
    obtain ⟨f, hfe, hok⟩ := hcyc x hx
    subst hfe
    obtain ⟨s, h1, _⟩ := hok.source
    refine ⟨(hnf _ s (Dict.mem_of_get? h1)).1, ?_⟩
    rcases hok.target with ⟨h2, _⟩ | ⟨d, k', h2, h3, h4, _⟩
    · rw [h2] at hk; cases hk
    · rw [h3] at hk
      cases hk
      exact (hts d (values_of_get? h2)).constraints _ (values_of_get? h4)
  · obtain ⟨n, hn, rfl⟩ := List.mem_map.mp hop
    have hn := List.mem_filter.mp hn
    obtain ⟨a, ha⟩ := Dict.exists_get? hn.1
    exact ⟨(hnf n a (Dict.mem_of_get? ha)).1, htables n hn.1 (by simpa [← Dict.has_iff] using hn.2)⟩
  · split at hop
    · rw [List.mem_singleton.mp hop]; trivial
    · cases hop

/-- **C66** (partial), for the rows: the names can be put in backticks, and the ids and the values of rows which are already in
the database contain no quotes (and the ids no backslashes). -/
theorem C66_rows_partial (t : Dict Table) (from? : Option (Dict Table)) (ops : List Op) (ht : KeyedTables t)
    (hname : ∀ x ∈ t.values, x.tracking = true → x.name ≠ [] ∧ '`' ∉ x.name)
    (hnew : ∀ x ∈ t.values, x.tracking = true → ∀ new, x.rows = some new → RowsKeyed new ∧ ∀ i r, new.get? i = some r → ∀ c ∈ Dict.keys r, c ≠ [] ∧ '`' ∉ c)
    (hold : ∀ x ∈ t.values, x.tracking = true → RowsKeyed (oldRows ((from?.getD []).get? x.name)) ∧ ∀ i ∈ (oldRows ((from?.getD []).get? x.name)).keys, '\'' ∉ i ∧ '\\' ∉ i)
    (hvalues : ∀ x ∈ t.values, x.tracking = true → ∀ new, x.rows = some new → ∀ i ∈ (oldRows ((from?.getD []).get? x.name)).keys, ∀ r, new.get? i = some r →
      ∀ c v s, (c, v) ∈ r → v.cell = some s → '\'' ∉ s)
    (h : RowMygration.process t from? = .ok ops) : ∀ op ∈ ops, ∃ st, readStatement op.render = some st ∧ op.Means st := by
  intro op hop
  apply C66_partial
  have hm : ∀ x ∈ t.values.filter Table.tracking, x ∈ t.values := fun x hx => (List.mem_filter.mp hx).1
  obtain ⟨h1, h2⟩ := processLoop_eq ht hm h
  rw [h1] at hop
  obtain ⟨x, hx, hop⟩ := List.mem_flatMap.mp hop
  have hxt := hm x hx
  have htr := (List.mem_filter.mp hx).2
  obtain ⟨new, hnr⟩ := Option.isSome_iff_exists.mp (h2 x hx)
  rw [hnr, Option.getD_some] at hop
  obtain ⟨hk, hcols⟩ := hnew x hxt htr new hnr
  obtain ⟨hok, hids⟩ := hold x hxt htr
  generalize hold' : oldRows ((from?.getD []).get? x.name) = old at hop hok hids
  unfold rowOps at hop
  simp only [List.mem_append, List.mem_filterMap, Option.map_eq_some_iff, List.mem_map] at hop
  rcases hop with (⟨k, _, r, hr, rfl⟩ | ⟨k, hk, rfl⟩) | ⟨k, hkm, hop⟩
  · refine ⟨⟨hname x hxt htr, hcols k r hr⟩, ?_⟩
    have := (hk.id k r (Dict.mem_of_get? hr)).2
    intro e
    subst e
    cases this
  · exact ⟨hname x hxt htr, hids k (List.mem_filter.mp hk).1⟩
  · split at hop
    · rename_i n o hn ho
      split at hop
      · rename_i hd
        cases hop
        have hid := (hk.id k n (Dict.mem_of_get? hn)).2
        have hido := (hok.id k o (Dict.mem_of_get? ho)).2
        have hko := Dict.mem_keys_of_get? ho
        refine ⟨⟨hname x hxt htr, hcols k n hn⟩, ?_, ⟨.str k, hid, hids k hko⟩, ?_⟩
        · obtain ⟨c, a, b, h1, h2, h3⟩ := rowDiffers_iff.mp hd
          refine ⟨c, Dict.mem_keys_of_get? h1, ?_⟩
          intro e
          subst e
          rw [hid] at h1
          rw [hido] at h2
          cases h1
          cases h2
          rw [looseEqual_refl] at h3
          cases h3
        · exact hvalues x hxt htr new hnr k (by rw [hold']; exact hko) n hn
      · cases hop
    · cases hop

/-- **C66 is false** of plans which drop a table whose name is a reserved word: there is a statement which MySQL cannot read. -/
theorem C66_plan_refuted [PyNum] (t : Dict Table) (from? : Option (Dict Table)) (checks : Bool) (ops : List Op) (hf : KeyedTables (from?.getD []))
    (n : Str) (hn : n ∈ (from?.getD []).keys) (hgone : n ∉ t.keys) (hi : Ident n) (hr : Sql.bareName n = false)
    (h : Mygration.process t from? checks = .ok ops) : .removeTable n ∈ ops ∧ readStatement (Op.render (.removeTable n)) = none := by
  refine ⟨?_, C66_dropTable_refuted n hi hr⟩
  obtain ⟨hops, _⟩ := Mygration.process_eq hf h
  rw [hops]
  simp only [List.mem_append]
  refine .inl (.inr (List.mem_map.mpr ⟨n, List.mem_filter.mpr ⟨hn, ?_⟩, rfl⟩))
  simpa using Dict.has_eq_false.mpr hgone

/-- what there is in the statement which changes a table -/
theorem kitchenSink_names [PyNum] {s t : Table} {d : Diff} (hk : t.Keyed) (hs : s.Named) (ht : t.Sound) (h : s.toSplit t = .ok d) :
    (∀ o ∈ d.kitchenSink, (∃ c, o = .removeColumn c ∧ Ident c.name) ∨ o.Sound) ∧
    ∀ k ∈ s.columns.keys, k ∉ t.columns.keys → ∃ c, s.columns.get? k = some c ∧ .removeColumn c ∈ d.kitchenSink := by
  simp only [toSplit] at h
  cases ha : addedColumnOps t (added s.columns t.columns) with
  | error e => simp [ha] at h
  | ok adds =>
    simp only [ha] at h
    cases hc : changedColumnOps s t (overlap s.columns t.columns) with
    | error e => simp [hc] at h
    | ok changes =>
      simp only [hc, Except.ok.injEq] at h
      subst h
      refine ⟨?_, ?_⟩
      · intro o ho
        simp only [List.mem_append] at ho
        rcases ho with ((ho | ho) | ho) | ho
        · exact .inr (addedColumnOps_sound hk ht ha o ho)
        · exact .inr (changedColumnOps_sound ht hc o ho)
        · simp only [removedColumnOps, List.mem_filterMap, Option.map_eq_some_iff] at ho
          obtain ⟨k, hk, c, hc, rfl⟩ := ho
          exact .inl ⟨c, rfl, hs.columns c (values_of_get? hc)⟩
        · exact .inr (keyOps_sound hs ht o ho)
      · intro k hks hkt
        obtain ⟨c, hc⟩ := Dict.exists_get? hks
        refine ⟨c, hc, ?_⟩
        simp only [List.mem_append, removedColumnOps, List.mem_filterMap, Option.map_eq_some_iff]
        exact .inl (.inr ⟨k, mem_removed.mpr ⟨hks, hkt⟩, c, hc, rfl⟩)

/-- **C66 is false** of plans which drop a column whose name is a reserved word: there is a statement which MySQL cannot read. -/
theorem C66_plan_column_refuted [PyNum] (t : Dict Table) (from? : Option (Dict Table)) (checks : Bool) (ops : List Op)
    (ht : KeyedTables t) (hf : KeyedTables (from?.getD [])) (hts : ∀ x ∈ t.values, x.Sound) (hfs : ∀ x ∈ (from?.getD []).values, x.Named)
    (n : Str) (a b : Table) (ha : (from?.getD []).get? n = some a) (hb : t.get? n = some b) (k : Str) (hk : k ∈ a.columns.keys) (hgone : k ∉ b.columns.keys)
    (hr : Sql.bareName k = false) (h : Mygration.process t from? checks = .ok ops) : ∃ op ∈ ops, readStatement op.render = none := by
  obtain ⟨hops, hdiff⟩ := Mygration.process_eq hf h
  have hn : n ∈ overlap (from?.getD []) t := mem_overlap.mpr ⟨Dict.mem_keys_of_get? ha, Dict.mem_keys_of_get? hb⟩
  obtain ⟨a', b', ha', hb', hab⟩ := hdiff n hn
  rw [ha] at ha'
  rw [hb] at hb'
  cases ha'
  cases hb'
  have hna := hfs a (values_of_get? ha)
  obtain ⟨h1, h2⟩ := kitchenSink_names (ht.keyed n b (Dict.mem_of_get? hb)) hna (hts b (values_of_get? hb)) hab
  obtain ⟨c, hc, hm⟩ := h2 k hk hgone
  have hcn : c.name = k := (hf.keyed n a (Dict.mem_of_get? ha)).colName k c (Dict.mem_of_get? hc)
  refine ⟨.alter ⟨n, (Mygration.diffOf (from?.getD []) t n).kitchenSink⟩, ?_, ?_⟩
  · rw [hops]
    simp only [List.mem_append, List.mem_map, List.mem_flatMap]
    refine .inl (.inl (.inl (.inl (.inr ⟨_, ⟨n, hn, ?_⟩, rfl⟩))))
    unfold Mygration.nowOf
    refine List.mem_append.mpr (.inr ?_)
    unfold alterIf
    rw [if_neg (List.ne_nil_of_mem hm)]
    exact List.mem_singleton.mpr rfl
  · exact C66_dropColumn_refuted _ c (hf.name n a (Dict.mem_of_get? ha) ▸ hna.name) hm (hna.columns c (values_of_get? hc)) (by rw [hcn]; exact hr) h1

/-- **C66, exactly, for plans** between tables which MySQL can read: it reads every statement of the plan as what was planned if and only if no
table and no column whose name is a reserved word has to be dropped. -/
theorem C66_plan_iff [PyNum] (t : Dict Table) (from? : Option (Dict Table)) (checks : Bool) (ops : List Op)
    (ht : KeyedTables t) (hf : KeyedTables (from?.getD [])) (hts : ∀ x ∈ t.values, x.Sound) (hfs : ∀ x ∈ (from?.getD []).values, x.Named)
    (h : Mygration.process t from? checks = .ok ops) :
    (∀ op ∈ ops, ∃ st, readStatement op.render = some st ∧ op.Means st) ↔
      (∀ n ∈ (from?.getD []).keys, n ∉ t.keys → Sql.bareName n = true) ∧
      ∀ n a b, (from?.getD []).get? n = some a → t.get? n = some b → ∀ c ∈ a.columns.keys, c ∉ b.columns.keys → Sql.bareName c = true := by
  constructor
  · intro hall
    refine ⟨?_, ?_⟩
    · intro n hn hgone
      cases hr : Sql.bareName n with
      | true => rfl
      | false =>
        exfalso
        obtain ⟨a, ha⟩ := Dict.exists_get? hn
        have hi : Ident n := hf.name n a (Dict.mem_of_get? ha) ▸ (hfs a (values_of_get? ha)).name
        obtain ⟨h1, h2⟩ := C66_plan_refuted t from? checks ops hf n hn hgone hi hr h
        obtain ⟨st, h3, _⟩ := hall _ h1
        rw [h2] at h3
        cases h3
    · intro n a b ha hb c hc hgone
      cases hr : Sql.bareName c with
      | true => rfl
      | false =>
        exfalso
        obtain ⟨op, h1, h2⟩ := C66_plan_column_refuted t from? checks ops ht hf hts hfs n a b ha hb c hc hgone hr h
        obtain ⟨st, h3, _⟩ := hall _ h1
        rw [h2] at h3
        cases h3
  · rintro ⟨h1, h2⟩
    exact C66_plan_partial t from? checks ops ht hf hts hfs h1 h2 h

namespace Examples

/-- A simple kind of sound columns, for the examples. -/
def easy (c : Column) : Bool :=
  decide (Ident c.name) && (plainTypes c.cls).contains c.columnType && c.enumValues == none &&
  (match c.len with
   | .str d => decide (Digits d) && !hasChar ',' d && (splitOn ',' d).length == 1
   | _ => false) &&
  (match typeNumbers.get? c.columnType with
   | some counts => counts.contains 1
   | none => false) &&
  (match c.default with
   | some v => decide (Bare v) && !v.contains ' ' && !v.contains '\\'
   | none => true) &&
  (c.cls == .numeric || (!c.isUnsigned && !c.isAutoInc)) && (!c.isUnsigned || unsignedTypes.contains c.columnType) &&
  c.characterSet == none && c.collate == none

theorem sound_of_easy {c : Column} (h : easy c = true) : c.Sound ∧ c.CharsetLast := by
  unfold easy at h
  simp only [Bool.and_eq_true, decide_eq_true_eq, beq_iff_eq, List.contains_iff_mem, Bool.or_eq_true, Bool.not_eq_true'] at h
  obtain ⟨⟨⟨⟨⟨⟨⟨⟨⟨h1, h2⟩, h3⟩, h4⟩, h5⟩, h6⟩, h7⟩, h8⟩, h9⟩, h10⟩ := h
  cases hl : c.len with
  | str d =>
    simp only [hl, Bool.and_eq_true, decide_eq_true_eq, Bool.not_eq_true', beq_iff_eq] at h4
    refine ⟨⟨⟨h1, h2, h3, ⟨d, by rw [hl]; exact .one h4.1.1, by rw [h4.1.2]; nofun, ?_⟩, ?_, by rw [h9]; nofun, by rw [h10]; nofun⟩, ?_, ?_,
      by rw [h9]; nofun, by rw [h10]; nofun, ?_⟩, fun h => absurd h9 h⟩
    · intro v hv
      simp only [hv, Bool.and_eq_true, decide_eq_true_eq, Bool.not_eq_true'] at h6
      refine ⟨.inl ⟨h6.1.1, ?_⟩, by rw [h6.1.2]; nofun⟩
      intro hd
      cases d with
      | nil => exact absurd rfl h4.1.1.1
      | cons _ _ => cases hd
    · intro hc
      exact h7.resolve_left hc
    · cases ht : typeNumbers.get? c.columnType with
      | none => simp [ht] at h5
      | some counts =>
        simp only [ht] at h5
        refine ⟨counts, rfl, ?_⟩
        cases d with
        | nil => exact absurd rfl h4.1.1.1
        | cons x d => rw [hl, Len.numbers, h4.2]; exact List.contains_iff_mem.mp h5
    · intro hu
      rcases h8 with h | h
      · rw [h] at hu; cases hu
      · exact h
    · intro v hv
      simp only [hv, Bool.and_eq_true, decide_eq_true_eq, Bool.not_eq_true'] at h6
      intro hm
      have := List.contains_iff_mem.mpr hm
      rw [h6.2] at this
      cases this
  | _ => simp [hl] at h4

/-- keys and foreign keys for the examples -/
def easyTable (t : Table) : Bool :=
  decide (Ident t.name) && t.columns.values.all easy && !t.columns.isEmpty && t.options.isEmpty &&
  t.indexes.values.all (fun i => decide (i.columns ≠ []) && i.columns.all (fun c => decide (Ident c)) &&
    ((i.indexType == py"PRIMARY" && i.rawName == []) || (i.indexType == py"INDEX" && decide (Ident i.rawName)))) &&
  t.constraints.values.all (fun k => decide (Ident k.name) && decide (Ident k.column) && decide (Ident k.ftable) && decide (Ident k.fcolumn) &&
    fkActions.contains k.onDelete && fkActions.contains k.onUpdate)

theorem sound_of_easyTable {t : Table} (h : easyTable t = true) : t.Sound ∧ t.Named := by
  unfold easyTable at h
  simp only [Bool.and_eq_true, decide_eq_true_eq, List.all_eq_true, Bool.or_eq_true, beq_iff_eq, List.contains_iff_mem] at h
  obtain ⟨⟨⟨⟨⟨h1, h2⟩, h3⟩, h4⟩, h5⟩, h6⟩ := h
  have hi : ∀ i ∈ t.indexes.values, i.Plain := by
    intro i hi
    obtain ⟨⟨a, b⟩, c⟩ := h5 i hi
    refine ⟨⟨a, b⟩, ?_⟩
    rcases c with c | c
    · exact .inl c
    · exact .inr (.inr c)
  have hk : ∀ k ∈ t.constraints.values, k.Plain := by
    intro k hk
    obtain ⟨⟨⟨⟨⟨a, b⟩, c⟩, d⟩, e⟩, f⟩ := h6 k hk
    exact ⟨a, b, c, d, e, f⟩
  refine ⟨⟨h1, ?_, fun c hc => sound_of_easy (h2 c hc), hi, hk, ?_⟩, ⟨h1, fun c hc => (sound_of_easy (h2 c hc)).1.plain.name, hi, hk⟩⟩
  · intro e
    rw [e] at h3
    cases h3
  · intro o ho
    rw [List.isEmpty_iff.mp h4] at ho
    cases ho

attribute [local instance] exactNum

/-- a plan with every kind of structural statement -/
example : ∀ op ∈ livePlan, ∃ st, readStatement op.render = some st ∧ op.Means st := by
  refine C66_plan_partial declared (some live) true livePlan declared_keyed live_keyed ?_ ?_ (by decide +kernel) ?_ livePlan_ok
  · have : ∀ x ∈ declared.values, easyTable x = true := by decide +kernel
    exact fun x hx => (sound_of_easyTable (this x hx)).1
  · have : ∀ x ∈ live.values, easyTable x = true := by decide +kernel
    exact fun x hx => (sound_of_easyTable (this x hx)).2
  · have : ∀ x ∈ live, ∀ c ∈ x.2.columns.keys, Sql.bareName c = true := by decide +kernel
    intro n a b ha _ c hc _
    exact this (n, a) (Dict.mem_of_get? ha) c hc

example : livePlan.map Op.render = [
    py"SET FOREIGN_KEY_CHECKS=0;",
    py"CREATE TABLE `tags` (`id` INT(10) UNSIGNED NOT NULL AUTO_INCREMENT,\n`tag` VARCHAR(20) NOT NULL DEFAULT '',\nPRIMARY KEY (`id`));",
    py"ALTER TABLE `comments` DROP FOREIGN KEY `comments_user_fk`;",
    py"ALTER TABLE `users` CHANGE `id` `id` BIGINT(10) UNSIGNED NOT NULL AUTO_INCREMENT;",
    py"ALTER TABLE `comments` CHANGE `user_id` `user_id` BIGINT(10) UNSIGNED;",
    py"ALTER TABLE `comments` ADD CONSTRAINT `comments_user_fk` FOREIGN KEY (`user_id`) REFERENCES `users` (`id`) ON DELETE RESTRICT ON UPDATE RESTRICT;",
    py"DROP TABLE old;",
    py"SET FOREIGN_KEY_CHECKS=1;"] := by decide +kernel

/-- a table called `groups` is to be dropped -/
example : ∃ ops, Mygration.process declared (some (db [mk py"groups" [idCol] [pk] []])) true = .ok ops ∧ .removeTable py"groups" ∈ ops ∧
    readStatement (Op.render (.removeTable py"groups")) = none := by
  have hok : ∃ ops, Mygration.process declared (some (db [mk py"groups" [idCol] [pk] []])) true = .ok ops := by
    refine ⟨_, rfl⟩
  obtain ⟨ops, h⟩ := hok
  refine ⟨ops, h, C66_plan_refuted declared (some (db [mk py"groups" [idCol] [pk] []])) true ops
    (keyedTables_of_check (by decide) (by decide)) py"groups" (by decide) (by decide) (by decide) (by decide +kernel) h⟩

/-- the column `order` is dropped, and another one is added -/
example : readStatement (Op.render (.alter ⟨py"posts", [.addColumn (intCol py"position") .last, .removeColumn (intCol py"order")]⟩)) = none :=
  C66_dropColumn_refuted _ (intCol py"order") (by decide) (by simp) (by decide) (by decide +kernel) (by
    intro o ho
    simp only [List.mem_cons, List.not_mem_nil, or_false] at ho
    rcases ho with rfl | rfl
    · exact .inr ⟨(sound_of_easy (by decide +kernel)).1, (sound_of_easy (by decide +kernel)).2, nofun⟩
    · exact .inl ⟨_, rfl, by decide⟩)

/-- what is read in statements on rows -/
example : readStatement (renderInsert py"roles" [(py"id", .str py"2"), (py"name", .str py"it's"), (py"note", .none)]) =
      some (.insert py"roles" [py"id", py"name", py"note"] [some py"2", some py"it's", none]) ∧
    readStatement (renderUpdate py"roles" [(py"id", .str py"1"), (py"name", .str py"root")]) =
      some (.update py"roles" [⟨py"name", some py"root"⟩] ⟨py"id", some py"1"⟩) ∧
    readStatement (renderDelete py"roles" py"7") = some (.delete py"roles" ⟨py"id", some py"7"⟩) := by decide +kernel

/-- rows which are inserted, updated and deleted -/
example : ∀ op ∈ rowPlan, ∃ st, readStatement op.render = some st ∧ op.Means st := by
  have hv : ∀ x ∈ Dict.values rowTo, ∀ new, x.rows = some new → x = rowTable rowsNew ∧ new = rowsNew := by
    intro x hx new hn
    simp only [rowTo, Dict.values, List.map_cons, List.map_nil, List.mem_cons, List.not_mem_nil, or_false] at hx
    rcases hx with rfl | rfl
    · exact ⟨rfl, (Option.some.inj hn).symm⟩
    · cases hn
  refine C66_rows_partial rowTo (some rowFrom) rowPlan rowTo_keyed (by decide) ?_ ?_ ?_ rowPlan_ok
  · intro x hx _ new hn
    obtain ⟨_, rfl⟩ := hv x hx new hn
    have : ∀ e ∈ rowsNew, ∀ c ∈ Dict.keys e.2, c ≠ [] ∧ '`' ∉ c := by decide
    exact ⟨rowsNew_keyed, fun i r hr => this (i, r) (Dict.mem_of_get? hr)⟩
  · have : ∀ x ∈ Dict.values rowTo, oldRows (Dict.get? ((some rowFrom).getD []) x.name) = rowsOld ∨
        oldRows (Dict.get? ((some rowFrom).getD []) x.name) = [] := by decide
    intro x hx _
    rcases this x hx with e | e
    · rw [e]
      exact ⟨rowsKeyed_of_check (by decide) (by decide), by decide⟩
    · rw [e]
      exact ⟨rowsKeyed_of_check (by decide) (by decide), by decide⟩
  · intro x hx _ new hn i hi r hr c v s hm hs
    obtain ⟨rfl, rfl⟩ := hv x hx new hn
    rw [show oldRows (Dict.get? ((some rowFrom).getD []) (rowTable rowsNew).name) = rowsOld by decide] at hi
    have : ∀ i ∈ rowsOld.keys, ∀ e ∈ rowsNew, e.1 = i → ∀ f ∈ e.2, ∀ s, f.2.cell = some s → '\'' ∉ s := by
      intro i hi e he hei f hf s hs
      simp only [rowsOld, Dict.keys, List.map_cons, List.map_nil, List.mem_cons, List.not_mem_nil, or_false] at hi
      simp only [rowsNew, List.mem_cons, List.not_mem_nil, or_false] at he
      rcases hi with rfl | rfl | rfl <;> rcases he with rfl | rfl | rfl <;>
        first
          | exact absurd hei (by decide)
          | (simp only [List.mem_cons, List.not_mem_nil, or_false] at hf
             rcases hf with rfl | rfl <;> first | (cases hs; decide) | cases hs)
    exact this i hi (i, r) (Dict.mem_of_get? hr) rfl (c, v) hm s hs

end Examples

end Mygrations

import Verif.Proofs.Session
import Verif.Proofs.Plan
import Verif.Proofs.PlanFks

/-!
# What is refused as an operation is refused as a text

The converse of `Proofs/Session.lean`: the server which is sent texts does exactly what the server does which is given operations, if lengths
are texts.
-/

namespace Mygrations
open Sql MySQL

theorem splitOn_ne_nil (c : Char) : ∀ s : Str, splitOn c s ≠ []
  | [] => by simp [splitOn]
  | x :: s => by
    unfold splitOn
    split
    · simp
    · split <;> simp

theorem splitOn_inj (c : Char) : ∀ {a b : Str}, splitOn c a = splitOn c b → a = b
  | [], [], _ => rfl
  | [], y :: b, h => by
    exfalso
    unfold splitOn at h
    split at h
    · simp only [List.cons.injEq] at h
      exact splitOn_ne_nil c b h.2.symm
    · cases hb : splitOn c b with
      | nil => exact splitOn_ne_nil c b hb
      | cons u us => simp [hb] at h
  | x :: a, [], h => by
    exfalso
    unfold splitOn at h
    split at h
    · simp only [List.cons.injEq] at h
      exact splitOn_ne_nil c a h.2
    · cases hb : splitOn c a with
      | nil => exact splitOn_ne_nil c a hb
      | cons u us => simp [hb] at h
  | x :: a, y :: b, h => by
    unfold splitOn at h
    cases ha : splitOn c a with
    | nil => exact absurd ha (splitOn_ne_nil c a)
    | cons u us =>
      cases hb : splitOn c b with
      | nil => exact absurd hb (splitOn_ne_nil c b)
      | cons v vs =>
        rw [ha, hb] at h
        by_cases hx : x = c <;> by_cases hy : y = c
        · simp only [hx, hy, if_true, List.cons.injEq, true_and] at h
          rw [hx, hy, splitOn_inj c (a := a) (b := b) (by rw [ha, hb, h.1, h.2])]
        · simp [hx, hy] at h
        · simp [hx, hy] at h
        · simp only [hx, hy, if_false, List.cons.injEq] at h
          rw [h.1.1, splitOn_inj c (a := a) (b := b) (by rw [ha, hb, h.1.2, h.2])]

theorem numbers_inj {a b : Str} (h : (Len.str a).numbers = (Len.str b).numbers) : a = b := by
  cases a with
  | nil =>
    cases b with
    | nil => rfl
    | cons y b => exact absurd h.symm (splitOn_ne_nil _ _)
  | cons x a =>
    cases b with
    | nil => exact absurd h (splitOn_ne_nil _ _)
    | cons y b => exact splitOn_inj ',' h

theorem typeDiffers_sql {a b : Column} (ha : a.Measured) (hb : b.Measured) : Sql.typeDiffers a.sql b.sql = MySQL.typeDiffers a b := by
  obtain ⟨x, hx⟩ := ha
  obtain ⟨y, hy⟩ := hb
  have hl : (a.sql.numbers ≠ b.sql.numbers) ↔ a.len ≠ b.len := by
    show (a.len.numbers ≠ b.len.numbers) ↔ _
    rw [hx, hy]
    constructor
    · intro h e; exact h (by rw [e])
    · intro h e; exact h (by rw [numbers_inj e])
  rw [Bool.eq_iff_iff]
  simp only [Sql.typeDiffers, MySQL.typeDiffers, Bool.or_eq_true, decide_eq_true_eq, hl]
  constructor
  · rintro (((((h | h) | h) | h) | h) | h)
    · exact .inl (.inl (.inl (.inl h)))
    · exact .inl (.inl (.inl (.inr h)))
    · exact absurd rfl h
    · exact .inl (.inl (.inr h))
    · exact .inl (.inr h)
    · exact .inr h
  · rintro ((((h | h) | h) | h) | h)
    · exact .inl (.inl (.inl (.inl (.inl h))))
    · exact .inl (.inl (.inl (.inl (.inr h))))
    · exact .inl (.inl (.inr h))
    · exact .inl (.inr h)
    · exact .inr h

/-! ## Lengths stay texts -/

/-- all lengths of the columns of a table are texts -/
def AllMeasured (d : Dict Column) : Prop := ∀ e ∈ d, e.2.Measured

/-- all lengths of the columns of a server are texts -/
def MySQL.SDb.Measured (db : SDb) : Prop := ∀ n t, db.tables.get? n = some t → AllMeasured t.cols

/-- all lengths in an operation are texts -/
def Op.Measured : Op → Prop
  | .createTable t => ∀ c ∈ t.columns.values, c.Measured
  | .alter a => ∀ o ∈ a.ops, match o with
    | .addColumn c _ => c.Measured
    | .changeColumn c => c.Measured
    | _ => True
  | _ => True

theorem changedCols_measured {a : Alter} (h : (Op.alter a).Measured) : ∀ e ∈ changedCols (a.ops.flatMap clauses), e.2.Measured := by
  intro e he
  simp only [changedCols, List.mem_filterMap, List.mem_flatMap] at he
  obtain ⟨cl, ⟨o, ho, hc⟩, he⟩ := he
  have := h o ho
  cases o <;> simp only [clauses, List.mem_cons, List.not_mem_nil, or_false] at hc
  all_goals first | (subst hc; cases he; done) | (subst hc; cases he; exact this) | (rcases hc with rfl | rfl <;> cases he <;> done)

theorem addedCols_measured {a : Alter} (h : (Op.alter a).Measured) : ∀ e ∈ addedCols (a.ops.flatMap clauses), e.1.Measured := by
  intro e he
  simp only [addedCols, List.mem_filterMap, List.mem_flatMap] at he
  obtain ⟨cl, ⟨o, ho, hc⟩, he⟩ := he
  have := h o ho
  cases o <;> simp only [clauses, List.mem_cons, List.not_mem_nil, or_false] at hc
  all_goals first | (subst hc; cases he; done) | (subst hc; cases he; exact this) | (rcases hc with rfl | rfl <;> cases he <;> done)

theorem dropNames_measured {ns : List Str} {d d' : Dict Column} (hd : AllMeasured d) (h : dropNames ns d = some d') : AllMeasured d' := by
  unfold dropNames at h
  split at h
  · cases h
    exact fun e he => hd e (List.mem_filter.mp he).1
  · cases h

theorem changeCol_measured : ∀ {es : List (Str × Column)} {d d' : Dict Column}, (∀ e ∈ es, e.2.Measured) → AllMeasured d →
    es.foldlM changeCol d = some d' → AllMeasured d'
  | [], d, d', _, hd, h => by cases h; exact hd
  | e :: es, d, d', he, hd, h => by
    simp only [List.foldlM_cons, Option.bind_eq_bind, Option.bind_eq_some_iff] at h
    obtain ⟨m, hm, h⟩ := h
    refine changeCol_measured (fun x hx => he x (List.mem_cons_of_mem _ hx)) ?_ h
    unfold changeCol at hm
    split at hm
    · cases hm
      intro x hx
      obtain ⟨y, hy, rfl⟩ := List.mem_map.mp hx
      split
      · exact he e (by simp)
      · exact hd y hy
    · cases hm

theorem placeCol_measured : ∀ {es : List (Column × Pos)} {d d' : Dict Column}, (∀ e ∈ es, e.1.Measured) → AllMeasured d →
    es.foldlM placeCol d = some d' → AllMeasured d'
  | [], d, d', _, hd, h => by cases h; exact hd
  | e :: es, d, d', he, hd, h => by
    simp only [List.foldlM_cons, Option.bind_eq_bind, Option.bind_eq_some_iff] at h
    obtain ⟨m, hm, h⟩ := h
    refine placeCol_measured (fun x hx => he x (List.mem_cons_of_mem _ hx)) ?_ h
    have h0 := he e (by simp)
    unfold placeCol at hm
    split at hm
    · cases hm
    · split at hm
      · cases hm
        intro x hx
        rcases List.mem_append.mp hx with hx | hx
        · exact hd x hx
        · rw [List.mem_singleton.mp hx]; exact h0
      · cases hm
        intro x hx
        rcases List.mem_cons.mp hx with rfl | hx
        · exact h0
        · exact hd x hx
      · split at hm
        · cases hm
          intro x hx
          obtain ⟨y, hy, hx⟩ := List.mem_flatMap.mp hx
          split at hx
          · simp only [List.mem_cons, List.not_mem_nil, or_false] at hx
            rcases hx with rfl | rfl
            · exact hd _ hy
            · exact h0
          · rw [List.mem_singleton.mp hx]; exact hd y hy
        · cases hm

theorem alterTable_measured {t t' : STable} {a : Alter} (ht : AllMeasured t.cols) (ha : (Op.alter a).Measured)
    (h : alterTable t (a.ops.flatMap clauses) = some t') : AllMeasured t'.cols := by
  unfold alterTable at h
  split at h
  · cases h
  rename_i cols₀ h0
  split at h
  · cases h
  rename_i cols₁ h1
  split at h
  · cases h
  rename_i cols h2
  split at h
  · cases h
  split at h
  · cases h
  split at h
  · cases h
  split at h
  · cases h
  split at h
  · cases h
    exact placeCol_measured (addedCols_measured ha) (changeCol_measured (changedCols_measured ha) (dropNames_measured ht h0) h1) h2
  · cases h

theorem check_eq {db db' : SDb} (h : db.check = some db') : db' = db := by
  unfold SDb.check at h
  split at h
  · cases h; rfl
  · cases h

theorem exec_measured {op : Op} {db db' : SDb} (hd : db.Measured) (ho : op.Measured) (h : db.exec op = some db') : db'.Measured := by
  cases op with
  | disableChecks => cases h; exact hd
  | enableChecks => cases h; exact hd
  | createTable t =>
    simp only [SDb.exec] at h
    split at h
    · cases h
    · rw [check_eq h]
      intro n u hu
      simp only [Dict.get?_append] at hu
      cases hg : db.tables.get? n with
      | some v =>
        rw [hg] at hu
        simp only [Option.some_or, Option.some.injEq] at hu
        exact hu ▸ hd n v hg
      | none =>
        rw [hg] at hu
        simp only [Option.none_or] at hu
        have hm := Dict.mem_of_get? hu
        simp only [List.mem_singleton, Prod.mk.injEq] at hm
        rw [hm.2]
        intro e he
        obtain ⟨c, hc, rfl⟩ := List.mem_map.mp he
        exact ho c hc
  | alter a =>
    simp only [SDb.exec] at h
    split at h
    · cases h
    rename_i t ht
    split at h
    · cases h
    rename_i t' ht'
    split at h
    · cases h
    · rw [check_eq h]
      intro n u hu
      simp only [Dict.get?_set] at hu
      split at hu
      · cases hu
        exact alterTable_measured (hd _ t ht) ho ht'
      · exact hd n u hu
  | removeTable n =>
    simp only [SDb.exec] at h
    split at h
    · rw [check_eq h]
      intro m u hu
      have := Dict.get?_filter_key (d := db.tables) (p := fun k => decide (k ≠ n)) (k := m)
      simp only at this hu
      rw [this] at hu
      split at hu
      · exact hd m u hu
      · cases hu
    · cases h
  | rowInsert => cases h; exact hd
  | rowUpdate => cases h; exact hd
  | rowDelete => cases h; exact hd

/-! ## Statements -/

theorem any_congr' {A : Type} {l : List A} {p q : A → Bool} (h : ∀ x ∈ l, p x = q x) : l.any p = l.any q := by
  induction l with
  | nil => rfl
  | cons x l ih =>
    rw [List.any_cons, List.any_cons, h x (by simp), ih (fun y hy => h y (List.mem_cons_of_mem _ hy))]

theorem breaksFk_sql {db : SDb} {n : Str} {t : STable} {cs : List ClauseSql} {cl : List Clause} (h : Paired ClauseSql.Is cs cl)
    (ht : AllMeasured t.cols) (hc : ∀ e ∈ changedCols cl, e.2.Measured) : db.sql.breaksFk n t.sql cs = db.breaksFk n t cl := by
  unfold SDb.breaksFk DbSql.breaksFk
  have hcols : t.sql.cols = mapped Column.sql t.cols := rfl
  have hf : ∀ t : STable, t.sql.fks = mapped Constraint.sql t.fks := fun _ => rfl
  have htab : db.sql.tables = mapped STable.sql db.tables := rfl
  rw [is_colsChanged h, List.any_map]
  apply any_congr'
  intro e he
  simp only [Function.comp_apply, hcols, mapped_get?, htab, mapped_any, hf, sql_uses]
  cases hg : t.cols.get? e.1 with
  | none => rfl
  | some a =>
    simp only [Option.map_some]
    rw [typeDiffers_sql (ht _ (Dict.mem_of_get? hg)) (hc e he)]

/-- One statement: what the server makes of the text is what it makes of the operation. -/
theorem exec_sql {op : Op} {st : Stmt} (hm : op.Means st) {db : SDb} (hd : db.Measured) (ho : op.Measured) :
    db.sql.exec st = (db.exec op).map SDb.sql := by
  cases h : db.exec op with
  | some db' => exact sql_exec hm h
  | none =>
    rw [Option.map_none]
    cases hm with
    | disableChecks => cases h
    | enableChecks => cases h
    | createTable t =>
      simp only [SDb.exec] at h
      simp only [DbSql.exec, ofItems_table]
      have hok : (ofTable t).sql.ok = (ofTable t).ok := sql_ok _ _ _
      rw [SDb.sql_eq, mapped_has, hok, sql_distinct]
      split at h
      · rename_i hc
        rw [if_pos hc]
      · rename_i hc
        rw [if_neg hc]
        have := (sql_check _).trans (congrArg (Option.map SDb.sql) h)
        rw [SDb.sql_eq, mapped_append] at this
        exact this
    | alter a cs hp =>
      simp only [SDb.exec] at h
      have hget : db.sql.tables.get? a.table = (db.tables.get? a.table).map STable.sql := by rw [SDb.sql_eq, mapped_get?]
      simp only [DbSql.exec, hget, Option.bind_eq_bind]
      split at h
      · rename_i ht
        rw [ht]; rfl
      rename_i t ht
      simp only [ht, Option.map_some, Option.bind_some, sql_alter hp]
      split at h
      · rename_i ht'
        rw [ht']; rfl
      rename_i t' ht'
      simp only [ht', Option.map_some, Option.bind_some, breaksFk_sql hp (hd _ t ht) (changedCols_measured ho)]
      split at h
      · rename_i hb
        rw [if_pos hb]
      · rename_i hb
        rw [if_neg hb]
        have := (sql_check _).trans (congrArg (Option.map SDb.sql) h)
        rw [SDb.sql_eq, mapped_set] at this
        exact this
    | removeTable n =>
      simp only [SDb.exec] at h
      simp only [DbSql.exec]
      rw [SDb.sql_eq, mapped_has]
      split at h
      · rename_i hc
        rw [if_pos hc]
        have := (sql_check _).trans (congrArg (Option.map SDb.sql) h)
        rw [SDb.sql_eq] at this
        have hf := mapped_filter STable.sql (fun k => decide (k ≠ n)) db.tables
        simp only at this hf ⊢
        rw [hf] at this
        exact this
      · rename_i hc
        rw [if_neg hc]
    | rowInsert => cases h
    | rowUpdate => cases h
    | rowDelete => cases h

/-- All statements. -/
theorem sendAll_sql : ∀ {ops : List Op} {db : SDb}, (∀ op ∈ ops, ∃ st, readStatement op.render = some st ∧ op.Means st) → (∀ op ∈ ops, op.Measured) →
    db.Measured → db.sql.sendAll (ops.map Op.render) = (db.execAll ops).map SDb.sql
  | [], db, _, _, _ => rfl
  | op :: ops, db, hm, ho, hd => by
    obtain ⟨st, hr, hmean⟩ := hm op (by simp)
    have h1 : db.sql.send op.render = (db.exec op).map SDb.sql := by
      unfold DbSql.send
      rw [hr]
      exact exec_sql hmean hd (ho op (by simp))
    simp only [SDb.execAll, DbSql.sendAll, List.foldlM_cons, List.map_cons, Option.bind_eq_bind, h1]
    cases h : db.exec op with
    | none => rfl
    | some m =>
      exact sendAll_sql (fun o h => hm o (List.mem_cons_of_mem _ h)) (fun o h => ho o (List.mem_cons_of_mem _ h)) (exec_measured hd (ho op (by simp)) h)

/-! ## The columns of a plan -/

open Table

theorem addedColumnOps_measured {t : Table} (h : ∀ c ∈ t.columns.values, c.Measured) : ∀ {ks : List Str} {ops : List AlterOp},
    addedColumnOps t ks = .ok ops → ∀ o ∈ ops, ∃ c p, o = .addColumn c p ∧ c.Measured := by
  intro ks
  induction ks with
  | nil => intro ops h; cases h; intro o ho; cases ho
  | cons k ks ih =>
    intro ops ho
    simp only [addedColumnOps] at ho
    cases hc : t.columns.get? k with
    | none => simp [hc] at ho
    | some c =>
      simp only [hc] at ho
      cases hb : t.columnBefore k with
      | error e => simp [hb] at ho
      | ok p =>
        simp only [hb] at ho
        cases hr : addedColumnOps t ks with
        | error e => simp [hr, Except.map] at ho
        | ok l =>
          simp only [hr, Except.map, Except.ok.injEq] at ho
          intro o hm
          rw [← ho] at hm
          rcases List.mem_cons.mp hm with rfl | hm
          · exact ⟨_, _, rfl, h c (Dict.mem_values.mpr ⟨k, Dict.mem_of_get? hc⟩)⟩
          · exact ih hr o hm

theorem changedColumnOps_measured [PyNum] {s t : Table} (h : ∀ c ∈ t.columns.values, c.Measured) : ∀ {ks : List Str} {ops : List AlterOp},
    changedColumnOps s t ks = .ok ops → ∀ o ∈ ops, ∃ c, o = .changeColumn c ∧ c.Measured := by
  intro ks
  induction ks with
  | nil => intro ops h; cases h; intro o ho; cases ho
  | cons k ks ih =>
    intro ops ho
    simp only [changedColumnOps] at ho
    cases ha : s.columns.get? k with
    | none => simp [ha] at ho
    | some a =>
      cases hb : t.columns.get? k with
      | none => simp [ha, hb] at ho
      | some b =>
        simp only [ha, hb] at ho
        split at ho
        · exact ih ho
        · split at ho
          · cases ho
          · exact ih ho
          · cases hr : changedColumnOps s t ks with
            | error e => simp [hr, Except.map] at ho
            | ok l =>
              simp only [hr, Except.map, Except.ok.injEq] at ho
              intro o hm
              rw [← ho] at hm
              rcases List.mem_cons.mp hm with rfl | hm
              · exact ⟨_, rfl, h b (Dict.mem_values.mpr ⟨k, Dict.mem_of_get? hb⟩)⟩
              · exact ih hr o hm

/-- the columns in an operation have lengths which are texts -/
def AlterOp.Measured : AlterOp → Prop
  | .addColumn c _ => c.Measured
  | .changeColumn c => c.Measured
  | _ => True

theorem Op.measured_alter {a : Alter} (h : ∀ o ∈ a.ops, o.Measured) : (Op.alter a).Measured := by
  intro o ho
  have := h o ho
  cases o <;> exact this

theorem kitchenSink_measured [PyNum] {s t : Table} {d : Diff} (ht : ∀ c ∈ t.columns.values, c.Measured) (h : s.toSplit t = .ok d) :
    (∀ o ∈ d.removedFks, o.Measured) ∧ (∀ o ∈ d.kitchenSink, o.Measured) ∧ (∀ o ∈ d.fks, o.Measured) := by
  simp only [toSplit] at h
  cases ha : addedColumnOps t (added s.columns t.columns) with
  | error e => simp [ha] at h
  | ok adds =>
    simp only [ha] at h
    cases hc : changedColumnOps s t (overlap s.columns t.columns) with
    | error e => simp [hc] at h
    | ok changes =>
      simp only [hc, Except.ok.injEq] at h
      subst h
      refine ⟨?_, ?_, ?_⟩
      · intro o ho
        simp only [removedFkOps, List.mem_filterMap, Option.map_eq_some_iff] at ho
        obtain ⟨k, _, x, hx, rfl⟩ := ho
        trivial
      · intro o ho
        simp only [List.mem_append] at ho
        rcases ho with ((ho | ho) | ho) | ho
        · obtain ⟨c, p, rfl, hm⟩ := addedColumnOps_measured ht ha o ho
          exact hm
        · obtain ⟨c, rfl, hm⟩ := changedColumnOps_measured ht hc o ho
          exact hm
        · simp only [removedColumnOps, List.mem_filterMap, Option.map_eq_some_iff] at ho
          obtain ⟨k, hk, c, hc, rfl⟩ := ho
          trivial
        · simp only [keyOps, List.mem_append, List.mem_filterMap, Option.map_eq_some_iff] at ho
          rcases ho with (⟨k, _, i, _, rfl⟩ | ⟨k, _, i, _, rfl⟩) | ⟨k, _, ho⟩
          · trivial
          · trivial
          · split at ho
            · split at ho
              · cases ho
              · split at ho
                · cases ho
                · cases ho; trivial
            · cases ho
      · intro o ho
        simp only [addedFkOps, List.mem_filterMap, Option.map_eq_some_iff] at ho
        obtain ⟨k, _, x, hx, rfl⟩ := ho
        trivial

theorem alterIf_measured {n : Str} {ops : List AlterOp} (h : ∀ o ∈ ops, o.Measured) : ∀ a ∈ alterIf n ops, (Op.alter a).Measured := by
  intro a ha
  unfold alterIf at ha
  split at ha
  · cases ha
  · rw [List.mem_singleton.mp ha]
    exact Op.measured_alter h

theorem groupAlters_measured {l : List (Str × AlterOp)} (h : ∀ e ∈ l, e.2.Measured) : ∀ a ∈ Mygration.groupAlters l, (Op.alter a).Measured := by
  intro a ha
  apply Op.measured_alter
  intro o ho
  rw [Mygration.mem_groupAlters ha] at ho
  obtain ⟨x, hx, rfl⟩ := List.mem_map.mp ho
  exact h x (List.mem_filter.mp hx).1

/-- the lengths in a plan are texts, if those of the declarations are -/
theorem plan_measured [PyNum] {t : Dict Table} {from? : Option (Dict Table)} {checks : Bool} {ops : List Op} (hf : KeyedTables (from?.getD []))
    (ht : ∀ x ∈ t.values, ∀ c ∈ x.columns.values, c.Measured) (h : Mygration.process t from? checks = .ok ops) : ∀ op ∈ ops, op.Measured := by
  intro op hop
  obtain ⟨hops, hdiff⟩ := Mygration.process_eq hf h
  have hnow : ∀ n ∈ overlap (from?.getD []) t, (∀ o ∈ (Mygration.diffOf (from?.getD []) t n).removedFks, o.Measured) ∧
      (∀ o ∈ (Mygration.diffOf (from?.getD []) t n).kitchenSink, o.Measured) ∧ (∀ o ∈ (Mygration.diffOf (from?.getD []) t n).fks, o.Measured) := by
    intro n hn
    obtain ⟨a, b, ha, hb, hab⟩ := hdiff n hn
    exact kitchenSink_measured (ht b (Dict.mem_values.mpr ⟨n, Dict.mem_of_get? hb⟩)) hab
  rw [hops] at hop
  simp only [List.mem_append] at hop
  rcases hop with ((((((hop | hop) | hop) | hop) | hop) | hop) | hop) | hop
  · split at hop
    · rw [List.mem_singleton.mp hop]; trivial
    · cases hop
  · simp only [List.mem_filterMap, Option.map_eq_some_iff] at hop
    obtain ⟨n, _, x, hx, rfl⟩ := hop
    exact ht x (Dict.mem_values.mpr ⟨n, Dict.mem_of_get? hx⟩)
  · obtain ⟨a, ha, rfl⟩ := List.mem_map.mp hop
    refine groupAlters_measured ?_ a ha
    intro e he
    obtain ⟨x, hx, rfl⟩ := List.mem_map.mp he
    trivial
  · obtain ⟨a, ha, rfl⟩ := List.mem_map.mp hop
    obtain ⟨n, hn, ha⟩ := List.mem_flatMap.mp ha
    obtain ⟨h2, h3, h4⟩ := hnow n hn
    rcases List.mem_append.mp ha with ha | ha
    · exact alterIf_measured (fun o ho => h2 o (List.mem_filter.mp ho).1) a ha
    · exact alterIf_measured h3 a ha
  · obtain ⟨a, ha, rfl⟩ := List.mem_map.mp hop
    obtain ⟨n, hn, ha⟩ := List.mem_flatMap.mp ha
    obtain ⟨h2, h3, h4⟩ := hnow n hn
    exact alterIf_measured (fun o ho => h4 o (List.mem_filter.mp ho).1) a ha
  · obtain ⟨a, ha, rfl⟩ := List.mem_map.mp hop
    refine groupAlters_measured ?_ a ha
    intro e he
    obtain ⟨x, hx, k, n, hk, rfl, _⟩ := Mygration.mem_cycleAdds he
    trivial
  · obtain ⟨n, hn, rfl⟩ := List.mem_map.mp hop
    trivial
  · split at hop
    · rw [List.mem_singleton.mp hop]; trivial
    · cases hop

theorem describes_measured {f : Dict Table} {db : SDb} (h : Describes f db) (hf : ∀ x ∈ f.values, ∀ c ∈ x.columns.values, c.Measured) : db.Measured := by
  intro n t ht e he
  rw [h.get n] at ht
  obtain ⟨x, hx, rfl⟩ := Option.map_eq_some_iff.mp ht
  obtain ⟨c, hc, rfl⟩ := List.mem_map.mp he
  exact hf x (Dict.mem_values.mpr ⟨n, Dict.mem_of_get? hx⟩) c hc

end Mygrations

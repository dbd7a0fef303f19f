import Verif.Spec.Session
import Verif.Proofs.Dict

/-!
# Executing texts follows executing operations

The server of `Spec/Session.lean`, which is sent texts, does what the server of `Spec/Server.lean` does, which is given operations.
-/

namespace Mygrations
open Sql MySQL

section Mapped
variable {V W : Type} (g : V → W)

/-- the same names, other values -/
def mapped (d : Dict V) : Dict W := d.map (fun e => (e.1, g e.2))

theorem mapped_keys (d : Dict V) : (mapped g d).keys = d.keys := by simp [mapped, Dict.keys, List.map_map, Function.comp_def]

theorem mapped_has (d : Dict V) (k : Str) : (mapped g d).has k = d.has k := by simp [mapped, Dict.has, List.any_map, Function.comp_def]

theorem mapped_has_fun (d : Dict V) : (mapped g d).has = d.has := funext (mapped_has g d)

theorem mapped_get? (d : Dict V) (k : Str) : (mapped g d).get? k = (d.get? k).map g := by
  induction d with
  | nil => rfl
  | cons e d ih =>
    obtain ⟨k', v⟩ := e
    simp only [mapped, List.map_cons] at ih ⊢
    rw [Dict.get?_cons, Dict.get?_cons]
    split
    · rfl
    · exact ih

theorem mapped_set (d : Dict V) (k : Str) (v : V) : (mapped g (d.set k v)) = (mapped g d).set k (g v) := by
  induction d with
  | nil => rfl
  | cons e d ih =>
    obtain ⟨k', v'⟩ := e
    simp only [mapped, List.map_cons, Dict.set] at ih ⊢
    split
    · rfl
    · simp only [List.map_cons, ih]

theorem mapped_append (d e : Dict V) : mapped g (d ++ e) = mapped g d ++ mapped g e := by simp [mapped]

theorem mapped_filter (p : Str → Bool) (d : Dict V) : mapped g (d.filter (fun e => p e.1)) = (mapped g d).filter (fun e => p e.1) := by
  simp [mapped, List.filter_map, Function.comp_def]

theorem mapped_all (p : Str × W → Bool) (d : Dict V) : (mapped g d).all p = d.all (fun e => p (e.1, g e.2)) := by
  simp [mapped, List.all_map, Function.comp_def]

theorem mapped_any (p : Str × W → Bool) (d : Dict V) : (mapped g d).any p = d.any (fun e => p (e.1, g e.2)) := by
  simp [mapped, List.any_map, Function.comp_def]

theorem mapped_isEmpty (d : Dict V) : (mapped g d).isEmpty = d.isEmpty := by cases d <;> rfl

theorem mapped_dropNames (names : List Str) (d : Dict V) : dropNames names (mapped g d) = (dropNames names d).map (mapped g) := by
  unfold dropNames
  rw [mapped_has_fun]
  split
  · exact congrArg some (mapped_filter g (fun k => !names.contains k) d).symm
  · rfl

theorem mapped_addNamed {name : V → Str} {name' : W → Str} (hn : ∀ v, name' (g v) = name v) : ∀ (vs : List V) (d : Dict V),
    (vs.map g).foldlM (addNamed name') (mapped g d) = (vs.foldlM (addNamed name) d).map (mapped g)
  | [], d => rfl
  | v :: vs, d => by
    have h1 : addNamed name' (mapped g d) (g v) = (addNamed name d v).map (mapped g) := by
      unfold addNamed
      rw [hn, mapped_has]
      split
      · rfl
      · rw [Option.map_some, mapped_append]
        rfl
    simp only [List.foldlM_cons, List.map_cons, Option.bind_eq_bind, h1]
    cases addNamed name d v with
    | none => rfl
    | some m => exact mapped_addNamed hn vs m

end Mapped

theorem STable.sql_eq (t : STable) : t.sql = ⟨mapped Column.sql t.cols, mapped Index.sql t.keys, mapped Constraint.sql t.fks⟩ := rfl

theorem SDb.sql_eq (db : SDb) : db.sql = ⟨db.checks, mapped STable.sql db.tables⟩ := rfl

theorem called_sql (i : Index) : i.sql.called = keyName i := by
  unfold KeySql.called Index.sql keyName Index.isPrimary Index.name
  by_cases h1 : i.indexType = py"PRIMARY"
  · simp [h1]
  · by_cases h2 : i.indexType = py"UNIQUE" <;> by_cases h3 : i.rawName = [] <;> simp [h1, h2, h3]

theorem called_fk (k : Constraint) : k.sql.called = k.name := rfl

/-! ## Clauses -/

section Clauses
variable {cs : List ClauseSql} {cl : List Clause}

theorem is_colsDropped (h : Paired ClauseSql.Is cs cl) : colsDropped cs = droppedCols cl := by
  induction h with
  | nil => rfl
  | cons hx _ ih =>
    simp only [colsDropped, droppedCols] at ih ⊢
    cases hx <;> simp [ih]

theorem is_colsChanged (h : Paired ClauseSql.Is cs cl) : colsChanged cs = (changedCols cl).map (fun e => (e.1, e.2.sql)) := by
  induction h with
  | nil => rfl
  | cons hx _ ih =>
    simp only [colsChanged, changedCols] at ih ⊢
    cases hx <;> simp [ih]

theorem is_keysDropped (h : Paired ClauseSql.Is cs cl) : keysDropped cs = droppedKeys cl := by
  induction h with
  | nil => rfl
  | cons hx _ ih =>
    simp only [keysDropped, droppedKeys] at ih ⊢
    cases hx <;> simp [ih]

theorem is_keysAdded (h : Paired ClauseSql.Is cs cl) : keysAdded cs = (addedKeys cl).map Index.sql := by
  induction h with
  | nil => rfl
  | cons hx _ ih =>
    simp only [keysAdded, addedKeys] at ih ⊢
    cases hx <;> simp [ih]

theorem is_fksDropped (h : Paired ClauseSql.Is cs cl) : fksDropped cs = droppedFks cl := by
  induction h with
  | nil => rfl
  | cons hx _ ih =>
    simp only [fksDropped, droppedFks] at ih ⊢
    cases hx <;> simp [ih]

theorem is_fksAdded (h : Paired ClauseSql.Is cs cl) : fksAdded cs = (addedFks cl).map Constraint.sql := by
  induction h with
  | nil => rfl
  | cons hx _ ih =>
    simp only [fksAdded, addedFks] at ih ⊢
    cases hx <;> simp [ih]

theorem mapped_changeCol : ∀ (es : List (Str × Column)) (d : Dict Column),
    (es.map (fun e => (e.1, e.2.sql))).foldlM changeColumn (mapped Column.sql d) = (es.foldlM changeCol d).map (mapped Column.sql)
  | [], d => rfl
  | e :: es, d => by
    have h1 : changeColumn (mapped Column.sql d) (e.1, e.2.sql) = (changeCol d e).map (mapped Column.sql) := by
      unfold changeCol changeColumn
      rw [mapped_has, mapped_has]
      have hn : e.2.sql.name = e.2.name := rfl
      simp only [hn]
      split
      · simp only [mapped, List.map_map, Option.map_some, Option.some.injEq]
        apply List.map_congr_left
        intro x _
        simp only [Function.comp_apply]
        split <;> rfl
      · rfl
    simp only [List.foldlM_cons, List.map_cons, Option.bind_eq_bind, h1]
    cases changeCol d e with
    | none => rfl
    | some m => exact mapped_changeCol es m

theorem placeColumn_is {x : ClauseSql} {c : Column} {p : Pos} (h : ClauseSql.Is x (.addCol c p)) (d : Dict Column) :
    placeColumn (mapped Column.sql d) x = (placeCol d (c, p)).map (mapped Column.sql) := by
  have hn : c.sql.name = c.name := rfl
  unfold placeCol
  cases h with
  | addColumn =>
    simp only [placeColumn, mapped_has, hn]
    split
    · rfl
    · rw [Option.map_some, mapped_append]
      rfl
  | addColumnFirst =>
    simp only [placeColumn, mapped_has, hn]
    split <;> rfl
  | addColumnAfter _ n =>
    simp only [placeColumn, mapped_has, hn]
    by_cases hc : d.has c.name = true
    · simp [hc]
    · by_cases ha : d.has n = true
      · simp only [hc, ha, if_true, Bool.not_true, Bool.or_self, Bool.false_eq_true, if_false, Option.map_some, mapped,
          List.flatMap_map, List.map_flatMap, Option.some.injEq]
        congr 1
        funext x
        split <;> rfl
      · simp [hc, ha]

theorem mapped_placeCol (h : Paired ClauseSql.Is cs cl) : ∀ (d : Dict Column),
    cs.foldlM placeColumn (mapped Column.sql d) = ((addedCols cl).foldlM placeCol d).map (mapped Column.sql) := by
  induction h with
  | nil => intro d; rfl
  | @cons x c xs cs' hx _ ih =>
    intro d
    simp only [List.foldlM_cons, Option.bind_eq_bind]
    have key : (∃ c' p, c = .addCol c' p) ∨ (addedCols (c :: cs') = addedCols cs' ∧ placeColumn (mapped Column.sql d) x = some (mapped Column.sql d)) := by
      cases hx <;> first | exact Or.inl ⟨_, _, rfl⟩ | exact Or.inr ⟨rfl, rfl⟩
    rcases key with ⟨c', p, rfl⟩ | ⟨h1, h2⟩
    · have h1 : addedCols (.addCol c' p :: cs') = (c', p) :: addedCols cs' := rfl
      rw [h1, List.foldlM_cons, placeColumn_is hx]
      cases placeCol d (c', p) with
      | none => rfl
      | some m => exact ih m
    · rw [h1, h2]
      exact ih d

end Clauses

theorem mapped_shrink (dropped : List Str) (keys : Dict Index) : shrink dropped (mapped Index.sql keys) = mapped Index.sql (shrinkKeys dropped keys) := by
  simp only [shrink, shrinkKeys, mapped, List.map_map, List.filter_map]
  have h1 : ((fun e : Str × KeySql => decide (e.2.columns ≠ [])) ∘ ((fun e => (e.1, { e.2 with columns := e.2.columns.filter (fun c => !dropped.contains c) })) ∘
      fun e : Str × Index => (e.1, e.2.sql))) = ((fun e : Str × Index => decide (e.2.columns ≠ [])) ∘
      fun e => (e.1, { e.2 with columns := e.2.columns.filter (fun c => !dropped.contains c) })) := by
    funext e; rfl
  rw [h1]
  apply List.map_congr_left
  intro e _
  rfl

theorem sql_ok (cols : Dict Column) (keys : Dict Index) (fks : Dict Constraint) :
    TableSql.ok ⟨mapped Column.sql cols, mapped Index.sql keys, mapped Constraint.sql fks⟩ = STable.ok ⟨cols, keys, fks⟩ := by
  simp only [TableSql.ok, STable.ok, mapped_all, mapped_isEmpty, mapped_has_fun]
  congr 2
  funext e
  simp [Constraint.sql]

theorem sql_alter {t : STable} {cs : List ClauseSql} {cl : List Clause} (h : Paired ClauseSql.Is cs cl) :
    t.sql.alter cs = (alterTable t cl).map STable.sql := by
  unfold alterTable
  simp only [TableSql.alter, STable.sql_eq, is_colsDropped h, is_colsChanged h, is_keysDropped h, is_keysAdded h, is_fksDropped h, is_fksAdded h,
    mapped_dropNames]
  cases dropNames (droppedCols cl) t.cols with
  | none => rfl
  | some cols₀ =>
  simp only [Option.bind_eq_bind, Option.bind_some, Option.map_some, mapped_changeCol]
  cases (changedCols cl).foldlM changeCol cols₀ with
  | none => rfl
  | some cols₁ =>
  simp only [Option.bind_some, Option.map_some, mapped_placeCol h]
  cases (addedCols cl).foldlM placeCol cols₁ with
  | none => rfl
  | some cols =>
  simp only [Option.bind_some, Option.map_some]
  cases dropNames (droppedKeys cl) t.keys with
  | none => rfl
  | some keys₀ =>
  simp only [Option.bind_some, Option.map_some, mapped_shrink, mapped_addNamed Index.sql (name' := KeySql.called) called_sql]
  cases (addedKeys cl).foldlM (addNamed keyName) (shrinkKeys (droppedCols cl) keys₀) with
  | none => rfl
  | some keys =>
  simp only [Option.bind_some, Option.map_some]
  cases dropNames (droppedFks cl) t.fks with
  | none => rfl
  | some fks₀ =>
  simp only [Option.bind_some, Option.map_some, mapped_addNamed Constraint.sql (name' := FkSql.called) called_fk]
  cases (addedFks cl).foldlM (addNamed Constraint.name) fks₀ with
  | none => rfl
  | some fks =>
  simp only [Option.bind_some, Option.map_some, sql_ok]
  split <;> rfl

/-! ## The whole database -/

theorem sql_leads (t : STable) (c : Str) : t.sql.leads [c] = t.leads c := by
  simp only [TableSql.leads, STable.leads, STable.sql_eq, mapped_any]
  congr 1
  funext e
  show [c].isPrefixOf e.2.columns = decide (e.2.columns.head? = some c)
  cases h : e.2.columns with
  | nil => simp
  | cons x xs =>
    by_cases hx : c = x
    · simp [hx]
    · have hx' : ¬ x = c := fun e => hx e.symm
      simp [List.isPrefixOf, hx, hx']

theorem sql_fits (checks : Bool) (tables : Dict STable) (t : STable) (k : Constraint) :
    Sql.fits checks (mapped STable.sql tables) t.sql k.sql = MySQL.fits checks tables t k := by
  unfold Sql.fits MySQL.fits
  have h1 : k.sql.columns = [k.column] := rfl
  have h2 : k.sql.refs = [k.fcolumn] := rfl
  have h3 : k.sql.table = k.ftable := rfl
  rw [h1, h2, h3, sql_leads, mapped_get?]
  have hc : t.sql.cols = mapped Column.sql t.cols := rfl
  have hhas : [k.column].all t.sql.cols.has = t.cols.has k.column := by simp [hc, mapped_has]
  rw [hhas]
  cases hx : t.cols.get? k.column with
  | none =>
    have : t.cols.has k.column = false := by rw [Dict.has_eq_false]; exact Dict.get?_eq_none.mp hx
    simp [this]
  | some c =>
    have : t.cols.has k.column = true := Dict.has_iff.mpr (Dict.mem_keys_of_get? hx)
    rw [this]
    cases hp : tables.get? k.ftable with
    | none => simp
    | some p =>
      have hpc : p.sql.cols = mapped Column.sql p.cols := rfl
      simp only [Option.map_some, sql_leads, List.zip_cons_cons, List.zip_nil_left, List.all_cons, List.all_nil, Bool.and_true, linked, hc, hpc,
        mapped_get?, hx]
      cases hd : p.cols.get? k.fcolumn with
      | none => simp
      | some d =>
        simp only [Option.map_some, List.length_cons, List.length_nil, decide_true, Bool.true_and, Bool.and_true]
        rfl

theorem sql_consistent (checks : Bool) (tables : Dict STable) : DbSql.consistent ⟨checks, mapped STable.sql tables⟩ = SDb.consistent ⟨checks, tables⟩ := by
  unfold DbSql.consistent SDb.consistent
  have hf : ∀ t : STable, t.sql.fks = mapped Constraint.sql t.fks := fun _ => rfl
  simp only [mapped_all, hf, sql_fits, mapped_has]

theorem sql_check (db : SDb) : db.sql.check = db.check.map SDb.sql := by
  unfold SDb.check DbSql.check
  rw [SDb.sql_eq, sql_consistent]
  split <;> rfl

theorem sql_typeDiffers {a b : Column} (h : MySQL.typeDiffers a b = false) : Sql.typeDiffers a.sql b.sql = false := by
  simp only [MySQL.typeDiffers, Bool.or_eq_false_iff, decide_eq_false_iff_not, Decidable.not_not] at h
  obtain ⟨⟨⟨⟨h1, h2⟩, h3⟩, h4⟩, h5⟩ := h
  simp [Sql.typeDiffers, Column.sql, h1, h2, h3, h4, h5]

theorem sql_uses (n : Str) (k : Constraint) (m c : Str) : Sql.uses n k.sql m c = MySQL.uses n k m c := by
  simp only [Sql.uses, MySQL.uses, Constraint.sql, List.contains_cons, List.contains_nil, Bool.or_false]
  have : ∀ x : Str, (c == x) = decide (x = c) := by
    intro x
    by_cases h : c = x
    · simp [h]
    · have : ¬ x = c := fun e => h e.symm
      simp [h, this]
  rw [this, this]
  rfl

theorem sql_breaksFk {db : SDb} {n : Str} {t : STable} {cs : List ClauseSql} {cl : List Clause} (h : Paired ClauseSql.Is cs cl)
    (hb : db.breaksFk n t cl = false) : db.sql.breaksFk n t.sql cs = false := by
  unfold SDb.breaksFk at hb
  unfold DbSql.breaksFk
  have hc : t.sql.cols = mapped Column.sql t.cols := rfl
  have hf : ∀ t : STable, t.sql.fks = mapped Constraint.sql t.fks := fun _ => rfl
  have ht : db.sql.tables = mapped STable.sql db.tables := rfl
  rw [is_colsChanged h, List.any_map, List.any_eq_false] at *
  intro e he
  have he' := hb e he
  simp only [Function.comp_apply, hc, mapped_get?, ht, mapped_any, hf, sql_uses]
  cases hg : t.cols.get? e.1 with
  | none => simp
  | some a =>
    rw [hg] at he'
    simp only [Option.map_some]
    simp only [Bool.and_eq_true, not_and, Bool.not_eq_true] at he' ⊢
    intro hd
    apply he'
    cases hd' : MySQL.typeDiffers a e.2 with
    | true => rfl
    | false => rw [sql_typeDiffers hd'] at hd; cases hd

theorem filterMap_append_map {A B C D : Type} (g : C → Option D) (p : A → Option D) (q : B → Option D) (as : List A) (bs : List B) (fa : A → C) (fb : B → C)
    (h1 : ∀ a, g (fa a) = p a) (h2 : ∀ b, g (fb b) = q b) : (as.map fa ++ bs.map fb).filterMap g = as.filterMap p ++ bs.filterMap q := by
  rw [List.filterMap_append, List.filterMap_map, List.filterMap_map]
  congr 1
  · congr 1; funext a; exact h1 a
  · congr 1; funext b; exact h2 b

theorem ofItems_table (t : Table) :
    ofItems (t.columns.values.map (fun c => .column c.sql []) ++ t.indexes.values.map (fun i => .key i.sql) ++ t.constraints.values.map (fun k => .fk k.sql)) =
      (ofTable t).sql := by
  unfold ofItems
  simp only [STable.sql_eq, ofTable, mapped, List.filterMap_append, List.filterMap_map, List.map_map]
  have none' : ∀ {A B : Type} (l : List A), l.filterMap (fun _ => (none : Option B)) = [] := by
    intro A B l; induction l <;> simp_all
  have some' : ∀ {A B : Type} (g : A → B) (l : List A), l.filterMap (fun a => some (g a)) = l.map g := by
    intro A B g l; induction l <;> simp_all
  simp only [Function.comp_def, none', some', List.nil_append, List.append_nil, called_sql, called_fk, TableSql.mk.injEq, and_true]
  rfl

theorem sql_distinct (t : STable) : t.sql.distinct = t.distinct := by
  simp only [TableSql.distinct, STable.distinct, STable.sql_eq, mapped_keys]

/-- One statement. -/
theorem sql_exec {op : Op} {st : Stmt} (hm : op.Means st) {db db' : SDb} (h : db.exec op = some db') : db.sql.exec st = some db'.sql := by
  cases hm with
  | disableChecks => cases h; rfl
  | enableChecks => cases h; rfl
  | createTable t =>
    simp only [SDb.exec] at h
    simp only [DbSql.exec, ofItems_table]
    have hok : (ofTable t).sql.ok = (ofTable t).ok := sql_ok _ _ _
    rw [SDb.sql_eq, mapped_has, hok, sql_distinct]
    split at h
    · cases h
    · rename_i hc
      rw [if_neg hc]
      have := (sql_check _).trans (congrArg (Option.map SDb.sql) h)
      rw [SDb.sql_eq, mapped_append] at this
      exact this
  | alter a cs hp =>
    simp only [SDb.exec] at h
    split at h
    · cases h
    rename_i t ht
    split at h
    · cases h
    rename_i t' ht'
    split at h
    · cases h
    · rename_i hb
      have h1 : db.sql.tables.get? a.table = some t.sql := by rw [SDb.sql_eq, mapped_get?, ht]; rfl
      simp only [DbSql.exec, h1, Option.bind_eq_bind, Option.bind_some, sql_alter hp, ht', Option.map_some]
      rw [sql_breaksFk hp (Bool.not_eq_true _ ▸ hb)]
      have := (sql_check _).trans (congrArg (Option.map SDb.sql) h)
      rw [SDb.sql_eq, mapped_set] at this
      exact this
  | removeTable n =>
    simp only [SDb.exec] at h
    simp only [DbSql.exec]
    rw [SDb.sql_eq, mapped_has]
    split at h
    · rename_i hc
      rw [if_pos hc]
      have := (sql_check _).trans (congrArg (Option.map SDb.sql) h)
      rw [SDb.sql_eq] at this
      have hf := mapped_filter STable.sql (fun k => decide (k ≠ n)) db.tables
      simp only at this hf ⊢
      rw [hf] at this
      exact this
    · cases h
  | rowInsert => cases h; rfl
  | rowUpdate => cases h; rfl
  | rowDelete => cases h; rfl

/-- All statements of a plan. -/
theorem sql_sendAll : ∀ {ops : List Op} {db db' : SDb}, (∀ op ∈ ops, ∃ st, readStatement op.render = some st ∧ op.Means st) → db.execAll ops = some db' →
    db.sql.sendAll (ops.map Op.render) = some db'.sql
  | [], db, db', _, h => by cases h; rfl
  | op :: ops, db, db', hm, h => by
    simp only [SDb.execAll, DbSql.sendAll, List.foldlM_cons, List.map_cons, Option.bind_eq_bind, Option.bind_eq_some_iff] at h ⊢
    obtain ⟨m, h1, h2⟩ := h
    obtain ⟨st, hr, hmean⟩ := hm op (by simp)
    refine ⟨m.sql, ?_, sql_sendAll (fun o ho => hm o (List.mem_cons_of_mem _ ho)) h2⟩
    unfold DbSql.send
    rw [hr]
    exact sql_exec hmean h1

end Mygrations

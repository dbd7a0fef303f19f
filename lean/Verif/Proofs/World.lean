import Verif.Spec.World
import Verif.Proofs.Session
import Verif.Proofs.PlanFks
import Verif.Proofs.Rows
import Verif.Proofs.Tracked

/-! # A server with its rows: what the statements of a plan do to both -/

namespace Mygrations
open Sql MySQL Mygration Table

/-! ## Statements on the structure -/

/-- the statement creates or drops the table -/
def Op.resets (n : Str) : Op → Prop
  | .createTable t => t.name = n
  | .removeTable m => m = n
  | _ => False

/-- the statement adds or drops the column -/
def Op.moves (n c : Str) : Op → Prop
  | .alter a => a.table = n ∧ ((∃ d p, .addColumn d p ∈ a.ops ∧ d.name = c) ∨ ∃ d, .removeColumn d ∈ a.ops ∧ d.name = c)
  | _ => False

/-- what the statements on the structure leave of the rows -/
structure RowsKept (resets : Str → Prop) (moves : Str → Str → Prop) (g g' : DbRows) : Prop where
  none : ∀ n i, g n i = none → g' n i = none
  some : ∀ n i cells, ¬ resets n → g n i = some cells → ∃ cells', g' n i = some cells' ∧ ∀ c, ¬ moves n c → cells' c = cells c
  reset : ∀ n i, resets n → g' n i = Option.none

theorem RowsKept.refl {resets : Str → Prop} {moves : Str → Str → Prop} (h : ∀ n, ¬ resets n) (g : DbRows) : RowsKept resets moves g g :=
  ⟨fun _ _ h => h, fun _ _ cells _ hc => ⟨cells, hc, fun _ _ => rfl⟩, fun n _ hn => absurd hn (h n)⟩

theorem RowsKept.trans {r r' : Str → Prop} {m m' : Str → Str → Prop} {g g' g'' : DbRows} (h : RowsKept r m g g') (h' : RowsKept r' m' g' g'') :
    RowsKept (fun n => r n ∨ r' n) (fun n c => m n c ∨ m' n c) g g'' := by
  refine ⟨fun n i hn => h'.none n i (h.none n i hn), ?_, ?_⟩
  · intro n i cells hn hc
    obtain ⟨cells1, h1, h2⟩ := h.some n i cells (fun e => hn (.inl e)) hc
    obtain ⟨cells2, h3, h4⟩ := h'.some n i cells1 (fun e => hn (.inr e)) h1
    exact ⟨cells2, h3, fun c hm => (h4 c (fun e => hm (.inr e))).trans (h2 c (fun e => hm (.inl e)))⟩
  · rintro n i (hn | hn)
    · exact h'.none n i (h.reset n i hn)
    · exact h'.reset n i hn

theorem is_colsAdded {cs : List ClauseSql} {cl : List Clause} (h : Paired ClauseSql.Is cs cl) : colsAdded cs = (addedCols cl).map (fun e => e.1.sql) := by
  induction h with
  | nil => rfl
  | cons hx _ ih =>
    simp only [colsAdded, addedCols] at ih ⊢
    cases hx <;> simp [ih]

theorem mem_addedCols_ops {ops : List AlterOp} {c : Column} {p : Pos} (h : (c, p) ∈ addedCols (ops.flatMap clauses)) : .addColumn c p ∈ ops := by
  simp only [addedCols, List.mem_filterMap, List.mem_flatMap] at h
  obtain ⟨x, ⟨o, ho, hx⟩, he⟩ := h
  cases o <;> simp only [clauses, List.mem_cons, List.not_mem_nil, or_false] at hx
  case addColumn => subst hx; simp at he; obtain ⟨rfl, rfl⟩ := he; exact ho
  case changeKey => rcases hx with rfl | rfl <;> simp at he
  case changeConstraint => rcases hx with rfl | rfl <;> simp at he
  all_goals subst hx; simp at he

theorem mem_droppedCols_ops {ops : List AlterOp} {n : Str} (h : n ∈ droppedCols (ops.flatMap clauses)) : ∃ c, .removeColumn c ∈ ops ∧ c.name = n := by
  simp only [droppedCols, List.mem_filterMap, List.mem_flatMap] at h
  obtain ⟨x, ⟨o, ho, hx⟩, he⟩ := h
  cases o <;> simp only [clauses, List.mem_cons, List.not_mem_nil, or_false] at hx
  case removeColumn c => subst hx; simp at he; exact ⟨c, ho, he⟩
  case changeKey => rcases hx with rfl | rfl <;> simp at he
  case changeConstraint => rcases hx with rfl | rfl <;> simp at he
  all_goals subst hx; simp at he

theorem mem_changedCols_ops {ops : List AlterOp} {e : Str × Column} (h : e ∈ changedCols (ops.flatMap clauses)) : e.1 = e.2.name := by
  simp only [changedCols, List.mem_filterMap, List.mem_flatMap] at h
  obtain ⟨x, ⟨o, ho, hx⟩, he⟩ := h
  cases o <;> simp only [clauses, List.mem_cons, List.not_mem_nil, or_false] at hx
  case changeColumn => subst hx; simp at he; rw [← he]
  case changeKey => rcases hx with rfl | rfl <;> simp at he
  case changeConstraint => rcases hx with rfl | rfl <;> simp at he
  all_goals subst hx; simp at he

/-- a column which is neither added nor dropped keeps its value -/
theorem alterCells_kept (dflt : ColumnSql → Option Str) {cs : List ClauseSql} {a : Alter} (h : Paired ClauseSql.Is cs (a.ops.flatMap clauses)) (cells : Cells) {c : Str}
    (hc : ¬ (Op.alter a).moves a.table c) : alterCells dflt cs cells c = cells c := by
  simp only [Op.moves, true_and, not_or, not_exists, not_and] at hc
  unfold alterCells
  rw [is_colsAdded h, is_colsChanged h, is_colsDropped h]
  have h1 : ((addedCols (a.ops.flatMap clauses)).map (fun e => e.1.sql)).find? (fun d => d.name = c) = none := by
    rw [List.find?_eq_none]
    intro d hd
    obtain ⟨e, he, rfl⟩ := List.mem_map.mp hd
    simp only [decide_eq_true_eq]
    exact hc.1 e.1 e.2 (mem_addedCols_ops he)
  rw [h1]
  simp only
  split
  · rename_i e he
    have hm := List.mem_of_find?_eq_some he
    have hn := List.find?_some he
    obtain ⟨x, hx, rfl⟩ := List.mem_map.mp hm
    have hn : x.2.name = c := of_decide_eq_true hn
    rw [← hn]
    exact congrArg cells (mem_changedCols_ops hx)
  · rename_i he
    rw [if_neg]
    simp only [Bool.or_eq_true, List.contains_iff_mem, List.any_eq_true, decide_eq_true_eq, not_or, not_exists, not_and]
    constructor
    · intro hd
      obtain ⟨d, hd, hn⟩ := mem_droppedCols_ops hd
      exact hc.2 d hd hn
    · intro x hx hxc
      rw [List.find?_eq_none] at he
      obtain ⟨y, hy, rfl⟩ := List.mem_map.mp hx
      have := he _ hx
      rw [mem_changedCols_ops hy] at hxc
      exact this (decide_eq_true hxc)

/-- One statement on the structure. -/
theorem world_exec (dflt : ColumnSql → Option Str) {op : Op} {st : Stmt} (hm : op.Means st) {db db' : SDb} (h : db.exec op = some db')
    (hs : op.isToggle ∨ op.isCreate ∨ op.isAlter ∨ op.isDrop) (g : DbRows) :
    ∃ g', World.exec dflt ⟨db.sql, g⟩ st = some ⟨db'.sql, g'⟩ ∧ RowsKept (op.resets ·) (op.moves · ·) g g' := by
  have hex := sql_exec hm h
  simp only [World.exec, hex, Option.bind_eq_bind, Option.bind_some]
  cases hm with
  | disableChecks => exact ⟨g, rfl, RowsKept.refl (fun _ => id) g⟩
  | enableChecks => exact ⟨g, rfl, RowsKept.refl (fun _ => id) g⟩
  | createTable t =>
    refine ⟨_, rfl, ⟨?_, ?_, ?_⟩⟩
    · intro n i hn; simp only; split
      · rfl
      · exact hn
    · intro n i cells hn hc
      refine ⟨cells, ?_, fun _ _ => rfl⟩
      simp only
      rw [if_neg (fun e => hn e.symm), hc]
    · intro n i hn
      simp only [Op.resets] at hn
      simp [hn]
  | alter a cs hp =>
    refine ⟨_, rfl, ⟨?_, ?_, fun _ _ h => h.elim⟩⟩
    · intro n i hn
      simp only
      split <;> simp [hn]
    · intro n i cells _ hc
      simp only
      split
      · rename_i hn
        subst hn
        exact ⟨_, by rw [hc]; rfl, fun c hcm => alterCells_kept dflt hp cells hcm⟩
      · exact ⟨cells, hc, fun _ _ => rfl⟩
  | removeTable m =>
    refine ⟨_, rfl, ⟨?_, ?_, ?_⟩⟩
    · intro n i hn; simp only; split
      · rfl
      · exact hn
    · intro n i cells hn hc
      refine ⟨cells, ?_, fun _ _ => rfl⟩
      simp only
      rw [if_neg (fun e => hn e.symm), hc]
    · intro n i hn
      simp only [Op.resets] at hn
      simp [hn]
  | rowInsert | rowUpdate | rowDelete => rcases hs with h | h | h | h <;> cases h

/-- All statements on the structure. -/
theorem world_sendAll (dflt : ColumnSql → Option Str) : ∀ {ops : List Op} {db db' : SDb}, (∀ op ∈ ops, ∃ st, readStatement op.render = some st ∧ op.Means st) →
    (∀ op ∈ ops, op.isToggle ∨ op.isCreate ∨ op.isAlter ∨ op.isDrop) → db.execAll ops = some db' → ∀ g : DbRows,
    ∃ g', World.sendAll dflt ⟨db.sql, g⟩ (ops.map Op.render) = some ⟨db'.sql, g'⟩ ∧
      RowsKept (fun n => ∃ op ∈ ops, op.resets n) (fun n c => ∃ op ∈ ops, op.moves n c) g g'
  | [], db, db', _, _, h, g => by
    cases h
    exact ⟨g, rfl, RowsKept.refl (by simp) g⟩
  | op :: ops, db, db', hm, hs, h, g => by
    simp only [SDb.execAll, List.foldlM_cons, Option.bind_eq_bind, Option.bind_eq_some_iff] at h
    obtain ⟨m, h1, h2⟩ := h
    obtain ⟨st, hr, hmean⟩ := hm op (by simp)
    obtain ⟨g1, e1, k1⟩ := world_exec dflt hmean h1 (hs op (by simp)) g
    obtain ⟨g2, e2, k2⟩ := world_sendAll dflt (fun o ho => hm o (List.mem_cons_of_mem _ ho)) (fun o ho => hs o (List.mem_cons_of_mem _ ho)) h2 g1
    refine ⟨g2, ?_, ?_⟩
    · simp only [World.sendAll, List.map_cons, List.foldlM_cons, World.send, hr, Option.bind_some, e1, Option.bind_eq_bind]
      exact e2
    · have := k1.trans k2
      simpa only [List.mem_cons, exists_eq_or_imp] using this

/-! ## Statements on rows -/

/-- the columns and tables which a statement on rows names exist -/
def RowFits (s : DbSql) : Op → Prop
  | .rowInsert t r => ∃ T, s.tables.get? t = some T ∧ r.keys.Nodup ∧ ∀ c ∈ r.keys, c ∈ T.cols.keys
  | .rowUpdate t r => ∃ T, s.tables.get? t = some T ∧ r.keys.Nodup ∧ ∀ c ∈ r.keys, c ∈ T.cols.keys
  | .rowDelete t _ => ∃ T, s.tables.get? t = some T ∧ py"id" ∈ T.cols.keys
  | _ => False

/-- the defaults of the columns of the tables -/
def defaults (dflt : ColumnSql → Option Str) (s : DbSql) : Str → Cells := fun t c => ((s.tables.get? t).bind (·.cols.get? c)).bind dflt

theorem given_row (c : Str) : ∀ r : Row, given r.keys (r.values.map PyVal.cell) c = (r.get? c).map PyVal.cell
  | [] => rfl
  | (k, v) :: r => by
    have ih := given_row c r
    unfold given Dict.keys Dict.values at *
    simp only [List.map_cons, List.zip_cons_cons, List.lookup_cons, Dict.get?_cons]
    by_cases h : k = c
    · simp [h]
    · have : (c == k) = false := by simpa using fun e => h e.symm
      simp only [this, if_neg h]
      exact ih

theorem all_has {V : Type} {d : Dict V} {l : List Str} (h : ∀ c ∈ l, c ∈ d.keys) : l.all d.has = true :=
  List.all_eq_true.mpr (fun c hc => Dict.has_iff.mpr (h c hc))

theorem filter_get? (p : Str → Bool) {c : Str} (hp : p c = true) (r : Row) : Dict.get? (r.filter (fun e => p e.1)) c = Dict.get? r c := by
  rw [Dict.get?_filter_key, if_pos hp]

/-- One statement on rows. -/
theorem world_row (dflt : ColumnSql → Option Str) {op : Op} {st : Stmt} (hm : op.Means st) {s : DbSql} {g g' : DbRows} (hf : RowFits s op)
    (h : DbRows.exec (defaults dflt s) g op = some g') : World.exec dflt ⟨s, g⟩ st = some ⟨s, g'⟩ := by
  cases hm with
  | disableChecks | enableChecks | createTable | alter | removeTable => exact hf.elim
  | rowInsert t r =>
    obtain ⟨T, hT, hn, hc⟩ := hf
    simp only [DbRows.exec] at h
    split at h
    · cases h
    rename_i i hi
    split at h
    · cases h
    · rename_i hfree
      cases h
      have hid : given r.keys (r.values.map PyVal.cell) py"id" = some (some i) := by
        rw [given_row]
        unfold DbRows.givenId at hi
        obtain ⟨v, hv, hvi⟩ := Option.bind_eq_some_iff.mp hi
        rw [hv, Option.map_some, hvi]
      have hlen : r.keys.length = (r.values.map PyVal.cell).length := by simp [Dict.keys, Dict.values]
      simp only [World.exec, DbSql.exec, World.rowsAfter, hT, Option.bind_eq_bind, Option.bind_some, all_has hc, hn, hlen, hid, decide_true, Bool.not_true, Bool.or_self,
        Bool.or_false, ne_eq, not_true_eq_false, decide_false, Bool.false_eq_true, if_false, if_neg hfree, given_row]
      congr 4
      funext c
      simp only [DbRows.fill, defaults, hT, Option.bind_some]
      cases Dict.get? r c <;> rfl
  | rowUpdate t r v hv =>
    obtain ⟨T, hT, hn, hc⟩ := hf
    simp only [DbRows.exec] at h
    split at h
    · cases h
    rename_i i hi
    have hvi : v.cell = some i := by
      unfold DbRows.givenId at hi
      rw [hv] at hi
      exact hi
    have hvs : v.toStr = i := by
      cases v <;> first | (cases hvi; done) | (simp only [PyVal.cell, Option.some.injEq] at hvi; exact hvi)
    have hsets : ((r.filter (fun e => e.1 ≠ py"id")).map (fun e => Equation.mk e.1 e.2.cell)).map (·.column) = Dict.keys (r.filter (fun e => e.1 ≠ py"id")) := by
      simp [Dict.keys]
    have hvals : ((r.filter (fun e => e.1 ≠ py"id")).map (fun e => Equation.mk e.1 e.2.cell)).map (·.value) =
        (Dict.values (r.filter (fun e => e.1 ≠ py"id"))).map PyVal.cell := by
      simp [Dict.values]
    have hkeys : Dict.keys (r.filter (fun e => e.1 ≠ py"id")) = r.keys.filter (fun c => c ≠ py"id") := Dict.keys_filter_key (fun c => decide (c ≠ py"id")) r
    have hidc : py"id" ∈ r.keys := Dict.mem_keys_of_get? hv
    have h1 : (Dict.keys (r.filter (fun e => e.1 ≠ py"id"))).all T.cols.has = true := by
      rw [hkeys]
      exact all_has (fun c hm => hc c (List.mem_filter.mp hm).1)
    have h2 : (Dict.keys (r.filter (fun e => e.1 ≠ py"id"))).Nodup := by rw [hkeys]; exact hn.sublist List.filter_sublist
    have h3 : (Dict.keys (r.filter (fun e => e.1 ≠ py"id"))).contains py"id" = false := by
      rw [hkeys]
      simp
    have h4 : T.cols.has py"id" = true := Dict.has_iff.mpr (hc _ hidc)
    simp only [World.exec, DbSql.exec, World.rowsAfter, hT, Option.bind_eq_bind, Option.bind_some, hsets, hvals, given_row, h1, h2, h3, h4, decide_true, Bool.not_true,
      Bool.or_self, ne_eq, not_true_eq_false, decide_false, Bool.false_eq_true, if_false, hvs, Option.some.injEq, World.mk.injEq, true_and]
    cases hg : g t i with
    | none => rw [hg] at h; cases h; rfl
    | some cells =>
      rw [hg] at h
      cases h
      simp only
      congr 2
      funext c
      simp only [DbRows.fill]
      by_cases hcid : c = py"id"
      · subst hcid
        rw [if_pos rfl, hv]
        exact hvi.symm
      · rw [if_neg hcid]
        have := filter_get? (fun k => decide (k ≠ py"id")) (by simpa using hcid) r
        simp only [ne_eq] at this ⊢
        rw [this]
        cases Dict.get? r c <;> rfl
  | rowDelete t i =>
    obtain ⟨T, hT, hid⟩ := hf
    cases h
    simp only [World.exec, DbSql.exec, World.rowsAfter, hT, Option.bind_eq_bind, Option.bind_some, Dict.has_iff.mpr hid, ne_eq, not_true_eq_false, decide_false,
      Bool.not_true, Bool.or_self, Bool.false_eq_true, if_false]

/-- All statements on rows. -/
theorem world_rows (dflt : ColumnSql → Option Str) {s : DbSql} : ∀ {ops : List Op} {g g' : DbRows}, (∀ op ∈ ops, ∃ st, readStatement op.render = some st ∧ op.Means st) →
    (∀ op ∈ ops, RowFits s op) → DbRows.execAll (defaults dflt s) g ops = some g' → World.sendAll dflt ⟨s, g⟩ (ops.map Op.render) = some ⟨s, g'⟩
  | [], g, g', _, _, h => by cases h; rfl
  | op :: ops, g, g', hm, hf, h => by
    simp only [DbRows.execAll, Option.bind_eq_some_iff] at h
    obtain ⟨g1, h1, h2⟩ := h
    obtain ⟨st, hr, hmean⟩ := hm op (by simp)
    have e1 := world_row dflt hmean (hf op (by simp)) h1
    simp only [World.sendAll, List.map_cons, List.foldlM_cons, World.send, hr, Option.bind_some, e1, Option.bind_eq_bind]
    exact world_rows dflt (fun o ho => hm o (List.mem_cons_of_mem _ ho)) (fun o ho => hf o (List.mem_cons_of_mem _ ho)) h2

theorem world_append (dflt : ColumnSql → Option Str) {w w' : World} {l l' : List Str} (h : w.sendAll dflt l = some w') :
    w.sendAll dflt (l ++ l') = w'.sendAll dflt l' := by
  simp only [World.sendAll, List.foldlM_append] at h ⊢
  rw [h]
  rfl

/-! ## The columns which a plan adds and drops -/

section
variable [PyNum]

theorem addedColumnOps_new {s t : Table} (hk : t.Keyed) : ∀ {ks : List Str} {ops : List AlterOp}, (∀ k ∈ ks, k ∉ s.columns.keys) →
    addedColumnOps t ks = .ok ops → ∀ o ∈ ops, ∃ c p, o = .addColumn c p ∧ c.name ∉ s.columns.keys := by
  intro ks
  induction ks with
  | nil => intro ops _ h; cases h; intro o ho; cases ho
  | cons k ks ih =>
    intro ops hks ho
    simp only [addedColumnOps] at ho
    cases hc : t.columns.get? k with
    | none => simp [hc] at ho
    | some c =>
      simp only [hc] at ho
      cases hb : t.columnBefore k with
      | error e => simp [hb] at ho
      | ok p =>
        simp only [hb] at ho
        cases hr : addedColumnOps t ks with
        | error e => simp [hr, Except.map] at ho
        | ok l =>
          simp only [hr, Except.map, Except.ok.injEq] at ho
          intro o hm
          rw [← ho] at hm
          rcases List.mem_cons.mp hm with rfl | hm
          · exact ⟨c, p, rfl, by rw [hk.colName k c (Dict.mem_of_get? hc)]; exact hks k List.mem_cons_self⟩
          · exact ih (fun x hx => hks x (List.mem_cons_of_mem _ hx)) hr o hm

theorem changedColumnOps_only {s t : Table} : ∀ {ks : List Str} {ops : List AlterOp}, changedColumnOps s t ks = .ok ops → ∀ o ∈ ops, ∃ c, o = .changeColumn c := by
  intro ks
  induction ks with
  | nil => intro ops h; cases h; intro o ho; cases ho
  | cons k ks ih =>
    intro ops ho
    simp only [changedColumnOps] at ho
    cases ha : s.columns.get? k with
    | none => simp [ha] at ho
    | some a =>
      cases hb : t.columns.get? k with
      | none => simp [ha, hb] at ho
      | some b =>
        simp only [ha, hb] at ho
        split at ho
        · exact ih ho
        · split at ho
          · cases ho
          · exact ih ho
          · cases hr : changedColumnOps s t ks with
            | error e => simp [hr, Except.map] at ho
            | ok l =>
              simp only [hr, Except.map, Except.ok.injEq] at ho
              intro o hm
              rw [← ho] at hm
              rcases List.mem_cons.mp hm with rfl | hm
              · exact ⟨b, rfl⟩
              · exact ih hr o hm

/-- the clause does not add or drop a column which both tables have -/
def SparesColumns (s t : Table) : AlterOp → Prop
  | .addColumn c _ => c.name ∉ s.columns.keys
  | .removeColumn c => c.name ∉ t.columns.keys
  | _ => True

theorem toSplit_spares {s t : Table} {d : Diff} (hk : t.Keyed) (hsk : s.Keyed) (h : s.toSplit t = .ok d) :
    (∀ o ∈ d.removedFks, SparesColumns s t o) ∧ (∀ o ∈ d.kitchenSink, SparesColumns s t o) ∧ (∀ o ∈ d.fks, SparesColumns s t o) := by
  simp only [toSplit] at h
  cases ha : addedColumnOps t (added s.columns t.columns) with
  | error e => simp [ha] at h
  | ok adds =>
    simp only [ha] at h
    cases hc : changedColumnOps s t (overlap s.columns t.columns) with
    | error e => simp [hc] at h
    | ok changes =>
      simp only [hc, Except.ok.injEq] at h
      subst h
      refine ⟨?_, ?_, ?_⟩
      · intro o ho
        simp only [removedFkOps, List.mem_filterMap, Option.map_eq_some_iff] at ho
        obtain ⟨k, _, x, hx, rfl⟩ := ho
        trivial
      · intro o ho
        simp only [List.mem_append] at ho
        rcases ho with ((ho | ho) | ho) | ho
        · obtain ⟨c, p, rfl, hn⟩ := addedColumnOps_new hk (fun k hk => (mem_added.mp hk).2) ha o ho
          exact hn
        · obtain ⟨c, rfl⟩ := changedColumnOps_only hc o ho
          trivial
        · simp only [removedColumnOps, List.mem_filterMap, Option.map_eq_some_iff] at ho
          obtain ⟨k, hk, c, hc, rfl⟩ := ho
          simp only [SparesColumns]
          rw [hsk.colName k c (Dict.mem_of_get? hc)]
          exact (mem_removed.mp hk).2
        · simp only [keyOps, List.mem_append, List.mem_filterMap, Option.map_eq_some_iff] at ho
          rcases ho with (⟨k, _, i, hi, rfl⟩ | ⟨k, _, i, hi, rfl⟩) | ⟨k, _, h⟩
          · trivial
          · trivial
          · split at h
            · split at h
              · cases h
              · split at h
                · cases h
                · cases h
                  trivial
            · cases h
      · intro o ho
        simp only [addedFkOps, List.mem_filterMap, Option.map_eq_some_iff] at ho
        obtain ⟨k, _, x, hx, rfl⟩ := ho
        trivial

/-- A plan does not add or drop a column of a table which is there before and declared, if the same is true of the column. -/
theorem process_spares {t : Dict Table} {from? : Option (Dict Table)} {checks : Bool} {ops : List Op} (ht : KeyedTables t) (hf : KeyedTables (from?.getD []))
    (h : process t from? checks = .ok ops) {a b : Table} {n c : Str} (ha : (from?.getD []).get? n = some a) (hb : t.get? n = some b)
    (hca : c ∈ a.columns.keys) (hcb : c ∈ b.columns.keys) : ¬ ∃ op ∈ ops, op.moves n c := by
  rintro ⟨op, hop, hmv⟩
  obtain ⟨hops, hdiff⟩ := process_eq hf h
  have hdone : ∀ x : Alter, op = .alter x → (∀ o ∈ x.ops, SparesColumns a b o) → False := by
    rintro x rfl hx
    obtain ⟨_, ⟨d, p, h1, h2⟩ | ⟨d, h1, h2⟩⟩ := hmv
    · have := hx _ h1
      simp only [SparesColumns, h2] at this
      exact this hca
    · have := hx _ h1
      simp only [SparesColumns, h2] at this
      exact this hcb
  have hover : ∀ m x, m ∈ overlap (from?.getD []) t → op = .alter x → x.table = m →
      (∀ o ∈ (diffOf (from?.getD []) t m).removedFks, SparesColumns a b o) ∧ (∀ o ∈ (diffOf (from?.getD []) t m).kitchenSink, SparesColumns a b o) ∧
      (∀ o ∈ (diffOf (from?.getD []) t m).fks, SparesColumns a b o) := by
    rintro m x hm rfl rfl
    obtain ⟨a', b', ha', hb', hab⟩ := hdiff _ hm
    rw [hmv.1] at ha' hb' hab ⊢
    rw [ha] at ha'
    rw [hb] at hb'
    cases ha'
    cases hb'
    exact toSplit_spares (ht.keyed n b (Dict.mem_of_get? hb)) (hf.keyed n a (Dict.mem_of_get? ha)) hab
  have hif : ∀ (m : Str) (l : List AlterOp) (x : Alter), x ∈ alterIf m l → x.table = m ∧ x.ops = l := by
    intro m l x hx
    unfold alterIf at hx
    split at hx
    · cases hx
    · rw [List.mem_singleton.mp hx]; exact ⟨rfl, rfl⟩
  rw [hops] at hop
  simp only [List.mem_append] at hop
  rcases hop with ((((((hop | hop) | hop) | hop) | hop) | hop) | hop) | hop
  · split at hop
    · rw [List.mem_singleton.mp hop] at hmv; exact hmv
    · cases hop
  · simp only [List.mem_filterMap, Option.map_eq_some_iff] at hop
    obtain ⟨n, _, x, hx, rfl⟩ := hop
    exact hmv
  · obtain ⟨x, hx, rfl⟩ := List.mem_map.mp hop
    refine hdone x rfl fun o ho => ?_
    rw [mem_groupAlters hx] at ho
    obtain ⟨e, he, rfl⟩ := List.mem_map.mp ho
    obtain ⟨y, _, rfl⟩ := List.mem_map.mp (List.mem_filter.mp he).1
    trivial
  · obtain ⟨x, hx, rfl⟩ := List.mem_map.mp hop
    obtain ⟨m, hm, hx⟩ := List.mem_flatMap.mp hx
    rcases List.mem_append.mp hx with hx | hx
    · obtain ⟨h1, h2⟩ := hif _ _ _ hx
      exact hdone x rfl (fun o ho => (hover m x hm rfl h1).1 o (List.mem_filter.mp (h2 ▸ ho)).1)
    · obtain ⟨h1, h2⟩ := hif _ _ _ hx
      exact hdone x rfl (fun o ho => (hover m x hm rfl h1).2.1 o (h2 ▸ ho))
  · obtain ⟨x, hx, rfl⟩ := List.mem_map.mp hop
    obtain ⟨m, hm, hx⟩ := List.mem_flatMap.mp hx
    obtain ⟨h1, h2⟩ := hif _ _ _ hx
    exact hdone x rfl (fun o ho => (hover m x hm rfl h1).2.2 o (List.mem_filter.mp (h2 ▸ ho)).1)
  · obtain ⟨x, hx, rfl⟩ := List.mem_map.mp hop
    refine hdone x rfl fun o ho => ?_
    rw [mem_groupAlters hx] at ho
    obtain ⟨e, he, rfl⟩ := List.mem_map.mp ho
    obtain ⟨y, _, k, m, _, rfl, _⟩ := mem_cycleAdds (List.mem_filter.mp he).1
    trivial
  · obtain ⟨m, _, rfl⟩ := List.mem_map.mp hop
    exact hmv
  · split at hop
    · rw [List.mem_singleton.mp hop] at hmv; exact hmv
    · cases hop

/-! ## The rows do not matter for the structure -/

/-- a table without what does not matter for the plan of the structure -/
def Table.bare (t : Table) : Table := { name := t.name, columns := t.columns, indexes := t.indexes, constraints := t.constraints }

theorem toSplit_bare (s t : Table) : s.bare.toSplit t = s.toSplit t := by
  have h1 : ∀ ks, changedColumnOps s.bare t ks = changedColumnOps s t ks := by
    intro ks
    induction ks with
    | nil => rfl
    | cons k ks ih => simp only [changedColumnOps, ih]; rfl
  have h2 : ∀ cn ak rk acc, matchKeys s.bare t cn ak rk acc = matchKeys s t cn ak rk acc := by
    intro cn ak rk
    induction rk with
    | nil => intro acc; rfl
    | cons k ks ih => intro acc; simp only [matchKeys, ih]; rfl
  have h3 : keyOps s.bare t = keyOps s t := by
    unfold keyOps matchedKeys
    simp only [h2]
    rfl
  unfold toSplit
  rw [h1, h3]
  rfl

theorem process_bare (t f : Dict Table) (b : Bool) : process t (some (mapped Table.bare f)) b = process t (some f) b := by
  have h1 : ∀ ns, changingColumns (mapped Table.bare f) t ns = changingColumns f t ns := by
    intro ns
    unfold changingColumns
    congr 1
    funext n
    rw [mapped_get?]
    cases f.get? n <;> cases t.get? n <;> rfl
  have h2 : overlap (mapped Table.bare f) t = overlap f t := by unfold overlap; rw [mapped_keys]
  have h3 : cycles (some (mapped Table.bare f)) t = cycles (some f) t := by
    unfold cycles
    simp only [h1, h2]
    unfold fksToCycle mapped
    rw [List.flatMap_map]
    rfl
  have h4 : ∀ cyc ns, updateTables cyc (mapped Table.bare f) t ns = updateTables cyc f t ns := by
    intro cyc ns
    induction ns with
    | nil => rfl
    | cons n ns ih =>
      simp only [updateTables, ih, mapped_get?]
      cases f.get? n with
      | none => rfl
      | some s =>
        cases t.get? n with
        | none => rfl
        | some x =>
          have : updateTable cyc s.bare x = updateTable cyc s x := by
            unfold updateTable
            rw [toSplit_bare]
            rfl
          simp only [Option.map_some, this]
  unfold process
  simp only [Option.getD_some, h2, h3, h4]
  have h5 : added (mapped Table.bare f) t = added f t := by unfold added; simp only [mapped_has]
  have h6 : removed (mapped Table.bare f) t = removed f t := by unfold removed; rw [mapped_keys]
  rw [h5, h6]

end

theorem addRawRows_bare : ∀ (rs : List Row) (t t' : Table), LiveDatabase.addRawRows t rs = .ok t' → t'.bare = t.bare
  | [], t, t', h => by cases h; rfl
  | r :: rs, t, t', h => by
    unfold LiveDatabase.addRawRows at h
    split at h
    · cases h
    · rename_i t1 h1
      rw [addRawRows_bare rs t1 t' h]
      rw [addRawRow_eq] at h1
      split at h1
      · cases h1
      · split at h1 <;> cases h1 <;> rfl

theorem set_same {V : Type} {k : Str} {v : V} : ∀ {d : Dict V}, d.get? k = some v → d.set k v = d
  | [], h => by cases h
  | (k', v') :: d, h => by
    rw [Dict.get?_cons] at h
    unfold Dict.set
    split
    · rename_i e
      rw [if_pos e] at h
      cases h
      rw [e]
    · rename_i e
      rw [if_neg e] at h
      rw [set_same h]

theorem readTracked_bare {srv : Server} : ∀ (ts : List Table) (live live' : Database), (Command.readTracked srv live ts).result = .ok live' →
    mapped Table.bare live'.tables = mapped Table.bare live.tables
  | [], live, live', h => by cases h; rfl
  | t :: ts, live, live', h => by
    unfold Command.readTracked at h
    split at h
    · obtain ⟨d1, h1, h⟩ := Run.bind_result h
      obtain ⟨x, rs, x', hx, _, hx', hd1⟩ := Command.readRows_result h1
      rw [readTracked_bare ts d1 live' h, hd1, mapped_set]
      refine set_same ?_
      rw [mapped_get?, hx]
      have : x'.markTracking.bare = x'.bare := rfl
      rw [this, addRawRows_bare rs x x' hx']
      rfl
    · exact readTracked_bare ts live live' h

end Mygrations

import Verif.Proofs.CoreReplay

/-! # C81: replaying a diff with the operations of the core package -/

namespace Mygrations
open Table MySQL

theorem addsFrom_onlyAdds (s : Dict Column) : ∀ (rest : Dict Column) (pre : List Str), ∀ op ∈ addsFrom s pre rest, op.onKey = false ∧ Core.dropsColumn op = false
  | [], _, op, h => by simp [addsFrom] at h
  | (k, c) :: rest, pre, op, h => by
    simp only [addsFrom] at h
    split at h
    · exact addsFrom_onlyAdds s rest _ op h
    · rcases List.mem_cons.mp h with rfl | h
      · exact ⟨rfl, rfl⟩
      · exact addsFrom_onlyAdds s rest _ op h

/-- what comes before the columns are dropped -/
theorem diff_before_drops [PyNum] {s t : Table} (hs : s.Keyed) (ht : t.Keyed) {d : Diff} (hd : s.toSplit t = .ok d) :
    ∃ pre : List AlterOp, d.removedFks ++ d.kitchenSink = (pre ++ (look s.columns (removed s.columns t.columns)).map .removeColumn) ++ keyOps s t ∧
      ∀ o ∈ pre, o.onKey = false ∧ Core.dropsColumn o = false := by
  simp only [toSplit, addedColumnOps_added s t ht] at hd
  cases hc : changedColumnOps s t (overlap s.columns t.columns) with
  | error e => simp [hc] at hd
  | ok changes =>
    simp only [hc, Except.ok.injEq] at hd
    obtain ⟨ch, c1, -⟩ := changedColumnOps_spec s t ht _ _ (overlap_nodup hs.colNodup) hc
    have hrm : removedColumnOps s (removed s.columns t.columns) = (look s.columns (removed s.columns t.columns)).map .removeColumn := by
      simp only [removedColumnOps, look, List.map_filterMap]
    refine ⟨d.removedFks ++ (addsFrom s.columns [] t.columns ++ changes), ?_, ?_⟩
    · rw [← hd, ← hrm]
      simp [List.append_assoc]
    · intro op hop
      simp only [List.mem_append] at hop
      rcases hop with hop | hop | hop
      · rw [← hd] at hop
        simp only [removedFkOps_eq, List.mem_map] at hop
        obtain ⟨_, _, rfl⟩ := hop
        exact ⟨rfl, rfl⟩
      · exact addsFrom_onlyAdds _ _ _ op hop
      · rw [c1] at hop
        obtain ⟨_, _, rfl⟩ := List.mem_map.mp hop
        exact ⟨rfl, rfl⟩

/-- **C81** (partial).  Replaying the operations of `source.to(target)`, taken from the core package, on the source in memory.
If no column has to go, every operation succeeds, and the table ends up with the target's columns and foreign keys, and with its keys,
one for one — also where keys are added, dropped or changed, which the operations of the MySQL package cannot do (C07).
Missing: dropping a column (`C81_refuted`). -/
theorem C81_partial [PyNum] (s t : Table) (hs : s.Valid) (ht : t.Valid) (ps : s.Plain) (pt : t.Plain) (as : List Alter) (h : s.to t = .ok as)
    (hkeep : ∀ n ∈ s.columns.keys, n ∈ t.columns.keys) :
    ∃ r, Core.applyOps s (Table.operations as) = .ok r ∧ Reached s t r ∧ r.name = s.name ∧
      ∃ js : List Index, js.Perm t.indexes.values ∧ Paired (fun i j => KeyStands s t (keyName i, i) j) r.indexes.values js := by
  cases hd : s.toSplit t with
  | error e => simp [to, hd] at h
  | ok d =>
    obtain ⟨as', h', hops⟩ := operations_eq hd
    rw [h] at h'
    simp only [Except.ok.injEq] at h'
    subst h'
    obtain ⟨colOps, cols, hk, hok, hrun, hfks⟩ := replay_columns hs.toKeyed ht.toKeyed hd
    obtain ⟨pre, hpre, hsame⟩ := diff_before_drops hs.toKeyed ht.toKeyed hd
    have hrem : removed s.columns t.columns = [] := by
      apply List.eq_nil_iff_forall_not_mem.mpr
      intro n hn
      exact (mem_removed.mp hn).2 (hkeep n (mem_removed.mp hn).1)
    rw [hrem, hk, ← List.append_assoc] at hpre
    have hpre := List.append_cancel_right hpre
    simp only [look, List.filterMap_nil, List.map_nil, List.append_nil] at hpre
    have hops' : Table.operations as = (d.removedFks ++ colOps) ++ (keyOps s t ++ d.fks) := by
      rw [hops, hk]; simp
    obtain ⟨u, k1, k2, k3, k4⟩ := core_keyOps (s := s) (t := t) (u := { s with columns := cols, constraints := keptFks s t }) hs.toKeyed ht.toKeyed
      (fun i hi => (hs.idxCols i hi).1) (fun i hi => (ht.idxCols i hi).1) rfl
    have hfa := fks_added hs.toKeyed ht.toKeyed
    rw [addedFkOps_eq, (addConstraint_clauses _).2.2] at hfa
    have huc : u.constraints = keptFks s t := k2.constraints
    rw [← huc] at hfa
    refine ⟨{ u with constraints := finalFks s t }, ?_, reached_final ht.toKeyed hok k2.columns rfl, k2.name, ?_⟩
    · rw [hops', Core.applyOps_append, Core.applyOps_same _ _ (hpre ▸ hsame), hrun]
      simp only [Core.applyOps_append, k1]
      rw [hfks, Core.applyOps_same, applyOps_addFks _ _ _ hfa]
      intro o ho
      obtain ⟨_, _, rfl⟩ := List.mem_map.mp ho
      exact ⟨rfl, rfl⟩
    · exact core_keys_stand (r := { u with constraints := finalFks s t }) hs ht ps pt k3 k4

/-- **C81** fails whenever a column has to go, whatever else the diff contains: `RemoveColumn` of the core package reads an attribute
which it does not have, and the replay ends with `AttributeError`. -/
theorem C81_refuted [PyNum] (s t : Table) (hs : s.Keyed) (ht : t.Keyed) (as : List Alter) (h : s.to t = .ok as)
    (n : Str) (hn : n ∈ s.columns.keys) (hgone : n ∉ t.columns.keys) :
    Core.applyOps s (Table.operations as) = .error (.attributeError py"column") := by
  cases hd : s.toSplit t with
  | error e => simp [to, hd] at h
  | ok d =>
    obtain ⟨as', h', hops⟩ := operations_eq hd
    rw [h] at h'
    simp only [Except.ok.injEq] at h'
    subst h'
    obtain ⟨colOps, cols, hk, hok, hrun, hfks⟩ := replay_columns hs ht hd
    obtain ⟨pre, hpre, hsame⟩ := diff_before_drops hs ht hd
    have hcut : d.removedFks ++ colOps = pre ++ (look s.columns (removed s.columns t.columns)).map .removeColumn := by
      rw [hk, ← List.append_assoc] at hpre
      exact List.append_cancel_right hpre
    rw [hcut, applyOps_append] at hrun
    have hmem : n ∈ removed s.columns t.columns := mem_removed.mpr ⟨hn, hgone⟩
    obtain ⟨c, hc⟩ := Dict.exists_get? hn
    have hlook : c ∈ look s.columns (removed s.columns t.columns) := mem_look.mpr ⟨n, hmem, hc⟩
    rw [hops, ← List.append_assoc, hpre, List.append_assoc, List.append_assoc, Core.applyOps_append, Core.applyOps_same _ _ hsame]
    cases hp : s.applyOps pre with
    | error e => rw [hp] at hrun; cases hrun
    | ok u =>
      cases hl : look s.columns (removed s.columns t.columns) with
      | nil => rw [hl] at hlook; cases hlook
      | cons c cs => rfl

section
open Examples
attribute [local instance] exactNum

/-- a table of which everything changes but no column is dropped: a new column, a changed one, a new key, a changed key, a dropped key,
a new foreign key -/
def Examples.before : Table := mk py"posts" [idCol, textCol py"title" py"64", intCol py"user_id", intCol py"editor_id"]
  [pk, key py"by_title" [py"title"], key py"by_user" [py"user_id"], key py"by_editor" [py"editor_id"]] []

def Examples.after : Table := mk py"posts" [idCol, textCol py"title" py"128", textCol py"body" py"255", intCol py"user_id", intCol py"editor_id"]
  [pk, key py"by_user" [py"user_id", py"id"], key py"by_editor" [py"editor_id"], key py"by_both" [py"user_id", py"editor_id"]]
  [fk py"posts_user" py"user_id" py"users" py"id"]

example : before.Valid ∧ after.Valid ∧ before.Plain ∧ after.Plain ∧ (∀ n ∈ before.columns.keys, n ∈ after.columns.keys) ∧
    ∃ as r, before.to after = .ok as ∧ Table.operations as ≠ [] ∧ Core.applyOps before (Table.operations as) = .ok r ∧
      r.columns.keys = after.columns.keys ∧ r.indexes.keys = [py"id", py"by_user", py"by_editor", py"by_both"] ∧ r.constraints.keys = [py"posts_user"] :=
  ⟨Table.valid_of_check (by decide), Table.valid_of_check (by decide), Table.plain_of_check (by decide), Table.plain_of_check (by decide),
    by decide, _, _, rfl, by decide, rfl, by decide, by decide, by decide⟩

/-- a case for `C81_refuted` -/
example : after.Keyed ∧ before.Keyed ∧ py"body" ∈ after.columns.keys ∧ py"body" ∉ before.columns.keys ∧
    ∃ as, after.to before = .ok as ∧ Core.applyOps after (Table.operations as) = .error (.attributeError py"column") :=
  ⟨(Table.valid_of_check (by decide)).toKeyed, (Table.valid_of_check (by decide)).toKeyed, by decide, by decide, _, rfl, rfl⟩

end

end Mygrations

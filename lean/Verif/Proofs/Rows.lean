import Verif.Spec.Rows
import Verif.Spec.Plan
import Verif.Proofs.AlterKeys

/-! # Lemmas about row migrations -/

namespace Mygrations

namespace DbRows

/-- what a statement makes of its row -/
def effect (dflt : Str → Cells) (t : Str) (op : Op) (r : Option Cells) : Option Cells :=
  match op with
  | .rowInsert _ row => some (fill (dflt t) row)
  | .rowUpdate _ row => r.map (fun c => fill c row)
  | .rowDelete _ _ => none
  | _ => r

/-- an `INSERT` needs a free id -/
def enabled (op : Op) (r : Option Cells) : Prop :=
  match op with
  | .rowInsert _ _ => r = none
  | _ => True

theorem exec_one {dflt : Str → Cells} {g : DbRows} {op : Op} {t i : Str} (hk : op.rowKey = some (t, i)) (he : enabled op (g t i)) :
    exec dflt g op = some (g.put t i (effect dflt t op (g t i))) := by
  cases op with
  | rowInsert t' row =>
    simp only [Op.rowKey, Option.map_eq_some_iff, Prod.mk.injEq] at hk
    obtain ⟨j, hj, rfl, rfl⟩ := hk
    simp only [enabled] at he
    simp [exec, hj, he, effect]
  | rowUpdate t' row =>
    simp only [Op.rowKey, Option.map_eq_some_iff, Prod.mk.injEq] at hk
    obtain ⟨j, hj, rfl, rfl⟩ := hk
    simp only [exec, hj, effect]
    cases hg : g t' j with
    | some r => simp
    | none =>
      simp only [Option.map_none, Option.some.injEq]
      funext a b
      simp only [put]
      split
      · rename_i h; rw [h.1, h.2, hg]
      · rfl
  | rowDelete t' j =>
    simp only [Op.rowKey, Option.some.injEq, Prod.mk.injEq] at hk
    obtain ⟨rfl, rfl⟩ := hk
    rfl
  | disableChecks => simp [Op.rowKey] at hk
  | enableChecks => simp [Op.rowKey] at hk
  | createTable _ => simp [Op.rowKey] at hk
  | alter _ => simp [Op.rowKey] at hk
  | removeTable _ => simp [Op.rowKey] at hk

/-- Statements about different rows are independent of each other. -/
theorem exec_indep (dflt : Str → Cells) : ∀ (ops : List Op) (g : DbRows), (∀ op ∈ ops, op.rowKey.isSome = true) →
    (ops.map Op.rowKey).Nodup → (∀ op ∈ ops, ∀ t i, op.rowKey = some (t, i) → enabled op (g t i)) →
    ∃ g', execAll dflt g ops = some g' ∧
      (∀ op ∈ ops, ∀ t i, op.rowKey = some (t, i) → g' t i = effect dflt t op (g t i)) ∧
      (∀ t i, (∀ op ∈ ops, op.rowKey ≠ some (t, i)) → g' t i = g t i) := by
  intro ops
  induction ops with
  | nil => intro g _ _ _; exact ⟨g, rfl, by simp, by simp⟩
  | cons op ops ih =>
    intro g hs hn he
    have ⟨⟨t, i⟩, hti⟩ := Option.isSome_iff_exists.mp (hs op List.mem_cons_self)
    rw [List.map_cons, List.nodup_cons] at hn
    have hne : ∀ op' ∈ ops, op'.rowKey ≠ some (t, i) := fun op' hop' h => hn.1 (by rw [hti, ← h]; exact List.mem_map_of_mem hop')
    have hput : ∀ (r : Option Cells) t' i', (t', i') ≠ (t, i) → (g.put t i r) t' i' = g t' i' := by
      intro r t' i' h
      simp only [put]
      rw [if_neg]
      intro h0; exact h (by rw [h0.1, h0.2])
    have h1 := exec_one (dflt := dflt) hti (he op List.mem_cons_self t i hti)
    obtain ⟨g', h2, h3, h4⟩ := ih (g.put t i (effect dflt t op (g t i))) (fun o ho => hs o (List.mem_cons_of_mem _ ho)) hn.2
      (by
        intro o ho t' i' hk
        rw [hput _ _ _ (by intro h0; exact hne o ho (by rw [hk, h0]))]
        exact he o (List.mem_cons_of_mem _ ho) t' i' hk)
    refine ⟨g', by simp [execAll, h1, h2], ?_, ?_⟩
    · intro o ho t' i' hk
      rw [List.mem_cons] at ho
      rcases ho with rfl | ho
      · rw [hti] at hk
        simp only [Option.some.injEq, Prod.mk.injEq] at hk
        obtain ⟨rfl, rfl⟩ := hk
        rw [h4 t i hne]
        simp [put]
      · rw [h3 o ho t' i' hk, hput]
        intro h0; exact hne o ho (by rw [hk, h0])
    · intro t' i' h
      rw [h4 t' i' (fun o ho => h o (List.mem_cons_of_mem _ ho)), hput]
      intro h0
      exact h op List.mem_cons_self (by rw [hti, h0])

end DbRows

namespace Table

theorem looseEqual_iff {a b : PyVal} (ha : a = .none ∨ ∃ s, a = .str s) (hna : a.cell ≠ some py"None") (hnb : b.cell ≠ some py"None") :
    looseEqual a b = true ↔ a.cell = b.cell := by
  rcases ha with rfl | ⟨s, rfl⟩
  · cases b with
    | none => simp [looseEqual, sameType, pyEq, PyVal.cell]
    | str t =>
      simp only [PyVal.cell, PyVal.toStr, ne_eq, Option.some.injEq] at hnb
      have : ¬ ['N', 'o', 'n', 'e'] = t := fun h => hnb h.symm
      simp [looseEqual, sameType, PyVal.cell, PyVal.toStr, this]
    | int n =>
      simp only [PyVal.cell, PyVal.toStr, ne_eq, Option.some.injEq] at hnb
      have : ¬ ['N', 'o', 'n', 'e'] = intStr n := fun h => hnb h.symm
      simp [looseEqual, sameType, PyVal.cell, PyVal.toStr, this]
    | other x y t =>
      simp only [PyVal.cell, PyVal.toStr, ne_eq, Option.some.injEq] at hnb
      have : ¬ ['N', 'o', 'n', 'e'] = t := fun h => hnb h.symm
      simp [looseEqual, sameType, PyVal.cell, PyVal.toStr, this]
  · cases b with
    | none =>
      simp only [PyVal.cell, PyVal.toStr, ne_eq, Option.some.injEq] at hna
      simp [looseEqual, sameType, PyVal.cell, PyVal.toStr, hna]
    | str t => simp [looseEqual, sameType, pyEq, PyVal.cell, PyVal.toStr]
    | int n => simp [looseEqual, sameType, PyVal.cell, PyVal.toStr]
    | other x y t => simp [looseEqual, sameType, PyVal.cell, PyVal.toStr]

theorem looseEqual_refl (a : PyVal) : looseEqual a a = true := by
  cases a <;> simp [looseEqual, sameType, pyEq]

theorem rowDiffers_iff {new old : Row} : rowDiffers new old = true ↔
    ∃ c a b, Dict.get? new c = some a ∧ Dict.get? old c = some b ∧ looseEqual a b = false := by
  simp only [rowDiffers, List.any_eq_true]
  constructor
  · rintro ⟨c, hc, h⟩
    rw [mem_overlap] at hc
    obtain ⟨a, ha⟩ := Dict.exists_get? hc.1
    obtain ⟨b, hb⟩ := Dict.exists_get? hc.2
    refine ⟨c, a, b, ha, hb, ?_⟩
    simpa [ha, hb] using h
  · rintro ⟨c, a, b, ha, hb, h⟩
    exact ⟨c, mem_overlap.mpr ⟨Dict.mem_keys_of_get? ha, Dict.mem_keys_of_get? hb⟩, by simp [ha, hb, h]⟩

theorem rowUpdates_eq {name : Str} {new old : Dict Row} : ∀ {ks : List Str} {ops : List Op}, rowUpdates name new old ks = .ok ops →
    ops = ks.filterMap (fun k => match new.get? k, old.get? k with
      | some n, some o => if rowDiffers n o then some (.rowUpdate name n) else none
      | _, _ => none) := by
  intro ks
  induction ks with
  | nil => intro ops h; simp only [rowUpdates, Except.ok.injEq] at h; simp [← h]
  | cons k ks ih =>
    intro ops h
    simp only [rowUpdates] at h
    cases hn : new.get? k with
    | none => simp [hn] at h
    | some n =>
      cases ho : old.get? k with
      | none => simp [hn, ho] at h
      | some o =>
        simp only [hn, ho] at h
        simp only [List.filterMap_cons, hn, ho]
        by_cases hd : rowDiffers n o = true
        · simp only [hd, if_true] at h ⊢
          split at h
          · cases hr : rowUpdates name new old ks with
            | error e => simp [hr, Except.map] at h
            | ok l =>
              simp only [hr, Except.map, Except.ok.injEq] at h
              rw [← h, ih hr]
          · cases h
        · simp only [hd, Bool.false_eq_true, if_false] at h ⊢
          exact ih h

theorem rowUpdates_ok {name : Str} {new old : Dict Row} (hid : ∀ k r, new.get? k = some r → Dict.has r py"id" = true) :
    ∀ ks : List Str, (∀ k ∈ ks, k ∈ new.keys ∧ k ∈ old.keys) → ∃ ops, rowUpdates name new old ks = .ok ops := by
  intro ks
  induction ks with
  | nil => intro _; exact ⟨_, rfl⟩
  | cons k ks ih =>
    intro h
    obtain ⟨ops, hops⟩ := ih (fun j hj => h j (List.mem_cons_of_mem _ hj))
    obtain ⟨h1, h2⟩ := h k List.mem_cons_self
    obtain ⟨n, hn⟩ := Dict.exists_get? h1
    obtain ⟨o, ho⟩ := Dict.exists_get? h2
    simp only [rowUpdates, hn, ho, hid k n hn, hops, if_true, Except.map]
    split <;> exact ⟨_, rfl⟩

/-- the rows a table is compared with: none if it does not exist yet -/
def oldRows (from? : Option Table) : Dict Row := (from?.bind Table.rows).getD []

/-- the operations of `to_rows`, in one piece -/
def rowOps (name : Str) (new old : Dict Row) : List Op :=
  (added old new).filterMap (fun k => (new.get? k).map (.rowInsert name)) ++
  (removed old new).map (.rowDelete name) ++
  (overlap old new).filterMap (fun k => match new.get? k, old.get? k with
      | some n, some o => if rowDiffers n o then some (.rowUpdate name n) else none
      | _, _ => none)

theorem toRows_eq {t : Table} {from? : Option Table} {ops : List Op} (h : t.toRows from? = .ok ops) :
    ∃ new, t.rows = some new ∧ ops = rowOps t.name new (oldRows from?) := by
  cases from? with
  | none =>
    simp only [toRows] at h
    cases hr : t.rows with
    | none => simp [hr] at h
    | some new =>
      simp only [hr, Except.ok.injEq] at h
      refine ⟨new, rfl, ?_⟩
      rw [← h]
      simp [rowOps, oldRows, removed, overlap, Dict.keys]
  | some f =>
    simp only [toRows] at h
    split at h
    · cases h
    · split at h
      · rename_i new old hn ho
        refine ⟨new, hn, ?_⟩
        cases hu : rowUpdates t.name new old (overlap old new) with
        | error e => simp [hu] at h
        | ok upd =>
          simp only [hu, Except.ok.injEq] at h
          rw [← h, rowUpdates_eq hu]
          simp [rowOps, oldRows, ho]
      · cases h

theorem toRows_ok {t : Table} {from? : Option Table} {new : Dict Row} (hn : t.rows = some new) (hk : RowsKeyed new)
    (hf : ∀ f, from? = some f → f.tracking = true ∧ f.rows.isSome = true) : ∃ ops, t.toRows from? = .ok ops := by
  cases from? with
  | none => simp only [toRows, hn]; exact ⟨_, rfl⟩
  | some f =>
    obtain ⟨h1, h2⟩ := hf f rfl
    obtain ⟨old, ho⟩ := Option.isSome_iff_exists.mp h2
    have ⟨upd, hu⟩ := rowUpdates_ok (name := t.name) (new := new) (old := old)
      (fun k r h => Dict.has_of_get? (hk.id k r (Dict.mem_of_get? h)).2) (overlap old new)
      (fun k hk => (mem_overlap.mp hk).symm)
    simp only [toRows, h1, hn, ho, hu]
    exact ⟨_, rfl⟩

theorem mem_rowOps {name : Str} {new old : Dict Row} {op : Op} : op ∈ rowOps name new old ↔
    (∃ k r, new.get? k = some r ∧ k ∉ old.keys ∧ op = .rowInsert name r) ∨
    (∃ k, k ∈ old.keys ∧ k ∉ new.keys ∧ op = .rowDelete name k) ∨
    (∃ k r o, new.get? k = some r ∧ old.get? k = some o ∧ rowDiffers r o = true ∧ op = .rowUpdate name r) := by
  simp only [rowOps, List.mem_append, List.mem_filterMap, List.mem_map, mem_added, mem_removed, mem_overlap, Option.map_eq_some_iff]
  rw [or_assoc]
  refine or_congr ?_ (or_congr ?_ ?_)
  · constructor
    · rintro ⟨k, ⟨h1, h2⟩, r, h3, h4⟩; exact ⟨k, r, h3, h2, h4.symm⟩
    · rintro ⟨k, r, h3, h2, h4⟩; exact ⟨k, ⟨Dict.mem_keys_of_get? h3, h2⟩, r, h3, h4.symm⟩
  · constructor
    · rintro ⟨k, ⟨h1, h2⟩, h4⟩; exact ⟨k, h1, h2, h4.symm⟩
    · rintro ⟨k, h1, h2, h4⟩; exact ⟨k, ⟨h1, h2⟩, h4.symm⟩
  · constructor
    · rintro ⟨k, ⟨h1, h2⟩, h3⟩
      obtain ⟨o, ho⟩ := Dict.exists_get? h1
      obtain ⟨r, hr⟩ := Dict.exists_get? h2
      simp only [hr, ho] at h3
      split at h3
      · simp only [Option.some.injEq] at h3; exact ⟨k, r, o, hr, ho, by assumption, h3.symm⟩
      · cases h3
    · rintro ⟨k, r, o, hr, ho, h1, h2⟩
      exact ⟨k, ⟨Dict.mem_keys_of_get? ho, Dict.mem_keys_of_get? hr⟩, by simp [hr, ho, h1, h2]⟩

theorem givenId_of_keyed {new : Dict Row} (hk : RowsKeyed new) {k : Str} {r : Row} (h : new.get? k = some r) :
    DbRows.givenId r = some k := by
  simp [DbRows.givenId, (hk.id k r (Dict.mem_of_get? h)).2, PyVal.cell, PyVal.toStr]

theorem rowOps_keys {name : Str} {new old : Dict Row} (hk : RowsKeyed new) :
    (rowOps name new old).map Op.rowKey =
      ((added old new ++ removed old new ++ (overlap old new).filter (fun k => match new.get? k, old.get? k with
        | some n, some o => rowDiffers n o
        | _, _ => false)).map (fun k => some (name, k))) := by
  simp only [rowOps, List.map_append]
  congr 1
  · congr 1
    · rw [List.map_filterMap]
      have : ∀ l : List Str, (∀ k ∈ l, k ∈ new.keys) → l.filterMap (fun x => Option.map Op.rowKey (Option.map (Op.rowInsert name) (new.get? x))) =
          l.map (fun k => some (name, k)) := by
        intro l hl
        induction l with
        | nil => rfl
        | cons k l ih =>
          obtain ⟨r, hr⟩ := Dict.exists_get? (hl k List.mem_cons_self)
          simp only [List.filterMap_cons, hr, Option.map_some, Op.rowKey, givenId_of_keyed hk hr, List.map_cons]
          rw [ih (fun j hj => hl j (List.mem_cons_of_mem _ hj))]
      exact this _ (fun k hk => (mem_added.mp hk).1)
    · simp [Op.rowKey]
  · rw [List.map_filterMap]
    generalize overlap old new = l
    induction l with
    | nil => rfl
    | cons k l ih =>
      simp only [List.filterMap_cons, List.filter_cons]
      cases hr : new.get? k with
      | none => simpa using ih
      | some r =>
        cases ho : old.get? k with
        | none => simpa using ih
        | some o =>
          by_cases hd : rowDiffers r o = true
          · simp [hd, ih, Op.rowKey, givenId_of_keyed hk hr]
          · simp [hd, ih]

theorem rowOps_nodup {name : Str} {new old : Dict Row} (hk : RowsKeyed new) (ho : old.keys.Nodup) :
    ((rowOps name new old).map Op.rowKey).Nodup := by
  rw [rowOps_keys hk]
  refine nodup_map_on (fun a _ b _ h => by simpa using h) ?_
  rw [List.nodup_append, List.nodup_append]
  refine ⟨⟨added_nodup hk.nodup, removed_nodup ho, ?_⟩, (overlap_nodup ho).filter _, ?_⟩
  · intro a ha b hb h
    subst h
    exact (mem_added.mp ha).2 (mem_removed.mp hb).1
  · intro a ha b hb h
    subst h
    rw [List.mem_filter, mem_overlap] at hb
    rw [List.mem_append] at ha
    rcases ha with ha | ha
    · exact (mem_added.mp ha).2 hb.1.1
    · exact (mem_removed.mp ha).2 hb.1.2

theorem rowOps_isSome {name : Str} {new old : Dict Row} (hk : RowsKeyed new) :
    ∀ op ∈ rowOps name new old, ∃ i, op.rowKey = some (name, i) := by
  intro op hop
  have : op.rowKey ∈ (rowOps name new old).map Op.rowKey := List.mem_map_of_mem hop
  rw [rowOps_keys hk, List.mem_map] at this
  obtain ⟨i, _, hi⟩ := this
  exact ⟨i, hi.symm⟩

end Table

end Mygrations

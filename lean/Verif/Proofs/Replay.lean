import Verif.Proofs.AlterAll

/-! # Lemmas about replaying operations on the in-memory table -/

namespace Mygrations
open Table MySQL

theorem applyOps_append (t : Table) (a b : List AlterOp) :
    t.applyOps (a ++ b) = match t.applyOps a with | .ok t' => t'.applyOps b | .error e => .error e := by
  induction a generalizing t with
  | nil => rfl
  | cons op a ih =>
    simp only [List.cons_append, applyOps]
    cases t.applyOp op with
    | error e => rfl
    | ok t' => exact ih t'

theorem insertAfter_eq {V : Type} (a k : Str) (v : V) (d : Dict V) :
    insertAfter a k v d = d.flatMap (fun x => if x.1 = a then [x, (k, v)] else [x]) := by
  induction d with
  | nil => rfl
  | cons e d ih =>
    obtain ⟨k', v'⟩ := e
    simp only [insertAfter, List.flatMap_cons]
    by_cases h : k' = a <;> simp [h, ih]

theorem addColumn_of_place {t : Table} {c : Column} {p : Pos} {cols : Dict Column} (h : placeCol t.columns (c, p) = some cols) :
    t.addColumn c p = .ok { t with columns := cols } := by
  unfold placeCol at h
  unfold addColumn
  by_cases hh : t.columns.has c.name = true
  · simp [hh] at h
  · simp only [hh, if_false, Bool.false_eq_true] at h ⊢
    cases p with
    | last => simp only [Option.some.injEq] at h; rw [h]
    | first => simp only [Option.some.injEq] at h; rw [h]
    | after a =>
      simp only at h ⊢
      by_cases ha : t.columns.has a = true
      · simp only [ha, if_true, Option.some.injEq] at h ⊢
        rw [insertAfter_eq, h]
      · simp [ha] at h

theorem applyOps_adds (s : Dict Column) : ∀ (rest : Dict Column) (pre : List Str) (t : Table) (cols : Dict Column),
    (placesFrom s pre rest).foldlM placeCol t.columns = some cols →
    t.applyOps (addsFrom s pre rest) = .ok { t with columns := cols }
  | [], pre, t, cols, h => by simp [placesFrom] at h; subst h; rfl
  | (k, c) :: rest, pre, t, cols, h => by
    by_cases hk : s.has k = true
    · simp only [placesFrom, hk, if_true, addsFrom] at h ⊢
      exact applyOps_adds s rest _ t cols h
    · simp only [placesFrom, hk, if_false, addsFrom, Bool.false_eq_true, List.foldlM_cons] at h ⊢
      cases hp : placeCol t.columns (c, lastPos pre) with
      | none => rw [hp] at h; simp at h
      | some c1 =>
        rw [hp] at h
        simp only [applyOps, applyOp, addColumn_of_place hp]
        exact applyOps_adds s rest _ { t with columns := c1 } cols h

/-- The order after placing, as far as the columns of the target are concerned. -/
theorem placeCols_order_filter (s : Dict Column) (P : Str → Bool) : ∀ (rest : Dict Column) (pre : List Str) (cols cols' : Dict Column),
    (∀ k c, (k, c) ∈ rest → c.name = k) → cols.keys.Nodup → (∀ k ∈ pre, P k = true) → (∀ k ∈ rest.keys, P k = true) →
    cols.keys.filter P = pre ++ rest.keys.filter (fun k => s.has k) →
    (placesFrom s pre rest).foldlM placeCol cols = some cols' → cols'.keys.filter P = pre ++ rest.keys
  | [], pre, cols, cols', _, _, _, _, hc, h => by
    simp [placesFrom] at h; subst h; simpa using hc
  | (k, c) :: rest, pre, cols, cols', hname, hn, hP, hR, hc, h => by
    have hkc : c.name = k := hname k c (by simp)
    have hPk : P k = true := hR k (by simp)
    have hP' : ∀ j ∈ pre ++ [k], P j = true := by
      intro j hj
      rcases List.mem_append.mp hj with hj | hj
      · exact hP j hj
      · simp at hj; exact hj ▸ hPk
    have hR' : ∀ j ∈ Dict.keys rest, P j = true := fun j hj => hR j (List.mem_cons_of_mem _ hj)
    by_cases hk : s.has k = true
    · have := placeCols_order_filter s P rest (pre ++ [k]) cols cols' (fun k c h => hname k c (List.mem_cons_of_mem _ h)) hn
        hP' hR' (by simpa [hk, List.filter_cons] using hc) (by simpa [placesFrom, hk] using h)
      simpa using this
    · have hk' : s.has k = false := by simpa using hk
      simp only [placesFrom, hk', Bool.false_eq_true, if_false, List.foldlM_cons] at h
      cases hp : placeCol cols (c, lastPos pre) with
      | none => rw [hp] at h; simp at h
      | some cols1 =>
        rw [hp] at h
        have hperm := placeCol_keys hn hp
        have hn1 : cols1.keys.Nodup := hperm.1.nodup_iff.mpr (List.nodup_cons.mpr ⟨hperm.2, hn⟩)
        have hkeys : cols1.keys.filter P = (pre ++ [k]) ++ (Dict.keys rest).filter (fun k => s.has k) := by
          have hc' : (Dict.keys cols).filter P = pre ++ (Dict.keys rest).filter (fun k => s.has k) := by
            simpa [hk', List.filter_cons] using hc
          have hh : cols.has c.name = false := Dict.has_eq_false.mpr hperm.2
          unfold placeCol lastPos at hp
          simp only [hh, Bool.false_eq_true, if_false] at hp
          cases hl : pre.getLast? with
          | none =>
            have hpre : pre = [] := List.getLast?_eq_none_iff.mp hl
            subst hpre
            simp only [hl, Option.some.injEq] at hp
            subst hp
            simp [hc', hkc, hPk]
          | some p =>
            simp only [hl] at hp
            by_cases ha : cols.has p = true
            · simp only [ha, if_true, Option.some.injEq] at hp
              subst hp
              rw [keys_insert, hkc]
              obtain ⟨l, hl'⟩ := List.getLast?_eq_some_iff.mp hl
              obtain ⟨x, y, hxy⟩ := List.append_of_mem (Dict.has_iff.mp ha)
              have hPp : P p = true := hP p (by rw [hl']; simp)
              rw [hxy] at hn hc' ⊢
              rw [flatMap_insert hn]
              rw [hl'] at hc' ⊢
              simp only [List.filter_append, List.filter_cons, hPp, hPk, if_true, List.append_assoc, List.cons_append, List.nil_append] at hc' ⊢
              have hnf : (x.filter P ++ p :: y.filter P).Nodup := by
                have := hn.filter P
                simp only [List.filter_append, List.filter_cons, hPp, if_true] at this
                exact this
              have hsplit : x.filter P = l ∧ y.filter P = (Dict.keys rest).filter (fun k => s.has k) := by
                have hpx : p ∉ x.filter P := by
                  rw [List.nodup_append] at hnf
                  intro hm
                  exact hnf.2.2 p hm p (by simp) rfl
                have hpl : p ∉ l := by
                  rw [hc'] at hnf
                  rw [List.nodup_append] at hnf
                  intro hm
                  exact hnf.2.2 p hm p (by simp) rfl
                rcases List.append_eq_append_iff.mp hc' with ⟨as, h1, h2⟩ | ⟨bs, h1, h2⟩
                · cases as with
                  | nil => simp at h1 h2; exact ⟨h1.symm, h2⟩
                  | cons q as =>
                    simp only [List.cons_append, List.cons.injEq] at h2
                    exfalso; apply hpl; rw [h1, ← h2.1]; simp
                · cases bs with
                  | nil => simp at h1 h2; exact ⟨h1, h2.symm⟩
                  | cons q bs =>
                    simp only [List.cons_append, List.cons.injEq] at h2
                    exfalso; apply hpx; rw [h1, ← h2.1]; simp
              rw [hsplit.1, hsplit.2]
            · simp [ha] at hp
        have := placeCols_order_filter s P rest (pre ++ [k]) cols1 cols' (fun k c h => hname k c (List.mem_cons_of_mem _ h)) hn1 hP' hR' hkeys h
        simpa using this

theorem applyOps_changes : ∀ (ch : List (Str × Column)) (t : Table), (∀ e ∈ ch, e.2.name = e.1) →
    (∀ e ∈ ch, e.1 ∈ t.columns.keys) → (ch.map Prod.fst).Nodup →
    ∃ cols, t.applyOps (ch.map (fun e => .changeColumn e.2)) = .ok { t with columns := cols } ∧ cols.keys = t.columns.keys ∧
      ∀ j, cols.get? j = (Dict.get? ch j).or (t.columns.get? j)
  | [], t, _, _, _ => ⟨t.columns, rfl, rfl, fun j => by simp⟩
  | (k, c) :: ch, t, hname, hmem, hn => by
    have hkc : c.name = k := hname (k, c) (by simp)
    have hk : k ∈ t.columns.keys := hmem (k, c) (by simp)
    simp only [List.map_cons, List.nodup_cons] at hn
    have hkeys := Dict.keys_set_of_mem c hk
    obtain ⟨cols, h1, h2, h3⟩ := applyOps_changes ch { t with columns := t.columns.set k c }
      (fun x hx => hname x (List.mem_cons_of_mem _ hx))
      (fun x hx => by simp only [hkeys]; exact hmem x (List.mem_cons_of_mem _ hx)) hn.2
    refine ⟨cols, ?_, h2.trans hkeys, ?_⟩
    · simp only [List.map_cons, applyOps, applyOp, changeColumn, hkc, Dict.has_iff.mpr hk, if_true]
      exact h1
    · intro j
      rw [h3 j, Dict.get?_cons, Dict.get?_set]
      by_cases hj : k = j
      · subst hj
        have : Dict.get? ch k = none := Dict.get?_eq_none.mpr hn.1
        simp [this]
      · simp [hj]

theorem filter_erase {V : Type} (d : Dict V) (k : Str) (ks : List Str) (hn : d.keys.Nodup) :
    (d.erase k).filter (fun e => !ks.contains e.1) = d.filter (fun e => !(k :: ks).contains e.1) := by
  rw [Dict.erase_eq_filter k hn, List.filter_filter]
  apply List.filter_congr
  intro e _
  by_cases h : e.1 = k <;> simp [h]

theorem applyOps_removes : ∀ (cs : List Column) (t : Table), t.columns.keys.Nodup → (cs.map Column.name).Nodup →
    (∀ c ∈ cs, c.name ∈ t.columns.keys) →
    t.applyOps (cs.map .removeColumn) = .ok { t with columns := t.columns.filter (fun e => !(cs.map Column.name).contains e.1) }
  | [], t, _, _, _ => by
    have : t.columns.filter (fun e => !(([] : List Column).map Column.name).contains e.1) = t.columns :=
      List.filter_eq_self.mpr (by simp)
    simp only [List.map_nil, applyOps] at this ⊢
    rw [this]
  | c :: cs, t, hn, hcn, hmem => by
    simp only [List.map_cons, List.nodup_cons] at hcn
    have hc := hmem c (by simp)
    simp only [List.map_cons, applyOps, applyOp, removeColumn, Dict.has_iff.mpr hc, if_true]
    rw [applyOps_removes cs { t with columns := t.columns.erase c.name } (Dict.keys_erase_nodup _ hn) hcn.2]
    · simp only [filter_erase _ _ _ hn]
    · intro x hx
      have hne : x.name ≠ c.name := fun e => hcn.1 (e ▸ List.mem_map.mpr ⟨x, hx, rfl⟩)
      simp only [Dict.keys_erase]
      exact (List.mem_erase_of_ne hne).mpr (hmem x (List.mem_cons_of_mem _ hx))

theorem applyOps_dropFks : ∀ (ks : List Constraint) (t : Table), t.constraints.keys.Nodup → (ks.map Constraint.name).Nodup →
    (∀ k ∈ ks, k.name ∈ t.constraints.keys) →
    t.applyOps (ks.map .removeConstraint) =
      .ok { t with constraints := t.constraints.filter (fun e => !(ks.map Constraint.name).contains e.1) }
  | [], t, _, _, _ => by
    have : t.constraints.filter (fun e => !(([] : List Constraint).map Constraint.name).contains e.1) = t.constraints :=
      List.filter_eq_self.mpr (by simp)
    simp only [List.map_nil, applyOps] at this ⊢
    rw [this]
  | k :: ks, t, hn, hkn, hmem => by
    simp only [List.map_cons, List.nodup_cons] at hkn
    have hk := hmem k (by simp)
    simp only [List.map_cons, applyOps, applyOp, removeConstraint, Dict.has_iff.mpr hk, if_true]
    rw [applyOps_dropFks ks { t with constraints := t.constraints.erase k.name } (Dict.keys_erase_nodup _ hn) hkn.2]
    · simp only [filter_erase _ _ _ hn]
    · intro x hx
      have hne : x.name ≠ k.name := fun e => hkn.1 (e ▸ List.mem_map.mpr ⟨x, hx, rfl⟩)
      simp only [Dict.keys_erase]
      exact (List.mem_erase_of_ne hne).mpr (hmem x (List.mem_cons_of_mem _ hx))

theorem applyOps_addFks : ∀ (ks : List Constraint) (t : Table) (F : Dict Constraint),
    ks.foldlM (addNamed Constraint.name) t.constraints = some F →
    t.applyOps (ks.map .addConstraint) = .ok { t with constraints := F }
  | [], t, F, h => by simp at h; subst h; rfl
  | k :: ks, t, F, h => by
    rw [List.foldlM_cons] at h
    unfold addNamed at h
    by_cases hk : t.constraints.has k.name = true
    · simp [hk] at h
    · simp only [hk, Bool.false_eq_true, if_false] at h
      simp only [List.map_cons, applyOps, applyOp, addConstraint, hk, Bool.false_eq_true, if_false]
      apply applyOps_addFks ks
      rw [← h, Dict.set_of_not_mem _ (Dict.has_eq_false.mp (by simpa using hk))]
      rfl

theorem applyOps_key {op : AlterOp} (h : op.onKey = true) (t : Table) (ops : List AlterOp) :
    ∃ m, t.applyOps (op :: ops) = .error (.attributeError m) := by
  cases op <;> simp_all [AlterOp.onKey, applyOps, applyOp]

theorem keyOps_onKey (s t : Table) : ∀ op ∈ keyOps s t, op.onKey = true := by
  intro op hop
  simp only [keyOps, List.mem_append, List.mem_filterMap] at hop
  rcases hop with (⟨k, _, h⟩ | ⟨k, _, h⟩) | ⟨k, _, h⟩
  · cases ht : t.indexes.get? k with
    | none => simp [ht] at h
    | some i => simp [ht] at h; subst h; rfl
  · cases ht : s.indexes.get? k with
    | none => simp [ht] at h
    | some i => simp [ht] at h; subst h; rfl
  · split at h
    · split at h
      · simp at h
      · split at h
        · simp at h
        · simp at h; subst h; rfl
    · simp at h

end Mygrations

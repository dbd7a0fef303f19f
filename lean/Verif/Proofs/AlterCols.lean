import Verif.Proofs.Clauses
import Verif.Proofs.Render

/-! # Executing the column clauses of a diff -/

namespace Mygrations
open Table MySQL

/-! ## Positions -/

/-- the position behind a list of columns -/
def lastPos (pre : List Str) : Pos :=
  match pre.getLast? with
  | none => .first
  | some p => .after p

theorem columnBeforeAux_append (name : Str) : ∀ (pre : List Str) (prev : Option Str) (rest : List Str), name ∉ pre →
    columnBeforeAux name prev (pre ++ name :: rest) =
      some (match (pre.getLast?).or prev with | none => .first | some p => .after p)
  | [], prev, rest, _ => by simp [columnBeforeAux]; cases prev <;> rfl
  | k :: pre, prev, rest, h => by
    have h1 : ¬ k = name := fun e => h (by simp [e])
    have h2 : name ∉ pre := fun e => h (List.mem_cons_of_mem _ e)
    simp only [List.cons_append, columnBeforeAux, h1, if_false]
    rw [columnBeforeAux_append name pre (some k) rest h2]
    cases pre with
    | nil => simp
    | cons x xs => simp [List.getLast?_cons_cons]; cases hx : (x :: xs).getLast? <;> simp_all

theorem columnBefore_append (t : Table) (pre : Dict Column) (k : Str) (c : Column) (rest : Dict Column)
    (h : t.columns = pre ++ (k, c) :: rest) (hk : k ∉ pre.keys) : t.columnBefore k = .ok (lastPos pre.keys) := by
  unfold columnBefore
  rw [h, Dict.keys_append, Dict.keys_cons, columnBeforeAux_append k _ none _ hk]
  simp only [Option.or_none]
  rfl

/-- the additions for the columns `rest` of the target which follow the columns `pre` -/
def addsFrom (s : Dict Column) : List Str → Dict Column → List AlterOp
  | _, [] => []
  | pre, (k, c) :: rest =>
    if s.has k then addsFrom s (pre ++ [k]) rest
    else .addColumn c (lastPos pre) :: addsFrom s (pre ++ [k]) rest

theorem addedColumnOps_eq (s : Dict Column) (t : Table) (hn : t.columns.keys.Nodup) :
    ∀ (rest pre : Dict Column), t.columns = pre ++ rest →
      addedColumnOps t (rest.keys.filter (fun k => !s.has k)) = .ok (addsFrom s pre.keys rest)
  | [], pre, _ => rfl
  | (k, c) :: rest, pre, h => by
    have hsplit : t.columns = (pre ++ [(k, c)]) ++ rest := by simp [h]
    have ih := addedColumnOps_eq s t hn rest (pre ++ [(k, c)]) hsplit
    simp only [Dict.keys_append, Dict.keys_cons, Dict.keys_nil] at ih
    rw [Dict.keys_cons, List.filter_cons, addsFrom]
    by_cases hk : s.has k = true
    · simp [hk, ih]
    · simp only [Bool.not_eq_true] at hk
      simp only [hk, Bool.not_false, if_true, Bool.false_eq_true, if_false, addedColumnOps]
      have hkpre : k ∉ pre.keys := by
        rw [h, Dict.keys_append, List.nodup_append] at hn
        intro hm
        exact hn.2.2 k hm k (by simp) rfl
      have hget : t.columns.get? k = some c := Dict.get?_of_mem hn (by rw [h]; simp)
      rw [hget, columnBefore_append t pre k c rest h hkpre, ih]
      rfl

theorem addedColumnOps_added (s t : Table) (ht : t.Keyed) :
    addedColumnOps t (added s.columns t.columns) = .ok (addsFrom s.columns [] t.columns) :=
  addedColumnOps_eq s.columns t ht.colNodup t.columns [] rfl

/-! ## Extracting clauses -/

theorem addsFrom_clauses (s : Dict Column) : ∀ (pre : List Str) (rest : Dict Column),
    let cl := (addsFrom s pre rest).flatMap clauses
    droppedCols cl = [] ∧ changedCols cl = [] ∧ droppedKeys cl = [] ∧ addedKeys cl = [] ∧ droppedFks cl = [] ∧ addedFks cl = []
  | _, [] => by simp [addsFrom]
  | pre, (k, c) :: rest => by
    have ih := addsFrom_clauses s (pre ++ [k]) rest
    rw [addsFrom]
    by_cases hk : s.has k = true
    · simpa [hk] using ih
    · simp only [hk, Bool.false_eq_true, if_false, List.flatMap_cons, clauses, List.cons_append, List.nil_append]
      simpa using ih

/-- the columns and positions of `addsFrom` -/
def placesFrom (s : Dict Column) : List Str → Dict Column → List (Column × Pos)
  | _, [] => []
  | pre, (k, c) :: rest =>
    if s.has k then placesFrom s (pre ++ [k]) rest else (c, lastPos pre) :: placesFrom s (pre ++ [k]) rest

theorem addedCols_addsFrom (s : Dict Column) : ∀ (pre : List Str) (rest : Dict Column),
    addedCols ((addsFrom s pre rest).flatMap clauses) = placesFrom s pre rest
  | _, [] => rfl
  | pre, (k, c) :: rest => by
    have ih := addedCols_addsFrom s (pre ++ [k]) rest
    rw [addsFrom, placesFrom]
    by_cases hk : s.has k = true
    · simpa [hk] using ih
    · simp only [Bool.not_eq_true] at hk
      simp only [hk, Bool.false_eq_true, if_false, List.flatMap_cons, clauses]
      simpa using ih

/-! ## Placing the new columns -/

theorem placeCol_last (cols : Dict Column) (pre : List Str) (c : Column) (hc : c.name ∉ cols.keys)
    (hpre : ∀ k ∈ pre, k ∈ cols.keys) : ∃ cols', placeCol cols (c, lastPos pre) = some cols' := by
  have hh : cols.has c.name = false := Dict.has_eq_false.mpr hc
  unfold placeCol lastPos
  cases hl : pre.getLast? with
  | none => simp [hh]
  | some p =>
    have : cols.has p = true := Dict.has_iff.mpr (hpre p (List.mem_of_getLast? hl))
    simp [hh, this]

theorem keys_insert (cols : Dict Column) (a : Str) (n : Str × Column) :
    Dict.keys (cols.flatMap (fun x => if x.1 = a then [x, n] else [x])) =
      cols.keys.flatMap (fun x => if x = a then [x, n.1] else [x]) := by
  induction cols with
  | nil => rfl
  | cons x cols ih =>
    simp only [List.flatMap_cons, Dict.keys_append, ih, Dict.keys_cons]
    by_cases h : x.1 = a <;> simp [h]

theorem flatMap_insert_not_mem {a n : Str} {l : List Str} (h : a ∉ l) :
    l.flatMap (fun x => if x = a then [x, n] else [x]) = l := by
  induction l with
  | nil => rfl
  | cons x l ih =>
    have hx : ¬ x = a := fun e => h (by simp [e])
    simp [List.flatMap_cons, hx, ih (fun e => h (List.mem_cons_of_mem _ e))]

theorem flatMap_insert {a n : Str} {l r : List Str} (h : (l ++ a :: r).Nodup) :
    (l ++ a :: r).flatMap (fun x => if x = a then [x, n] else [x]) = l ++ a :: n :: r := by
  rw [List.nodup_append] at h
  have h1 : a ∉ l := fun e => h.2.2 a e a (by simp) rfl
  have h2 : a ∉ r := (List.nodup_cons.mp h.2.1).1
  rw [List.flatMap_append, flatMap_insert_not_mem h1, List.flatMap_cons, flatMap_insert_not_mem h2]
  simp

/-- one new column: keys -/
theorem placeCol_keys {cols cols' : Dict Column} {c : Column} {p : Pos} (hn : cols.keys.Nodup)
    (h : placeCol cols (c, p) = some cols') : (cols'.keys).Perm (c.name :: cols.keys) ∧ c.name ∉ cols.keys := by
  unfold placeCol at h
  by_cases hh : cols.has c.name = true
  · simp [hh] at h
  · simp only [Bool.not_eq_true] at hh
    refine ⟨?_, Dict.has_eq_false.mp hh⟩
    simp only [hh, Bool.false_eq_true, if_false] at h
    cases p with
    | last => simp only [Option.some.injEq] at h; subst h; simp [List.perm_append_singleton]
    | first => simp only [Option.some.injEq] at h; subst h; simp
    | after a =>
      by_cases ha : cols.has a = true
      · simp only [ha, if_true, Option.some.injEq] at h
        subst h
        rw [keys_insert]
        obtain ⟨l, r, hlr⟩ := List.append_of_mem (Dict.has_iff.mp ha)
        rw [hlr] at hn ⊢
        rw [flatMap_insert hn]
        exact (List.perm_middle (l₁ := l ++ [a]) (l₂ := r) (a := c.name)).trans (by simp) |>.symm.symm |> (by simpa using ·)
      · simp [ha] at h

theorem get?_insert (cols : Dict Column) (a : Str) (k : Str) (c : Column) (hk : k ∉ cols.keys) (j : Str) (hj : a ∈ cols.keys) :
    Dict.get? (cols.flatMap (fun x => if x.1 = a then [x, (k, c)] else [x])) j = if k = j then some c else cols.get? j := by
  induction cols with
  | nil => simp at hj
  | cons x cols ih =>
    obtain ⟨x1, x2⟩ := x
    simp only [Dict.keys_cons, List.mem_cons, not_or] at hk
    rw [List.flatMap_cons, Dict.get?_append]
    by_cases hx : x1 = a
    · subst hx
      simp only [if_true]
      by_cases hkj : k = j
      · subst hkj
        have : ¬ x1 = k := fun e => hk.1 e.symm
        simp [Dict.get?_cons, this]
      · simp only [hkj, if_false, Dict.get?_cons]
        by_cases hx' : x1 = j
        · simp [hx']
        · simp only [hx', if_false, Dict.get?_nil, Option.none_or]
          by_cases hm : x1 ∈ (Dict.keys cols)
          · rw [ih hk.2 hm]; simp [hkj]
          · have : cols.flatMap (fun x => if x.1 = x1 then [x, (k, c)] else [x]) = cols := by
              clear ih hj
              induction cols with
              | nil => rfl
              | cons y cols ih2 =>
                simp only [Dict.keys_cons, List.mem_cons, not_or] at hm hk
                have hy : ¬ y.1 = x1 := fun e => hm.1 e.symm
                rw [List.flatMap_cons, ih2 ⟨hk.1, hk.2.2⟩ hm.2]; simp [hy]
            rw [this]
    · simp only [hx, if_false]
      have hm : a ∈ (Dict.keys cols) := by
        rcases List.mem_cons.mp hj with h | h
        · exact absurd h.symm hx
        · exact h
      rw [ih hk.2 hm]
      by_cases hkj : k = j
      · subst hkj
        have : ¬ x1 = k := fun e => hk.1 e.symm
        simp [Dict.get?_cons, this]
      · simp only [hkj, if_false, Dict.get?_cons]
        by_cases hx' : x1 = j <;> simp [hx']

/-- one new column: contents -/
theorem placeCol_get? {cols cols' : Dict Column} {c : Column} {p : Pos}
    (h : placeCol cols (c, p) = some cols') (j : Str) :
    cols'.get? j = if c.name = j then some c else cols.get? j := by
  unfold placeCol at h
  by_cases hh : cols.has c.name = true
  · simp [hh] at h
  · simp only [Bool.not_eq_true] at hh
    simp only [hh, Bool.false_eq_true, if_false] at h
    have hk := Dict.has_eq_false.mp hh
    cases p with
    | last =>
      simp only [Option.some.injEq] at h; subst h
      rw [Dict.get?_append]
      by_cases hj : c.name = j
      · subst hj; simp [Dict.get?_eq_none.mpr hk, Dict.get?_cons]
      · simp [Dict.get?_cons, hj]
    | first => simp only [Option.some.injEq] at h; subst h; rfl
    | after a =>
      by_cases ha : cols.has a = true
      · simp only [ha, if_true, Option.some.injEq] at h
        subst h
        exact get?_insert cols a c.name c hk j (Dict.has_iff.mp ha)
      · simp [ha] at h

/-- placing a column leaves the order of the others alone -/
theorem placeCol_filter {p : Str → Bool} {cols cols' : Dict Column} {e : Column × Pos} (hp : p e.1.name = false) (h : placeCol cols e = some cols') :
    cols'.keys.filter p = cols.keys.filter p := by
  unfold placeCol at h
  split at h
  · cases h
  · split at h
    · simp only [Option.some.injEq] at h
      subst h
      simp [Dict.keys, hp]
    · simp only [Option.some.injEq] at h
      subst h
      simp [Dict.keys, hp]
    · split at h
      · simp only [Option.some.injEq] at h
        subst h
        rename_i h0 _ _ h1 h2
        clear h0 h1 h2
        induction cols with
        | nil => rfl
        | cons x cols ih =>
          rw [List.flatMap_cons, Dict.keys_append, List.filter_append, ih]
          split
          · simp [Dict.keys, List.filter_cons, hp]
            split <;> rfl
          · simp [Dict.keys, List.filter_cons]
            split <;> rfl
      · cases h

/-- placing the new columns leaves the order of the others alone -/
theorem placeCols_kept (s : Dict Column) : ∀ (rest : Dict Column) (pre : List Str) (cols cols' : Dict Column),
    (∀ k c, (k, c) ∈ rest → c.name = k) → (placesFrom s pre rest).foldlM placeCol cols = some cols' →
    cols'.keys.filter s.has = cols.keys.filter s.has
  | [], _, cols, cols', _, h => by
    simp [placesFrom] at h
    rw [h]
  | (k, c) :: rest, pre, cols, cols', hname, h => by
    simp only [placesFrom] at h
    have hn := fun k c hm => hname k c (List.mem_cons_of_mem _ hm)
    split at h
    · exact placeCols_kept s rest _ cols cols' hn h
    · rename_i hk
      rw [List.foldlM_cons] at h
      cases h1 : placeCol cols (c, lastPos pre) with
      | none => rw [h1] at h; cases h
      | some cols₁ =>
        rw [h1] at h
        rw [placeCols_kept s rest _ cols₁ cols' hn h]
        exact placeCol_filter (by simpa [hname k c List.mem_cons_self] using hk) h1

/-- All new columns are placed: the names are those already there and the new ones, and the contents follow. -/
theorem placeCols_spec (s : Dict Column) : ∀ (rest : Dict Column) (pre : List Str) (cols : Dict Column),
    (∀ k c, (k, c) ∈ rest → c.name = k) → cols.keys.Nodup → rest.keys.Nodup → (∀ k ∈ pre, k ∈ cols.keys) →
    (∀ k ∈ rest.keys, k ∈ cols.keys ↔ s.has k = true) →
    ∃ cols', (placesFrom s pre rest).foldlM placeCol cols = some cols' ∧ cols'.keys.Nodup ∧
      (∀ j, cols'.get? j = if s.has j = false ∧ j ∈ rest.keys then rest.get? j else cols.get? j)
  | [], pre, cols, _, hn, _, _, _ => ⟨cols, rfl, hn, by simp⟩
  | (k, c) :: rest, pre, cols, hname, hn, hrn, hpre, hrest => by
    have hkc : c.name = k := hname k c (by simp)
    simp only [Dict.keys_cons, List.nodup_cons] at hrn
    by_cases hk : s.has k = true
    · have hpre' : ∀ j ∈ pre ++ [k], j ∈ cols.keys := by
        intro j hj
        rcases List.mem_append.mp hj with h | h
        · exact hpre j h
        · simp at h; subst h; exact (hrest j (by simp)).mpr hk
      obtain ⟨cols', h1, h2, h3⟩ := placeCols_spec s rest (pre ++ [k]) cols
        (fun k c h => hname k c (List.mem_cons_of_mem _ h)) hn hrn.2 hpre'
        (fun j hj => hrest j (List.mem_cons_of_mem _ hj))
      refine ⟨cols', by simpa [placesFrom, hk] using h1, h2, ?_⟩
      intro j
      rw [h3 j, Dict.get?_cons]
      by_cases hkj : k = j
      · subst hkj; simp [hk]
      · have : ¬ j = k := fun e => hkj e.symm
        simp [hkj, this]
    · have hk' : s.has k = false := by simpa using hk
      have hkcols : k ∉ cols.keys := fun h => hk ((hrest k (by simp)).mp h)
      obtain ⟨cols1, h1⟩ := placeCol_last cols pre c (hkc ▸ hkcols) hpre
      have hperm := placeCol_keys hn h1
      rw [hkc] at hperm
      have hmem : ∀ j, j ∈ cols1.keys ↔ j = k ∨ j ∈ cols.keys := by
        intro j; rw [hperm.1.mem_iff]; simp
      have hn1 : cols1.keys.Nodup := hperm.1.nodup_iff.mpr (List.nodup_cons.mpr ⟨hkcols, hn⟩)
      obtain ⟨cols', h2, h3, h4⟩ := placeCols_spec s rest (pre ++ [k]) cols1
        (fun k c h => hname k c (List.mem_cons_of_mem _ h)) hn1 hrn.2
        (by
          intro j hj
          rcases List.mem_append.mp hj with h | h
          · exact (hmem j).mpr (Or.inr (hpre j h))
          · simp at h; exact (hmem j).mpr (Or.inl h))
        (by
          intro j hj
          have hne : j ≠ k := fun e => hrn.1 (e ▸ hj)
          rw [hmem]
          simp only [hne, false_or]
          exact hrest j (List.mem_cons_of_mem _ hj))
      refine ⟨cols', ?_, h3, ?_⟩
      · simp only [placesFrom, hk', Bool.false_eq_true, if_false, List.foldlM_cons]
        rw [h1]; exact h2
      · intro j
        rw [h4 j, placeCol_get? h1 j, hkc, Dict.get?_cons, Dict.keys_cons]
        by_cases hkj : k = j
        · subst hkj; simp [hk', hrn.1]
        · have : ¬ j = k := fun e => hkj e.symm
          simp [hkj, this]

/-- If the common columns are in the target's order to begin with, so are all of them in the end. -/
theorem placeCols_order (s : Dict Column) : ∀ (rest : Dict Column) (pre : List Str) (cols cols' : Dict Column),
    (∀ k c, (k, c) ∈ rest → c.name = k) → cols.keys.Nodup →
    cols.keys = pre ++ rest.keys.filter (fun k => s.has k) →
    (placesFrom s pre rest).foldlM placeCol cols = some cols' → cols'.keys = pre ++ rest.keys
  | [], pre, cols, cols', _, _, hc, h => by
    simp [placesFrom] at h; subst h; simpa using hc
  | (k, c) :: rest, pre, cols, cols', hname, hn, hc, h => by
    have hkc : c.name = k := hname k c (by simp)
    by_cases hk : s.has k = true
    · have := placeCols_order s rest (pre ++ [k]) cols cols' (fun k c h => hname k c (List.mem_cons_of_mem _ h)) hn
        (by simpa [hk, List.filter_cons] using hc) (by simpa [placesFrom, hk] using h)
      simpa using this
    · have hk' : s.has k = false := by simpa using hk
      simp only [placesFrom, hk', Bool.false_eq_true, if_false, List.foldlM_cons] at h
      cases hp : placeCol cols (c, lastPos pre) with
      | none => rw [hp] at h; simp at h
      | some cols1 =>
        rw [hp] at h
        have hperm := placeCol_keys hn hp
        have hn1 : cols1.keys.Nodup := hperm.1.nodup_iff.mpr (List.nodup_cons.mpr ⟨hperm.2, hn⟩)
        have hkeys : cols1.keys = (pre ++ [k]) ++ (Dict.keys rest).filter (fun k => s.has k) := by
          have hc' : (Dict.keys cols) = pre ++ (Dict.keys rest).filter (fun k => s.has k) := by
            simpa [hk', List.filter_cons] using hc
          have hh : cols.has c.name = false := Dict.has_eq_false.mpr hperm.2
          unfold placeCol lastPos at hp
          simp only [hh, Bool.false_eq_true, if_false] at hp
          cases hl : pre.getLast? with
          | none =>
            have hpre : pre = [] := List.getLast?_eq_none_iff.mp hl
            subst hpre
            simp only [hl, Option.some.injEq] at hp
            subst hp
            simp [hc', hkc]
          | some p =>
            simp only [hl] at hp
            by_cases ha : cols.has p = true
            · simp only [ha, if_true, Option.some.injEq] at hp
              subst hp
              rw [keys_insert, hkc]
              obtain ⟨l, hl'⟩ := List.getLast?_eq_some_iff.mp hl
              rw [hc', hl'] at hn ⊢
              simp only [List.append_assoc, List.singleton_append] at hn ⊢
              rw [flatMap_insert hn]
              simp
            · simp [ha] at hp
        have := placeCols_order s rest (pre ++ [k]) cols1 cols' (fun k c h => hname k c (List.mem_cons_of_mem _ h)) hn1 hkeys h
        simpa using this

/-! ## Changed columns -/

/-- The column is left alone: same text, or the comparison says that it is really the same. -/
def Equivalent [PyNum] (a b : Column) : Prop := a.render = b.render ∨ a.sameAs b = .ok true

theorem changedColumnOps_spec [PyNum] (s t : Table) (ht : t.Keyed) : ∀ (ks : List Str) (ops : List AlterOp), ks.Nodup →
    changedColumnOps s t ks = .ok ops →
    ∃ ch : List (Str × Column), ops = ch.map (fun e => .changeColumn e.2) ∧ (ch.map Prod.fst).Nodup ∧
      (∀ e ∈ ch, e.1 ∈ ks ∧ t.columns.get? e.1 = some e.2 ∧ e.2.name = e.1 ∧
        ∃ a, s.columns.get? e.1 = some a ∧ ¬ Equivalent a e.2) ∧
      (∀ k ∈ ks, ∃ a b, s.columns.get? k = some a ∧ t.columns.get? k = some b ∧ (Equivalent a b ∨ (k, b) ∈ ch))
  | [], ops, _, h => by
    simp [changedColumnOps] at h; exact ⟨[], by simp [← h]⟩
  | k :: ks, ops, hn, h => by
    simp only [List.nodup_cons] at hn
    simp only [changedColumnOps] at h
    cases ha : s.columns.get? k with
    | none => simp [ha] at h
    | some a =>
      cases hb : t.columns.get? k with
      | none => simp [ha, hb] at h
      | some b =>
        simp only [ha, hb] at h
        by_cases hr : a.render = b.render
        · simp only [hr, if_true] at h
          obtain ⟨ch, h1, h2, h3, h4⟩ := changedColumnOps_spec s t ht ks ops hn.2 h
          refine ⟨ch, h1, h2, fun e he => ?_, ?_⟩
          · obtain ⟨p, q⟩ := h3 e he; exact ⟨List.mem_cons_of_mem _ p, q⟩
          · intro j hj
            rcases List.mem_cons.mp hj with rfl | hj
            · exact ⟨a, b, ha, hb, .inl (.inl hr)⟩
            · exact h4 j hj
        · simp only [hr, if_false] at h
          cases hs : a.sameAs b with
          | error e => simp [hs] at h
          | ok v =>
            cases v with
            | true =>
              simp only [hs] at h
              obtain ⟨ch, h1, h2, h3, h4⟩ := changedColumnOps_spec s t ht ks ops hn.2 h
              refine ⟨ch, h1, h2, fun e he => ?_, ?_⟩
              · obtain ⟨p, q⟩ := h3 e he; exact ⟨List.mem_cons_of_mem _ p, q⟩
              · intro j hj
                rcases List.mem_cons.mp hj with rfl | hj
                · exact ⟨a, b, ha, hb, .inl (.inr hs)⟩
                · exact h4 j hj
            | false =>
              simp only [hs] at h
              cases hrec : changedColumnOps s t ks with
              | error e => simp [hrec, Except.map] at h
              | ok ops' =>
                simp only [hrec, Except.map, Except.ok.injEq] at h
                obtain ⟨ch, h1, h2, h3, h4⟩ := changedColumnOps_spec s t ht ks ops' hn.2 hrec
                refine ⟨(k, b) :: ch, ?_, ?_, ?_, ?_⟩
                · simp [← h, h1]
                · simp only [List.map_cons, List.nodup_cons]
                  refine ⟨?_, h2⟩
                  intro hm
                  obtain ⟨e, he, he'⟩ := List.mem_map.mp hm
                  exact hn.1 (he' ▸ (h3 e he).1)
                · intro e he
                  rcases List.mem_cons.mp he with rfl | he
                  · refine ⟨by simp, hb, ht.colName _ _ (Dict.mem_of_get? hb), a, ha, ?_⟩
                    rintro (h | h)
                    · exact hr h
                    · rw [hs] at h; simp at h
                  · obtain ⟨p, q⟩ := h3 e he; exact ⟨List.mem_cons_of_mem _ p, q⟩
                · intro j hj
                  rcases List.mem_cons.mp hj with rfl | hj
                  · exact ⟨a, b, ha, hb, .inr (by simp)⟩
                  · obtain ⟨x, y, h5, h6, h7⟩ := h4 j hj
                    exact ⟨x, y, h5, h6, h7.imp id (List.mem_cons_of_mem _)⟩

theorem changes_clauses (ch : List (Str × Column)) (hname : ∀ e ∈ ch, e.2.name = e.1) :
    let cl := ((ch.map (fun e => AlterOp.changeColumn e.2)).flatMap clauses)
    droppedCols cl = [] ∧ changedCols cl = ch ∧ addedCols cl = [] ∧ droppedKeys cl = [] ∧ addedKeys cl = [] ∧
      droppedFks cl = [] ∧ addedFks cl = [] := by
  induction ch with
  | nil => simp
  | cons e ch ih =>
    have := ih (fun x hx => hname x (List.mem_cons_of_mem _ hx))
    simp only [List.map_cons, List.flatMap_cons, clauses]
    have he : (e.2.name, e.2) = e := by rw [hname e (by simp)]
    simp only [List.cons_append, List.nil_append]
    simpa [he] using this

theorem changeCols_spec : ∀ (ch : List (Str × Column)) (cols : Dict Column), (∀ e ∈ ch, e.2.name = e.1) →
    (∀ e ∈ ch, e.1 ∈ cols.keys) → (ch.map Prod.fst).Nodup →
    ∃ cols', ch.foldlM changeCol cols = some cols' ∧ cols'.keys = cols.keys ∧
      ∀ j, cols'.get? j = if j ∈ cols.keys then (Dict.get? ch j).or (cols.get? j) else none
  | [], cols, _, _, _ => ⟨cols, rfl, rfl, fun j => by
      by_cases h : j ∈ cols.keys
      · simp [h]
      · simp [h, Dict.get?_eq_none.mpr h]⟩
  | e :: ch, cols, hname, hmem, hn => by
    obtain ⟨k, c⟩ := e
    have hkc : c.name = k := hname (k, c) (by simp)
    have hk : k ∈ cols.keys := hmem (k, c) (by simp)
    let cols1 : Dict Column := cols.map (fun x => if x.1 = k then (k, c) else x)
    have h1 : changeCol cols (k, c) = some cols1 := by
      simp [changeCol, Dict.has_iff.mpr hk, hkc, cols1]
    have hkeys : cols1.keys = cols.keys := by
      simp only [cols1, Dict.keys, List.map_map]
      apply List.map_congr_left
      intro x _
      simp only [Function.comp]
      by_cases h : x.1 = k <;> simp [h]
    have hget : ∀ j, cols1.get? j = if j = k then some c else cols.get? j := by
      intro j
      have h : cols1 = cols.map (fun x => (x.1, (fun k' v => if k' = k then c else v) x.1 x.2)) := by
        apply List.map_congr_left
        intro x _
        by_cases h : x.1 = k
        · simp [h]
        · simp [h]
      rw [h, Dict.get?_map_val (fun k' v => if k' = k then c else v)]
      by_cases hj : j = k
      · subst hj
        obtain ⟨v, hv⟩ := Dict.exists_get? hk
        simp [hv]
      · simp [hj]
    simp only [List.map_cons, List.nodup_cons] at hn
    obtain ⟨cols', h2, h3, h4⟩ := changeCols_spec ch cols1 (fun x hx => hname x (List.mem_cons_of_mem _ hx))
      (fun x hx => hkeys ▸ hmem x (List.mem_cons_of_mem _ hx)) hn.2
    refine ⟨cols', ?_, h3.trans hkeys, ?_⟩
    · rw [List.foldlM_cons, h1]; exact h2
    · intro j
      rw [h4 j, hkeys, hget j, Dict.get?_cons]
      by_cases hj : j ∈ cols.keys
      · simp only [hj, if_true]
        by_cases hjk : j = k
        · subst hjk
          have : Dict.get? ch j = none := Dict.get?_eq_none.mpr hn.1
          simp [this]
        · have : ¬ k = j := fun e => hjk e.symm
          simp [hjk, this]
      · simp [hj]

/-! ## Dropped columns -/

theorem removedColumnOps_eq (s : Table) (hs : s.Keyed) (ks : List Str) (h : ∀ k ∈ ks, k ∈ s.columns.keys) :
    let cl := ((removedColumnOps s ks).flatMap clauses)
    droppedCols cl = ks ∧ changedCols cl = [] ∧ addedCols cl = [] ∧ droppedKeys cl = [] ∧ addedKeys cl = [] ∧
      droppedFks cl = [] ∧ addedFks cl = [] := by
  induction ks with
  | nil => simp [removedColumnOps]
  | cons k ks ih =>
    have ih := ih (fun j hj => h j (List.mem_cons_of_mem _ hj))
    obtain ⟨c, hc⟩ := Dict.exists_get? (h k (by simp))
    have hck : c.name = k := hs.colName _ _ (Dict.mem_of_get? hc)
    simp only [removedColumnOps, List.filterMap_cons, hc, Option.map_some, List.flatMap_cons, clauses,
      List.cons_append, List.nil_append] at ih ⊢
    simpa [hck] using ih

theorem dropNames_spec {V : Type} (names : List Str) (d : Dict V) (h : ∀ n ∈ names, n ∈ d.keys) (hn : names.Nodup) :
    dropNames names d = some (d.filter (fun e => !names.contains e.1)) := by
  unfold dropNames
  rw [if_pos]
  refine ⟨?_, hn⟩
  rw [List.all_eq_true]
  intro n hnn
  exact Dict.has_iff.mpr (h n hnn)

end Mygrations

import Verif.Proofs.Plan
import Verif.Proofs.Rows
import Verif.Props.C09
import Verif.Props.C17

/-! # C56: planning does not crash -/

namespace Mygrations
open Table

/-- Two columns which can be compared: if the first is numeric, their defaults are numbers, and the length of a
`DECIMAL` is a text in which the digits after the comma are a number. -/
structure Column.Comparable [PyNum] (a b : Column) : Prop where
  left : a.cls = .numeric → ∀ d, a.default = some d → ∃ x, PyNum.float d = some x
  right : a.cls = .numeric → ∀ d, b.default = some d → ∃ x, PyNum.float d = some x
  scale : a.cls = .numeric → a.columnType = py"DECIMAL" → ∃ l, a.len = .str l ∧ ∀ m n, splitOn ',' l = [m, n] → ∃ k, PyNum.int n = some k

/-- The columns which two tables share can be compared. -/
def Table.Comparable [PyNum] (s t : Table) : Prop :=
  ∀ k a b, s.columns.get? k = some a → t.columns.get? k = some b → a.Comparable b

/-- Rows are tracked and known, and each has its id. -/
def Table.RowsKnown (t : Table) : Prop := t.tracking = true ∧ ∃ rows, t.rows = some rows ∧ RowsKeyed rows

theorem sameDefault_returns [PyNum] {a b : Column} (h : a.Comparable b) : ∃ r, a.sameDefault b = .ok r := by
  unfold Column.sameDefault
  split
  · rename_i hn
    unfold Column.sameNumericDefault
    split
    · exact ⟨_, rfl⟩
    · exact ⟨_, rfl⟩
    · exact ⟨_, rfl⟩
    · rename_i x y hx hy
      obtain ⟨fx, hfx⟩ := h.left hn x hx
      obtain ⟨fy, hfy⟩ := h.right hn y hy
      split
      · simp only [hfx, hfy]; exact ⟨_, rfl⟩
      · rename_i hd
        obtain ⟨l, hl, hs⟩ := h.scale hn (Classical.not_not.mp hd)
        simp only [hl]
        split
        · rename_i m n hmn
          obtain ⟨k, hk⟩ := hs _ _ hmn
          simp only [hk, hfx, hfy]; exact ⟨_, rfl⟩
        · exact ⟨_, rfl⟩
  · exact ⟨_, rfl⟩
  · split <;> exact ⟨_, rfl⟩
  · split <;> exact ⟨_, rfl⟩

theorem sameTail_returns [PyNum] {a b : Column} (h : a.Comparable b) : ∃ r, a.sameTail b = .ok r := by
  unfold Column.sameTail
  split
  · exact ⟨_, rfl⟩
  · split
    · exact ⟨_, rfl⟩
    · exact sameDefault_returns h

theorem sameBase_returns [PyNum] {a b : Column} (h : a.Comparable b) : ∃ r, a.sameBase b = .ok r := by
  unfold Column.sameBase
  split
  · exact ⟨_, rfl⟩
  · exact sameTail_returns h

theorem sameAs_returns [PyNum] {a b : Column} (h : a.Comparable b) : ∃ r, a.sameAs b = .ok r := by
  obtain ⟨r, hr⟩ := sameBase_returns h
  unfold Column.sameAs
  split
  · split
    · split
      · exact ⟨_, rfl⟩
      · exact sameTail_returns h
    · exact ⟨r, hr⟩
  · exact ⟨r, hr⟩
  · rw [hr]; cases r <;> exact ⟨_, rfl⟩
  · rw [hr]; cases r <;> exact ⟨_, rfl⟩

theorem changedColumnOps_returns [PyNum] {s t : Table} (h : s.Comparable t) : ∀ ks : List Str,
    (∀ k ∈ ks, k ∈ s.columns.keys ∧ k ∈ t.columns.keys) → ∃ ops, changedColumnOps s t ks = .ok ops
  | [], _ => ⟨[], rfl⟩
  | k :: ks, hk => by
    obtain ⟨ops, ho⟩ := changedColumnOps_returns h ks (fun x hx => hk x (List.mem_cons_of_mem _ hx))
    obtain ⟨hks, hkt⟩ := hk k List.mem_cons_self
    obtain ⟨a, ha⟩ := Dict.exists_get? hks
    obtain ⟨b, hb⟩ := Dict.exists_get? hkt
    simp only [changedColumnOps, ha, hb]
    split
    · exact ⟨ops, ho⟩
    · obtain ⟨r, hr⟩ := sameAs_returns (h k a b ha hb)
      rw [hr, ho]
      cases r <;> exact ⟨_, rfl⟩

theorem toSplit_returns [PyNum] {s t : Table} (ht : t.Keyed) (h : s.Comparable t) : ∃ d, s.toSplit t = .ok d := by
  obtain ⟨ch, hch⟩ := changedColumnOps_returns h (overlap s.columns t.columns) (fun k hk => mem_overlap.mp hk)
  simp only [toSplit, addedColumnOps_added s t ht, hch]
  exact ⟨_, rfl⟩

/-- **C56**, tables.  `source.to(target)` returns, in the combined and the split form. -/
theorem C56_table [PyNum] (s t : Table) (ht : t.Keyed) (h : s.Comparable t) :
    (∃ as, s.to t = .ok as) ∧ ∃ d, s.toSplit t = .ok d := by
  obtain ⟨d, hd⟩ := toSplit_returns ht h
  refine ⟨?_, d, hd⟩
  simp only [to, hd]
  exact ⟨_, rfl⟩

theorem updateTables_returns [PyNum] {f t : Dict Table} (cy : List (Str × Str)) (ht : KeyedTables t)
    (h : ∀ n a b, f.get? n = some a → t.get? n = some b → a.Comparable b) : ∀ ns : List Str,
    (∀ n ∈ ns, n ∈ f.keys ∧ n ∈ t.keys) → ∃ r, Mygration.updateTables cy f t ns = .ok r
  | [], _ => ⟨_, rfl⟩
  | n :: ns, hn => by
    obtain ⟨⟨now', later'⟩, hr⟩ := updateTables_returns cy ht h ns (fun x hx => hn x (List.mem_cons_of_mem _ hx))
    obtain ⟨hnf, hnt⟩ := hn n List.mem_cons_self
    obtain ⟨a, ha⟩ := Dict.exists_get? hnf
    obtain ⟨b, hb⟩ := Dict.exists_get? hnt
    obtain ⟨d, hd⟩ := toSplit_returns (ht.keyed n b (Dict.mem_of_get? hb)) (h n a b ha hb)
    simp only [Mygration.updateTables, ha, hb, Mygration.updateTable, hd, hr]
    exact ⟨_, rfl⟩

/-- **C56**, databases.  A migration between databases whose common columns can be compared is computed. -/
theorem C56 [PyNum] (t : Dict Table) (from? : Option (Dict Table)) (checks : Bool) (ht : KeyedTables t)
    (h : ∀ n a b, (from?.getD []).get? n = some a → t.get? n = some b → a.Comparable b) :
    ∃ ops, Mygration.process t from? checks = .ok ops := by
  obtain ⟨⟨now, later⟩, hr⟩ := updateTables_returns (Mygration.cycledNames (Mygration.cycles from? t)) ht h
    (overlap (from?.getD []) t) (fun n hn => mem_overlap.mp hn)
  unfold Mygration.process
  simp only [hr]
  exact ⟨_, rfl⟩

/-! ## C56, exactly -/

/-- The comparison of two numeric columns with different texts fails: they agree in everything which is looked at before the
defaults, both have a default, and one of the defaults is not a number, or the column is a `DECIMAL` whose length cannot
be taken apart. -/
structure Column.Clash [PyNum] (a b : Column) : Prop where
  numeric : a.cls = .numeric
  text : a.render ≠ b.render
  alike : a.name = b.name ∧ a.null = b.null ∧ a.columnType = b.columnType ∧ a.isUnsigned = b.isUnsigned
  len : a.columnType ∈ [py"INT", py"INTEGER", py"TINYINT", py"SMALLINT", py"MEDIUMINT", py"BIGINT"] ∨ a.len = b.len
  defaults : ∃ x y, a.default = some x ∧ b.default = some y ∧
    ((a.columnType ≠ py"DECIMAL" ∧ (PyNum.float x = none ∨ PyNum.float y = none)) ∨
     (a.columnType = py"DECIMAL" ∧ ∀ l, a.len = .str l → ∃ m n, splitOn ',' l = [m, n] ∧
        (PyNum.int n = none ∨ PyNum.float x = none ∨ PyNum.float y = none)))

theorem both_some {α β : Type} {P : α → β → Prop} {x : α} {y : β} :
    (∃ a b, some x = some a ∧ some y = some b ∧ P a b) ↔ P x y :=
  ⟨fun ⟨_, _, ha, hb, h⟩ => by cases ha; cases hb; exact h, fun h => ⟨x, y, rfl, rfl, h⟩⟩

theorem sameNumericDefault_fails [PyNum] {a b : Column} : (∃ e, a.sameNumericDefault b = .error e) ↔
    ∃ x y, a.default = some x ∧ b.default = some y ∧
    ((a.columnType ≠ py"DECIMAL" ∧ (PyNum.float x = none ∨ PyNum.float y = none)) ∨
     (a.columnType = py"DECIMAL" ∧ ∀ l, a.len = .str l → ∃ m n, splitOn ',' l = [m, n] ∧
        (PyNum.int n = none ∨ PyNum.float x = none ∨ PyNum.float y = none))) := by
  unfold Column.sameNumericDefault
  cases hx : a.default with
  | none => cases b.default <;> simp
  | some x =>
    cases hy : b.default with
    | none => simp
    | some y =>
      rw [both_some]
      by_cases hd : a.columnType = py"DECIMAL"
      · simp only [hd, ne_eq, not_true_eq_false, if_false, false_and, true_and, false_or]
        cases hl : a.len with
        | none => simp
        | list n => simp
        | str l =>
          simp only [Len.str.injEq, forall_eq']
          split
          · rename_i m n hs
            have hone : (∃ m' n', splitOn ',' l = [m', n'] ∧ (PyNum.int n' = none ∨ PyNum.float x = none ∨ PyNum.float y = none)) ↔
                (PyNum.int n = none ∨ PyNum.float x = none ∨ PyNum.float y = none) := by
              constructor
              · rintro ⟨m', n', h, h'⟩
                rw [hs] at h
                simp only [List.cons.injEq, and_true] at h
                rw [h.2]; exact h'
              · intro h; exact ⟨m, n, hs, h⟩
            rw [hone]
            cases hi : PyNum.int n with
            | none => simp
            | some k =>
              cases hfx : PyNum.float x <;> cases hfy : PyNum.float y <;> simp
          · rename_i hs
            constructor
            · rintro ⟨e, he⟩; cases he
            · rintro ⟨m, n, h, _⟩; exact absurd h (hs m n)
      · simp only [hd, ne_eq, not_false_eq_true, if_true, true_and, false_and, or_false]
        cases hfx : PyNum.float x <;> cases hfy : PyNum.float y <;> simp

theorem sameTail_fails [PyNum] {a b : Column} (hn : a.cls = .numeric) : (∃ e, a.sameTail b = .error e) ↔
    a.isUnsigned = b.isUnsigned ∧ ∃ e, a.sameNumericDefault b = .error e := by
  unfold Column.sameTail
  by_cases hu : a.isUnsigned = b.isUnsigned
  · simp only [hu, ne_eq, not_true_eq_false, if_false, true_and, Column.defaultNoneMismatch, Column.isStringClass, hn, reduceCtorEq,
      decide_false, Bool.or_self, Bool.false_and, Bool.false_eq_true, Column.sameDefault]
    unfold Column.sameNumericDefault
    cases a.default <;> cases b.default <;> simp
  · simp [hu]

/-- when comparing two columns raises -/
theorem sameAs_fails [PyNum] {a b : Column} (hr : a.render ≠ b.render) : (∃ e, a.sameAs b = .error e) ↔ a.Clash b := by
  by_cases hn : a.cls = .numeric
  · have hlist : Column.integerTypes = [py"INT", py"INTEGER", py"TINYINT", py"SMALLINT", py"MEDIUMINT", py"BIGINT"] := rfl
    have hiff : (∃ e, a.sameAs b = .error e) ↔ (a.name = b.name ∧ a.null = b.null ∧ a.columnType = b.columnType) ∧
        (a.columnType ∈ Column.integerTypes ∨ a.len = b.len) ∧ ∃ e, a.sameTail b = .error e := by
      unfold Column.sameAs
      simp only [hn]
      by_cases hi : a.columnType ∈ Column.integerTypes
      · rw [if_pos (by simpa using hi)]
        split
        · rename_i h
          simp only [reduceCtorEq, exists_false, false_iff]
          rintro ⟨⟨h1, h2, h3⟩, -⟩
          rcases h with h | h | h
          · exact h h1
          · exact h h2
          · exact h h3
        · rename_i h
          simp only [not_or, Classical.not_not, ne_eq] at h
          simp [h, hi, h.2.2 ▸ hi]
      · rw [if_neg (by simpa using hi)]
        unfold Column.sameBase
        split
        · rename_i h
          simp only [reduceCtorEq, exists_false, false_iff]
          rintro ⟨⟨h1, h2, h3⟩, h4, -⟩
          rcases h with h | h | h | h
          · exact h h1
          · exact h4.elim hi h
          · exact h h2
          · exact h h3
        · rename_i h
          simp only [not_or, Classical.not_not, ne_eq] at h
          simp [h]
    rw [hiff, sameTail_fails hn, sameNumericDefault_fails, hlist]
    constructor
    · rintro ⟨⟨h1, h2, h3⟩, h4, h5, h6⟩
      exact ⟨hn, hr, ⟨h1, h2, h3, h5⟩, h4, h6⟩
    · rintro ⟨_, _, ⟨h1, h2, h3, h5⟩, h4, h6⟩
      exact ⟨⟨h1, h2, h3⟩, h4, h5, h6⟩
  · constructor
    · rintro ⟨e, he⟩
      exfalso
      obtain ⟨r, hr⟩ := sameAs_returns (a := a) (b := b) ⟨fun h => absurd h hn, fun h => absurd h hn, fun h => absurd h hn⟩
      rw [hr] at he; cases he
    · intro h; exact absurd h.numeric hn

theorem changedColumnOps_fails [PyNum] {s t : Table} : ∀ ks : List Str, (∀ k ∈ ks, k ∈ s.columns.keys ∧ k ∈ t.columns.keys) →
    ((∃ e, changedColumnOps s t ks = .error e) ↔
      ∃ k ∈ ks, ∃ a b, s.columns.get? k = some a ∧ t.columns.get? k = some b ∧ a.Clash b)
  | [], _ => by simp [changedColumnOps]
  | k :: ks, hk => by
    have ih := changedColumnOps_fails (s := s) (t := t) ks (fun x hx => hk x (List.mem_cons_of_mem _ hx))
    obtain ⟨hks, hkt⟩ := hk k List.mem_cons_self
    obtain ⟨a, ha⟩ := Dict.exists_get? hks
    obtain ⟨b, hb⟩ := Dict.exists_get? hkt
    simp only [changedColumnOps, ha, hb, List.mem_cons, exists_eq_or_imp]
    rw [both_some]
    by_cases hr : a.render = b.render
    · rw [if_pos hr, ih]
      constructor
      · exact .inr
      · rintro (h | h)
        · exact absurd hr h.text
        · exact h
    · rw [if_neg hr, ← sameAs_fails hr, ← ih]
      cases hs : a.sameAs b with
      | error e => simp
      | ok r =>
        cases hc : changedColumnOps s t ks <;> cases r <;> simp [Except.map]

/-- **C56**, tables, exactly.  `source.to(target)` raises if and only if two columns of the same name clash. -/
theorem C56_table_iff [PyNum] (s t : Table) (ht : t.Keyed) :
    (∃ e, s.to t = .error e) ↔ ∃ k a b, s.columns.get? k = some a ∧ t.columns.get? k = some b ∧ a.Clash b := by
  have hf := changedColumnOps_fails (s := s) (t := t) (overlap s.columns t.columns) (fun k hk => mem_overlap.mp hk)
  have : (∃ e, s.to t = .error e) ↔ ∃ e, changedColumnOps s t (overlap s.columns t.columns) = .error e := by
    simp only [to, toSplit, addedColumnOps_added s t ht]
    cases changedColumnOps s t (overlap s.columns t.columns) <;> simp
  rw [this, hf]
  constructor
  · rintro ⟨k, _, a, b, ha, hb, h⟩; exact ⟨k, a, b, ha, hb, h⟩
  · rintro ⟨k, a, b, ha, hb, h⟩
    exact ⟨k, mem_overlap.mpr ⟨Dict.mem_keys_of_get? ha, Dict.mem_keys_of_get? hb⟩, a, b, ha, hb, h⟩

theorem updateTables_fails [PyNum] {f t : Dict Table} (cy : List (Str × Str)) (ht : KeyedTables t) : ∀ ns : List Str,
    (∀ n ∈ ns, n ∈ f.keys ∧ n ∈ t.keys) → ((∃ e, Mygration.updateTables cy f t ns = .error e) ↔
      ∃ n ∈ ns, ∃ a b, f.get? n = some a ∧ t.get? n = some b ∧ ∃ e, a.to b = .error e)
  | [], _ => by simp [Mygration.updateTables]
  | n :: ns, hn => by
    have ih := updateTables_fails (f := f) (t := t) cy ht ns (fun x hx => hn x (List.mem_cons_of_mem _ hx))
    obtain ⟨hnf, hnt⟩ := hn n List.mem_cons_self
    obtain ⟨a, ha⟩ := Dict.exists_get? hnf
    obtain ⟨b, hb⟩ := Dict.exists_get? hnt
    simp only [List.mem_cons, exists_eq_or_imp, Mygration.updateTables, ha, hb, Mygration.updateTable, ← ih]
    rw [both_some]
    simp only [to]
    cases hd : a.toSplit b with
    | error e => simp
    | ok d =>
      simp only [reduceCtorEq, exists_false, false_or]
      cases hr : Mygration.updateTables cy f t ns with
      | error e => simp
      | ok r => simp

/-- **C56**, databases, exactly.  Computing the migration raises if and only if a table is on both sides, and two of its columns
of the same name clash. -/
theorem C56_iff [PyNum] (t : Dict Table) (from? : Option (Dict Table)) (checks : Bool) (ht : KeyedTables t) :
    (∃ e, Mygration.process t from? checks = .error e) ↔
      ∃ n x y, (from?.getD []).get? n = some x ∧ t.get? n = some y ∧
        ∃ k a b, x.columns.get? k = some a ∧ y.columns.get? k = some b ∧ a.Clash b := by
  have hf := updateTables_fails (f := from?.getD []) (Mygration.cycledNames (Mygration.cycles from? t)) ht
    (overlap (from?.getD []) t) (fun n hn => mem_overlap.mp hn)
  have : (∃ e, Mygration.process t from? checks = .error e) ↔
      ∃ e, Mygration.updateTables (Mygration.cycledNames (Mygration.cycles from? t)) (from?.getD []) t (overlap (from?.getD []) t) = .error e := by
    unfold Mygration.process
    cases hu : Mygration.updateTables (Mygration.cycledNames (Mygration.cycles from? t)) (from?.getD []) t (overlap (from?.getD []) t) <;> simp [hu]
  rw [this, hf]
  constructor
  · rintro ⟨n, _, x, y, hx, hy, h⟩
    exact ⟨n, x, y, hx, hy, (C56_table_iff x y (ht.keyed n y (Dict.mem_of_get? hy))).mp h⟩
  · rintro ⟨n, x, y, hx, hy, h⟩
    exact ⟨n, mem_overlap.mpr ⟨Dict.mem_keys_of_get? hx, Dict.mem_keys_of_get? hy⟩, x, y, hx, hy,
      (C56_table_iff x y (ht.keyed n y (Dict.mem_of_get? hy))).mpr h⟩

theorem rowUpdates_returns {name : Str} {new old : Dict Row} (hn : RowsKeyed new) : ∀ ks : List Str,
    (∀ k ∈ ks, k ∈ old.keys ∧ k ∈ new.keys) → ∃ ops, rowUpdates name new old ks = .ok ops
  | [], _ => ⟨_, rfl⟩
  | k :: ks, hk => by
    obtain ⟨ops, ho⟩ := rowUpdates_returns (name := name) hn ks (fun x hx => hk x (List.mem_cons_of_mem _ hx))
    obtain ⟨hko, hkn⟩ := hk k List.mem_cons_self
    obtain ⟨a, ha⟩ := Dict.exists_get? hkn
    obtain ⟨b, hb⟩ := Dict.exists_get? hko
    have hid : Dict.has a py"id" = true := Dict.has_iff.mpr (Dict.mem_keys_of_get? (hn.id k a (Dict.mem_of_get? ha)).2)
    simp only [rowUpdates, ha, hb, ho, hid, if_true]
    split <;> exact ⟨_, rfl⟩

/-- **C56**, rows.  The row migration is computed if the rows of the declared tables are known, and the rows of those
which exist already have been read. -/
theorem C56_rows (t : Dict Table) (from? : Option (Dict Table)) (ht : KeyedTables t)
    (hnew : ∀ x ∈ t.values, x.tracking = true → x.RowsKnown)
    (hold : ∀ x ∈ t.values, x.tracking = true → ∀ y, (from?.getD []).get? x.name = some y → y.RowsKnown) :
    ∃ ops, RowMygration.process t from? = .ok ops := by
  unfold RowMygration.process
  have key : ∀ l : List Table, (∀ x ∈ l, x ∈ t.values ∧ x.tracking = true) →
      ∃ ops, RowMygration.processLoop t from? (l.map Table.name) = .ok ops := by
    intro l
    induction l with
    | nil => intro _; exact ⟨_, rfl⟩
    | cons x l ih =>
      intro h
      obtain ⟨hx, hxt⟩ := h x List.mem_cons_self
      obtain ⟨more, hm⟩ := ih (fun y hy => h y (List.mem_cons_of_mem _ hy))
      obtain ⟨k, hk⟩ := Dict.mem_values.mp hx
      have hname := ht.name k x hk
      have hget : t.get? x.name = some x := by rw [hname]; exact Dict.get?_of_mem ht.nodup hk
      obtain ⟨_, rows, hrows, hkeyed⟩ := hnew x hx hxt
      have hto : ∃ ops, x.toRows ((from?.getD []).get? x.name) = .ok ops := by
        unfold toRows
        cases hy : (from?.getD []).get? x.name with
        | none => simp only [hrows]; exact ⟨_, rfl⟩
        | some y =>
          obtain ⟨hyt, old, hor, _⟩ := hold x hx hxt y hy
          obtain ⟨upd, hu⟩ := rowUpdates_returns (name := x.name) (old := old) hkeyed (overlap old rows) (fun k hk => mem_overlap.mp hk)
          simp only [hyt, Bool.not_true, Bool.false_eq_true, if_false, hrows, hor, hu]
          exact ⟨_, rfl⟩
      obtain ⟨ops, ho⟩ := hto
      simp only [List.map_cons, RowMygration.processLoop, hget, ho, hm]
      exact ⟨_, rfl⟩
  exact key _ (fun x hx => List.mem_filter.mp hx)

/-- decides `Column.Comparable` for columns which are not `DECIMAL` -/
def Column.comparableB [PyNum] (a b : Column) : Bool :=
  a.cls != .numeric || (a.columnType != py"DECIMAL" &&
    (match a.default with | some d => (PyNum.float d).isSome | none => true) &&
    (match b.default with | some d => (PyNum.float d).isSome | none => true))

theorem comparable_of_check [PyNum] {s t : Table}
    (h : s.columns.keys.all (fun k => match s.columns.get? k, t.columns.get? k with | some a, some b => a.comparableB b | _, _ => true) = true) :
    s.Comparable t := by
  intro k a b ha hb
  have := List.all_eq_true.mp h k (Dict.mem_keys_of_get? ha)
  simp only [ha, hb, Column.comparableB, Bool.or_eq_true, Bool.and_eq_true, bne_iff_ne, ne_eq] at this
  refine ⟨?_, ?_, ?_⟩
  · intro hn d hd
    rcases this with h | h
    · exact absurd hn h
    · have := h.1.2; rw [hd] at this; exact Option.isSome_iff_exists.mp this
  · intro hn d hd
    rcases this with h | h
    · exact absurd hn h
    · have := h.2; rw [hd] at this; exact Option.isSome_iff_exists.mp this
  · intro hn hd
    rcases this with h | h
    · exact absurd hn h
    · exact absurd hd h.1.1

namespace Examples
attribute [local instance] exactNum

/-- the hypotheses of `C56_table` hold for two tables with a numeric default that changes -/
example : (mk py"t" [idCol, { intCol py"n" with default := some py"0" }] [pk] []).Comparable
    (mk py"t" [idCol, { intCol py"n" with default := some py"12.50" }] [pk] []) := comparable_of_check (by decide)

example : posts.Comparable posts' := comparable_of_check (by decide)

theorem comparableTables_of_check {f t : Dict Table}
    (h : f.keys.all (fun n => match f.get? n, t.get? n with
      | some a, some b => a.columns.keys.all (fun k => match a.columns.get? k, b.columns.get? k with | some x, some y => x.comparableB y | _, _ => true)
      | _, _ => true) = true) :
    ∀ n a b, f.get? n = some a → t.get? n = some b → a.Comparable b := by
  intro n a b ha hb
  have := List.all_eq_true.mp h n (Dict.mem_keys_of_get? ha)
  simp only [ha, hb] at this
  exact comparable_of_check this

/-- the hypotheses of `C56` hold of a database with changing column types and foreign keys -/
example : ∃ ops, Mygration.process declared (some live) true = .ok ops :=
  C56 declared (some live) true declared_keyed (comparableTables_of_check (by decide))

theorem rowsOld_keyed : RowsKeyed rowsOld := rowsKeyed_of_check (by decide) (by decide)

/-- the hypotheses of `C56_rows` hold of the row example of C17 -/
example : ∃ ops, RowMygration.process rowTo (some rowFrom) = .ok ops := by
  refine C56_rows rowTo (some rowFrom) rowTo_keyed ?_ ?_
  · intro x hx _
    have : x = rowTable rowsNew ∨ x = posts := by simpa [rowTo, Dict.values] using hx
    rcases this with rfl | rfl
    · exact ⟨rfl, rowsNew, rfl, rowsNew_keyed⟩
    · rename_i h; exact absurd h (by decide)
  · intro x hx ht y hy
    have : x = rowTable rowsNew ∨ x = posts := by simpa [rowTo, Dict.values] using hx
    rcases this with rfl | rfl
    · have : y = rowTable rowsOld := by
        have h2 : Dict.get? rowFrom (rowTable rowsNew).name = some (rowTable rowsOld) := by rfl
        simpa [h2] using hy.symm
      subst this
      exact ⟨rfl, rowsOld, rfl, rowsOld_keyed⟩
    · exact absurd ht (by decide)

/-- **C56**: the default of a live column need not be a number, and then planning raises a `ValueError` (for example
the default `b'0'` which MySQL shows for `BIT` columns). -/
theorem C56_counterexample :
    (mk py"t" [{ idCol with ctype := py"BIT", default := some py"b'0'" }] [pk] []).to
      (mk py"t" [{ idCol with ctype := py"BIT", default := some py"0" }] [pk] []) =
    .error (.valueError py"could not convert string to float") := by decide

/-- both sides of `C56_table_iff` hold of these tables -/
example : ({ idCol with ctype := py"BIT", default := some py"b'0'" } : Column).Clash { idCol with ctype := py"BIT", default := some py"0" } :=
  ⟨rfl, by decide, by decide, .inr rfl, _, _, rfl, rfl, .inl (by decide)⟩

/-- and a `DECIMAL` with a length that is no text -/
example : ({ idCol with ctype := py"DECIMAL", len := .none, default := some py"1" } : Column).Clash
    { idCol with ctype := py"DECIMAL", len := .none, default := some py"1.0" } :=
  ⟨rfl, by decide, by decide, .inr rfl, _, _, rfl, rfl, .inr ⟨by decide, fun l h => by cases h⟩⟩

end Examples

end Mygrations

import Verif.Proofs.AlterAll
import Verif.Proofs.ColumnRender
import Verif.Props.Examples

/-! # C02, C03, C06, C08: columns -/

namespace Mygrations
open Table MySQL

/-- **C06** (partial).  The server accepts every statement of `source.to(target)`.
Missing: tables whose primary key changes under an unchanged name (`C06_counterexample`). -/
theorem C06_partial [PyNum] (s t : Table) (hs : s.Valid) (ht : t.Valid) (ps : s.Plain) (pt : t.Plain)
    (hp : PrimaryKept s t) (as : List Alter) (h : s.to t = .ok as) :
    ∃ st, execAlters (ofTable s) as = some st := by
  obtain ⟨c, k, f, he, _⟩ := to_exec hs ht ps pt hp h
  exact ⟨_, he⟩

/-- **C06**, exactly: the server accepts the statements if and only if the primary key does not change under an unchanged name. -/
theorem C06_iff [PyNum] (s t : Table) (hs : s.Valid) (ht : t.Valid) (ps : s.Plain) (pt : t.Plain) (as : List Alter) (h : s.to t = .ok as) :
    (∃ st, execAlters (ofTable s) as = some st) ↔ PrimaryKept s t :=
  ⟨fun ⟨_, he⟩ => primary_fails hs ht ps pt h he, fun hp => C06_partial s t hs ht ps pt hp as h⟩

/-- **C02**.  After executing `source.to(target)` the table has exactly the target's columns, each with the
target's definition, or with its old definition if the tool considers the two the same (C08 says what that means). -/
theorem C02 [PyNum] (s t : Table) (hs : s.Keyed) (ht : t.Keyed) (as : List Alter) (h : s.to t = .ok as)
    (st : STable) (he : execAlters (ofTable s) as = some st) :
    st.cols.keys.Nodup ∧ (∀ k, k ∈ st.cols.keys ↔ k ∈ t.columns.keys) ∧
    ∀ k b, t.columns.get? k = some b →
      st.cols.get? k = some b ∨
      ∃ a, s.columns.get? k = some a ∧ st.cols.get? k = some a ∧ (a.render = b.render ∨ a.sameAs b = .ok true) := by
  have hok := (to_result hs ht h he).1
  refine ⟨hok.nodup, hok.names, ?_⟩
  intro n b hb
  by_cases hn : n ∈ s.columns.keys
  · obtain ⟨a, ha⟩ := Dict.exists_get? hn
    rcases hok.common n a b ha hb with ⟨h1, h2⟩ | ⟨_, h2⟩
    · exact .inr ⟨a, ha, h2, h1⟩
    · exact .inl h2
  · exact .inl ((hok.new n hn).trans hb)

/-- **C03** (partial).  If the columns which both tables have are in the same relative order, the columns end
up in the target's order.  Missing: reordered columns (`C03_counterexample`). -/
theorem C03_partial [PyNum] (s t : Table) (hs : s.Keyed) (ht : t.Keyed)
    (hord : t.columns.keys.filter (fun k => decide (k ∈ s.columns.keys)) =
      s.columns.keys.filter (fun k => decide (k ∈ t.columns.keys)))
    (as : List Alter) (h : s.to t = .ok as) (st : STable) (he : execAlters (ofTable s) as = some st) :
    st.cols.keys = t.columns.keys := by
  apply (to_result hs ht h he).1.order
  simp only [Dict.has_eq_decide]
  exact hord

/-- Columns which both tables have are never moved: they stay in the order which they had. -/
theorem C03_kept [PyNum] (s t : Table) (hs : s.Keyed) (ht : t.Keyed) (as : List Alter) (h : s.to t = .ok as)
    (st : STable) (he : execAlters (ofTable s) as = some st) :
    st.cols.keys.filter (fun k => decide (k ∈ s.columns.keys)) = s.columns.keys.filter (fun k => decide (k ∈ t.columns.keys)) := by
  have := (to_result hs ht h he).1.kept
  have e : ∀ d : Dict Column, d.has = fun k => decide (k ∈ d.keys) := fun d => funext (fun k => Dict.has_eq_decide d k)
  rw [e, e] at this
  exact this

/-- **C03**, exactly: the columns end up in the target's order if and only if those which both tables have are in the same relative order
already. -/
theorem C03_iff [PyNum] (s t : Table) (hs : s.Keyed) (ht : t.Keyed) (as : List Alter) (h : s.to t = .ok as)
    (st : STable) (he : execAlters (ofTable s) as = some st) :
    st.cols.keys = t.columns.keys ↔
      t.columns.keys.filter (fun k => decide (k ∈ s.columns.keys)) = s.columns.keys.filter (fun k => decide (k ∈ t.columns.keys)) := by
  refine ⟨fun hk => ?_, fun hord => C03_partial s t hs ht hord as h st he⟩
  rw [← C03_kept s t hs ht as h st he, hk]

/-! ## C08 -/

theorem sameNumericDefault_spec [PyNum] {a b : Column} (hc : a.cls = .numeric) (h : a.sameNumericDefault b = .ok true) :
    a.SameDefaultValue b := by
  unfold Column.sameNumericDefault at h
  cases ha : a.default with
  | none =>
    cases hb : b.default with
    | none => left; rw [ha, hb]
    | some y => simp [ha, hb] at h
  | some x =>
    cases hb : b.default with
    | none => simp [ha, hb] at h
    | some y =>
      simp only [ha, hb] at h
      by_cases hd : a.columnType = py"DECIMAL"
      · simp only [hd, ne_eq, not_true_eq_false, if_false] at h
        cases hl : a.len with
        | none => simp [hl] at h
        | list l => simp [hl] at h
        | str l =>
          simp only [hl] at h
          have hpair : ∀ m n, splitOn ',' l = [m, n] → l = m ++ ',' :: n := by
            have hone : ∀ (l : Str) m, splitOn ',' l = [m] → l = m := by
              intro l
              induction l with
              | nil => intro m h; simp [splitOn] at h; exact h.symm
              | cons c l ih =>
                intro m h
                simp only [splitOn] at h
                by_cases hcc : c = ','
                · simp only [hcc, if_true, List.cons.injEq] at h
                  exfalso
                  cases l with
                  | nil => simp [splitOn] at h
                  | cons d l =>
                    have := h.2
                    simp only [splitOn] at this
                    split at this
                    · simp at this
                    · split at this <;> simp at this
                · simp only [hcc, if_false] at h
                  cases hs : splitOn ',' l with
                  | nil =>
                    exfalso
                    cases l with
                    | nil => simp [splitOn] at hs
                    | cons d l =>
                      simp only [splitOn] at hs
                      split at hs
                      · simp at hs
                      · split at hs <;> simp at hs
                  | cons w ws =>
                    simp only [hs, List.cons.injEq] at h
                    obtain ⟨h1, h2⟩ := h
                    subst h2
                    rw [← h1, ih w hs]
            clear h hl
            induction l with
            | nil => intro m n h; simp [splitOn] at h
            | cons c l ih =>
              intro m n h
              simp only [splitOn] at h
              by_cases hcc : c = ','
              · simp only [hcc, if_true, List.cons.injEq] at h
                rw [← h.1, hcc, List.nil_append, hone l n h.2]
              · simp only [hcc, if_false] at h
                cases hs : splitOn ',' l with
                | nil => simp [hs] at h
                | cons w ws =>
                  simp only [hs, List.cons.injEq] at h
                  obtain ⟨h1, h2⟩ := h
                  subst h2
                  rw [← h1, List.cons_append, ← ih w n hs]
          rcases hsp : splitOn ',' l with _ | ⟨m, _ | ⟨n, _ | ⟨z, zs⟩⟩⟩
          · simp only [hsp, Except.ok.injEq, beq_iff_eq] at h; left; rw [ha, hb, h]
          · simp only [hsp, Except.ok.injEq, beq_iff_eq] at h; left; rw [ha, hb, h]
          · simp only [hsp] at h
            cases hi : PyNum.int n with
            | none => simp [hi] at h
            | some k =>
              simp only [hi] at h
              cases hfx : PyNum.float x with
              | none => simp [hfx] at h
              | some fx =>
                cases hfy : PyNum.float y with
                | none => simp [hfx, hfy] at h
                | some fy =>
                  simp only [hfx, hfy, Except.ok.injEq, Bool.or_eq_true, beq_iff_eq] at h
                  rcases h with h | h
                  · right; left
                    refine ⟨hc, x, y, ha, hb, .inr ⟨hd, m, n, k, fx, fy, ?_, hi, hfx, hfy, h⟩⟩
                    simp only [Column.shownLen, hl]
                    exact hpair m n hsp
                  · left; rw [ha, hb, h]
          · simp only [hsp, Except.ok.injEq, beq_iff_eq] at h; left; rw [ha, hb, h]
      · simp only [hd, ne_eq, not_false_eq_true, if_true] at h
        cases hfx : PyNum.float x with
        | none => simp [hfx] at h
        | some fx =>
          cases hfy : PyNum.float y with
          | none => simp [hfx, hfy] at h
          | some fy =>
            simp only [hfx, hfy, Except.ok.injEq] at h
            exact .inr (.inl ⟨hc, x, y, ha, hb, .inl ⟨fx, fy, hfx, hfy, h⟩⟩)

theorem sameDefault_spec [PyNum] {a b : Column} (h : a.sameDefault b = .ok true) : a.SameDefaultValue b := by
  unfold Column.sameDefault at h
  cases hc : a.cls with
  | numeric => simp only [hc] at h; exact sameNumericDefault_spec hc h
  | date => simp only [hc, Except.ok.injEq, beq_iff_eq] at h; exact .inl h
  | string =>
    simp only [hc] at h
    by_cases hl : Column.noLiteralDefaultTypes.contains a.columnType = true
    · refine .inr (.inr ⟨by simp [Column.isStringClass, hc], ?_⟩)
      simpa [bigTypes, Column.noLiteralDefaultTypes] using hl
    · simp only [hl, Bool.false_eq_true, if_false, Except.ok.injEq, beq_iff_eq] at h; exact .inl h
  | enum =>
    simp only [hc] at h
    by_cases hl : Column.noLiteralDefaultTypes.contains a.columnType = true
    · refine .inr (.inr ⟨by simp [Column.isStringClass, hc], ?_⟩)
      simpa [bigTypes, Column.noLiteralDefaultTypes] using hl
    · simp only [hl, Bool.false_eq_true, if_false, Except.ok.injEq, beq_iff_eq] at h; exact .inl h

theorem sameTail_spec [PyNum] {a b : Column} (h : a.sameTail b = .ok true) : a.isUnsigned = b.isUnsigned ∧ a.SameDefaultValue b := by
  unfold Column.sameTail at h
  by_cases h1 : a.isUnsigned ≠ b.isUnsigned
  · simp [h1] at h
  · simp only [h1, if_false] at h
    by_cases h2 : a.defaultNoneMismatch b = true
    · simp [h2] at h
    · simp only [h2, Bool.false_eq_true, if_false] at h
      exact ⟨Classical.not_not.mp h1, sameDefault_spec h⟩

theorem sameBase_spec [PyNum] {a b : Column} (h : a.sameBase b = .ok true) :
    a.name = b.name ∧ a.len = b.len ∧ a.null = b.null ∧ a.columnType = b.columnType ∧ a.isUnsigned = b.isUnsigned ∧
    a.SameDefaultValue b := by
  unfold Column.sameBase at h
  by_cases h1 : a.name ≠ b.name ∨ a.len ≠ b.len ∨ a.null ≠ b.null ∨ a.columnType ≠ b.columnType
  · simp [h1] at h
  · simp only [h1, if_false] at h
    simp only [not_or, ne_eq, Classical.not_not] at h1
    exact ⟨h1.1, h1.2.1, h1.2.2.1, h1.2.2.2, sameTail_spec h⟩

theorem shownLen_congr {a b : Column} (h : a.len = b.len) : a.shownLen = b.shownLen := by simp [Column.shownLen, h]

theorem bothDiffer_spec {o o' : Option Str} (ho : ∀ d, o = some d → d ≠ [] ∧ '\'' ∉ d) (ho' : ∀ d, o' = some d → d ≠ [] ∧ '\'' ∉ d)
    (h : Column.bothDiffer (o.map upper) (o'.map upper) = false) : NoConflict (o.map upper) (o'.map upper) := by
  intro x y hx hy
  rw [Column.bothDiffer, Column.nonEmpty_upper ho, Column.nonEmpty_upper ho'] at h
  rw [hx, hy] at h
  simpa using h

theorem equivalent_agrees [PyNum] {a b : Column} (ha : a.Tidy) (hb : b.Tidy) (h : Equivalent a b) : a.Agrees b := by
  rcases h with h | h
  · obtain ⟨h1, h2, h3, h4, h5, h6, _, h8, h9⟩ := Column.render_inj ha hb h
    refine ⟨h1, h2, .inl h3, h5, h4, .inl h6, ?_, ?_⟩
    · intro sa sb x y hx hy
      simp only [Column.shownCharset, sa, sb, if_true] at h8
      rw [hx, hy] at h8; simpa using h8
    · intro sa sb x y hx hy
      simp only [Column.shownCollate, sa, sb, if_true] at h9
      rw [hx, hy] at h9; simpa using h9
  · unfold Column.sameAs at h
    cases hc : a.cls with
    | numeric =>
      have ns : ¬ a.isStringClass = true := by simp [Column.isStringClass, hc]
      simp only [hc] at h
      by_cases hi : Column.integerTypes.contains a.columnType = true
      · simp only [hi, if_true] at h
        by_cases h1 : a.name ≠ b.name ∨ a.null ≠ b.null ∨ a.columnType ≠ b.columnType
        · simp [h1] at h
        · simp only [h1, if_false] at h
          simp only [not_or, ne_eq, Classical.not_not] at h1
          have := sameTail_spec h
          exact ⟨h1.1, h1.2.2, .inr ⟨hc, by simpa [intTypes, Column.integerTypes] using hi⟩, h1.2.1, this.1, this.2,
            fun s => absurd s ns, fun s => absurd s ns⟩
      · simp only [hi, Bool.false_eq_true, if_false] at h
        obtain ⟨h1, h2, h3, h4, h5, h6⟩ := sameBase_spec h
        exact ⟨h1, h4, .inl (shownLen_congr h2), h3, h5, h6, fun s => absurd s ns, fun s => absurd s ns⟩
    | date =>
      have ns : ¬ a.isStringClass = true := by simp [Column.isStringClass, hc]
      simp only [hc] at h
      obtain ⟨h1, h2, h3, h4, h5, h6⟩ := sameBase_spec h
      exact ⟨h1, h4, .inl (shownLen_congr h2), h3, h5, h6, fun s => absurd s ns, fun s => absurd s ns⟩
    | string =>
      simp only [hc] at h
      cases hsb : a.sameBase b with
      | error e => simp [hsb] at h
      | ok v =>
        cases v with
        | false => simp [hsb] at h
        | true =>
          simp only [hsb, Except.ok.injEq, Bool.and_eq_true, Bool.not_eq_true'] at h
          obtain ⟨h1, h2, h3, h4, h5, h6⟩ := sameBase_spec hsb
          exact ⟨h1, h4, .inl (shownLen_congr h2), h3, h5, h6, fun _ _ => bothDiffer_spec ha.cset hb.cset h.2,
            fun _ _ => bothDiffer_spec ha.coll hb.coll h.1⟩
    | enum =>
      simp only [hc] at h
      cases hsb : a.sameBase b with
      | error e => simp [hsb] at h
      | ok v =>
        cases v with
        | false => simp [hsb] at h
        | true =>
          simp only [hsb, Except.ok.injEq, Bool.and_eq_true, Bool.not_eq_true'] at h
          obtain ⟨h1, h2, h3, h4, h5, h6⟩ := sameBase_spec hsb
          exact ⟨h1, h4, .inl (shownLen_congr h2), h3, h5, h6, fun _ _ => bothDiffer_spec ha.cset hb.cset h.2,
            fun _ _ => bothDiffer_spec ha.coll hb.coll h.1⟩

/-- **C08** (partial).  If `source.to(target)` does not change a column which both have, the column agrees with
the target's.  Missing: AUTO_INCREMENT, which is only known to agree if the texts of the columns are the same
(`C08_counterexample`). -/
theorem C08_partial [PyNum] (s t : Table) (hs : s.Keyed) (ht : t.Keyed) (as : List Alter) (h : s.to t = .ok as)
    (k : Str) (a b : Column) (ha : s.columns.get? k = some a) (hb : t.columns.get? k = some b)
    (ta : a.Tidy) (tb : b.Tidy) (hno : ∀ al ∈ as, AlterOp.changeColumn b ∉ al.ops) :
    a.Agrees b ∧ (a.render = b.render → a.isAutoInc = b.isAutoInc) := by
  refine ⟨?_, fun hr => (Column.render_inj ta tb hr).2.2.2.2.2.2.1⟩
  simp only [to, toSplit, addedColumnOps_added s t ht] at h
  cases hc : changedColumnOps s t (overlap s.columns t.columns) with
  | error e => simp [hc] at h
  | ok changes =>
    simp only [hc, Except.ok.injEq] at h
    obtain ⟨ch, c1, c2, c3, c4⟩ := changedColumnOps_spec s t ht _ _ (overlap_nodup hs.colNodup) hc
    obtain ⟨a', b', ha', hb', hor⟩ := c4 k (mem_overlap.mpr ⟨Dict.mem_keys_of_get? ha, Dict.mem_keys_of_get? hb⟩)
    rw [ha] at ha'
    rw [hb] at hb'
    simp only [Option.some.injEq] at ha' hb'
    subst ha'; subst hb'
    rcases hor with h' | h'
    · exact equivalent_agrees ta tb h'
    · exfalso
      have hm : AlterOp.changeColumn b ∈ changes := by rw [c1]; exact List.mem_map.mpr ⟨_, h', rfl⟩
      subst h
      generalize hks : addsFrom s.columns [] t.columns ++ changes ++ removedColumnOps s (removed s.columns t.columns) ++ keyOps s t ++ addedFkOps s t = ks at hno
      have hmk : AlterOp.changeColumn b ∈ ks := by subst hks; simp [hm]
      have hne : ks ≠ [] := List.ne_nil_of_mem hmk
      refine hno ⟨s.name, ks⟩ ?_ hmk
      simp [alterIf, hne]

/-- The columns of a migrated table agree with the target's (C02 with C08). -/
theorem C02_agrees [PyNum] (s t : Table) (hs : s.Keyed) (ht : t.Keyed)
    (ts : ∀ k c, s.columns.get? k = some c → c.Tidy) (tt : ∀ k c, t.columns.get? k = some c → c.Tidy)
    (as : List Alter) (h : s.to t = .ok as) (st : STable) (he : execAlters (ofTable s) as = some st) :
    ∀ k b, t.columns.get? k = some b → ∃ c, st.cols.get? k = some c ∧ (c = b ∨ c.Agrees b) := by
  obtain ⟨_, _, hc⟩ := C02 s t hs ht as h st he
  intro k b hb
  rcases hc k b hb with h | ⟨a, ha, h1, h2⟩
  · exact ⟨b, h, .inl rfl⟩
  · exact ⟨a, h1, .inr (equivalent_agrees (ts k a ha) (tt k b hb) h2)⟩

/-! ## Examples and counterexamples -/

section
open Examples
attribute [local instance] exactNum

/-- the hypotheses of C02 and C06 can be met, and the migration is not trivial -/
example : posts.Valid ∧ posts'.Valid ∧ posts.Plain ∧ posts'.Plain ∧ PrimaryKept posts posts' ∧
    ∃ a b, posts.to posts' = .ok [a, b] ∧ b.ops.length = 9 ∧ ∃ st, execAlters (ofTable posts) [a, b] = some st :=
  ⟨posts_valid, posts'_valid, posts_plain, posts'_plain, posts_primary, by
    refine ⟨_, _, rfl, by decide, ?_⟩
    exact C06_partial posts posts' posts_valid posts'_valid posts_plain posts'_plain posts_primary _ rfl⟩

/-- the hypothesis of C03 is met too -/
example : posts'.columns.keys.filter (fun k => decide (k ∈ posts.columns.keys)) =
    posts.columns.keys.filter (fun k => decide (k ∈ posts'.columns.keys)) := by decide

/-- `(a, b)` -/
def ab : Table := mk py"t" [intCol py"a", intCol py"b"] [] []
/-- `(b, a)` -/
def ba : Table := mk py"t" [intCol py"b", intCol py"a"] [] []

/-- **C03 is false in general**: reordering columns is not noticed. -/
theorem C03_counterexample : ab.Valid ∧ ba.Valid ∧ ab.to ba = .ok [] ∧ ab.columns.keys ≠ ba.columns.keys :=
  ⟨valid_of_check (by decide), valid_of_check (by decide), by decide, by decide⟩

/-- primary key `id` -/
def pk1 : Table := mk py"t" [intCol py"id", intCol py"b"] [pk] []
/-- primary key `id, b` -/
def pk2 : Table := mk py"t" [intCol py"id", intCol py"b"] [{ pk with columns := [py"id", py"b"] }] []

/-- **C06 is false in general**: extending the primary key produces ``DROP KEY `id`, ADD PRIMARY KEY``,
which the server rejects, as there is no key called `id`. -/
theorem C06_counterexample : pk1.Valid ∧ pk2.Valid ∧ pk1.Plain ∧ pk2.Plain ∧
    ∃ as, pk1.to pk2 = .ok as ∧ execAlters (ofTable pk1) as = none :=
  ⟨valid_of_check (by decide), valid_of_check (by decide), plain_of_check (by decide), plain_of_check (by decide),
    _, rfl, by decide⟩

/-- with AUTO_INCREMENT -/
def auto : Table := mk py"t" [idCol] [pk] []
/-- without AUTO_INCREMENT -/
def plain : Table := mk py"t" [{ idCol with autoInc := some false }] [pk] []

/-- **C08 is false for AUTO_INCREMENT**: it is not compared. -/
theorem C08_counterexample : plain.Valid ∧ auto.Valid ∧ plain.to auto = .ok [] ∧
    (plain.columns.values.map Column.isAutoInc, auto.columns.values.map Column.isAutoInc) = ([false], [true]) :=
  ⟨valid_of_check (by decide), valid_of_check (by decide), by decide, by decide⟩

/-- AUTO_INCREMENT is ignored whatever the column. -/
theorem C08_autoIncrement_ignored [PyNum] (a b : Column) (x : Option Bool) :
    a.sameAs { b with autoInc := x } = a.sameAs b := rfl

theorem idCol_tidy : idCol.Tidy :=
  ⟨by decide, by decide, .inr ⟨_, rfl, by decide⟩, rfl, by decide, by decide, by decide⟩

/-- the hypotheses of C08 can be met with different texts: another display width -/
example : ∃ (s t : Table) (a b : Column), s.Keyed ∧ t.Keyed ∧ s.to t = .ok [] ∧ s.columns.get? py"id" = some a ∧
    t.columns.get? py"id" = some b ∧ a.Tidy ∧ b.Tidy ∧ a.render ≠ b.render :=
  ⟨auto, mk py"t" [{ idCol with len := .str py"11" }] [pk] [], idCol, { idCol with len := .str py"11" },
    (valid_of_check (by decide)).toKeyed, (valid_of_check (by decide)).toKeyed, by decide, by decide, by decide,
    idCol_tidy, ⟨by decide, by decide, .inr ⟨_, rfl, by decide⟩, rfl, by decide, by decide, by decide⟩, by decide⟩
end

end Mygrations

import Verif.Proofs.ReadDoc
import Verif.Spec.Script

/-! # `INSERT` reads back -/

namespace Mygrations

/-! ## Cells -/

/-- what stands between the quotes, or the word -/
def Cell.raw : Cell → Str
  | .null => py"NULL"
  | .bare w => w
  | .text x => doubled x

theorem doubled_nil : doubled [] = [] := rfl
theorem doubled_cons (c : Char) (x : Str) : doubled (c :: x) = (if c = '\\' then py"\\\\" else [c]) ++ doubled x := by simp [doubled]

theorem mem_doubled {c : Char} {x : Str} : c ∈ doubled x ↔ c ∈ x := by
  induction x with
  | nil => simp [doubled]
  | cons a x ih =>
    rw [doubled_cons]
    by_cases ha : a = '\\'
    · subst ha; simp [ih]
    · simp [ha, ih]

theorem undouble : ∀ x : Str, replacePair '\\' '\\' py"\\" (doubled x) = x
  | [] => rfl
  | [c] => by
    rw [doubled_cons]
    by_cases h : c = '\\'
    · subst h; rfl
    · simp [h, doubled, replacePair]
  | c :: d :: x => by
    have ih := undouble (d :: x)
    rw [doubled_cons]
    by_cases h : c = '\\'
    · subst h
      simp only [if_true, List.cons_append, List.nil_append, replacePair, and_self]
      rw [ih]
    · obtain ⟨a, as, ha⟩ : ∃ a as, doubled (d :: x) = a :: as := by
        rw [doubled_cons]; by_cases hd : d = '\\'
        · exact ⟨_, _, by simp [hd]; exact ⟨rfl, rfl⟩⟩
        · exact ⟨_, _, by simp [hd]; exact ⟨rfl, rfl⟩⟩
      rw [ha] at ih ⊢
      simp only [h, if_false, List.cons_append, List.nil_append, replacePair, false_and]
      rw [ih]

theorem replacePair_id {a b : Char} {r : Str} : ∀ {x : Str}, b ∉ x → replacePair a b r x = x
  | [], _ => rfl
  | [c], _ => rfl
  | c :: d :: x, h => by
    have hd : d ≠ b := by rintro rfl; simp at h
    simp only [replacePair, hd, and_false, if_false]
    rw [replacePair_id (fun hh => h (List.mem_cons_of_mem _ hh))]

theorem doubled_id : ∀ {x : Str}, '\\' ∉ x → doubled x = x
  | [], _ => rfl
  | c :: x, h => by
    have hc : c ≠ '\\' := by rintro rfl; simp at h
    rw [doubled_cons, doubled_id (fun hh => h (List.mem_cons_of_mem _ hh))]
    simp [hc]

theorem doubled_null {x : Str} (h : doubled x = py"NULL") : x = py"NULL" := by
  have : '\\' ∉ x := by
    rw [← mem_doubled, h]; decide
  rw [doubled_id this] at h
  exact h

theorem cell_value {c : Cell} (h : c.Ok) : cellValue c.raw = c.value := by
  cases c with
  | null => rfl
  | bare w =>
    obtain ⟨_, hb, hbs, hn⟩ := h
    have h1 : '\'' ∉ w := fun hm => (hb _ hm).2.2.2.2.1 rfl
    show cellValue w = .str w
    unfold cellValue
    rw [if_neg hn, replacePair_id hbs, replacePair_id h1]
  | text x =>
    obtain ⟨hq, _, hn⟩ := h
    show cellValue (doubled x) = .str x
    unfold cellValue
    rw [if_neg (fun hh => hn (doubled_null hh)), undouble, replacePair_id hq]

theorem flat_of_collapse : ∀ {x : Str} {b : Bool}, collapseAux b x = x → flat b (x ++ py"'") = true
  | [], b, _ => by cases b <;> decide
  | c :: x, b, h => by
    by_cases hc : isSpace c = true
    · cases b with
      | true =>
        simp only [collapseAux, hc, if_true] at h
        have := collapse_length true x
        rw [h] at this
        simp at this
        omega
      | false =>
        simp only [collapseAux, hc, if_true, List.cons.injEq] at h
        have ih := flat_of_collapse h.2
        rw [← h.1]
        show flat false ([] ++ ' ' :: (x ++ py"'")) = true
        rw [flat_space rfl]
        exact ih
    · have hc' : isSpace c = false := by simpa using hc
      have h2 : collapseAux false x = x := by
        cases b <;> simpa [collapseAux, hc'] using h
      have ih := flat_of_collapse h2
      simp only [List.cons_append, flat, hc', Bool.false_eq_true, if_false]
      exact ih

theorem collapse_doubled : ∀ {x : Str} {b : Bool}, collapseAux b x = x → collapseAux b (doubled x) = doubled x
  | [], b, _ => by cases b <;> rfl
  | c :: x, b, h => by
    rw [doubled_cons]
    by_cases hbs : c = '\\'
    · subst hbs
      have hc' : isSpace '\\' = false := by decide
      have h2 : collapseAux false x = x := by
        cases b <;> simpa [collapseAux, hc'] using h
      have ih := collapse_doubled h2
      cases b <;> simp [collapseAux, hc', ih]
    · simp only [hbs, if_false, List.cons_append, List.nil_append]
      by_cases hc : isSpace c = true
      · cases b with
        | true =>
          simp only [collapseAux, hc, if_true] at h
          have := collapse_length true x
          rw [h] at this
          simp at this
          omega
        | false =>
          simp only [collapseAux, hc, if_true, List.cons.injEq] at h ⊢
          exact ⟨h.1, collapse_doubled h.2⟩
      · have hc' : isSpace c = false := by simpa using hc
        have h2 : collapseAux false x = x := by
          cases b <;> simpa [collapseAux, hc'] using h
        have ih := collapse_doubled h2
        cases b <;> simp [collapseAux, hc', ih]

theorem cell_flat {c : Cell} (h : c.Ok) : flat true c.sql = true := by
  cases c with
  | null => decide
  | bare w => exact flat_noSpace (bare_noSpace h.2.1) true (fun _ => h.1)
  | text x =>
    show flat true (py"'" ++ doubled x ++ py"'") = true
    rw [List.append_assoc, flat_append (by decide)]
    exact flat_of_collapse (collapse_doubled h.2.1)

/-- the remaining cells of a row -/
def cellsTail (sep : Str) : List Cell → Str → Str
  | [], e => e
  | c :: cs, e => py"," ++ (sep ++ (c.sql ++ cellsTail sep cs e))

theorem cells_join (sep : Str) (c : Cell) (cs : List Cell) (e : Str) :
    join (py"," ++ sep) ((c :: cs).map Cell.sql) ++ e = c.sql ++ cellsTail sep cs e := by
  rw [List.map_cons, join_cons]
  have : ∀ cs : List Cell, (cs.map Cell.sql).flatMap (fun x => py"," ++ sep ++ x) ++ e = cellsTail sep cs e := by
    intro cs
    induction cs with
    | nil => rfl
    | cons d ds ih => simp only [List.map_cons, List.flatMap_cons, cellsTail, ← ih, List.append_assoc]
  rw [List.append_assoc, this]

theorem cell_delim {c : Cell} (h : c.Ok) (vals : List Str) (r : Str) :
    ∃ st : DelimState, st.inQuote = false ∧ (∃ cur, st.flush = ⟨false, vals ++ [c.raw], cur, false⟩) ∧
      delimLoop py")" ',' '\'' (c.sql ++ r) ⟨false, vals, [], false⟩ = delimLoop py")" ',' '\'' r st := by
  have key : ∀ w : Str, w ≠ [] → Bare w → ∃ st : DelimState, st.inQuote = false ∧ (∃ cur, st.flush = ⟨false, vals ++ [w], cur, false⟩) ∧
      delimLoop py")" ',' '\'' (w ++ r) ⟨false, vals, [], false⟩ = delimLoop py")" ',' '\'' r st := by
    intro w hne hb
    refine ⟨⟨true, vals, w, false⟩, rfl, ⟨w, rfl⟩, ?_⟩
    refine delim_word (endc := ')') w ⟨false, vals, [], false⟩ r rfl ?_ hne
    intro x hx
    obtain ⟨h1, h2, h3, h4, h5, h6⟩ := hb x hx
    refine ⟨h5, ?_, h4, ?_⟩
    · intro e
      exact h3 (toLower_eq (by decide) e)
    · rintro rfl; revert h1; decide
  cases c with
  | null => exact key py"NULL" (by decide) (by decide)
  | bare w => exact key w h.1 h.2.1
  | text x =>
    refine ⟨⟨false, vals ++ [doubled x], doubled x, false⟩, rfl, ⟨doubled x, rfl⟩, ?_⟩
    have := delim_quoted (endLit := py")") (sep := ',') (q := '\'') (v := doubled x) (st := ⟨false, vals, [], false⟩) r rfl (by
      intro y hy
      rintro rfl
      exact h.1 (mem_doubled.mp hy))
    simpa [quoted, Cell.sql] using this

theorem cells_delim {sep : Str} (hs : Gap sep) (r : Str) : ∀ (c : Cell) (cs : List Cell) (vals : List Str), (∀ x ∈ c :: cs, x.Ok) →
    ∃ cur, delimLoop py")" ',' '\'' (c.sql ++ cellsTail sep cs (')' :: r)) ⟨false, vals, [], false⟩ =
      (⟨false, vals ++ (c :: cs).map Cell.raw, cur, false⟩, some (')' :: r))
  | c, [], vals, h => by
    obtain ⟨st, hq, ⟨cur, hf⟩, hl⟩ := cell_delim (h c List.mem_cons_self) vals (')' :: r)
    refine ⟨cur, ?_⟩
    rw [cellsTail, hl, delim_end _ _ hq (by decide), hf]
    rfl
  | c, d :: cs, vals, h => by
    obtain ⟨st, hq, ⟨cur', hf⟩, hl⟩ := cell_delim (h c List.mem_cons_self) vals (cellsTail sep (d :: cs) (')' :: r))
    obtain ⟨cur, ih⟩ := cells_delim hs r d cs (vals ++ [c.raw]) (fun x hx => h x (List.mem_cons_of_mem _ hx))
    refine ⟨cur, ?_⟩
    rw [hl]
    have e1 : cellsTail sep (d :: cs) (')' :: r) = ',' :: (sep ++ (d.sql ++ cellsTail sep cs (')' :: r))) := rfl
    rw [e1, delim_sep _ _ hq (by decide) (by decide), hf]
    have : delimLoop py")" ',' '\'' (sep ++ (d.sql ++ cellsTail sep cs (')' :: r))) ⟨false, vals ++ [c.raw], [], false⟩ =
        delimLoop py")" ',' '\'' (d.sql ++ cellsTail sep cs (')' :: r)) ⟨false, vals ++ [c.raw], [], false⟩ := by
      rcases hs with rfl | rfl
      · rfl
      · show delimLoop py")" ',' '\'' (' ' :: (d.sql ++ cellsTail (py" ") cs (')' :: r))) _ = _
        rw [delimLoop]
        simp [startsWithCI_cons, startsWithCI_nil, DelimState.flush]
    rw [this, ih]
    simp

/-! ## Rows -/

theorem cellsTail_flat {sep : Str} (hs : Gap sep) {e : Str} (he : flat false e = true) : ∀ {cs : List Cell}, (∀ x ∈ cs, x.Ok) → flat false (cellsTail sep cs e) = true
  | [], _ => he
  | c :: cs, h => by
    have ih := cellsTail_flat hs he (fun x hx => h x (List.mem_cons_of_mem _ hx))
    have h1 : flat true (c.sql ++ cellsTail sep cs e) = true := by
      rw [flat_append (cell_flat (h c List.mem_cons_self))]; exact ih
    show flat false (py"," ++ (sep ++ (c.sql ++ cellsTail sep cs e))) = true
    rw [flat_append (by decide)]
    exact flat_gap hs h1

/-- a row -/
def rowText (sep : Str) (c : Cell) (cs : List Cell) (t : Str) : Str := py"(" ++ (c.sql ++ cellsTail sep cs (py")" ++ t))

theorem rowText_flat {sep : Str} (hs : Gap sep) {c : Cell} {cs : List Cell} (h : ∀ x ∈ c :: cs, x.Ok) {t : Str} (ht : flat false t = true) :
    flat true (c.sql ++ cellsTail sep cs (py")" ++ t)) = true ∧ flat true (rowText sep c cs t) = true := by
  have h1 : flat false (py")" ++ t) = true := by rw [flat_append (by decide)]; exact ht
  have h2 := cellsTail_flat hs h1 (fun x hx => h x (List.mem_cons_of_mem _ hx))
  have h3 : flat true (c.sql ++ cellsTail sep cs (py")" ++ t)) = true := by
    rw [flat_append (cell_flat (h c List.mem_cons_self))]; exact h2
  refine ⟨h3, ?_⟩
  unfold rowText
  rw [flat_append (by decide)]
  exact flat_false_of_true h3

theorem cells_parse {sep : Str} (hs : Gap sep) {c : Cell} {cs : List Cell} (h : ∀ x ∈ c :: cs, x.Ok) (t : Str) :
    (delimited py"values" '\'' py")").kind.parse (c.sql ++ cellsTail sep cs (py")" ++ t)) = .ok (some (.list ((c :: cs).map Cell.raw), py")" ++ t)) := by
  obtain ⟨cur, hl⟩ := cells_delim hs t c cs [] h
  show delimParse py")" ',' '\'' _ = _
  unfold delimParse
  have : delimLoop py")" ',' '\'' (c.sql ++ cellsTail sep cs (py")" ++ t)) {} = _ := hl
  rw [this]
  simp

/-- a row is read, with or without the comma after it -/
theorem row_read {sep : Str} (hs : Gap sep) {c : Cell} {cs : List Cell} (h : ∀ x ∈ c :: cs, x.Ok) {t rest : Str} {comma : Bool} (ht : flat false t = true)
    (hne : rest ≠ []) (hrest : if comma then strip t = t ∧ ∃ r, t = py"," ++ r ∧ strip r = rest else strip t = rest ∧ ∃ d ds, rest = d :: ds ∧ d ≠ ',') :
    insertValues.tryParse (rowText sep c cs t) = .ok (some (⟨(c :: cs).map Cell.value, comma⟩, rest)) := by
  obtain ⟨f1, f2⟩ := rowText_flat hs h ht
  have e1 : (lit py"(").kind.parse (rowText sep c cs t) = .ok (some (.str py"(", c.sql ++ cellsTail sep cs (py")" ++ t))) := lit_hit _ f1
  have e2 := cells_parse hs h t
  have e3 : (lit py")").kind.parse (py")" ++ t) = .ok (some (.str py")", strip t)) := congrArg Except.ok (literal_hit _ _)
  have hn1 : c.sql ++ cellsTail sep cs (py")" ++ t) ≠ [] := by
    obtain ⟨d, ds, hd, _⟩ := flat_true_head f1
    rw [hd]; simp
  have hval : (c :: cs).map (cellValue ∘ Cell.raw) = (c :: cs).map Cell.value :=
    List.map_congr_left (fun x hx => cell_value (h x hx))
  cases comma with
  | true =>
    simp only [if_true] at hrest
    obtain ⟨h1, r, rfl, h2⟩ := hrest
    have e4 : endingComma.kind.parse (py"," ++ r) = .ok (some (.str py",", rest)) := by
      have := literal_hit py"," r
      rw [h2] at this
      exact congrArg Except.ok this
    rw [h1] at e3
    refine (try_some (vals := [(py"(", .str py"("), (py"values", .list ((c :: cs).map Cell.raw)), (py")", .str py")"), (py"ending_comma", .str py",")]) (rest := rest) ?_).trans ?_
    · unfold simpleParse
      rw [normalize_normal (Or.inr f2)]
      show runRules Kind.parse [lit py"(", delimited py"values" '\'' py")", lit py")", endingComma] [] _ = _
      rw [run_hit e1 hn1, run_hit e2 (by simp), run_hit e3 (by simp), run_hit e4 hne]
      rfl
    · show Except.ok (some ((⟨((c :: cs).map Cell.raw).map cellValue, true⟩ : ValueGroup), rest)) = _
      rw [List.map_map, hval]
  | false =>
    simp only [Bool.false_eq_true, if_false] at hrest
    obtain ⟨h1, d, ds, hd, hdc⟩ := hrest
    have e4 : endingComma.kind.parse rest = .ok none := by
      rw [hd]; exact congrArg Except.ok (comma_miss hdc)
    rw [h1] at e3
    refine (try_some (vals := [(py"(", .str py"("), (py"values", .list ((c :: cs).map Cell.raw)), (py")", .str py")")]) (rest := rest) ?_).trans ?_
    · unfold simpleParse
      rw [normalize_normal (Or.inr f2)]
      show runRules Kind.parse [lit py"(", delimited py"values" '\'' py")", lit py")", endingComma] [] _ = _
      rw [run_hit e1 hn1, run_hit e2 (by simp), run_hit e3 hne, run_skip e4 rfl]
      rfl
    · show Except.ok (some ((⟨((c :: cs).map Cell.raw).map cellValue, false⟩ : ValueGroup), rest)) = _
      rw [List.map_map, hval]

/-- the rows of a statement, each with its first cell -/
abbrev RowList := List (Cell × List Cell)

/-- the remaining rows -/
def rowsTail (sep rsep : Str) : RowList → Str → Str
  | [], e => e
  | r :: rs, e => py"," ++ (rsep ++ rowText sep r.1 r.2 (rowsTail sep rsep rs e))

/-- the rows -/
def rowsText (sep rsep : Str) (r : Cell × List Cell) (rs : RowList) (e : Str) : Str := rowText sep r.1 r.2 (rowsTail sep rsep rs e)

theorem rowsTail_flat {sep rsep : Str} (hs : Gap sep) (hr : Gap rsep) {e : Str} (he : flat false e = true) : ∀ {rs : RowList},
    (∀ r ∈ rs, ∀ x ∈ r.1 :: r.2, x.Ok) → flat false (rowsTail sep rsep rs e) = true
  | [], _ => he
  | r :: rs, h => by
    have ih := rowsTail_flat hs hr he (fun x hx => h x (List.mem_cons_of_mem _ hx))
    have h1 := (rowText_flat hs (h r List.mem_cons_self) ih).2
    show flat false (py"," ++ (rsep ++ rowText sep r.1 r.2 (rowsTail sep rsep rs e))) = true
    rw [flat_append (by decide)]
    exact flat_gap hr h1

/-- what is read from the rows -/
def groups : (Cell × List Cell) → RowList → List ValueGroup
  | r, [] => [⟨(r.1 :: r.2).map Cell.value, false⟩]
  | r, r' :: rs => ⟨(r.1 :: r.2).map Cell.value, true⟩ :: groups r' rs

theorem groups_values : ∀ (r : Cell × List Cell) (rs : RowList), (groups r rs).map ValueGroup.values = (r :: rs).map (fun r => (r.1 :: r.2).map Cell.value)
  | r, [] => rfl
  | r, r' :: rs => by
    simp only [groups, List.map_cons, groups_values r' rs]

section
variable {sep rsep g more : Str} (hs : Gap sep) (hr : Gap rsep) (hg : Gap g) (hm : flat false more = true)
include hs hr hg hm

theorem one_group (r : Cell × List Cell) (rs : RowList) (h : ∀ x ∈ r :: rs, ∀ c ∈ x.1 :: x.2, c.Ok) :
    ∃ v rest, bestChild [insertValues] (rowsText sep rsep r rs (g ++ (py";" ++ more))) none = .ok (some (v, rest)) ∧
      (rs = [] → v = ⟨(r.1 :: r.2).map Cell.value, false⟩ ∧ rest = py";" ++ more) ∧
      (∀ r' rs', rs = r' :: rs' → v = ⟨(r.1 :: r.2).map Cell.value, true⟩ ∧ rest = rowsText sep rsep r' rs' (g ++ (py";" ++ more))) := by
  have hsemi := semicolon_flat hm
  have hend : flat false (g ++ (py";" ++ more)) = true := flat_gap hg hsemi
  cases rs with
  | nil =>
    have := row_read (comma := false) (rest := py";" ++ more) hs (h r List.mem_cons_self) hend (by simp)
      (by simp only [Bool.false_eq_true, if_false]; exact ⟨strip_gap hg hsemi, ';', more, rfl, by decide⟩)
    refine ⟨⟨(r.1 :: r.2).map Cell.value, false⟩, py";" ++ more, ?_, fun _ => ⟨rfl, rfl⟩, fun _ _ h => by cases h⟩
    show bestChild [insertValues] (rowText sep r.1 r.2 (g ++ (py";" ++ more))) none = _
    unfold bestChild; rw [this]; rfl
  | cons r' rs =>
    have hrest := rowsTail_flat hs hr hend (rs := rs) (fun x hx => h x (by simp [hx]))
    have hrow := (rowText_flat hs (h r' (by simp)) hrest).2
    have htail : flat false (rowsTail sep rsep (r' :: rs) (g ++ (py";" ++ more))) = true :=
      rowsTail_flat hs hr hend (fun x hx => h x (List.mem_cons_of_mem _ hx))
    have := row_read (comma := true) (rest := rowsText sep rsep r' rs (g ++ (py";" ++ more))) hs (h r List.mem_cons_self) htail
      (by simp [rowsText, rowText])
      (by
        simp only [if_true]
        refine ⟨?_, _, rfl, strip_gap hr hrow⟩
        apply strip_flat
        show flat true (py"," ++ (rsep ++ rowText sep r'.1 r'.2 (rowsTail sep rsep rs (g ++ (py";" ++ more))))) = true
        rw [flat_append (by decide)]
        exact flat_gap hr hrow)
    refine ⟨⟨(r.1 :: r.2).map Cell.value, true⟩, rowsText sep rsep r' rs (g ++ (py";" ++ more)), ?_, fun h => (by cases h), ?_⟩
    · show bestChild [insertValues] (rowText sep r.1 r.2 (rowsTail sep rsep (r' :: rs) (g ++ (py";" ++ more)))) none = _
      unfold bestChild; rw [this]; rfl
    · intro r'' rs'' he
      cases he
      exact ⟨rfl, rfl⟩

omit hs hr hg in
theorem no_group : bestChild [insertValues] (py";" ++ more) none = .ok none := by
  have hsemi := semicolon_flat hm
  have e1 : (lit py"(").kind.parse (py";" ++ more) = .ok none := lit_miss _ (by decide) (by decide) (by decide)
  have : insertValues.tryParse (py";" ++ more) = .ok none := by
    unfold ChildClass.tryParse simpleParse
    rw [normalize_normal (Or.inr hsemi)]
    have : runRules Kind.parse insertValues.rules [] (py";" ++ more) = .ok ⟨false, [], py";" ++ more⟩ := run_fail e1 rfl
    rw [this]
    rfl
  unfold bestChild
  rw [this]
  rfl

/-- fewer rows than steps: all rows are read -/
theorem rows_loop : ∀ (r : Cell × List Cell) (rs : RowList) (n : Nat) (done : List ValueGroup), (∀ x ∈ r :: rs, ∀ c ∈ x.1 :: x.2, c.Ok) →
    childrenLoop [insertValues] (n + 1 + (rs.length + 1)) (rowsText sep rsep r rs (g ++ (py";" ++ more))) done = .ok (some (done ++ groups r rs, py";" ++ more))
  | r, rs, n, done, h => by
    obtain ⟨v, rest, hb, h1, h2⟩ := one_group hs hr hg hm r rs h
    have hne : rowsText sep rsep r rs (g ++ (py";" ++ more)) ≠ [] := by simp [rowsText, rowText]
    rw [show n + 1 + (rs.length + 1) = (n + 1 + rs.length) + 1 from rfl, loop_step hne hb]
    cases rs with
    | nil =>
      obtain ⟨rfl, rfl⟩ := h1 rfl
      simp only [List.length_nil, Nat.add_zero, childrenLoop]
      rw [no_group hm]
      simp [groups]
    | cons r' rs =>
      obtain ⟨rfl, rfl⟩ := h2 r' rs rfl
      rw [List.length_cons, rows_loop r' rs n _ (fun x hx => h x (List.mem_cons_of_mem _ hx))]
      simp [groups]

/-- at least as many rows as steps: an exception -/
theorem rows_many : ∀ (n : Nat) (r : Cell × List Cell) (rs : RowList) (done : List ValueGroup), (∀ x ∈ r :: rs, ∀ c ∈ x.1 :: x.2, c.Ok) → n ≤ rs.length + 1 →
    childrenLoop [insertValues] n (rowsText sep rsep r rs (g ++ (py";" ++ more))) done = .error (.valueError py"Max depth reached")
  | 0, r, rs, done, _, _ => by
    have hne : rowsText sep rsep r rs (g ++ (py";" ++ more)) ≠ [] := by simp [rowsText, rowText]
    rw [childrenLoop, if_neg hne]
  | n + 1, r, rs, done, h, hn => by
    obtain ⟨v, rest, hb, h1, h2⟩ := one_group hs hr hg hm r rs h
    have hne : rowsText sep rsep r rs (g ++ (py";" ++ more)) ≠ [] := by simp [rowsText, rowText]
    rw [loop_step hne hb]
    cases rs with
    | nil =>
      obtain ⟨rfl, rfl⟩ := h1 rfl
      have : n = 0 := by simp at hn; exact hn
      subst this
      simp [childrenLoop]
    | cons r' rs =>
      obtain ⟨rfl, rfl⟩ := h2 r' rs rfl
      exact rows_many n r' rs _ (fun x hx => h x (List.mem_cons_of_mem _ hx)) (by simp at hn ⊢; omega)

end

/-! ## The statement -/

/-- the text of a statement and what follows -/
def insertText (l : InsertLayout) (t : Str) (cols : List Str) (r : Cell × List Cell) (rs : RowList) (more : Str) : Str :=
  py"INSERT INTO" ++ (l.beforeName ++ (quoted '`' t ++ (l.afterName ++ (py"(" ++ (join (py"," ++ l.columnSep) (cols.map (quoted '`')) ++ (py")" ++
    (l.beforeValues ++ (py"VALUES" ++ (l.afterValues ++ rowsText l.cellSep l.rowSep r rs (l.beforeEnd ++ (py";" ++ more)))))))))))

/-- the values of a statement -/
def insertVals (t : Str) (cols : List Str) (gs : List ValueGroup) : Dict (TVal ValueGroup) :=
  [(py"INSERT INTO", .simple (.str py"INSERT INTO")), (py"table", .simple (.str (quoted '`' t))), (py"(", .simple (.str py"(")),
   (py"columns", .simple (.list cols)), (py")", .simple (.str py")")), (py"VALUES", .simple (.str py"VALUES")), (py"inserts", .nodes gs),
   (py"closing_semicolon", .simple (.str py";"))]

/-- single blanks or nothing -/
structure InsertLayout.Gaps (l : InsertLayout) : Prop where
  beforeName : Gap l.beforeName
  afterName : Gap l.afterName
  columnSep : Gap l.columnSep
  beforeValues : Gap l.beforeValues
  afterValues : Gap l.afterValues
  cellSep : Gap l.cellSep
  rowSep : Gap l.rowSep
  beforeEnd : Gap l.beforeEnd

theorem columns_parse_gap {sep : Str} (hs : Gap sep) {cols : List Str} (hne : cols ≠ []) (hc : ∀ c ∈ cols, Ident c) (r : Str) :
    (delimited py"columns" '`' py")").kind.parse (join (py"," ++ sep) (cols.map (quoted '`')) ++ (py")" ++ r)) = .ok (some (.list cols, py")" ++ r)) := by
  obtain ⟨v, vs, rfl⟩ := List.exists_cons_of_ne_nil hne
  have hv : ∀ x ∈ v :: vs, ∀ c ∈ x, c ≠ '`' := by
    intro x hx c hcx
    have := (hc x hx).2 c hcx
    rintro rfl
    revert this; decide
  obtain ⟨cur, h⟩ := delim_list (q := '`') (by decide) (by decide) (by decide) (sep := py"," ++ sep) (by rcases hs with rfl | rfl <;> simp) r v vs {} rfl hv
  show delimParse py")" ',' '`' _ = _
  unfold delimParse
  have h' : delimLoop py")" ',' '`' (join (py"," ++ sep) ((v :: vs).map (quoted '`')) ++ (py")" ++ r)) {} = _ := h
  rw [h']
  simp

theorem columns_flat {sep : Str} (hs : Gap sep) : ∀ {cols : List Str}, cols ≠ [] → (∀ c ∈ cols, Ident c) →
    flat true (join (py"," ++ sep) (cols.map (quoted '`'))) = true
  | [], h, _ => absurd rfl h
  | [x], _, h => flat_noSpace (fun c hc => nameChar_noSpace (quoted_noSpace (h x List.mem_cons_self) c hc)) true (fun _ => by simp [quoted])
  | x :: y :: cols, _, h => by
    have ih := columns_flat hs (cols := y :: cols) (by simp) (fun z hz => h z (List.mem_cons_of_mem _ hz))
    have h1 : flat true (quoted '`' x) = true :=
      flat_noSpace (fun c hc => nameChar_noSpace (quoted_noSpace (h x List.mem_cons_self) c hc)) true (fun _ => by simp [quoted])
    show flat true (quoted '`' x ++ (py"," ++ sep) ++ join (py"," ++ sep) ((y :: cols).map (quoted '`'))) = true
    rw [List.append_assoc, flat_append h1, List.append_assoc, flat_append (by decide)]
    exact flat_gap hs ih

section
variable {l : InsertLayout} {t : Str} {cols : List Str} {r : Cell × List Cell} {rs : RowList} {more s : Str}

theorem insert_run (hl : l.Gaps) (ht : Ident t) (hc : cols ≠ [] ∧ ∀ c ∈ cols, Ident c) (h : ∀ x ∈ r :: rs, ∀ c ∈ x.1 :: x.2, c.Ok) (hm : flat false more = true)
    (htext : normalize s = insertText l t cols r rs more) :
    topParse insertRules s = runRules TopKind.parse [{ kind := .children [insertValues], name := py"inserts" }, closingSemicolon.top]
      [(py"INSERT INTO", .simple (.str py"INSERT INTO")), (py"table", .simple (.str (quoted '`' t))), (py"(", .simple (.str py"(")),
       (py"columns", .simple (.list cols)), (py")", .simple (.str py")")), (py"VALUES", .simple (.str py"VALUES"))]
      (rowsText l.cellSep l.rowSep r rs (l.beforeEnd ++ (py";" ++ more))) := by
  have f1 := semicolon_flat hm
  have f2 := rowsTail_flat hl.cellSep hl.rowSep (flat_gap hl.beforeEnd f1) (rs := rs) (fun x hx => h x (List.mem_cons_of_mem _ hx))
  have f3 : flat true (rowsText l.cellSep l.rowSep r rs (l.beforeEnd ++ (py";" ++ more))) = true := (rowText_flat hl.cellSep (h r List.mem_cons_self) f2).2
  have n3 : rowsText l.cellSep l.rowSep r rs (l.beforeEnd ++ (py";" ++ more)) ≠ [] := by simp [rowsText, rowText]
  generalize hR : rowsText l.cellSep l.rowSep r rs (l.beforeEnd ++ (py";" ++ more)) = R at *
  have f4 : flat true (py"VALUES" ++ (l.afterValues ++ R)) = true := by rw [flat_append (by decide)]; exact flat_gap hl.afterValues f3
  have f5 : flat false (py")" ++ (l.beforeValues ++ (py"VALUES" ++ (l.afterValues ++ R)))) = true := by
    rw [flat_append (by decide)]; exact flat_gap hl.beforeValues f4
  have f6 : flat true (join (py"," ++ l.columnSep) (cols.map (quoted '`')) ++ (py")" ++ (l.beforeValues ++ (py"VALUES" ++ (l.afterValues ++ R))))) = true := by
    rw [flat_append (columns_flat hl.columnSep hc.1 hc.2)]; exact f5
  have n6 : join (py"," ++ l.columnSep) (cols.map (quoted '`')) ++ (py")" ++ (l.beforeValues ++ (py"VALUES" ++ (l.afterValues ++ R)))) ≠ [] := by simp
  have f7 : flat true (py"(" ++ (join (py"," ++ l.columnSep) (cols.map (quoted '`')) ++ (py")" ++ (l.beforeValues ++ (py"VALUES" ++ (l.afterValues ++ R)))))) = true := by
    rw [flat_append (by decide)]; exact flat_false_of_true f6
  have ft : flat true (quoted '`' t) = true :=
    flat_noSpace (fun c hc => nameChar_noSpace (quoted_noSpace ht c hc)) true (fun _ => by simp [quoted])
  have f8 : flat true (quoted '`' t ++ (l.afterName ++ (py"(" ++ (join (py"," ++ l.columnSep) (cols.map (quoted '`')) ++ (py")" ++ (l.beforeValues ++ (py"VALUES" ++ (l.afterValues ++ R)))))))) = true := by
    rw [flat_append ft]; exact flat_gap hl.afterName f7
  unfold topParse
  rw [htext]
  have r1 : (TopKind.simple (α := ValueGroup) (.literal py"INSERT INTO")).parse (insertText l t cols r rs more) = .ok (some (.simple (.str py"INSERT INTO"), _)) :=
    top_simple (by
      show Except.ok (literalParse _ _) = _
      unfold insertText
      rw [literal_hit, hR, strip_gap hl.beforeName f8])
  have r2 : (TopKind.simple (α := ValueGroup) (plus (fun c => !isSpace c && c != '('))).parse
      (quoted '`' t ++ (l.afterName ++ (py"(" ++ (join (py"," ++ l.columnSep) (cols.map (quoted '`')) ++ (py")" ++ (l.beforeValues ++ (py"VALUES" ++ (l.afterValues ++ R)))))))) =
      .ok (some (.simple (.str (quoted '`' t)), py"(" ++ (join (py"," ++ l.columnSep) (cols.map (quoted '`')) ++ (py")" ++ (l.beforeValues ++ (py"VALUES" ++ (l.afterValues ++ R))))))) :=
    top_simple (by
      have := regex_hit (p := fun c => !isSpace c && c != '(') (pre := []) (run := quoted '`' t) (post := [])
        (r := l.afterName ++ (py"(" ++ (join (py"," ++ l.columnSep) (cols.map (quoted '`')) ++ (py")" ++ (l.beforeValues ++ (py"VALUES" ++ (l.afterValues ++ R)))))))
        (by simp [quoted]) (fun c hc => by
          have h1 := nameChar_noSpace (quoted_noSpace ht c hc)
          have h2 := (dull_iff.mp (quoted_dull ht c hc)).1
          simp [h1, h2]) (fun c hc => by
          rcases hl.afterName with h | h <;> rw [h] at hc <;> simp at hc <;> subst hc <;> decide)
      rw [strip_gap hl.afterName f7] at this
      exact congrArg Except.ok this)
  have r3 : (TopKind.simple (α := ValueGroup) (.literal py"(")).parse
      (py"(" ++ (join (py"," ++ l.columnSep) (cols.map (quoted '`')) ++ (py")" ++ (l.beforeValues ++ (py"VALUES" ++ (l.afterValues ++ R)))))) =
      .ok (some (.simple (.str py"("), join (py"," ++ l.columnSep) (cols.map (quoted '`')) ++ (py")" ++ (l.beforeValues ++ (py"VALUES" ++ (l.afterValues ++ R)))))) :=
    top_simple (lit_hit _ f6)
  have r4 : (TopKind.simple (α := ValueGroup) (delimited py"columns" '`' py")").kind).parse
      (join (py"," ++ l.columnSep) (cols.map (quoted '`')) ++ (py")" ++ (l.beforeValues ++ (py"VALUES" ++ (l.afterValues ++ R))))) =
      .ok (some (.simple (.list cols), py")" ++ (l.beforeValues ++ (py"VALUES" ++ (l.afterValues ++ R))))) :=
    top_simple (columns_parse_gap hl.columnSep hc.1 hc.2 _)
  have r5 : (TopKind.simple (α := ValueGroup) (.literal py")")).parse (py")" ++ (l.beforeValues ++ (py"VALUES" ++ (l.afterValues ++ R)))) =
      .ok (some (.simple (.str py")"), py"VALUES" ++ (l.afterValues ++ R))) :=
    top_simple (by
      show Except.ok (literalParse _ _) = _
      rw [literal_hit, strip_gap hl.beforeValues f4])
  have r6 : (TopKind.simple (α := ValueGroup) (.literal py"VALUES")).parse (py"VALUES" ++ (l.afterValues ++ R)) = .ok (some (.simple (.str py"VALUES"), R)) :=
    top_simple (by
      show Except.ok (literalParse _ _) = _
      rw [literal_hit, strip_gap hl.afterValues f3])
  unfold insertRules
  rw [run_hit (r := (lit py"INSERT INTO").top) r1 (by simp [quoted]), run_hit (r := Rule.top { kind := plus (fun c => !isSpace c && c != '('), name := py"table" }) r2 (by simp),
    run_hit (r := (lit py"(").top) r3 n6, run_hit (r := (delimited py"columns" '`' py")").top) r4 (by simp), run_hit (r := (lit py")").top) r5 (by simp),
    run_hit (r := (lit py"VALUES").top) r6 n3]
  rfl

theorem insert_read (hl : l.Gaps) (ht : Ident t) (hc : cols ≠ [] ∧ ∀ c ∈ cols, Ident c) (h : ∀ x ∈ r :: rs, ∀ c ∈ x.1 :: x.2, c.Ok) (hm : flat false more = true)
    (hn : rs.length + 1 < 1000) (htext : normalize s = insertText l t cols r rs more) :
    topParse insertRules s = .ok ⟨true, insertVals t cols (groups r rs), strip more⟩ := by
  rw [insert_run hl ht hc h hm htext]
  have hloop := rows_loop hl.cellSep hl.rowSep hl.beforeEnd hm r rs (998 - rs.length) [] h
  rw [show 998 - rs.length + 1 + (rs.length + 1) = 1000 by omega] at hloop
  have r7 : (TopKind.children [insertValues]).parse (rowsText l.cellSep l.rowSep r rs (l.beforeEnd ++ (py";" ++ more))) =
      .ok (some (.nodes (groups r rs), py";" ++ more)) := by
    simp only [TopKind.parse, childrenParse, hloop, List.nil_append]
  have r8 : (TopKind.simple (α := ValueGroup) (.literal py";")).parse (py";" ++ more) = .ok (some (.simple (.str py";"), strip more)) := top_simple (by
    show Except.ok (literalParse _ _) = _
    rw [literal_hit])
  rw [run_hit (r := ({ kind := .children [insertValues], name := py"inserts" } : Rule (TopKind ValueGroup))) r7 (by simp)]
  by_cases hst : strip more = []
  · rw [hst] at r8 ⊢
    rw [run_end (r := closingSemicolon.top) r8]
    rfl
  · rw [run_hit (r := closingSemicolon.top) r8 hst]
    rfl

theorem insert_many (hl : l.Gaps) (ht : Ident t) (hc : cols ≠ [] ∧ ∀ c ∈ cols, Ident c) (h : ∀ x ∈ r :: rs, ∀ c ∈ x.1 :: x.2, c.Ok) (hm : flat false more = true)
    (hn : 1000 ≤ rs.length + 1) (htext : normalize s = insertText l t cols r rs more) :
    topParse insertRules s = .error (.valueError py"Max depth reached") := by
  rw [insert_run hl ht hc h hm htext]
  have hloop := rows_many hl.cellSep hl.rowSep hl.beforeEnd hm 1000 r rs [] h hn
  have r7 : (TopKind.children [insertValues]).parse (rowsText l.cellSep l.rowSep r rs (l.beforeEnd ++ (py";" ++ more))) =
      .error (.valueError py"Max depth reached") := by
    simp only [TopKind.parse, childrenParse, hloop]
  simp only [runRules, r7]

end

/-! ## Layout -/

/-- the layout, normalised -/
def InsertLayout.squeeze (l : InsertLayout) : InsertLayout :=
  ⟨Mygrations.squeeze l.beforeName, Mygrations.squeeze l.afterName, Mygrations.squeeze l.columnSep, Mygrations.squeeze l.beforeValues, Mygrations.squeeze l.afterValues,
   Mygrations.squeeze l.cellSep, Mygrations.squeeze l.rowSep, Mygrations.squeeze l.beforeEnd⟩

theorem InsertLayout.squeeze_gaps (l : InsertLayout) : l.squeeze.Gaps :=
  ⟨squeeze_gap _, squeeze_gap _, squeeze_gap _, squeeze_gap _, squeeze_gap _, squeeze_gap _, squeeze_gap _, squeeze_gap _⟩

theorem InsertLayout.Gaps.ok {l : InsertLayout} (h : l.Gaps) : l.Ok :=
  ⟨h.beforeName.blanks, h.afterName.blanks, h.columnSep.blanks, h.beforeValues.blanks, h.afterValues.blanks, h.cellSep.blanks, h.rowSep.blanks, h.beforeEnd.blanks⟩

/-- blanks and then flat text -/
theorem trimmed_gap {bs a : Str} (hb : Blanks bs) (h : flat true a = true) (e : Str) : trimmed (bs ++ (a ++ e)) = squeeze bs ++ (a ++ trimmed e) := by
  obtain ⟨c, cs, hc, hs⟩ := flat_true_head h
  have h1 := trimmed_append h e
  rw [hc] at h1 ⊢
  rw [List.cons_append, trimmed_blanks hb hs, ← List.cons_append, h1]

theorem trimmed_cellsTail {sep : Str} (hs : Blanks sep) {e e' : Str} (he : trimmed e = e') : ∀ {cs : List Cell}, (∀ x ∈ cs, x.Ok) →
    trimmed (cellsTail sep cs e) = cellsTail (squeeze sep) cs e'
  | [], _ => he
  | c :: cs, h => by
    have ih := trimmed_cellsTail hs he (fun x hx => h x (List.mem_cons_of_mem _ hx))
    show trimmed (py"," ++ (sep ++ (c.sql ++ cellsTail sep cs e))) = _
    rw [trimmed_append (by decide), trimmed_gap hs (cell_flat (h c List.mem_cons_self)), ih]
    rfl

theorem trimmed_rowText {sep : Str} (hs : Blanks sep) {c : Cell} {cs : List Cell} (h : ∀ x ∈ c :: cs, x.Ok) {e e' : Str} (he : trimmed e = e') :
    trimmed (rowText sep c cs e) = rowText (squeeze sep) c cs e' := by
  unfold rowText
  have h1 : trimmed (py")" ++ e) = py")" ++ e' := by rw [trimmed_append (by decide), he]
  rw [trimmed_append (by decide), trimmed_append (cell_flat (h c List.mem_cons_self)), trimmed_cellsTail hs h1 (fun x hx => h x (List.mem_cons_of_mem _ hx))]

theorem trimmed_head {bs s : Str} (hb : Blanks bs) {d : Char} (hd : isSpace d = false) (hs : s.head? = some d) : trimmed (bs ++ s) = squeeze bs ++ trimmed s := by
  cases s with
  | nil => cases hs
  | cons c cs => simp at hs; subst hs; exact trimmed_blanks hb hd cs

theorem trimmed_rowsTail {sep rsep : Str} (hs : Blanks sep) (hr : Blanks rsep) {e e' : Str} (he : trimmed e = e') : ∀ {rs : RowList}, (∀ r ∈ rs, ∀ x ∈ r.1 :: r.2, x.Ok) →
    trimmed (rowsTail sep rsep rs e) = rowsTail (squeeze sep) (squeeze rsep) rs e'
  | [], _ => he
  | r :: rs, h => by
    have ih := trimmed_rowsTail hs hr he (fun x hx => h x (List.mem_cons_of_mem _ hx))
    have h1 := trimmed_rowText hs (h r List.mem_cons_self) ih
    show trimmed (py"," ++ (rsep ++ rowText sep r.1 r.2 (rowsTail sep rsep rs e))) = _
    rw [trimmed_append (by decide), trimmed_head hr (d := '(') (by decide) rfl, h1]
    rfl

theorem trimmed_columns {sep : Str} (hs : Blanks sep) (e : Str) : ∀ {cols : List Str}, cols ≠ [] → (∀ c ∈ cols, Ident c) →
    trimmed (join (py"," ++ sep) (cols.map (quoted '`')) ++ e) = join (py"," ++ squeeze sep) (cols.map (quoted '`')) ++ trimmed e
  | [], h, _ => absurd rfl h
  | [x], _, h => trimmed_append (flat_noSpace (fun c hc => nameChar_noSpace (quoted_noSpace (h x List.mem_cons_self) c hc)) true (fun _ => by simp [quoted])) e
  | x :: y :: cols, _, h => by
    have ih := trimmed_columns hs e (cols := y :: cols) (by simp) (fun z hz => h z (List.mem_cons_of_mem _ hz))
    have h1 : flat true (quoted '`' x) = true :=
      flat_noSpace (fun c hc => nameChar_noSpace (quoted_noSpace (h x List.mem_cons_self) c hc)) true (fun _ => by simp [quoted])
    have hd : (join (py"," ++ sep) ((y :: cols).map (quoted '`')) ++ e).head? = some '`' := by
      rw [List.map_cons, join_cons]; rfl
    show trimmed (quoted '`' x ++ (py"," ++ sep) ++ join (py"," ++ sep) ((y :: cols).map (quoted '`')) ++ e) =
      quoted '`' x ++ (py"," ++ squeeze sep) ++ join (py"," ++ squeeze sep) ((y :: cols).map (quoted '`')) ++ trimmed e
    simp only [List.append_assoc]
    rw [trimmed_append h1, trimmed_append (by decide), trimmed_head hs (d := '`') (by decide) hd]
    rw [ih]

section
variable {l : InsertLayout} {t : Str} {cols : List Str} {r : Cell × List Cell} {rs : RowList}

theorem trimmed_insert (hl : l.Ok) (ht : Ident t) (hc : cols ≠ [] ∧ ∀ c ∈ cols, Ident c) (h : ∀ x ∈ r :: rs, ∀ c ∈ x.1 :: x.2, c.Ok) (more : Str) :
    trimmed (insertText l t cols r rs more) = insertText l.squeeze t cols r rs (trimmed more) := by
  have h1 : trimmed (l.beforeEnd ++ (py";" ++ more)) = squeeze l.beforeEnd ++ (py";" ++ trimmed more) := trimmed_gap hl.beforeEnd (by decide) more
  have h2 := trimmed_rowsTail hl.cellSep hl.rowSep h1 (rs := rs) (fun x hx => h x (List.mem_cons_of_mem _ hx))
  have h3 : trimmed (rowsText l.cellSep l.rowSep r rs (l.beforeEnd ++ (py";" ++ more))) = rowsText l.squeeze.cellSep l.squeeze.rowSep r rs (l.squeeze.beforeEnd ++ (py";" ++ trimmed more)) :=
    trimmed_rowText hl.cellSep (h r List.mem_cons_self) h2
  have h4 : trimmed (l.afterValues ++ rowsText l.cellSep l.rowSep r rs (l.beforeEnd ++ (py";" ++ more))) = squeeze l.afterValues ++ _ :=
    trimmed_head hl.afterValues (d := '(') (by decide) rfl
  rw [h3] at h4
  have h5 := trimmed_gap hl.beforeValues (a := py"VALUES") (by decide) (l.afterValues ++ rowsText l.cellSep l.rowSep r rs (l.beforeEnd ++ (py";" ++ more)))
  rw [h4] at h5
  have h6 := trimmed_append (a := py")") (by decide) (l.beforeValues ++ (py"VALUES" ++ (l.afterValues ++ rowsText l.cellSep l.rowSep r rs (l.beforeEnd ++ (py";" ++ more)))))
  rw [h5] at h6
  have h7 := trimmed_columns hl.columnSep (py")" ++ (l.beforeValues ++ (py"VALUES" ++ (l.afterValues ++ rowsText l.cellSep l.rowSep r rs (l.beforeEnd ++ (py";" ++ more)))))) hc.1 hc.2
  rw [h6] at h7
  have h8 := trimmed_gap hl.afterName (a := py"(") (by decide) (join (py"," ++ l.columnSep) (cols.map (quoted '`')) ++ (py")" ++ (l.beforeValues ++ (py"VALUES" ++ (l.afterValues ++ rowsText l.cellSep l.rowSep r rs (l.beforeEnd ++ (py";" ++ more)))))))
  rw [h7] at h8
  have ft : flat true (quoted '`' t) = true :=
    flat_noSpace (fun c hc => nameChar_noSpace (quoted_noSpace ht c hc)) true (fun _ => by simp [quoted])
  unfold insertText
  rw [trimmed_append (by decide), trimmed_gap hl.beforeName ft, h8]
  rfl

end

end Mygrations

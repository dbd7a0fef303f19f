import Verif.Proofs.Quotes

/-! # C24, C25, C26: the texts of row operations -/

namespace Mygrations
open Sql

/-! ## C24 -/

theorem lexString_other {c : Char} (h1 : c ≠ '\\') (h2 : c ≠ '\'') (r : Str) :
    lexString (c :: r) = (lexString r).map (fun (v, rest) => (c :: v, rest)) := by
  rw [lexString.eq_def]
  split
  · rename_i h; cases h
  · rename_i h; cases h; exact absurd rfl h1
  · rename_i h; cases h; exact absurd rfl h2
  · rename_i h; cases h; exact absurd rfl h2
  · rename_i h; cases h; rfl

theorem lexString_esc (c : Char) (r : Str) :
    lexString ('\\' :: c :: r) = (lexString r).map (fun (v, rest) => (unescape c ++ v, rest)) := by
  simp only [lexString]

theorem lexString_quote2 (r : Str) : lexString ('\'' :: '\'' :: r) = (lexString r).map (fun (v, rest) => ('\'' :: v, rest)) := by
  simp only [lexString]

theorem lexString_end {r : Str} (h : r.head? ≠ some '\'') : lexString ('\'' :: r) = some ([], r) := by
  cases r with
  | nil => rfl
  | cons c r =>
    have hc : c ≠ '\'' := by simpa using h
    rw [lexString.eq_def]
    split
    · rename_i h; cases h
    · rename_i h; cases h
    · rename_i h; cases h; exact absurd rfl hc
    · rename_i h; cases h; rfl
    · rename_i h0 h; cases h; exact (h0 rfl).elim

/-- **C24**.  The literal in an `INSERT` is read as the value, and ends where it was meant to end, whatever follows
(other than another quote: the tool puts `, ` or `)` there, see C26). -/
theorem C24 (v rest : Str) (h : rest.head? ≠ some '\'') : lexString (escapeInsert v ++ '\'' :: rest) = some (v, rest) := by
  induction v with
  | nil => exact lexString_end h
  | cons c v ih =>
    rw [escapeInsert_cons]
    by_cases h1 : c = '\\'
    · subst h1
      simp only [if_true, List.cons_append, List.nil_append]
      rw [lexString_esc, ih, unescape_backslash]; rfl
    · by_cases h2 : c = '\''
      · subst h2
        simp only [h1, if_true, if_false, List.cons_append, List.nil_append]
        rw [lexString_esc, ih, unescape_quote]; rfl
      · simp only [h1, h2, if_false, List.cons_append, List.nil_append]
        rw [lexString_other h1 h2, ih]; rfl

example : lexString (escapeInsert py"it's \\n a \\'" ++ py"', 'x');") = some (py"it's \\n a \\'", py", 'x');") :=
  C24 _ py", 'x');" (by decide)

/-! ## C25 -/

theorem lexString_length : ∀ (s v rest : Str), lexString (escapeBackslash s ++ py"'") = some (v, rest) → v.length ≤ s.length
  | [], v, rest, h => by
    simp only [escapeBackslash, replaceChar, List.nil_append] at h
    rw [lexString_end (by simp)] at h
    cases h; simp
  | [c], v, rest, h => by
    rw [escapeBackslash_cons] at h
    simp only [escapeBackslash, replaceChar, List.append_nil] at h
    by_cases h1 : c = '\\'
    · subst h1
      simp only [if_true, List.cons_append, List.nil_append] at h
      rw [lexString_esc, lexString_end (by simp), unescape_backslash] at h
      cases h; simp
    · simp only [h1, if_false, List.cons_append, List.nil_append] at h
      by_cases h2 : c = '\''
      · subst h2
        rw [lexString_quote2] at h
        cases h
      · rw [lexString_other h1 h2, lexString_end (by simp)] at h
        cases h; simp
  | c :: d :: s, v, rest, h => by
    rw [escapeBackslash_cons] at h
    by_cases h1 : c = '\\'
    · subst h1
      simp only [if_true, List.cons_append, List.nil_append] at h
      rw [lexString_esc, unescape_backslash, Option.map_eq_some_iff] at h
      obtain ⟨⟨w, r⟩, hw, he⟩ := h
      cases he
      have := lexString_length (d :: s) w rest hw
      simpa using this
    · simp only [h1, if_false, List.cons_append, List.nil_append] at h
      by_cases h2 : c = '\''
      · subst h2
        by_cases h3 : d = '\''
        · subst h3
          rw [escapeBackslash_cons] at h
          simp only [h1, if_false, List.cons_append, List.nil_append] at h
          rw [lexString_quote2, Option.map_eq_some_iff] at h
          obtain ⟨⟨w, r⟩, hw, he⟩ := h
          cases he
          have := lexString_length s w rest hw
          simp only [List.length_cons]; omega
        · rw [lexString_end] at h
          · cases h; simp
          · rw [escapeBackslash_cons]
            split <;> simp [h3]
      · rw [lexString_other h1 h2, Option.map_eq_some_iff] at h
        obtain ⟨⟨w, r⟩, hw, he⟩ := h
        cases he
        have := lexString_length (d :: s) w rest hw
        simpa using this

/-- **C25** (partial): the literal in the `SET` part of an `UPDATE` is read as the value exactly if the value contains no
quote.  Proved for the values without quotes, refuted for all others. -/
theorem C25_set_partial (s : Str) : lexString (escapeBackslash s ++ py"'") = some (s, []) ↔ '\'' ∉ s := by
  induction s with
  | nil => simp only [escapeBackslash, replaceChar, List.nil_append, List.not_mem_nil, not_false_eq_true, iff_true]; exact lexString_end (by simp)
  | cons c s ih =>
    rw [escapeBackslash_cons]
    by_cases h1 : c = '\\'
    · subst h1
      simp only [if_true, List.cons_append, List.nil_append]
      rw [lexString_esc, unescape_backslash, Option.map_eq_some_iff]
      constructor
      · rintro ⟨⟨w, r⟩, hw, he⟩
        simp only [List.cons_append, List.nil_append, Prod.mk.injEq, List.cons.injEq, true_and] at he
        rw [he.1, he.2] at hw
        simpa using ih.mp hw
      · intro h
        exact ⟨(s, []), ih.mpr (fun h0 => h (List.mem_cons_of_mem _ h0)), rfl⟩
    · simp only [h1, if_false, List.cons_append, List.nil_append]
      by_cases h2 : c = '\''
      · subst h2
        simp only [List.mem_cons, true_or, not_true_eq_false, iff_false]
        intro h
        cases s with
        | nil =>
          simp only [escapeBackslash, replaceChar, List.nil_append] at h
          rw [lexString_quote2] at h; cases h
        | cons d s =>
          rw [escapeBackslash_cons] at h
          by_cases h3 : d = '\''
          · subst h3
            simp only [h1, if_false, List.cons_append, List.nil_append] at h
            rw [lexString_quote2, Option.map_eq_some_iff] at h
            obtain ⟨⟨w, r⟩, hw, he⟩ := h
            simp only [Prod.mk.injEq, List.cons.injEq, true_and] at he
            have := lexString_length s w r hw
            rw [he.1] at this
            simp only [List.length_cons] at this; omega
          · rw [lexString_end] at h
            · cases h
            · split <;> simp [h3]
      · rw [lexString_other h1 h2, Option.map_eq_some_iff]
        constructor
        · rintro ⟨⟨w, r⟩, hw, he⟩
          simp only [Prod.mk.injEq, List.cons.injEq, true_and] at he
          rw [he.1, he.2] at hw
          simp only [List.mem_cons, not_or]
          exact ⟨fun h => h2 h.symm, ih.mp hw⟩
        · intro h
          exact ⟨(s, []), ih.mpr (fun h0 => h (List.mem_cons_of_mem _ h0)), rfl⟩

theorem piece_assign (k : Str) (v : PyVal) (hk : '`' ∉ k) (hv : ∀ s, v.cell = some s → '\'' ∉ s) :
    Piece (updateAssign k v) [.ident k, .sym '=', valueTok v.cell] := by
  have hrun : run .out (py"`" ++ k ++ py"`=") = ([.ident k, .sym '='], .out) := by
    rw [List.append_assoc, run_append, run_append]
    simp [run, step, stepOut, run_ident k hk]
    decide
  have hlift : ∀ s ts, Piece s ts → Piece (py"`" ++ k ++ py"`=" ++ s) ([.ident k, .sym '='] ++ ts) := by
    rintro s ts ⟨ts', st, h1, h2⟩
    refine ⟨[.ident k, .sym '='] ++ ts', st, ?_, ?_⟩
    · rw [run_append, hrun]; simp [h1]
    · intro c r hc
      obtain ⟨h3, h4⟩ := h2 c r hc
      exact ⟨by rw [List.append_assoc, List.append_assoc, h3], h4⟩
  have hother : ∀ s, '\'' ∉ s → Piece (py"`" ++ k ++ py"`='" ++ escapeBackslash s ++ py"'") [.ident k, .sym '=', .str s] := by
    intro s hs
    have := hlift _ _ (piece_update s hs)
    simpa using this
  cases v with
  | none =>
    have := hlift _ _ piece_null
    simpa [updateAssign, PyVal.cell, valueTok] using this
  | str s => exact hother s (hv s rfl)
  | int n => exact hother _ (hv _ rfl)
  | other a b t => exact hother t (hv t rfl)

theorem update_tokens (t : Str) (row : Row) (i : PyVal) (ht : '`' ∉ t) (hc : ∀ c ∈ Dict.keys row, '`' ∉ c)
    (hv : ∀ c v s, (c, v) ∈ row → c ≠ py"id" → v.cell = some s → '\'' ∉ s)
    (hi : Dict.get? row py"id" = some i) (hq : '\'' ∉ i.toStr) (hb : '\\' ∉ i.toStr) :
    tokens (renderUpdate t row) = some ([.word py"UPDATE", .ident t, .word py"SET"] ++
      commas ((row.filter (fun e => e.1 ≠ py"id")).map (fun e => [.ident e.1, .sym '=', valueTok e.2.cell])) ++
      [.word py"WHERE", .word py"id", .sym '=', .str i.toStr, .sym ';']) := by
  have h1 : run .out (py"UPDATE `" ++ t ++ py"` SET ") = ([.word py"UPDATE", .ident t, .word py"SET"], .out) := by
    rw [List.append_assoc, run_append, run_append]
    rw [show run .out py"UPDATE `" = ([.word py"UPDATE"], .ident []) by decide]
    simp only [run_ident t ht, List.nil_append]
    have : ∀ a, run (.ident a) py"` SET " = ([.ident a, .word py"SET"], .out) := by intro a; rfl
    rw [this]; rfl
  have h2 : run .out (py" WHERE id='" ++ i.toStr ++ py"';") =
      ([.word py"WHERE", .word py"id", .sym '=', .str i.toStr, .sym ';'], .out) := by
    rw [List.append_assoc, run_append, run_append]
    rw [show run .out py" WHERE id='" = ([.word py"WHERE", .word py"id", .sym '='], .str []) by decide]
    simp only [run_plain _ hq hb, List.nil_append]
    have : ∀ a, run (.str a) py"';" = ([.str a, .sym ';'], .out) := by intro a; rfl
    rw [this]; rfl
  have h3 := run_join (fun e : Str × PyVal => updateAssign e.1 e.2) (fun e => [.ident e.1, .sym '=', valueTok e.2.cell])
    (row.filter (fun e => e.1 ≠ py"id")) (by
      intro e he
      have he' := (List.mem_filter.mp he).1
      exact piece_assign e.1 e.2 (hc e.1 (List.mem_map_of_mem he')) (fun s hs => hv e.1 e.2 s he' (by simpa using (List.mem_filter.mp he).2) hs))
    (c := ' ') (r := py"WHERE id='" ++ i.toStr ++ py"';") (.inr rfl)
  unfold tokens renderUpdate
  simp only [hi]
  have he : py"UPDATE `" ++ t ++ py"` SET " ++ join py", " ((row.filter (fun e => e.1 ≠ py"id")).map (fun e => updateAssign e.1 e.2)) ++
      py" WHERE id='" ++ i.toStr ++ py"';" = (py"UPDATE `" ++ t ++ py"` SET ") ++
      (join py", " ((row.filter (fun e => e.1 ≠ py"id")).map (fun e => updateAssign e.1 e.2)) ++ ' ' :: (py"WHERE id='" ++ i.toStr ++ py"';")) := by
    simp
  rw [he, run_append, h1]
  simp only
  rw [h3]
  have h2' : run .out (' ' :: (py"WHERE id='" ++ i.toStr ++ py"';")) =
      ([.word py"WHERE", .word py"id", .sym '=', .str i.toStr, .sym ';'], .out) := h2
  rw [h2']
  simp [finish]

/-- **C25** (partial): the text of an `UPDATE` is one statement which sets the columns to the values and has the right
`WHERE`, provided that no value contains a quote and the id neither quote nor backslash. -/
theorem C25_partial (t : Str) (row : Row) (i : PyVal) (ht : '`' ∉ t) (hc : ∀ c ∈ Dict.keys row, '`' ∉ c)
    (hv : ∀ c v s, (c, v) ∈ row → v.cell = some s → '\'' ∉ s)
    (hi : Dict.get? row py"id" = some i) (hq : '\'' ∉ i.toStr) (hb : '\\' ∉ i.toStr) :
    tokens (renderUpdate t row) = some ([.word py"UPDATE", .ident t, .word py"SET"] ++
      commas ((row.filter (fun e => e.1 ≠ py"id")).map (fun e => [.ident e.1, .sym '=', valueTok e.2.cell])) ++
      [.word py"WHERE", .word py"id", .sym '=', .str i.toStr, .sym ';']) :=
  update_tokens t row i ht hc (fun c v s h _ => hv c v s h) hi hq hb

/-- the assignments of an `UPDATE` are misread if a value has a quote -/
theorem bad_assigns {r : Str} {ts : List Tok} : ∀ (l : List (Str × PyVal)), (∀ e ∈ l, '`' ∉ e.1) → (∃ e ∈ l, ∃ s, e.2.cell = some s ∧ '\'' ∈ s) →
    toks .out (join py", " (l.map (fun e => updateAssign e.1 e.2)) ++ ' ' :: r) ≠
      some (commas (l.map (fun e => [.ident e.1, .sym '=', valueTok e.2.cell])) ++ ts) := by
  intro l
  induction l with
  | nil => rintro _ ⟨e, he, _⟩; cases he
  | cons x l ih =>
    intro hc hbad h
    have hk := hc x List.mem_cons_self
    -- what follows the assignment
    obtain ⟨d, r', ts', h1, h2, h3, h4, h5⟩ : ∃ d r' ts', d ≠ '\'' ∧ d ≠ '\\' ∧ (d = ',' ∨ d = ')' ∨ d = ';' ∨ d = ' ') ∧
        join py", " ((x :: l).map (fun e => updateAssign e.1 e.2)) ++ ' ' :: r = updateAssign x.1 x.2 ++ d :: r' ∧
        commas ((x :: l).map (fun e => [.ident e.1, .sym '=', valueTok e.2.cell])) ++ ts = [.ident x.1, .sym '=', valueTok x.2.cell] ++ ts' := by
      cases l with
      | nil => exact ⟨' ', r, ts, by decide, by decide, by decide, rfl, rfl⟩
      | cons y l => exact ⟨',', _, .sym ',' :: (commas ((y :: l).map (fun e => [.ident e.1, .sym '=', valueTok e.2.cell])) ++ ts), by decide, by decide, by decide,
          by simp only [List.map_cons, join, List.append_assoc, List.cons_append, List.nil_append]; rfl,
          by simp only [List.map_cons, commas, List.append_assoc, List.cons_append, List.nil_append]⟩
    by_cases hx : ∀ s, x.2.cell = some s → '\'' ∉ s
    · -- the value is fine
      have hp := piece_assign x.1 x.2 hk hx
      cases l with
      | nil =>
        obtain ⟨e, he, s, hs, hq⟩ := hbad
        simp only [List.mem_singleton] at he
        subst he
        exact hx s hs hq
      | cons y l =>
        refine ih (fun e he => hc e (List.mem_cons_of_mem _ he)) ?_ ?_
        · obtain ⟨e, he, s, hs, hq⟩ := hbad
          rcases List.mem_cons.mp he with rfl | he
          · exact absurd hq (hx s hs)
          · exact ⟨e, he, s, hs, hq⟩
        · have e1 : join py", " ((x :: y :: l).map (fun e => updateAssign e.1 e.2)) ++ ' ' :: r =
              updateAssign x.1 x.2 ++ ',' :: ' ' :: (join py", " ((y :: l).map (fun e => updateAssign e.1 e.2)) ++ ' ' :: r) := by
            simp only [List.map_cons, join, List.append_assoc, List.cons_append, List.nil_append]
          rw [e1] at h
          unfold toks at h ⊢
          rw [piece_run hp (.inl rfl), run_comma] at h
          cases hf : finish (run .out (join py", " ((y :: l).map (fun e => updateAssign e.1 e.2)) ++ ' ' :: r)).2 with
          | none => rw [hf] at h; cases h
          | some z =>
            rw [hf] at h
            simp only [List.map_cons, commas, Option.map_some, Option.some.injEq, List.append_assoc, List.cons_append, List.nil_append, List.cons.injEq, true_and] at h ⊢
            exact h
    · -- the value has a quote
      obtain ⟨s, hs, hq⟩ : ∃ s, x.2.cell = some s ∧ '\'' ∈ s := by
        refine Classical.byContradiction (fun hn => hx (fun s hs hq => hn ⟨s, hs, hq⟩))
      have hrun : run .out (py"`" ++ x.1 ++ py"`='") = ([.ident x.1, .sym '='], .str []) := by
        rw [List.append_assoc, run_append, run_append]
        simp [run, step, stepOut, run_ident x.1 hk]
        decide
      have hu : updateAssign x.1 x.2 = (py"`" ++ x.1 ++ py"`='") ++ (escapeBackslash s ++ py"'") := by
        obtain ⟨k, v⟩ := x
        cases v with
        | none => cases hs
        | str w => cases hs; simp [updateAssign, PyVal.toStr]
        | int n => cases hs; simp [updateAssign, PyVal.toStr]
        | other a b t => cases hs; simp [updateAssign, PyVal.toStr]
      rw [h4, h5, hu, List.append_assoc, toks_append, hrun, hs] at h
      cases hz : toks (.str []) (escapeBackslash s ++ py"'" ++ d :: r') with
      | none => rw [hz] at h; cases h
      | some z =>
        rw [hz] at h
        simp only [Option.map_some, Option.some.injEq, List.cons_append, List.nil_append, List.cons.injEq, true_and, valueTok] at h
        subst h
        have := bad_string r' h1 h2 ts' s.length s [] 0 (Nat.le_refl _) (fun _ => hq)
        apply this
        simpa using hz

/-- **C25**, exactly: the text of an `UPDATE` (with an id which has neither quote nor backslash) is the statement which sets the columns to the
values if and only if no value has a quote.  In every other case MySQL reads something else, or nothing at all. -/
theorem C25_iff (t : Str) (row : Row) (i : PyVal) (ht : '`' ∉ t) (hc : ∀ c ∈ Dict.keys row, '`' ∉ c)
    (hi : Dict.get? row py"id" = some i) (hq : '\'' ∉ i.toStr) (hb : '\\' ∉ i.toStr) :
    tokens (renderUpdate t row) = some ([.word py"UPDATE", .ident t, .word py"SET"] ++
      commas ((row.filter (fun e => e.1 ≠ py"id")).map (fun e => [.ident e.1, .sym '=', valueTok e.2.cell])) ++
      [.word py"WHERE", .word py"id", .sym '=', .str i.toStr, .sym ';']) ↔
    ∀ c v s, (c, v) ∈ row → c ≠ py"id" → v.cell = some s → '\'' ∉ s := by
  constructor
  · intro h c v s hm hne hs hquote
    have h1 : run .out (py"UPDATE `" ++ t ++ py"` SET ") = ([.word py"UPDATE", .ident t, .word py"SET"], .out) := by
      rw [List.append_assoc, run_append, run_append]
      rw [show run .out py"UPDATE `" = ([.word py"UPDATE"], .ident []) by decide]
      simp only [run_ident t ht, List.nil_append]
      have : ∀ a, run (.ident a) py"` SET " = ([.ident a, .word py"SET"], .out) := by intro a; rfl
      rw [this]; rfl
    have he : renderUpdate t row = (py"UPDATE `" ++ t ++ py"` SET ") ++
        (join py", " ((row.filter (fun e => e.1 ≠ py"id")).map (fun e => updateAssign e.1 e.2)) ++ ' ' :: (py"WHERE id='" ++ i.toStr ++ py"';")) := by
      unfold renderUpdate
      simp only [hi]
      simp
    have ht' : tokens (renderUpdate t row) = toks .out (renderUpdate t row) := rfl
    rw [ht', he, toks_append, h1] at h
    cases hz : toks .out (join py", " ((row.filter (fun e => e.1 ≠ py"id")).map (fun e => updateAssign e.1 e.2)) ++ ' ' :: (py"WHERE id='" ++ i.toStr ++ py"';")) with
    | none =>
      dsimp only at h
      rw [hz] at h
      cases h
    | some z =>
      dsimp only at h
      rw [hz] at h
      simp only [Option.map_some, Option.some.injEq, List.append_assoc, List.append_cancel_left_eq] at h
      subst h
      refine bad_assigns _ ?_ ⟨(c, v), List.mem_filter.mpr ⟨hm, by simpa using hne⟩, s, hs, hquote⟩ hz
      intro e he
      exact hc e.1 (List.mem_map_of_mem (List.mem_filter.mp he).1)
  · intro h
    exact update_tokens t row i ht hc h hi hq hb

/-- **C25 is false**: the quote in a declared value ends the literal.  Here the value of `name` sets another column. -/
theorem C25_counterexample : ∃ row : Row,
    row = [(py"id", .str py"1"), (py"name", .str py"x', admin='1")] ∧
    tokens (renderUpdate py"users" row) = some [.word py"UPDATE", .ident py"users", .word py"SET",
      .ident py"name", .sym '=', .str py"x", .sym ',', .word py"admin", .sym '=', .str py"1",
      .word py"WHERE", .word py"id", .sym '=', .str py"1", .sym ';'] := ⟨_, rfl, by decide⟩

/-- a value with a backslash and a `NULL` -/
example := C25_partial py"users" [(py"id", .str py"1"), (py"name", .str py"a\\b"), (py"age", .none)] (.str py"1")
  (by decide) (by decide)
  (by
    have : ∀ e ∈ ([(py"id", .str py"1"), (py"name", .str py"a\\b"), (py"age", .none)] : Row), ∀ s ∈ e.2.cell, '\'' ∉ s := by decide
    exact fun c v s h hs => this (c, v) h s hs)
  (by decide) (by decide) (by decide)

/-! ## C26 -/

/-- **C26**.  The text of an `INSERT` is one statement with the table, the columns and the values of the row, whatever
the values are, provided that the names contain no backtick. -/
theorem C26 (t : Str) (row : Row) (ht : '`' ∉ t) (hc : ∀ c ∈ Dict.keys row, '`' ∉ c) :
    tokens (renderInsert t row) = some ([.word py"INSERT", .word py"INTO", .ident t, .sym '('] ++
      commas (row.map (fun e => [.ident e.1])) ++ [.sym ')', .word py"VALUES", .sym '('] ++
      commas (row.map (fun e => [valueTok e.2.cell])) ++ [.sym ')', .sym ';']) := by
  have h1 : run .out (py"INSERT INTO `" ++ t ++ py"` (") = ([.word py"INSERT", .word py"INTO", .ident t, .sym '('], .out) := by
    rw [List.append_assoc, run_append, run_append]
    rw [show run .out py"INSERT INTO `" = ([.word py"INSERT", .word py"INTO"], .ident []) by decide]
    simp only [run_ident t ht, List.nil_append]
    have : ∀ a, run (.ident a) py"` (" = ([.ident a, .sym '('], .out) := by intro a; rfl
    rw [this]; rfl
  have h2 := run_join (fun e : Str × PyVal => py"`" ++ e.1 ++ py"`") (fun e => [.ident e.1]) row
    (fun e he => piece_ident e.1 (hc e.1 (List.mem_map_of_mem he)))
    (c := ')') (r := py" VALUES (" ++ (join py", " (row.map (fun e => insertLiteral e.2)) ++ py");")) (.inl rfl)
  have h3 := run_join (fun e : Str × PyVal => insertLiteral e.2) (fun e => [valueTok e.2.cell]) row
    (by
      intro e _
      cases he : e.2 with
      | none => exact piece_null
      | str s => exact piece_insert s
      | int n => exact piece_insert _
      | other a b s => exact piece_insert s)
    (c := ')') (r := py";") (.inl rfl)
  have hfin : run .out py");" = ([.sym ')', .sym ';'], .out) := by decide
  have hval : run .out py") VALUES (" = ([.sym ')', .word py"VALUES", .sym '('], .out) := by decide
  unfold tokens renderInsert
  have he : py"INSERT INTO `" ++ t ++ py"` (" ++ join py", " (row.map (fun e => py"`" ++ e.1 ++ py"`")) ++
      py") VALUES (" ++ join py", " (row.map (fun e => insertLiteral e.2)) ++ py");" =
      (py"INSERT INTO `" ++ t ++ py"` (") ++ (join py", " (row.map (fun e => py"`" ++ e.1 ++ py"`")) ++
        ')' :: (py" VALUES (" ++ (join py", " (row.map (fun e => insertLiteral e.2)) ++ py");"))) := by simp
  rw [he, run_append, h1]
  simp only
  rw [h2]
  have h4 : run .out (')' :: (py" VALUES (" ++ (join py", " (row.map (fun e => insertLiteral e.2)) ++ py");"))) =
      ([.sym ')', .word py"VALUES", .sym '('] ++ (commas (row.map (fun e => [valueTok e.2.cell])) ++ [.sym ')', .sym ';']), .out) := by
    have : ')' :: (py" VALUES (" ++ (join py", " (row.map (fun e => insertLiteral e.2)) ++ py");")) =
        py") VALUES (" ++ (join py", " (row.map (fun e => insertLiteral e.2)) ++ ')' :: py";") := by simp
    rw [this, run_append, hval]
    simp only
    rw [h3, show run .out (')' :: py";") = ([.sym ')', .sym ';'], .out) from hfin]
  rw [h4]
  simp [finish]

/-- an `INSERT` whose value looks like SQL -/
example : tokens (renderInsert py"users" [(py"id", .int 3), (py"name", .str py"x'); DROP TABLE users; --\\"), (py"age", .none)]) =
    some [.word py"INSERT", .word py"INTO", .ident py"users", .sym '(', .ident py"id", .sym ',', .ident py"name", .sym ',',
      .ident py"age", .sym ')', .word py"VALUES", .sym '(', .str py"3", .sym ',', .str py"x'); DROP TABLE users; --\\", .sym ',',
      .word py"NULL", .sym ')', .sym ';'] := by
  rw [C26 _ _ (by decide) (by decide)]; rfl

end Mygrations

import Verif.Spec.Grammar

/-!
# Splitting a text into tokens, piece by piece
-/

namespace Mygrations
namespace Sql

theorem run_app (a b : Str) : ∀ s, run s (a ++ b) = ((run s a).1 ++ (run (run s a).2 b).1, (run (run s a).2 b).2) := by
  induction a with
  | nil => intro s; simp [run]
  | cons c a ih => intro s; simp only [List.cons_append, run, ih, List.append_assoc]

/-- The text has these tokens, and ends where another token can start. -/
def Lexes (s : Str) (ts : List Tok) : Prop :=
  ∃ ts' st l, run .out s = (ts', st) ∧ finish st = some l ∧ ts = ts' ++ l

/-- The text goes on with these tokens, whatever was before. -/
def Goes (t : Str) (tt : List Tok) : Prop := ∀ s ts, Lexes s ts → Lexes (s ++ t) (ts ++ tt)

/-- The character ends whatever was before. -/
def Breaks (c : Char) : Prop := wordChar c = false ∧ c ≠ '`' ∧ c ≠ '\''

instance (c : Char) : Decidable (Breaks c) := inferInstanceAs (Decidable (_ ∧ _))

theorem Lexes.tokens {s : Str} {ts : List Tok} (h : Lexes s ts) : tokens s = some ts := by
  obtain ⟨ts', st, l, h1, h2, h3⟩ := h
  simp [Sql.tokens, h1, h2, h3]

theorem finish_step {st : State} {l : List Tok} (h : finish st = some l) {c : Char} (hc : Breaks c) :
    step st c = (l ++ (stepOut c).1, (stepOut c).2) := by
  obtain ⟨h1, h2, h3⟩ := hc
  cases st <;> simp [finish] at h
  all_goals (try subst h; simp [step, h1, h2, h3])

theorem Lexes.break {s : Str} {ts : List Tok} (h : Lexes s ts) {c : Char} (hc : Breaks c) (r : Str) :
    run .out (s ++ c :: r) = (ts ++ (run .out (c :: r)).1, (run .out (c :: r)).2) := by
  obtain ⟨ts', st, l, h1, h2, h3⟩ := h
  rw [run_app, h1]
  show (ts' ++ ((step st c).1 ++ (run (step st c).2 r).1), (run (step st c).2 r).2) = (ts ++ ((stepOut c).1 ++ (run (stepOut c).2 r).1), (run (stepOut c).2 r).2)
  rw [finish_step h2 hc]
  simp [h3]

theorem lexes_nil : Lexes [] [] := ⟨[], .out, [], rfl, rfl, rfl⟩

theorem goes_nil : Goes [] [] := by intro s ts h; simpa using h

theorem Goes.append {a b : Str} {ta tb : List Tok} (ha : Goes a ta) (hb : Goes b tb) : Goes (a ++ b) (ta ++ tb) := by
  intro s ts h
  rw [← List.append_assoc, ← List.append_assoc]
  exact hb _ _ (ha _ _ h)

theorem goes_if {c : Prop} [Decidable c] {a b : Str} {ta tb : List Tok} (ha : c → Goes a ta) (hb : ¬ c → Goes b tb) :
    Goes (if c then a else b) (if c then ta else tb) := by
  split
  · exact ha (by assumption)
  · exact hb (by assumption)

/-- a symbol -/
def Symbol (c : Char) : Prop := Breaks c ∧ isSpace c = false

instance (c : Char) : Decidable (Symbol c) := inferInstanceAs (Decidable (_ ∧ _))

theorem stepOut_symbol {c : Char} (h : Symbol c) : stepOut c = ([.sym c], .out) := by
  obtain ⟨⟨h1, h2, h3⟩, h4⟩ := h
  simp [stepOut, h1, h2, h3, h4]

theorem stepOut_space {c : Char} (h : Breaks c) (hs : isSpace c = true) : stepOut c = ([], .out) := by
  obtain ⟨h1, h2, h3⟩ := h
  simp [stepOut, h1, h2, h3, hs]

theorem goes_symbol {c : Char} (h : Symbol c) {b : Str} {tb : List Tok} (hb : Lexes b tb) : Goes (c :: b) (.sym c :: tb) := by
  intro s ts hs
  obtain ⟨ts', st, l, h1, h2, h3⟩ := hb
  refine ⟨ts ++ .sym c :: ts', st, l, ?_, h2, ?_⟩
  · rw [hs.break h.1]
    simp [run, step, stepOut_symbol h, h1]
  · simp [h3]

theorem goes_blank {c : Char} (h : Breaks c) (hc : isSpace c = true) {b : Str} {tb : List Tok} (hb : Lexes b tb) : Goes (c :: b) tb := by
  intro s ts hs
  obtain ⟨ts', st, l, h1, h2, h3⟩ := hb
  refine ⟨ts ++ ts', st, l, ?_, h2, ?_⟩
  · rw [hs.break h]
    simp [run, step, stepOut_space h hc, h1]
  · simp [h3]

theorem breaks_space : Breaks ' ' := by decide +kernel
theorem breaks_newline : Breaks '\n' := by decide +kernel
theorem symbol_open : Symbol '(' := by decide +kernel
theorem symbol_close : Symbol ')' := by decide +kernel
theorem symbol_comma : Symbol ',' := by decide +kernel
theorem symbol_end : Symbol ';' := by decide +kernel
theorem symbol_equals : Symbol '=' := by decide +kernel

theorem goes_space {b : Str} {tb : List Tok} (hb : Lexes b tb) : Goes (' ' :: b) tb := goes_blank breaks_space rfl hb

theorem goes_open {b : Str} {tb : List Tok} (hb : Lexes b tb) : Goes ('(' :: b) (.sym '(' :: tb) := goes_symbol symbol_open hb
theorem goes_close {b : Str} {tb : List Tok} (hb : Lexes b tb) : Goes (')' :: b) (.sym ')' :: tb) := goes_symbol symbol_close hb
theorem goes_comma {b : Str} {tb : List Tok} (hb : Lexes b tb) : Goes (',' :: b) (.sym ',' :: tb) := goes_symbol symbol_comma hb
theorem goes_equals {b : Str} {tb : List Tok} (hb : Lexes b tb) : Goes ('=' :: b) (.sym '=' :: tb) := goes_symbol symbol_equals hb
theorem goes_end : Goes [';'] [.sym ';'] := goes_symbol symbol_end lexes_nil

theorem Lexes.append {a b : Str} {ta tb : List Tok} (ha : Lexes a ta) (hb : Goes b tb) : Lexes (a ++ b) (ta ++ tb) := hb _ _ ha

/-! ## Tokens -/

theorem run_word (s : Str) (h : ∀ c ∈ s, wordChar c = true) : ∀ a, run (.word a) s = ([], .word (a ++ s)) := by
  induction s with
  | nil => intro a; simp [run]
  | cons c s ih =>
    intro a
    simp [run, step, h c List.mem_cons_self, ih (fun d hd => h d (List.mem_cons_of_mem _ hd))]

theorem wordChar_ne {c : Char} (h : wordChar c = true) : c ≠ '\'' ∧ c ≠ '`' := by
  constructor
  · intro e; subst e; revert h; decide +kernel
  · intro e; subst e; revert h; decide +kernel

theorem lexes_word {s : Str} (hne : s ≠ []) (h : ∀ c ∈ s, wordChar c = true) : Lexes s [.word s] := by
  cases s with
  | nil => exact absurd rfl hne
  | cons c s =>
    have hc := h c List.mem_cons_self
    obtain ⟨h1, h2⟩ := wordChar_ne hc
    refine ⟨[], .word (c :: s), [.word (c :: s)], ?_, rfl, rfl⟩
    simp [run, step, stepOut, h1, h2, hc, run_word s (fun d hd => h d (List.mem_cons_of_mem _ hd))]

theorem run_name (s : Str) (hq : '`' ∉ s) : ∀ a, run (.ident a) s = ([], .ident (a ++ s)) := by
  induction s with
  | nil => intro a; simp [run]
  | cons c s ih =>
    intro a
    have hc : c ≠ '`' := fun h => hq (by simp [h])
    simp [run, step, ih (fun h => hq (List.mem_cons_of_mem _ h)), hc]

/-- a name in backticks -/
theorem lexes_ident {s : Str} (h : '`' ∉ s) : Lexes ('`' :: (s ++ ['`'])) [.ident s] := by
  refine ⟨[], .identTick s, [.ident s], ?_, rfl, rfl⟩
  simp [run, step, stepOut, run_app, run_name s h]

theorem run_text (s : Str) (hq : '\'' ∉ s) (hb : '\\' ∉ s) : ∀ a, run (.str a) s = ([], .str (a ++ s)) := by
  induction s with
  | nil => intro a; simp [run]
  | cons c s ih =>
    intro a
    have hc : c ≠ '\'' := fun h => hq (by simp [h])
    have hc' : c ≠ '\\' := fun h => hb (by simp [h])
    simp [run, step, ih (fun h => hq (List.mem_cons_of_mem _ h)) (fun h => hb (List.mem_cons_of_mem _ h)), hc, hc']

/-- a string without quotes and backslashes -/
theorem lexes_text {s : Str} (hq : '\'' ∉ s) (hb : '\\' ∉ s) : Lexes ('\'' :: (s ++ ['\''])) [.str s] := by
  refine ⟨[], .strQuote s, [.str s], ?_, rfl, rfl⟩
  simp [run, step, stepOut, run_app, run_text s hq hb]

end Sql
end Mygrations

import Verif.Spec.Sql
import Verif.Spec.Rows

/-! # Lemmas about SQL texts -/

namespace Mygrations
namespace Sql

theorem run_append (a b : Str) : ∀ s, run s (a ++ b) = ((run s a).1 ++ (run (run s a).2 b).1, (run (run s a).2 b).2) := by
  induction a with
  | nil => intro s; simp [run]
  | cons c a ih => intro s; simp [run, ih]

theorem escapeBackslash_cons (c : Char) (s : Str) :
    escapeBackslash (c :: s) = (if c = '\\' then ['\\', '\\'] else [c]) ++ escapeBackslash s := by
  simp only [escapeBackslash, replaceChar]
  split <;> rfl

theorem escapeInsert_cons (c : Char) (s : Str) :
    escapeInsert (c :: s) = (if c = '\\' then ['\\', '\\'] else if c = '\'' then ['\\', '\''] else [c]) ++ escapeInsert s := by
  by_cases h : c = '\\'
  · subst h; simp [escapeInsert, escapeBackslash, replaceChar]
  · by_cases h' : c = '\''
    · subst h'; simp [escapeInsert, escapeBackslash, replaceChar]
    · simp [escapeInsert, escapeBackslash, replaceChar, h, h']

theorem unescape_backslash : unescape '\\' = ['\\'] := by decide
theorem unescape_quote : unescape '\'' = ['\''] := by decide

theorem run_escapeInsert (s : Str) : ∀ a, run (.str a) (escapeInsert s) = ([], .str (a ++ s)) := by
  induction s with
  | nil => intro a; simp [escapeInsert, escapeBackslash, replaceChar, run]
  | cons c s ih =>
    intro a
    rw [escapeInsert_cons]
    by_cases h : c = '\\'
    · subst h; simp [run, step, ih, unescape_backslash]
    · by_cases h' : c = '\''
      · subst h'; simp [run, step, ih, unescape_quote]
      · simp [run, step, ih, h, h']

theorem run_escapeBackslash (s : Str) (hq : '\'' ∉ s) : ∀ a, run (.str a) (escapeBackslash s) = ([], .str (a ++ s)) := by
  induction s with
  | nil => intro a; simp [escapeBackslash, replaceChar, run]
  | cons c s ih =>
    intro a
    have hc : c ≠ '\'' := fun h => hq (by simp [h])
    have := ih (fun h => hq (List.mem_cons_of_mem _ h))
    rw [escapeBackslash_cons]
    by_cases h : c = '\\'
    · subst h; simp [run, step, this, unescape_backslash]
    · simp [run, step, this, h, hc]

theorem run_plain (s : Str) (hq : '\'' ∉ s) (hb : '\\' ∉ s) : ∀ a, run (.str a) s = ([], .str (a ++ s)) := by
  induction s with
  | nil => intro a; simp [run]
  | cons c s ih =>
    intro a
    have hc : c ≠ '\'' := fun h => hq (by simp [h])
    have hc' : c ≠ '\\' := fun h => hb (by simp [h])
    simp [run, step, ih (fun h => hq (List.mem_cons_of_mem _ h)) (fun h => hb (List.mem_cons_of_mem _ h)), hc, hc']

theorem run_ident (s : Str) (hq : '`' ∉ s) : ∀ a, run (.ident a) s = ([], .ident (a ++ s)) := by
  induction s with
  | nil => intro a; simp [run]
  | cons c s ih =>
    intro a
    have hc : c ≠ '`' := fun h => hq (by simp [h])
    simp [run, step, ih (fun h => hq (List.mem_cons_of_mem _ h)), hc]

/-- A text which starts outside, and with whatever follows gives these tokens and ends outside, unless what follows
continues the last one. -/
def Piece (s : Str) (ts : List Tok) : Prop :=
  ∃ ts' st, run .out s = (ts', st) ∧ ∀ c r, (c = ',' ∨ c = ')' ∨ c = ';' ∨ c = ' ') →
    ts' ++ (run st (c :: r)).1 = ts ++ (run .out (c :: r)).1 ∧ (run st (c :: r)).2 = (run .out (c :: r)).2

theorem piece_run {s : Str} {ts : List Tok} (h : Piece s ts) {c : Char} {r : Str} (hc : c = ',' ∨ c = ')' ∨ c = ';' ∨ c = ' ') :
    run .out (s ++ c :: r) = (ts ++ (run .out (c :: r)).1, (run .out (c :: r)).2) := by
  obtain ⟨ts', st, h1, h2⟩ := h
  obtain ⟨h3, h4⟩ := h2 c r hc
  rw [run_append, h1]
  simp only [h3, h4]

theorem piece_insert (s : Str) : Piece (py"'" ++ escapeInsert s ++ py"'") [.str s] := by
  refine ⟨[], .strQuote s, ?_, ?_⟩
  · rw [List.append_assoc, run_append, run_append]
    simp [run, step, stepOut, run_escapeInsert]
  · intro c r hc
    have : c ≠ '\'' := by rcases hc with rfl | rfl | rfl | rfl <;> decide
    simp [run, step, this]

theorem piece_update (s : Str) (hq : '\'' ∉ s) : Piece (py"'" ++ escapeBackslash s ++ py"'") [.str s] := by
  refine ⟨[], .strQuote s, ?_, ?_⟩
  · rw [List.append_assoc, run_append, run_append]
    simp [run, step, stepOut, run_escapeBackslash s hq]
  · intro c r hc
    have : c ≠ '\'' := by rcases hc with rfl | rfl | rfl | rfl <;> decide
    simp [run, step, this]

theorem piece_null : Piece py"NULL" [.word py"NULL"] := by
  refine ⟨[], .word py"NULL", by decide, ?_⟩
  intro c r hc
  have : wordChar c = false := by rcases hc with rfl | rfl | rfl | rfl <;> decide
  simp [run, step, this]

theorem piece_ident (s : Str) (hq : '`' ∉ s) : Piece (py"`" ++ s ++ py"`") [.ident s] := by
  refine ⟨[], .identTick s, ?_, ?_⟩
  · rw [List.append_assoc, run_append, run_append]
    simp [run, step, stepOut, run_ident s hq]
  · intro c r hc
    have : c ≠ '`' := by rcases hc with rfl | rfl | rfl | rfl <;> decide
    simp [run, step, this]

theorem run_comma (r : Str) : run .out (',' :: ' ' :: r) = (.sym ',' :: (run .out r).1, (run .out r).2) := by
  simp only [run]
  rw [show step .out ',' = ([.sym ','], .out) by decide]
  simp only
  rw [show step .out ' ' = ([], .out) by decide]
  simp

/-- pieces joined by commas -/
theorem run_join {α : Type} (f : α → Str) (g : α → List Tok) (l : List α) (h : ∀ x ∈ l, Piece (f x) (g x)) {c : Char} {r : Str}
    (hc : c = ')' ∨ c = ' ') :
    run .out (join py", " (l.map f) ++ c :: r) = (commas (l.map g) ++ (run .out (c :: r)).1, (run .out (c :: r)).2) := by
  have hc' : c = ',' ∨ c = ')' ∨ c = ';' ∨ c = ' ' := by rcases hc with h | h <;> simp [h]
  induction l with
  | nil => simp [join, commas]
  | cons x l ih =>
    cases l with
    | nil =>
      simp only [List.map_cons, List.map_nil, join, commas]
      exact piece_run (h x List.mem_cons_self) hc'
    | cons y l =>
      have := ih (fun z hz => h z (List.mem_cons_of_mem _ hz))
      simp only [List.map_cons] at this
      simp only [List.map_cons, join, commas, List.append_assoc, List.cons_append, List.nil_append]
      rw [piece_run (h x List.mem_cons_self) (.inl rfl), run_comma, this]

end Sql
end Mygrations

import Verif.Proofs.Sql

/-! # Quotes which are not escaped -/

namespace Mygrations
namespace Sql

/-- the tokens from a state on -/
def toks (st : State) (s : Str) : Option (List Tok) := (finish (run st s).2).map ((run st s).1 ++ ·)

theorem toks_step (st : State) (c : Char) (s : Str) : toks st (c :: s) = (toks (step st c).2 s).map ((step st c).1 ++ ·) := by
  unfold toks
  simp only [run]
  cases finish (run (step st c).2 s).2 <;> simp

theorem toks_append (st : State) (a s : Str) : toks st (a ++ s) = (toks (run st a).2 s).map ((run st a).1 ++ ·) := by
  unfold toks
  rw [run_append]
  cases finish (run (run st a).2 s).2 <;> simp

/-- the next token of a string which has begun -/
theorem toks_grows : ∀ (s : Str) (b : Str) (x : Tok) (ts : List Tok), (toks (.str b) s = some (x :: ts) → ∃ y, x = .str (b ++ y)) ∧
    (toks (.strEsc b) s = some (x :: ts) → ∃ y, x = .str (b ++ y)) ∧ (toks (.strQuote b) s = some (x :: ts) → ∃ y, x = .str (b ++ y))
  | [], b, x, ts => by
    refine ⟨fun h => ?_, fun h => ?_, fun h => ?_⟩
    · simp [toks, run, finish] at h
    · simp [toks, run, finish] at h
    · simp [toks, run, finish] at h
      exact ⟨[], by rw [List.append_nil]; exact h.1.symm⟩
  | c :: s, b, x, ts => by
    have more : ∀ d, toks (.str (b ++ d)) s = some (x :: ts) → ∃ y, x = .str (b ++ y) := by
      intro d h
      obtain ⟨y, hy⟩ := (toks_grows s (b ++ d) x ts).1 h
      exact ⟨d ++ y, by rw [hy, List.append_assoc]⟩
    refine ⟨fun h => ?_, fun h => ?_, fun h => ?_⟩
    · rw [toks_step] at h
      by_cases h1 : c = '\\'
      · simp [step, h1] at h
        exact (toks_grows s b x ts).2.1 h
      · by_cases h2 : c = '\''
        · simp [step, h2] at h
          exact (toks_grows s b x ts).2.2 h
        · simp [step, h1, h2] at h
          exact more _ h
    · rw [toks_step] at h
      simp [step] at h
      exact more _ h
    · rw [toks_step] at h
      by_cases h2 : c = '\''
      · simp [step, h2] at h
        exact more _ h
      · simp only [step, h2, if_false] at h
        cases hz : toks (stepOut c).2 s with
        | none => rw [hz] at h; cases h
        | some l =>
          rw [hz] at h
          simp at h
          exact ⟨[], by rw [List.append_nil]; exact h.1.symm⟩

theorem replicate_quote (m : Nat) (s : Str) : List.replicate m '\'' ++ '\'' :: s = '\'' :: (List.replicate m '\'' ++ s) := by
  induction m with
  | zero => rfl
  | succ m ih => rw [List.replicate_succ, List.cons_append, ih, List.cons_append]

/-- the quotes of a value are not read as they are -/
theorem bad_string {d : Char} (r : Str) (h1 : d ≠ '\'') (h2 : d ≠ '\\') (ts : List Tok) : ∀ (n : Nat) (s b : Str) (m : Nat), s.length ≤ n → (m = 0 → '\'' ∈ s) →
    toks (.str b) (escapeBackslash s ++ '\'' :: d :: r) ≠ some (.str (b ++ (List.replicate m '\'' ++ s)) :: ts) := by
  intro n
  induction n with
  | zero =>
    intro s b m hs hm h
    have : s = [] := List.length_eq_zero_iff.mp (Nat.le_zero.mp hs)
    subst this
    have hm0 : m ≠ 0 := fun e => by cases hm e
    obtain ⟨k, rfl⟩ := Nat.exists_eq_succ_of_ne_zero hm0
    simp only [escapeBackslash, replaceChar, List.nil_append] at h
    rw [toks_step, toks_step] at h
    simp [step, h1] at h
  | succ n ih =>
    intro s b m hs hm h
    cases s with
    | nil => exact ih [] b m (Nat.zero_le _) hm h
    | cons c s =>
      have hlen : s.length ≤ n := by simpa using hs
      rw [escapeBackslash_cons] at h
      by_cases hc : c = '\''
      · subst hc
        simp only [show ¬ ('\'' : Char) = '\\' by decide, if_false, List.cons_append, List.nil_append] at h
        rw [toks_step] at h
        simp only [step, show ¬ ('\'' : Char) = '\\' by decide, if_false, if_true, Option.map_id', List.nil_append] at h
        cases s with
        | nil =>
          simp only [escapeBackslash, replaceChar, List.nil_append] at h
          rw [toks_step] at h
          simp only [step, if_true, Option.map_id', List.nil_append] at h
          rw [toks_step] at h
          simp only [step, h1, h2, if_false, Option.map_id', List.nil_append] at h
          obtain ⟨y, hy⟩ := (toks_grows _ _ _ _).1 h
          rw [replicate_quote] at hy
          simp only [List.append_assoc, Tok.str.injEq, List.append_cancel_left_eq, List.cons_append, List.nil_append, List.cons.injEq, true_and, List.append_nil] at hy
          cases m with
          | zero => cases hy
          | succ m => simp [List.replicate_succ] at hy; exact h1 hy.1.symm
        | cons e s =>
          by_cases he : e = '\''
          · subst he
            rw [escapeBackslash_cons] at h
            simp only [show ¬ ('\'' : Char) = '\\' by decide, if_false, List.cons_append, List.nil_append] at h
            rw [toks_step] at h
            simp only [step, if_true, Option.map_id', List.nil_append] at h
            refine ih s (b ++ ['\'']) (m + 1) (by simp at hlen; omega) (by omega) ?_
            rw [replicate_quote, replicate_quote] at h
            rw [List.replicate_succ]
            simpa using h
          · rw [escapeBackslash_cons] at h
            have : ∃ e' z, e' ≠ '\'' ∧ (if e = '\\' then py"\\\\" else [e]) ++ escapeBackslash s ++ '\'' :: d :: r = e' :: z := by
              split
              · exact ⟨'\\', _, by decide, rfl⟩
              · exact ⟨e, _, he, rfl⟩
            obtain ⟨e', z, h3, h4⟩ := this
            rw [h4, toks_step] at h
            simp only [step, h3, if_false] at h
            cases hz : toks (stepOut e').2 z with
            | none => rw [hz] at h; cases h
            | some l =>
              rw [hz] at h
              simp at h
      · have key : toks (.str (b ++ [c])) (escapeBackslash s ++ '\'' :: d :: r) = some (.str (b ++ (List.replicate m '\'' ++ c :: s)) :: ts) := by
          by_cases hb : c = '\\'
          · subst hb
            simp only [if_true, List.cons_append, List.nil_append] at h
            rw [toks_step] at h
            simp only [step, if_true, Option.map_id', List.nil_append] at h
            rw [toks_step] at h
            simp only [step, unescape_backslash, Option.map_id', List.nil_append] at h
            exact h
          · simp only [hb, if_false, List.cons_append, List.nil_append] at h
            rw [toks_step] at h
            simp only [step, hb, hc, if_false, Option.map_id', List.nil_append] at h
            exact h
        cases m with
        | zero =>
          refine ih s (b ++ [c]) 0 hlen (fun _ => ?_) ?_
          · rcases List.mem_cons.mp (hm rfl) with e | e
            · exact absurd e.symm hc
            · exact e
          · simpa using key
        | succ m =>
          obtain ⟨y, hy⟩ := (toks_grows _ _ _ _).1 key
          simp [List.replicate_succ] at hy
          exact hc hy.1.symm

end Sql
end Mygrations

import Verif.Props.C41

/-!
# C41: a comment which starts with `/*/`

For MySQL the comment `/*/` is not closed yet.  The reader looks for `*/` from the second character on.
-/

namespace Mygrations

/-- more turns of the loop change nothing if it ended -/
theorem readLoop_more (k : Nat) : ∀ (n : Nat) (st : ReaderState) (s : Str) (st' : ReaderState), readLoop n st s = (st', none) → readLoop (n + k) st s = (st', none)
  | 0, st, s, st', h => by
    by_cases hs : s = []
    · subst hs
      rw [readLoop_nil] at h ⊢
      exact h
    · rw [readLoop_zero st hs] at h
      cases h
  | n + 1, st, s, st', h => by
    by_cases hs : s = []
    · subst hs
      rw [readLoop_nil] at h ⊢
      exact h
    · rw [readLoop_succ n st hs] at h
      rw [Nat.succ_add, readLoop_succ _ st hs]
      unfold readStep at h ⊢
      split at h
      · cases h
      · rename_i h0
        rw [if_neg h0]
        split at h
        · rename_i h1
          rw [if_pos h1]
          exact readLoop_more k n _ _ _ h
        · rename_i h1
          rw [if_neg h1]
          split at h
          · rename_i h2
            rw [if_pos h2]
            split at h
            · cases h
            · rename_i hp
              exact readLoop_more k n _ _ _ h
          · rename_i h2
            rw [if_neg h2]
            split at h
            · rename_i h3
              rw [if_pos h3]
              split at h
              · cases h
              · rename_i hp
                exact readLoop_more k n _ _ _ h
            · rename_i h3
              rw [if_neg h3]
              exact h

/-- **C41 is false** of comments which start with `/*/`: whatever the text after these three characters is, if the file is read
without an exception, then what is read of it is what is read of that text by itself.  So the statements in the comment, up to
the `*/` which ends it for MySQL, are declarations. -/
theorem C41_slash_refuted (s : Str) (st : ReaderState) (hb : strip s ≠ []) (h : readSource (py"/*/" ++ s) = (st, none)) :
    readSource s = (st, none) := by
  have hs : strip (py"/*/" ++ s) = py"/*/" ++ rstrip s := by
    have e1 : py"/*/" ++ s = '/' :: (py"*/" ++ s) := rfl
    rw [e1, strip_cons_char (by decide), ← e1, rstrip_append (by rfl)]
  have hss : strip (py"/*/" ++ rstrip s) = py"/*/" ++ rstrip s := by rw [← hs, strip_strip]
  have hp : parseComment (py"/*/" ++ rstrip s) = strip s := by
    unfold parseComment
    simp only [hss]
    rw [if_neg (by rintro (h | h) <;> cases h)]
    exact strip_rstrip s
  have hread : readSource (py"/*/" ++ s) = readLoop 9999 {} (strip s) := by
    unfold readSource
    rw [show (10000 : Nat) = 9999 + 1 from rfl, readLoop_comment 9999 {} hs (by simp) rfl, hp]
  have hne : s ≠ [] := by rintro rfl; exact hb rfl
  rw [hread] at h
  have := readLoop_more 1 _ _ _ _ h
  unfold readSource
  rw [show (10000 : Nat) = 9999 + 1 from rfl, readLoop_succ _ _ hne]
  rw [readLoop_succ _ _ hb, strip_strip] at this
  exact this

/-- To MySQL this file is one comment.  The tool reads a table from it, and reports nothing. -/
example : ∃ st, readSource (py"/*/ CREATE TABLE t (id INT); /* the end */") = (st, none) ∧
    readSource (py" CREATE TABLE t (id INT); /* the end */") = (st, none) ∧ st.tables.keys = [py"t"] ∧ st.globalErrors = [] := by
  obtain ⟨st, h⟩ : ∃ st, readSource (py"/*/ CREATE TABLE t (id INT); /* the end */") = (st, none) := ⟨_, by rfl⟩
  have h' := C41_slash_refuted py" CREATE TABLE t (id INT); /* the end */" st (by decide) h
  refine ⟨st, h, h', ?_, ?_⟩ <;> rw [show st = (readSource (py" CREATE TABLE t (id INT); /* the end */")).1 by rw [h']] <;> decide +kernel

end Mygrations

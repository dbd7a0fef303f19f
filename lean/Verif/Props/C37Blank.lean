import Verif.Props.C35

/-!
# C37: a default with a blank in it, for a column with a length
-/

namespace Mygrations

section
variable {n t d k a b e : Str} {nn : Bool}

/-- the words of the column -/
def blankWords (nn : Bool) (a b : Str) : List Word := (if nn then [.notNull py"NOT NULL"] else []) ++ [.stamp py"DEFAULT" a b]

theorem blankWords_ok (ha : Bare a) (hb : ∃ c cs, b = c :: cs ∧ isDigit c = true) (hf : flat true b = true) (hq : ∀ c ∈ b, c ≠ '\'') :
    ∀ w ∈ blankWords nn a b, w.Ok := by
  intro w hw
  unfold blankWords at hw
  rcases List.mem_append.mp hw with hw | hw
  · cases nn
    · cases hw
    · rw [if_pos rfl, List.mem_singleton] at hw
      subst hw
      exact Spelled.refl _
  · rw [List.mem_singleton] at hw
    subst hw
    exact ⟨Spelled.refl _, ha, hb, hf, hq⟩

theorem leaves_junk {c : ChildClass α} {s : Str} {gs : List Tag} {vals : Dict PVal} {ws : List Word} {w : Word}
    (hg : (runTags gs ws vals).2 = [w]) (h : c.tryParse s = .ok (some (outcome c gs vals ws e))) : Leaves (restOf [w] e) c s := by
  refine ⟨_, h, ?_⟩
  intro m r hr
  cases hr
  show _ ≤ (restOf (runTags gs ws vals).2 e).length
  rw [hg]
  exact Nat.le_refl _

/-- classes without a length leave the length and everything after it -/
theorem leaves_len {c : ChildClass α} {gs : List Tag} (hc : c.rules = columnHead ++ tagRules gs) (hn : Ident n) (ht : Ident t)
    (hd : Digits d) (he : Closing e) (hws : ∀ w ∈ blankWords nn a b, w.Ok) : Leaves (restOf [.junk b] e) c (colText n t (.one d) (blankWords nn a b) e) := by
  have hcl := closing_len (l := .one d) hd (by simp) he hws
  have h := try_plain (ws := []) hc hn ht hcl (by simp)
  have h1 : colText n t .none [] (LenText.text (.one d) ++ wordsTail (blankWords nn a b) e) = colText n t (.one d) (blankWords nn a b) e := by
    simp [colText, LenText.text, wordsTail]
  rw [h1] at h
  refine ⟨_, h, ?_⟩
  intro m r hr
  cases hr
  show _ ≤ (restOf (runTags gs [] (headVals n t)).2 _).length
  rw [runTags_nil]
  have hf := lenTail_flat (l := .one d) hd he hws
  have h2 : restOf [] (LenText.text (.one d) ++ wordsTail (blankWords nn a b) e) = LenText.text (.one d) ++ wordsTail (blankWords nn a b) e := by
    have : strip (LenText.text (.one d) ++ wordsTail (blankWords nn a b) e) = LenText.text (.one d) ++ wordsTail (blankWords nn a b) e :=
      strip_flat (by simpa [LenText.text, flat, show isSpace '(' = false from by decide] using hf)
    simpa [restOf, LenText.text] using this
  rw [h2]
  cases nn <;> simp [blankWords, restOf, wordsText, wordsTail, Word.text] <;> omega

theorem best_blank (hn : Ident n) (ht : Ident t) (hd : Digits d) (he : Closing e) (hws : ∀ w ∈ blankWords nn a b, w.Ok) :
    bestChild definitionClasses (colText n t (.one d) (blankWords nn a b) e) none =
      .ok (some (outcome typeCharacter characterTags (oneVals n t d) (blankWords nn a b) e)) := by
  have h := try_one (c := typeCharacter) (gs := characterTags) (d := d) rfl hn ht hd he hws
  have hw : ∀ gs vals, gs = characterTags ∨ gs = numericTags ∨ gs = enumTags → (runTags gs (blankWords nn a b) vals).2 = [.junk b] := by
    rintro gs vals (rfl | rfl | rfl) <;> cases nn <;> rfl
  apply best_column' [] [typeNumeric, typeDecimal, typeEnum, typePlain, typeText, typeDateTime] typeCharacter rfl hn ht (l := .one d) hd he hws (by simp) h
  show ∀ c ∈ _, Leaves (restOf (runTags characterTags (blankWords nn a b) (oneVals n t d)).2 e) c _
  rw [hw _ _ (.inl rfl)]
  intro c hc
  simp only [List.mem_cons, List.not_mem_nil, or_false] at hc
  rcases hc with rfl | rfl | rfl | rfl | rfl | rfl
  · exact leaves_junk (hw _ _ (.inr (.inl rfl))) (try_one (c := typeNumeric) (gs := numericTags) (d := d) rfl hn ht hd he hws)
  · exact (leavesMore_none (try_two_one (c := typeDecimal) rfl (by simp [digitsRule, lit, optLit, endingComma, bareNull, defaultRule, Kind.Idle, plus, keyword, Kind.parse]; decide) hn ht hd he hws)).le
  · obtain ⟨vs, h⟩ := try_enum (c := typeEnum) (gs := enumTags) (l := .one d) rfl hn ht hd (by simp) he hws
    exact leaves_junk (hw _ _ (.inr (.inr rfl))) h
  · exact leaves_len (gs := plainTags) rfl hn ht hd he hws
  · exact leaves_len (gs := characterTags) rfl hn ht hd he hws
  · exact leaves_len (gs := dateTimeTags) rfl hn ht hd he hws

/-- **C37 fails for every default with a blank** in a column with a length, be it `NOT NULL` or not, if a digit comes after
the blank: of `DEFAULT 'a b'` what is read is `'a`, with the quote, and `b'` is left to be read as the next definition.  (The digit
is there so that `b` is not mistaken for a keyword.) -/
theorem C37_blank_refuted (c : Column) (nn : Bool) (n t d a b e rest : Str)
    (hc : c = { cls := .string, name := n, ctype := t, len := .str d, null := !nn, hasDefault := true, default := some (a ++ py" " ++ b) })
    (hn : Ident n) (ht : Ident t) (hu : upper t = t) (hd : Digits d) (ha : Bare a) (hb : ∃ x xs, b = x :: xs ∧ isDigit x = true) (hf : flat true b = true)
    (hq : ∀ x ∈ b, x ≠ '\'') (hnum : isNumeric (a ++ py" " ++ b) = false) (he : Follows e rest) :
    ∃ pc e', bestChild definitionClasses (c.render ++ e) none = .ok (some (.column pc, b ++ py"'" ++ e')) ∧ pc.name = n ∧ pc.default = some (py"'" ++ a) := by
  have hws := blankWords_ok (nn := nn) ha hb hf hq
  obtain ⟨e', h1, h2, h3, h4⟩ := follows_closing he
  have hdef : c.defaultParts = [py"DEFAULT '" ++ (a ++ py" " ++ b) ++ py"'"] := by
    subst hc
    show (match some (a ++ py" " ++ b) with | none => [] | some [] => [py"DEFAULT ''"] | some d => if isNumeric d then [py"DEFAULT " ++ d] else [py"DEFAULT '" ++ d ++ py"'"]) = _
    split
    · rename_i h; cases h
    · rename_i h; simp at h
    · rename_i h
      cases h
      rw [hnum]
      rfl
  have hr : ∀ e, c.render ++ e = colText n t (.one d) (blankWords nn a b) e := by
    intro e
    have hl : Len.str d ≠ .none ∧ Len.str d ≠ .str [] := ⟨by simp, fun h => hd.1 (Len.str.inj h)⟩
    have hts : c.typeString = t ++ (py"(" ++ d ++ py")") := by
      subst hc
      show upper t ++ (if Len.str d = .none ∨ Len.str d = .str [] then [] else py"(" ++ d ++ py")") = _
      rw [if_neg (by rintro (h | h); exact hl.1 h; exact hl.2 h), hu]
    have hp : c.parts = [py"`" ++ n ++ py"`", c.typeString] ++ (if !nn then [] else [py"NOT NULL"]) ++ c.defaultParts := by
      subst hc
      cases nn <;> simp [Column.parts, Column.isUnsigned, Column.isAutoInc]
    have hren : c.render = join py" " c.parts := by
      subst hc
      simp [Column.render, Column.characterSet, Column.collate, Column.nonEmpty]
    rw [hren, hp, hts, hdef]
    cases nn <;> simp [join, colText, LenText.text, blankWords, wordsTail, Word.text]
  have hfl : flat true c.render = true := by
    have := colText_flat (e := []) hn ht (l := .one d) hd (.inl rfl) hws
    rwa [← hr, List.append_nil] at this
  have hbest := best_blank (nn := nn) hn ht hd h1 hws
  rw [← hr, ← bestChild_follows hfl h4] at hbest
  have hsense : senseDefault (some (py"'" ++ a)) = some (py"'" ++ a) := by
    unfold senseDefault
    simp only
    rw [if_neg, if_neg]
    · intro h
      cases h
    · intro h
      unfold isQuoted at h
      simp only [Bool.and_eq_true, decide_eq_true_eq, beq_iff_eq] at h
      have hlast := h.2
      rw [List.getLast?_append] at hlast
      cases hz : a.getLast? with
      | none =>
        rw [List.getLast?_eq_none_iff] at hz
        subst hz
        exact absurd h.1.1 (by decide)
      | some z =>
        rw [hz, Option.some_or, Option.some.injEq] at hlast
        exact (ha z (List.mem_of_getLast? hz)).2.2.2.2.1 hlast
  have hout : outcome typeCharacter characterTags (oneVals n t d) (blankWords nn a b) e' =
      (.column { name := stripTicks (py"`" ++ n ++ py"`"), ctype := normalizeType t, len := .str d, null := !nn, hasDefault := true, default := senseDefault (some (py"'" ++ a))
                 charset := none, collation := none, parsingWarnings := characterWarnings (stripTicks (py"`" ++ n ++ py"`")) (some (py"'" ++ a)) }, b ++ py"'" ++ e') := by
    cases nn <;> rfl
  rw [hout] at hbest
  exact ⟨_, e', hbest, stripTicks_ident hn, hsense⟩

end

/-- `title VARCHAR(20) NOT NULL DEFAULT 'part 1'`, followed by another column -/
example : ∃ pc e', bestChild definitionClasses (py"`title` VARCHAR(20) NOT NULL DEFAULT 'part 1'" ++ py", `id` INT)") none = .ok (some (.column pc, py"1" ++ py"'" ++ e')) ∧
    pc.name = py"title" ∧ pc.default = some (py"'" ++ py"part") :=
  C37_blank_refuted _ true py"title" py"VARCHAR" py"20" py"part" py"1" py", `id` INT)" _ rfl (by decide) (by decide) (by decide) ⟨by decide, by decide⟩ (by unfold Bare; decide)
    ⟨'1', [], rfl, by decide⟩ (by decide) (by decide) (by decide) (.comma py" `id` INT)")

end Mygrations

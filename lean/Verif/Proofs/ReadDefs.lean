import Verif.Proofs.ReadColumn
import Verif.Spec.Remarks

/-! # Definitions read back -/

namespace Mygrations

theorem join_cons (sep p : Str) : ∀ ps : List Str, join sep (p :: ps) = p ++ ps.flatMap (fun x => sep ++ x)
  | [] => by simp [join]
  | q :: ps => by
    have := join_cons sep q ps
    simp only [join, this, List.flatMap_cons, List.append_assoc]

theorem wordsTail_eq (ws : List Word) (e : Str) : wordsTail ws e = ws.flatMap (fun w => py" " ++ w.text) ++ e := by
  induction ws with
  | nil => rfl
  | cons w ws ih => simp [wordsTail, ih]

/-! ## Columns -/

theorem type_facts : ∀ cls : ColClass, ∀ t ∈ plainTypes cls, (t ≠ [] ∧ ∀ c ∈ t, isWord c = true) ∧ normalizeType t = t ∧ isBoolType t = false ∧
    upper t = t ∧ Dict.get? columnTypeMap t = some cls := by
  intro cls
  cases cls <;> decide +kernel

theorem upper_upper (s : Str) : upper (upper s) = upper s := by
  unfold upper
  rw [List.map_map]
  apply List.map_congr_left
  intro c _
  show c.toUpper.toUpper = c.toUpper
  rcases toUpper_range c with h | h
  · rw [h, h]
  · generalize c.toUpper = x at h
    unfold Char.toUpper
    rw [dif_neg]
    rintro ⟨h1, _⟩
    have h1 := UInt32.le_iff_toNat_le.mp h1
    have : 97 ≤ x.toNat := h1
    omega

theorem stripChars_around {p : Char → Bool} {q : Char} {s : Str} (hq : p q = true) (hs : ∀ c ∈ s, p c = false) :
    stripChars p ([q] ++ s ++ [q]) = s := by
  unfold stripChars
  have h1 : (s ++ [q]).dropWhile p = if s = [] then [] else s ++ [q] := by
    cases s with
    | nil => simp [hq]
    | cons c cs => simp [hs c List.mem_cons_self]
  have h2 : ([q] ++ s ++ [q]).dropWhile p = if s = [] then [] else s ++ [q] := by
    rw [List.append_assoc, List.singleton_append, List.dropWhile_cons, if_pos hq, h1]
  rw [h2]
  split
  · rename_i h; simp [h]
  · rename_i h
    rw [List.reverse_append, List.reverse_singleton, List.singleton_append, List.dropWhile_cons, if_pos hq]
    rw [dropWhile_eq_self]
    · simp
    · intro x hx
      apply hs
      rw [List.head?_reverse] at hx
      exact List.mem_of_getLast? hx

theorem stripTicks_ident {n : Str} (h : Ident n) : stripTicks (py"`" ++ n ++ py"`") = n := by
  apply stripChars_around (by decide)
  intro c hc
  have := h.2 c hc
  rw [beq_eq_false_iff_ne]
  rintro rfl
  revert this; decide

theorem stripQuotes_bare {v : Str} (h : Bare v) : stripQuotes (py"'" ++ v ++ py"'") = v := by
  apply stripChars_around (by decide)
  intro c hc
  rw [beq_eq_false_iff_ne]
  exact (h c hc).2.2.2.2.1

theorem isQuoted_quoted (v : Str) : isQuoted (py"'" ++ v ++ py"'") = true := by
  simp only [isQuoted, Bool.and_eq_true, decide_eq_true_eq, beq_iff_eq]
  refine ⟨⟨?_, rfl⟩, ?_⟩
  · simp only [List.length_append, List.length_cons, List.length_nil]; omega
  · rw [List.getLast?_append]; rfl

theorem isQuoted_bare {v : Str} (h : ∀ c, v.head? = some c → c ≠ '\'') : isQuoted v = false := by
  cases v with
  | nil => rfl
  | cons c cs =>
    have := h c rfl
    simp [isQuoted, this]

theorem bare_head {v : Str} (h : Bare v) : ∀ c, v.head? = some c → c ≠ '\'' := by
  intro c hc
  cases v with
  | nil => cases hc
  | cons x xs =>
    simp only [List.head?_cons, Option.some.injEq] at hc
    subst hc
    exact (h _ List.mem_cons_self).2.2.2.2.1

theorem unquote_value {q : Bool} {v : Option Str} (h : ∀ x, v = some x → Bare x) : unquote (v.map (inQuotesIf q)) = v := by
  cases v with
  | none => rfl
  | some x =>
    cases q with
    | true =>
      simp only [Option.map_some, unquote, inQuotesIf, isQuoted_quoted, if_true]
      rw [stripQuotes_bare (h x rfl)]
    | false => simp [unquote, inQuotesIf, isQuoted_bare (bare_head (h x rfl))]

/-- the defaults, as they are written -/
inductive Written (s : Style) (hasLen : Bool) : Option Str → List Word → Prop
  | none : s.nullDefault = false → Written s hasLen none []
  | null : s.nullDefault = true → Written s hasLen none [.default (s.spell py"DEFAULT") false (s.spell py"NULL")]
  | quoted {v : Str} : Bare v → s.bare v = false → (hasLen = false → lower v ≠ py"null") →
      Written s hasLen (some v) [.default (s.spell py"DEFAULT") true v]
  | bare {v : Str} : Bare v → s.bare v = true → v ≠ [] → lower v ≠ py"null" → Written s hasLen (some v) [.default (s.spell py"DEFAULT") false v]
  | stamp {a b : Str} {c : Char} : hasLen = false → Bare a → isDigit c = true → Bare b → s.bare (a ++ py" " ++ c :: b) = false →
      Written s hasLen (some (a ++ py" " ++ c :: b)) [.stamp (s.spell py"DEFAULT") a (c :: b)]

theorem written_of_plain {s : Style} {hasLen : Bool} {c : Column} (hs : s.Fits c) (h : ∀ v, c.default = some v → PlainDefault hasLen v) :
    ∃ dw, Written s hasLen c.default dw := by
  cases hd : c.default with
  | none =>
    cases hn : s.nullDefault
    · exact ⟨_, .none hn⟩
    · exact ⟨_, .null hn⟩
  | some v =>
    rcases h v hd with ⟨hb, hn⟩ | ⟨hl, a, x, b, rfl, ha, hc, hb⟩
    · cases hv : s.bare v
      · exact ⟨_, .quoted hb hv hn⟩
      · obtain ⟨h1, _, h2⟩ := hs.bare v hd hv
        exact ⟨_, .bare hb hv h1 h2⟩
    · refine ⟨_, .stamp hl ha hc hb ?_⟩
      rw [Bool.eq_false_iff]
      intro hv
      have := (hs.bare _ hd hv).2.1
      simp at this

section
variable {s : Style} {hasLen : Bool} {d : Option Str} {dw : List Word}

theorem spelled_null {n : Str} (h : lower n = py"null") : Bare n ∧ n ≠ [] ∧ isQuoted n = false := by
  have hs : Spelled py"null" n := by
    show lower n = lower py"null"
    rw [h]; decide
  have hne : n ≠ [] := by
    intro hh
    have := hs.length
    rw [hh] at this
    cases this
  have nm : ∀ c : Char, c ∈ n → (c.toNat < 65 ∨ 122 < c.toNat) → c ∈ py"null" := by
    intro c hc hr
    apply Classical.byContradiction
    intro hm
    exact hs.not_mem hr hm hc
  have hb : Bare n := by
    intro c hc
    refine ⟨?_, ?_, ?_, ?_, ?_, ?_⟩
    · have : flat true n = true := by rw [hs.flat]; decide
      rw [Bool.eq_false_iff]
      intro hsp
      have h1 : c.toLower ∈ lower n := List.mem_map.mpr ⟨c, hc, rfl⟩
      rw [h] at h1
      have h2 := toLower_space c
      rw [hsp] at h2
      generalize c.toLower = x at h1 h2
      simp only [List.mem_cons, List.not_mem_nil, or_false] at h1
      rcases h1 with rfl | rfl | rfl | rfl <;> exact absurd h2 (by decide)
    all_goals
      rintro rfl
      exact absurd (nm _ hc (by decide)) (by decide)
  exact ⟨hb, hne, isQuoted_bare (bare_head hb)⟩

theorem Written.ok (h : Written s hasLen d dw) (hs : ∀ w, lower (s.spell w) = lower w) : ∀ w ∈ dw, w.Ok := by
  have hk : Spelled py"DEFAULT" (s.spell py"DEFAULT") := hs _
  cases h with
  | none => simp
  | null _ =>
    intro w hw; rw [List.mem_singleton] at hw; subst hw
    have := spelled_null ((hs py"NULL").trans (by decide))
    exact ⟨hk, this.1, fun _ => this.2.1⟩
  | quoted hb _ _ => intro w hw; rw [List.mem_singleton] at hw; subst hw; exact ⟨hk, hb, by simp⟩
  | bare hb _ hne _ => intro w hw; rw [List.mem_singleton] at hw; subst hw; exact ⟨hk, hb, fun _ => hne⟩
  | @stamp a b c _ ha hc hb =>
    intro w hw
    rw [List.mem_singleton] at hw
    subst hw
    refine ⟨hk, ha, ⟨c, b, rfl, hc⟩, flat_noSpace ?_ true (by simp), ?_⟩
    · intro x hx
      rcases List.mem_cons.mp hx with rfl | hx
      · exact word_noSpace (digit_word hc)
      · exact (hb x hx).1
    · intro x hx
      rcases List.mem_cons.mp hx with rfl | hx
      · exact digit_ne hc (by decide)
      · exact (hb x hx).2.2.2.2.1

theorem stamp_not_numeric {a b : Str} {c : Char} : isNumeric (a ++ py" " ++ c :: b) = false := by
  simp only [isNumeric, Bool.and_eq_false_iff]
  right
  rw [List.all_eq_false]
  exact ⟨' ', by simp, by decide⟩

theorem Written.text (h : Written s hasLen d dw) : s.default d = dw.flatMap (fun w => py" " ++ w.text) := by
  cases h with
  | none h => simp [Style.default, h]
  | null h => simp [Style.default, h, Word.text, inQuotesIf]
  | quoted _ h _ => simp [Style.default, h, Word.text, inQuotesIf, Style.value]
  | bare _ h _ _ => simp [Style.default, h, Word.text, inQuotesIf, Style.value]
  | stamp _ _ _ _ h =>
    have h' := h
    simp only [List.append_assoc, List.cons_append, List.nil_append] at h'
    simp [Style.default, h', Word.text, Style.value]

theorem numeric_digits {v : Str} (h : isNumeric v = true) : ∃ c cs, v = c :: cs ∧ isDigit c = true := by
  cases v with
  | nil => cases h
  | cons c cs =>
    simp only [isNumeric, List.all_cons, Bool.and_eq_true] at h
    exact ⟨c, cs, rfl, h.2.1⟩

theorem numeric_not_null {v : Str} (h : isNumeric v = true) : lower v ≠ py"null" ∧ isQuoted v = false := by
  obtain ⟨c, cs, rfl, hc⟩ := numeric_digits h
  constructor
  · simp only [lower, List.map_cons, digit_toLower hc]
    intro h'
    simp only [List.cons.injEq] at h'
    exact digit_ne hc (by decide) h'.1
  · apply isQuoted_bare
    intro x hx
    cases hx
    exact digit_ne hc (by decide)

theorem Written.sense (h : Written s hasLen d dw) (hs : ∀ w, lower (s.spell w) = lower w) :
    senseDefault (defaultText dw) = d ∧ (defaultText dw).isSome = (d.isSome || s.nullDefault) := by
  cases h with
  | none h => exact ⟨rfl, by simp [defaultText, h]⟩
  | null h =>
    have hn : lower (s.spell py"NULL") = py"null" := (hs _).trans (by decide)
    have := (spelled_null hn).2.2
    refine ⟨?_, by simp [defaultText, h]⟩
    simp only [defaultText, senseDefault, inQuotesIf, Bool.false_eq_true, if_false, this, hn, if_true]
  | quoted hb _ _ => simp only [defaultText, senseDefault, inQuotesIf, isQuoted_quoted, if_true, stripQuotes_bare hb, Option.isSome_some, Bool.true_or, and_self]
  | bare hb _ _ hn => simp [defaultText, senseDefault, inQuotesIf, isQuoted_bare (bare_head hb), hn]
  | @stamp a b c _ ha hc hb =>
    have h1 : isQuoted (a ++ py" " ++ c :: b) = false := by
      apply isQuoted_bare
      intro x hx
      cases a with
      | nil => simp at hx; subst hx; decide
      | cons y ys => simp at hx; subst hx; exact (ha y List.mem_cons_self).2.2.2.2.1
    have h2 : lower (a ++ py" " ++ c :: b) ≠ py"null" := by
      intro h
      have : ' ' ∈ lower (a ++ py" " ++ c :: b) := by
        simp only [lower, List.map_append, List.mem_append, List.mem_map]
        exact Or.inl (Or.inr ⟨' ', by simp, by decide⟩)
      rw [h] at this
      revert this; decide
    simp only [defaultText, senseDefault, h1, h2, if_false, Bool.false_eq_true, Option.isSome_some, Bool.true_or, and_self]

theorem Written.noBlank (h : Written s hasLen d dw) (hd : IsDefault dw) : (d.getD []).contains ' ' = false := by
  have bare : ∀ v : Str, Bare v → v.contains ' ' = false := by
    intro v hv
    rw [Bool.eq_false_iff]
    intro hc
    have := hv ' ' (List.contains_iff_mem.mp hc)
    revert this
    decide
  cases h with
  | none => rfl
  | null => rfl
  | quoted hb _ _ => exact bare _ hb
  | bare hb _ _ => exact bare _ hb
  | stamp _ _ _ _ => cases hd

theorem Written.plain (h : Written s false d dw) (hd : IsDefault dw) (hs : ∀ w, lower (s.spell w) = lower w) : plainDefault false (defaultText dw) = d := by
  cases h with
  | none => rfl
  | null =>
    have hn : lower (s.spell py"NULL") = py"null" := (hs _).trans (by decide)
    have := (spelled_null hn).2.2
    simp only [defaultText, plainDefault, unquote, inQuotesIf, Option.map_some, Bool.false_eq_true, if_false, this, hn, Bool.false_and, if_true]
  | quoted hb _ hn =>
    have := hn rfl
    simp only [defaultText, plainDefault, unquote, inQuotesIf, Option.map_some, isQuoted_quoted, if_true, stripQuotes_bare hb, Bool.false_and,
      Bool.false_eq_true, if_false, this]
  | bare hb _ _ hn =>
    simp only [defaultText, plainDefault, unquote, inQuotesIf, Option.map_some, hn, isQuoted_bare (bare_head hb), Bool.false_and,
      Bool.false_eq_true, if_false]
  | stamp => cases hd

theorem Written.isDefault (h : Written s hasLen d dw) : IsDefault dw ∨ ∃ k a b, dw = [.stamp k a b] ∧ hasLen = false ∧ d = some (a ++ py" " ++ b) := by
  cases h with
  | none => exact Or.inl .none
  | null => exact Or.inl (.some _ _ _)
  | quoted => exact Or.inl (.some _ true _)
  | bare => exact Or.inl (.some _ false _)
  | stamp hl _ _ _ => exact Or.inr ⟨_, _, _, rfl, hl, rfl⟩

end

/-- the text of the length -/
inductive LenOf : Len → Str → LenText → Prop
  | none : LenOf .none [] .none
  | empty : LenOf (.str []) [] .none
  | one {d : Str} : Digits d → LenOf (.str d) d (.one d)
  | two {a b : Str} : Digits a → Digits b → LenOf (.str (a ++ py"," ++ b)) (a ++ py"," ++ b) (.two a b)

theorem lenOf_of_plain {len : Len} {shown : Str} (h : PlainLen len shown) : ∃ l, LenOf len shown l := by
  cases h with
  | none => exact ⟨_, .none⟩
  | empty => exact ⟨_, .empty⟩
  | one h => exact ⟨_, .one h⟩
  | two h h' => exact ⟨_, .two h h'⟩

/-! ## Spelling -/

theorem ascii_upper : ∀ n : Fin 128, (Char.ofNat n).toLower.toUpper = (Char.ofNat n).toUpper := by decide +kernel

theorem toUpper_toLower (c : Char) : c.toLower.toUpper = c.toUpper := by
  by_cases h : c.toNat < 128
  · have := ascii_upper ⟨c.toNat, h⟩
    simpa using this
  · have : c.toLower = c := by
      rcases toLower_range c with e | e
      · exact e
      · unfold Char.toLower
        apply dif_neg
        rintro ⟨_, h2⟩
        have h2 := UInt32.le_iff_toNat_le.mp h2
        have : c.toNat ≤ 90 := h2
        omega
    rw [this]

theorem upper_lower (s : Str) : upper (lower s) = upper s := by
  simp only [upper, lower, List.map_map]
  apply List.map_congr_left
  intro c _
  exact toUpper_toLower c

theorem Spelled.upper {a b : Str} (h : Spelled a b) : upper b = upper a := by
  rw [← upper_lower b, ← upper_lower a, show lower b = lower a from h]

theorem Spelled.mem {a b : Str} (h : Spelled a b) {c : Char} (hc : c ∈ b) : ∃ d ∈ a, d.toLower = c.toLower := by
  have : c.toLower ∈ lower b := List.mem_map.mpr ⟨c, hc, rfl⟩
  rw [show lower b = lower a from h] at this
  exact List.mem_map.mp this

theorem Spelled.ne {a b : Str} (h : Spelled a b) (hne : a ≠ []) : b ≠ [] := by
  intro hb
  have := h.length
  rw [hb] at this
  exact hne (List.length_eq_zero_iff.mp this.symm)

theorem Spelled.bare {a b : Str} (h : Spelled a b) (ha : Bare a) : Bare b := by
  intro c hc
  refine ⟨?_, ?_⟩
  · obtain ⟨d, hd, he⟩ := h.mem hc
    rw [← toLower_space c, ← he, toLower_space d]
    exact (ha d hd).1
  · have nm : ∀ x : Char, x.toNat < 65 → x ∉ a → c ≠ x := by
      rintro x hx hxa rfl
      exact h.not_mem (Or.inl hx) hxa hc
    have no : ∀ x : Char, (Bare [x] → False) → x ∉ a := by
      intro x hx hm
      apply hx
      intro y hy
      rw [List.mem_singleton] at hy
      subst hy
      exact ha _ hm
    refine ⟨?_, ?_, ?_, ?_, ?_⟩
    all_goals exact nm _ (by decide) (no _ (by decide))

theorem ascii_word : ∀ n : Fin 128, isWord (Char.ofNat n).toLower = isWord (Char.ofNat n) := by decide +kernel

theorem toLower_word (c : Char) : isWord c.toLower = isWord c := by
  by_cases h : c.toNat < 128
  · have := ascii_word ⟨c.toNat, h⟩
    simpa using this
  · have : c.toLower = c := by
      rcases toLower_range c with e | e
      · exact e
      · unfold Char.toLower
        apply dif_neg
        rintro ⟨_, h2⟩
        have h2 := UInt32.le_iff_toNat_le.mp h2
        have : c.toNat ≤ 90 := h2
        omega
    rw [this]

theorem Spelled.ident {a b : Str} (h : Spelled a b) (ha : Ident a) : Ident b := by
  refine ⟨h.ne ha.1, ?_⟩
  intro c hc
  obtain ⟨d, hd, he⟩ := h.mem hc
  rw [← toLower_word c, ← he, toLower_word d]
  exact ha.2 d hd

/-- the words of a style -/
def Style.ws (s : Style) : WordStyle := ⟨s.spell, s.null, s.early, s.quotes⟩

/-- the words of a column in a style -/
def wordsOf (c : Column) (s : Style) (dw : List Word) : List Word :=
  words s.ws c.isUnsigned (!c.null) dw c.isAutoInc (c.characterSet.map s.spell) (c.collate.map s.spell)

theorem value_eq (q : Bool) (v : Str) : Style.value q v = inQuotesIf q v := rfl

theorem characters_text (c : Column) (s : Style) :
    s.characters c = (charWords s.ws (c.characterSet.map s.spell) (c.collate.map s.spell)).flatMap (fun w => py" " ++ w.text) := by
  unfold Style.characters charWords
  cases c.characterSet <;> cases c.collate <;> simp [Word.text, Style.ws, value_eq]

/-- the text of a plain column -/
theorem column_text {c : Column} {s : Style} {shown : Str} {l : LenText} {dw : List Word} {hasLen : Bool} (hl : LenOf c.len shown l)
    (hd : Written s hasLen c.default dw) (e : Str) :
    c.written s ++ e = colText c.name (s.spell c.columnType) l (wordsOf c s dw) e := by
  have hlen : (if c.len = .none ∨ c.len = .str [] then [] else py"(" ++ c.len.format ++ py")") = l.text := by
    generalize c.len = len at hl
    cases hl with
    | none => simp [LenText.text]
    | empty => simp [LenText.text]
    | one hd => simp [LenText.text, Len.format, hd.1]
    | two ha hb => simp [LenText.text, Len.format]
  have hdp := hd.text
  unfold Column.written colText wordsOf words
  rw [hlen, wordsTail_eq, hdp, characters_text]
  unfold nullWords
  simp only [List.flatMap_append]
  cases he : s.early <;> cases hn : s.null <;> cases c.isUnsigned <;> cases c.null <;> cases c.isAutoInc <;>
    simp [Word.text, Style.ws, he, hn]

theorem words_ok {s : WordStyle} {u nn a : Bool} {dw : List Word} {cs co : Option Str} (hs : ∀ w, lower (s.spell w) = lower w) (hd : ∀ w ∈ dw, w.Ok)
    (hcs : ∀ v, cs = some v → Bare v ∧ v ≠ []) (hco : ∀ v, co = some v → Bare v ∧ v ≠ []) : ∀ w ∈ words s u nn dw a cs co, w.Ok := by
  have hch : ∀ w ∈ charWords s cs co, w.Ok := by
    intro w hw
    simp only [charWords, List.mem_append] at hw
    rcases hw with hw | hw
    · cases cs <;> simp at hw
      subst hw; exact ⟨hs _, (hcs _ rfl).1, fun _ => (hcs _ rfl).2⟩
    · cases co <;> simp at hw
      subst hw; exact ⟨hs _, (hco _ rfl).1, fun _ => (hco _ rfl).2⟩
  intro w hw
  simp only [words, List.mem_append] at hw
  rcases hw with ((((hw | hw) | hw) | hw) | hw) | hw
  · cases u <;> simp at hw
    subst hw; exact hs _
  · split at hw
    · exact hch w hw
    · cases hw
  · unfold nullWords at hw
    split at hw
    · rw [List.mem_singleton] at hw; subst hw; exact hs _
    · split at hw
      · rw [List.mem_singleton] at hw; subst hw; exact hs _
      · cases hw
  · exact hd w hw
  · cases a <;> simp at hw
    subst hw; exact hs _
  · split at hw
    · cases hw
    · exact hch w hw

theorem upper_of_map {x v : Option Str} (h : x.map upper = v) : v.map upper = v := by
  subst h
  cases x with
  | none => rfl
  | some s => simp [upper_upper]

theorem wordsOf_ok {c : Column} {s : Style} {hasLen : Bool} {dw : List Word} (h : c.Plain) (hs : s.Fits c) (hd : Written s hasLen c.default dw) :
    ∀ w ∈ wordsOf c s dw, w.Ok := by
  refine words_ok (s := s.ws) hs.spell (hd.ok hs.spell) ?_ ?_
  · intro v hv
    obtain ⟨x, hx, rfl⟩ := Option.map_eq_some_iff.mp hv
    have := h.charset x hx
    exact ⟨Spelled.bare (hs.spell x) this.2.2, Spelled.ne (hs.spell x) this.2.1⟩
  · intro v hv
    obtain ⟨x, hx, rfl⟩ := Option.map_eq_some_iff.mp hv
    have := h.collate x hx
    exact ⟨Spelled.bare (hs.spell x) this.2.2, Spelled.ne (hs.spell x) this.2.1⟩

theorem type_lower : ∀ cls : ColClass, ∀ t ∈ plainTypes cls, lower t ≠ py"integer" := by
  intro cls
  cases cls <;> decide +kernel

/-! ## Remarks on defaults -/

section
variable {s : Style} {hasLen : Bool} {d : Option Str} {dw : List Word} {n : Str}

theorem Written.character (h : Written s hasLen d dw) (hd : IsDefault dw) (hsp : ∀ w, Spelled w (s.spell w)) :
    characterWarnings n (defaultText dw) = match (generalizing := false) d with
      | .none => []
      | .some v => if s.bare v && !isNumeric v then [missingQuotes n v] else [] := by
  unfold characterWarnings
  cases h with
  | none => rfl
  | null _ =>
    have h1 : lower (s.spell py"NULL") = py"null" := (hsp _).trans (by decide)
    have h2 : isQuoted (s.spell py"NULL") = false := by
      apply isQuoted_bare
      intro c hc
      have hcs := congrArg List.head? h1
      rw [lower, List.head?_map, hc] at hcs
      rintro rfl
      exact absurd hcs (by decide)
    simp only [defaultText, inQuotesIf, h2, h1, Bool.false_eq_true, if_false, if_true]
  | quoted _ hb _ => simp only [defaultText, inQuotesIf, isQuoted_quoted, if_true, hb, Bool.false_and, Bool.false_eq_true, if_false]
  | bare hb hs _ hl =>
    simp only [defaultText, inQuotesIf, isQuoted_bare (bare_head hb), Bool.false_eq_true, if_false, hl, hs, Bool.true_and]
    cases hn : isNumeric _ <;> rfl
  | stamp => cases hd

theorem Written.decimal (h : Written s hasLen d dw) (hd : IsDefault dw) (hsp : ∀ w, Spelled w (s.spell w)) :
    decimalWarnings n (defaultText dw) = match (generalizing := false) d with
      | .none => []
      | .some v => if s.bare v then [] else [needlessQuotes n] := by
  unfold decimalWarnings
  cases h with
  | none => rfl
  | null _ =>
    have h1 : lower (s.spell py"NULL") = py"null" := (hsp _).trans (by decide)
    have h2 : isQuoted (s.spell py"NULL") = false := by
      apply isQuoted_bare
      intro c hc
      have hcs := congrArg List.head? h1
      rw [lower, List.head?_map, hc] at hcs
      rintro rfl
      exact absurd hcs (by decide)
    simp only [defaultText, inQuotesIf, h2, Bool.false_eq_true, if_false]
  | quoted _ hb _ => simp only [defaultText, inQuotesIf, isQuoted_quoted, if_true, hb, Bool.false_eq_true, if_false]; rfl
  | bare hb hs _ hl => simp only [defaultText, inQuotesIf, isQuoted_bare (bare_head hb), Bool.false_eq_true, if_false, hs, if_true]
  | stamp => cases hd

theorem stamp_warned {k a b : Str} (hok : Word.Ok (.stamp k a b)) : characterWarnings n (some (a ++ py" " ++ b)) = [missingQuotes n (a ++ py" " ++ b)] := by
  have hq : isQuoted (a ++ py" " ++ b) = false := by
    apply isQuoted_bare
    intro c hc
    have hmem : c ∈ a ++ py" " ++ b := List.mem_of_mem_head? (by simpa using hc)
    simp only [List.mem_append] at hmem
    rcases hmem with (h1 | h1) | h1
    · exact (hok.2.1 c h1).2.2.2.2.1
    · intro hq; rw [hq] at h1; exact absurd h1 (by decide)
    · exact hok.2.2.2.2 c h1
  have hsp : ' ' ∈ a ++ py" " ++ b := by simp
  have hnull : lower (a ++ py" " ++ b) ≠ py"null" := by
    intro hl
    have : ' ' ∈ lower (a ++ py" " ++ b) := List.mem_map.mpr ⟨' ', hsp, by decide⟩
    rw [hl] at this
    exact absurd this (by decide)
  have hnum : isNumeric (a ++ py" " ++ b) = false := by
    cases hx : isNumeric (a ++ py" " ++ b) with
    | false => rfl
    | true =>
      simp only [isNumeric, Bool.and_eq_true, List.all_eq_true] at hx
      exact absurd (hx.2 ' ' hsp) (by decide)
  unfold characterWarnings
  simp only [hq, hnum, Bool.false_eq_true, if_false, hnull]
  rfl

theorem numeric_warned {t : Str} {w : Option Str} (hch : t ≠ py"char" ∧ t ≠ py"varchar") : numericWarnings n t w = [] := by
  unfold numericWarnings
  have : [py"char", py"varchar"].contains t = false := by simp [hch.1, hch.2]
  rw [this]
  cases w with
  | none => rfl
  | some v => simp

end

theorem digits_hasComma {d : Str} (h : Digits d) : hasChar ',' d = false := by
  unfold hasChar
  rw [List.any_eq_false]
  intro c hc he
  rw [beq_iff_eq] at he
  subst he
  exact absurd (h.2 _ hc) (by decide)

theorem type_not_char : ∀ t ∈ plainTypes .numeric, t ≠ py"CHAR" ∧ t ≠ py"VARCHAR" := by decide +kernel

/-- a plain column is read back, in whatever style it is written, whatever closes it -/
theorem column_read {c : Column} {s : Style} (h : c.Plain) (hs : s.Fits c) {e : Str} (he : Closing e) (hp : ∀ r, e ≠ '(' :: r) :
    ∃ pc c', bestChild definitionClasses (c.written s ++ e) none = .ok (some (.column pc, restOf [] e)) ∧ pc.asDefinition = .ok c' ∧
      SameColumn c c' ∧ c'.hasDefault = (c.default.isSome || s.nullDefault) ∧ c'.parsingErrors = [] ∧ (c'.ctype = c.columnType ∧ c'.UsualLength) ∧ pc.isPrimaryKey = false ∧ pc.name = c.name ∧
      c'.parsingWarnings = c.remarks s := by
  obtain ⟨shown, hlen, hcomma, hdef⟩ := h.len
  obtain ⟨l, hl⟩ := lenOf_of_plain hlen
  obtain ⟨dw, hdw⟩ := written_of_plain hs (fun v hv => (hdef v hv).1)
  have hws := wordsOf_ok h hs hdw
  rw [column_text hl hdw e]
  obtain ⟨ht0, _, hbt0, hut, hmap⟩ := type_facts c.cls c.columnType h.type
  have hsp : Spelled c.columnType (s.spell c.columnType) := hs.spell _
  have ht : Ident (s.spell c.columnType) := hsp.ident ht0
  have hsu : upper (s.spell c.columnType) = c.columnType := by rw [hsp.upper, hut]
  have hnt : normalizeType (s.spell c.columnType) = s.spell c.columnType := by
    unfold normalizeType
    rw [if_neg]
    rw [hs.spell]
    exact type_lower _ _ h.type
  have hbt : isBoolType (s.spell c.columnType) = false := by
    unfold isBoolType at hbt0 ⊢
    rw [hsu]
    rwa [hut] at hbt0
  have hname := stripTicks_ident h.name
  have hucs : c.characterSet.map upper = c.characterSet := upper_of_map rfl
  have huco : c.collate.map upper = c.collate := upper_of_map rfl
  have hbare : ∀ x : Option Str, (∀ v, x = some v → c.cls = .string ∧ v ≠ [] ∧ Bare v) → ∀ v, x.map s.spell = some v → Bare v := by
    intro x hx v hv
    obtain ⟨y, hy, rfl⟩ := Option.map_eq_some_iff.mp hv
    exact Spelled.bare (hs.spell y) (hx y hy).2.2
  have hcs := hbare _ h.charset
  have hco := hbare _ h.collate
  have hns : c.cls ≠ .string → c.characterSet = none ∧ c.collate = none := by
    intro hs
    constructor
    · cases hx : c.characterSet with
      | none => rfl
      | some v => exact absurd (h.charset v hx).1 hs
    · cases hx : c.collate with
      | none => rfl
      | some v => exact absurd (h.collate v hx).1 hs
  have hcl := hmap
  obtain ⟨hs1, hs2⟩ := hdw.sense hs.spell
  -- what is left to show once the parsed column is known
  have fin : ∀ (S : Str) (pc : ParsedColumn), bestChild definitionClasses S none = .ok (some (.column pc, restOf [] e)) → pc.name = c.name → pc.ctype = s.spell c.columnType → (pc.len = c.len ∨ (c.len.absent = true ∧ pc.len.absent = true)) →
      (pc.len.absent = true → pc.len = if (c.default.getD []).contains ' ' then .none else .str []) → pc.null = c.null → pc.hasDefault = (c.default.isSome || s.nullDefault) → pc.default = c.default → pc.unsigned.getD false = c.isUnsigned → pc.autoInc.getD false = c.isAutoInc →
      pc.charset = c.characterSet.map s.spell → pc.collation = c.collate.map s.spell → pc.isPrimaryKey = false → pc.parsingWarnings = c.remarks s →
      ∃ pc c', bestChild definitionClasses S none = .ok (some (.column pc, restOf [] e)) ∧ pc.asDefinition = .ok c' ∧ SameColumn c c' ∧ c'.hasDefault = (c.default.isSome || s.nullDefault) ∧ c'.parsingErrors = [] ∧ (c'.ctype = c.columnType ∧ c'.UsualLength) ∧
        pc.isPrimaryKey = false ∧ pc.name = c.name ∧ c'.parsingWarnings = c.remarks s := by
    intro S pc hb h1 h2 h3 hln h4 h5 h6 h7 h8 h9 h10 h11 h12
    have hdefn : pc.asDefinition = .ok
        { cls := c.cls, name := pc.name, ctype := c.columnType, len := pc.len, null := pc.null, hasDefault := pc.hasDefault, default := pc.default
          unsigned := pc.unsigned, charset := pc.charset, collation := pc.collation, autoInc := pc.autoInc, enumValues := none
          parsingWarnings := pc.parsingWarnings } := by
      unfold ParsedColumn.asDefinition
      rw [h2, hsu, hcl]
    have hup : ∀ x : Option Str, x.map upper = x → (x.map s.spell).map upper = x := by
      intro x hx
      cases x with
      | none => rfl
      | some v =>
        simp only [Option.map_some, Option.some.injEq] at hx ⊢
        rw [Spelled.upper (hs.spell v), hx]
    refine ⟨pc, _, hb, hdefn, ?_⟩
    · refine ⟨⟨rfl, h1, ?_, h3, h4, h6, h7, h8, ?_, ?_, h.noValues.symm⟩, h5, rfl, ⟨rfl, ?_⟩, h11, h1, h12⟩
      · show upper c.columnType = _
        exact hut
      · show pc.charset.map upper = _
        rw [h9, hup _ hucs]
      · show pc.collation.map upper = _
        rw [h10, hup _ huco]
      · intro hab
        show pc.len = if (pc.default.getD []).contains ' ' then _ else _
        rw [h6]
        exact hln hab
  unfold wordsOf at hws ⊢
  generalize hu : c.isUnsigned = u at *
  generalize ha : c.isAutoInc = a at *
  cases hl' : l with
  | two x y =>
    subst hl'
    generalize hlenEq : c.len = len at hl
    cases hl with
    | two hx hy =>
      have hc : hasChar ',' (x ++ py"," ++ y) = true := by simp [hasChar]
      obtain ⟨hnum, hauto⟩ := hcomma hc
      obtain ⟨hcs0, hco0⟩ := hns (by rw [hnum]; simp)
      subst hauto
      have hd : IsDefault dw := by
        rcases hdw.isDefault with hd | ⟨_, _, _, _, hf, _⟩
        · exact hd
        · simp at hf
      obtain ⟨r1, r2⟩ := read_decimal (n := c.name) (t := s.spell c.columnType) (s := s.ws) (a := x) (b := y) (u := u) (nn := !c.null) hd
      rw [hcs0, hco0] at hws ⊢
      have hb := best_decimal h.name ht he hws hx hy r1
      unfold outcome at hb
      rw [show (Option.map s.spell none) = none from rfl, r1, process_comma _ _ _ (by simp), r2] at hb
      exact fin _ _ hb hname rfl (Or.inl hlenEq.symm) (fun hab => absurd hab (by simp [Len.absent])) (by simp) hs2 hs1 rfl rfl (by rw [hcs0]; rfl) (by rw [hco0]; rfl) rfl
        (by
          rw [hname]
          refine (hdw.decimal hd hs.spell).trans ?_
          have hblank := hdw.noBlank hd
          unfold Column.remarks
          cases hdv : c.default with
          | none => rfl
          | some v =>
            rw [hdv] at hblank
            simp only [Option.getD_some] at hblank
            have hna : Len.absent (.str (x ++ py"," ++ y)) = false := by simp [Len.absent]
            simp only [hblank, hlenEq, hna, Len.format, hc, Bool.false_eq_true, if_false, if_true])
  | one d =>
    subst hl'
    generalize hlenEq : c.len = len at hl
    cases hl with
    | one hdig =>
      have hd : IsDefault dw := by
        rcases hdw.isDefault with hd | ⟨_, _, _, _, hf, _⟩
        · exact hd
        · have := hdig.1
          cases shown with
          | nil => exact absurd rfl this
          | cons _ _ => simp at hf
      by_cases hua : (u || a) = true
      · have hnum : c.cls = .numeric := by
          apply Classical.byContradiction
          intro hne
          obtain ⟨h1, h2⟩ := h.number hne
          rw [hu] at h1; rw [ha] at h2
          rw [h1, h2] at hua
          cases hua
        obtain ⟨hcs0, hco0⟩ := hns (by rw [hnum]; simp)
        obtain ⟨r1, r2, r3⟩ := read_numeric (n := c.name) (t := s.spell c.columnType) (s := s.ws) (d := shown) (u := u) (au := a) (nn := !c.null) hd
        rw [hcs0, hco0] at hws ⊢
        have hb := best_numeric h.name ht he hws hdig (r2 hua) r1
        unfold outcome at hb
        rw [show (Option.map s.spell none) = none from rfl, r1, process_comma _ _ _ (by simp), r3] at hb
        exact fin _ _ hb hname hnt (Or.inl hlenEq.symm) (fun hab => absurd hab (by simp [Len.absent, hdig.1])) (by simp) hs2 hs1 rfl rfl (by rw [hcs0]; rfl) (by rw [hco0]; rfl) rfl
          (by
            have hch : s.spell c.columnType ≠ py"char" ∧ s.spell c.columnType ≠ py"varchar" := by
              have hty := h.type
              rw [hnum] at hty
              obtain ⟨n1, n2⟩ := type_not_char _ hty
              constructor
              · intro e0; apply n1; rw [← hsu, e0]; decide
              · intro e0; apply n2; rw [← hsu, e0]; decide
            refine (numeric_warned (by rw [hnt]; exact hch)).trans ?_
            have hblank := hdw.noBlank hd
            unfold Column.remarks
            cases hdv : c.default with
            | none => rfl
            | some v =>
              rw [hdv] at hblank
              simp only [Option.getD_some] at hblank
              have hna : Len.absent (.str shown) = false := by simp [Len.absent, hdig.1]
              simp only [hblank, hlenEq, hna, Len.format, hu, ha, hua, digits_hasComma hdig, Bool.false_eq_true, if_false, if_true])
      · obtain ⟨rfl, rfl⟩ : u = false ∧ a = false := by
          cases u <;> cases a <;> simp_all
        obtain ⟨r1, r2⟩ := read_character (n := c.name) (t := s.spell c.columnType) (s := s.ws) (d := shown) (nn := !c.null) (cs := c.characterSet.map s.spell) (co := c.collate.map s.spell) hd
        have hb := best_character h.name ht he hws hdig r1
        unfold outcome at hb
        rw [r1, process_comma _ _ _ (by simp), r2] at hb
        exact fin _ _ hb hname hnt (Or.inl hlenEq.symm) (fun hab => absurd hab (by simp [Len.absent, hdig.1])) (by simp) hs2 hs1 rfl rfl (unquote_value hcs) (unquote_value hco) rfl
          (by
            rw [hname]
            refine (hdw.character hd hs.spell).trans ?_
            have hblank := hdw.noBlank hd
            unfold Column.remarks
            cases hdv : c.default with
            | none => rfl
            | some v =>
              rw [hdv] at hblank
              simp only [Option.getD_some] at hblank
              have hna : Len.absent (.str shown) = false := by simp [Len.absent, hdig.1]
              simp only [hblank, hlenEq, hna, Len.format, hu, ha, digits_hasComma hdig, Bool.false_eq_true, if_false, Bool.or_self])
  | none =>
    subst hl'
    have hlen0 : c.len.absent = true ∧ shown = [] := by
      generalize c.len = len at hl
      cases hl <;> exact ⟨rfl, rfl⟩
    obtain ⟨hlen0, rfl⟩ := hlen0
    rcases hdw.isDefault with hd | ⟨kk, x, y, rfl, _, hxy⟩
    · by_cases hcc : (c.characterSet.isSome || c.collate.isSome) = true
      · have hstr : c.cls = .string := by
          apply Classical.byContradiction
          intro hne
          obtain ⟨h1, h2⟩ := hns hne
          rw [h1, h2] at hcc
          cases hcc
        obtain ⟨h1, h2⟩ := h.number (by rw [hstr]; simp)
        rw [hu] at h1; rw [ha] at h2
        subst h1; subst h2
        obtain ⟨r1, r2⟩ := read_text (n := c.name) (t := s.spell c.columnType) (s := s.ws) (nn := !c.null) (cs := c.characterSet.map s.spell) (co := c.collate.map s.spell) hd
        have hb := best_text h.name ht he hws hp (plain_leaves hd (by simpa using hcc)) r1
        unfold outcome at hb
        rw [r1, process_comma _ _ _ (by simp), r2] at hb
        exact fin _ _ hb hname hnt (Or.inr ⟨hlen0, rfl⟩) (fun _ => by rw [hdw.noBlank hd]; rfl) (by simp) hs2 hs1 rfl rfl (unquote_value hcs) (unquote_value hco) rfl
          (by
            rw [hname]
            refine (hdw.character hd hs.spell).trans ?_
            have hblank := hdw.noBlank hd
            unfold Column.remarks
            cases hdv : c.default with
            | none => rfl
            | some v =>
              rw [hdv] at hblank
              simp only [Option.getD_some] at hblank
              simp only [hblank, hlen0, hcc, Bool.false_eq_true, if_false, if_true, Bool.true_and])
      · obtain ⟨h1, h2⟩ : c.characterSet = none ∧ c.collate = none := by
          cases hx : c.characterSet <;> cases hy : c.collate <;> simp_all
        obtain ⟨r1, r2⟩ := read_plain (n := c.name) (t := s.spell c.columnType) (s := s.ws) (u := u) (au := a) (nn := !c.null) hd (by rw [hnt]; exact hbt)
        rw [h1, h2] at hws ⊢
        have hb := best_plain h.name ht he hws hp r1
        unfold outcome at hb
        rw [show (Option.map s.spell none) = none from rfl, r1, process_comma _ _ _ (by simp), r2] at hb
        exact fin _ _ hb hname hnt (Or.inr ⟨hlen0, rfl⟩) (fun _ => by rw [hdw.noBlank hd]; rfl) (by simp) hs2 (hdw.plain hd hs.spell) rfl rfl (by rw [h1]; rfl) (by rw [h2]; rfl) rfl
          (by
            have hblank := hdw.noBlank hd
            unfold Column.remarks
            cases hdv : c.default with
            | none => rfl
            | some v =>
              rw [hdv] at hblank
              simp only [Option.getD_some] at hblank
              simp only [hblank, hlen0, h1, h2, Bool.false_eq_true, if_false, if_true, Option.isSome_none, Bool.or_self, Bool.false_and])
    · obtain ⟨h1, h2⟩ := (hdef _ hxy).2 (by simp)
      rw [h1] at hws ⊢; rw [h2] at hws ⊢
      obtain ⟨r1, r2, r3, r4⟩ := read_dateTime (n := c.name) (t := s.spell c.columnType) (s := s.ws) (k := kk) (nn := !c.null) (cs := c.characterSet.map s.spell) (co := c.collate.map s.spell) (a := x) (b := y)
      have hb := best_dateTime h.name ht he hws hp r3 r2 r1
      unfold outcome at hb
      rw [r1, process_comma _ _ _ (by simp), r4] at hb
      exact fin _ _ hb hname rfl (Or.inr ⟨hlen0, rfl⟩) (fun _ => by rw [hxy]; simp) (by simp) (by rw [hxy]; rfl) hs1 (by rw [h1]; rfl) (by rw [h2]; rfl)
        (unquote_value hcs) (unquote_value hco) rfl
        (by
          rw [hname]
          refine (stamp_warned (hws (.stamp kk x y) (by simp [words]))).trans ?_
          unfold Column.remarks
          have hbl : (x ++ py" " ++ y).contains ' ' = true := by simp
          simp only [hxy, hbl, if_true])

/-! ## The usual style -/

theorem usual_fits {c : Column} : Style.usual.Fits c := by
  refine ⟨fun _ => rfl, fun v _ hb => ?_⟩
  have hb : isNumeric v = true := hb
  obtain ⟨x, xs, rfl, _⟩ := numeric_digits hb
  refine ⟨by simp, ?_, (numeric_not_null hb).1⟩
  rw [Bool.eq_false_iff]
  intro hc
  simp only [isNumeric, Bool.and_eq_true, List.all_eq_true] at hb
  exact absurd (hb.2 ' ' (List.contains_iff_mem.mp hc)) (by decide)

/-- the usual style is the one in which columns are rendered -/
theorem written_usual {c : Column} (h : c.Plain) : c.written .usual = c.render := by
  have htype : c.typeString = c.columnType ++ (if c.len = .none ∨ c.len = .str [] then [] else py"(" ++ c.len.format ++ py")") := by
    unfold Column.typeString
    simp only [h.noValues]
  have hdp : c.defaultParts.flatMap (fun x => py" " ++ x) = Style.usual.default c.default := by
    unfold Column.defaultParts Style.default
    cases c.default with
    | none => rfl
    | some v =>
      cases v with
      | nil => simp [Style.usual, Style.value, isNumeric]
      | cons x xs => cases hn : isNumeric (x :: xs) <;> simp [Style.usual, Style.value, hn]
  have base : join py" " c.parts = py"`" ++ c.name ++ py"` " ++ c.columnType ++ (if c.len = .none ∨ c.len = .str [] then [] else py"(" ++ c.len.format ++ py")") ++
      (if c.isUnsigned then py" " ++ py"UNSIGNED" else []) ++ (if !c.null then py" " ++ py"NOT NULL" else []) ++ Style.usual.default c.default ++
        (if c.isAutoInc then py" " ++ py"AUTO_INCREMENT" else []) := by
    unfold Column.parts
    rw [List.append_assoc, List.append_assoc, List.append_assoc, List.cons_append, join_cons, htype, ← hdp]
    cases c.isUnsigned <;> cases c.null <;> cases c.isAutoInc <;> simp
  have hcls : c.cls ≠ .enum := by
    intro hc
    have := h.type
    rw [hc] at this
    simp [plainTypes] at this
  have hchars : c.render = join py" " c.parts ++ Style.usual.characters c := by
    unfold Column.render Style.characters
    have hnone : c.cls ≠ .string → c.characterSet = none ∧ c.collate = none := by
      intro hs
      constructor
      · cases hx : c.characterSet with
        | none => rfl
        | some v => exact absurd (h.charset v hx).1 hs
      · cases hx : c.collate with
        | none => rfl
        | some v => exact absurd (h.collate v hx).1 hs
    have hne : ∀ x : Option Str, (∀ v, x = some v → v ≠ []) → Column.nonEmpty x = x := by
      intro x hx
      cases x with
      | none => rfl
      | some v =>
        cases v with
        | nil => exact absurd rfl (hx _ rfl)
        | cons a as => rfl
    have h1 := hne _ (fun v hv => (h.charset v hv).2.1)
    have h2 := hne _ (fun v hv => (h.collate v hv).2.1)
    cases hc : c.cls with
    | numeric => obtain ⟨h1, h2⟩ := hnone (by rw [hc]; simp); simp [h1, h2]
    | date => obtain ⟨h1, h2⟩ := hnone (by rw [hc]; simp); simp [h1, h2]
    | enum => exact absurd hc hcls
    | string =>
      simp only [h1, h2]
      cases c.characterSet <;> cases c.collate <;> simp [Style.usual, Style.value]
  rw [hchars, base]
  unfold Column.written
  cases c.null <;> simp [Style.usual]

theorem ascii_lower : ∀ n : Fin 128, (Char.ofNat n).toLower.toLower = (Char.ofNat n).toLower := by decide +kernel

theorem toLower_toLower (c : Char) : c.toLower.toLower = c.toLower := by
  by_cases h : c.val ≥ 65 ∧ c.val ≤ 90
  · have h1 : 65 ≤ c.toNat := UInt32.le_iff_toNat_le.mp h.1
    have h2 : c.toNat ≤ 90 := UInt32.le_iff_toNat_le.mp h.2
    have := ascii_lower ⟨c.toNat, by omega⟩
    simpa using this
  · have : c.toLower = c := by
      unfold Char.toLower
      exact dif_neg h
    rw [this, this]

/-- every column can be written as the server does -/
theorem server_fits (n : Bool) (c : Column) : (Style.server n).Fits c := by
  refine ⟨?_, ?_⟩
  · intro w
    simp only [Style.server]
    split
    · rfl
    · unfold lower
      rw [List.map_map]
      exact List.map_congr_left (fun x _ => toLower_toLower x)
  · intro v _ hb
    simp only [Style.server, beq_iff_eq] at hb
    subst hb
    decide

end Mygrations

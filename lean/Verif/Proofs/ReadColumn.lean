import Verif.Proofs.Lex
import Verif.Proofs.Dict

/-! # Reading the text of a column -/

namespace Mygrations

/-- the length of a column, as text: none, one number, or two -/
inductive LenText
  | none
  | one (d : Str)
  | two (a b : Str)

/-- the text -/
def LenText.text : LenText → Str
  | none => []
  | one d => py"(" ++ d ++ py")"
  | two a b => py"(" ++ a ++ py"," ++ b ++ py")"

/-- numbers between the parentheses -/
def LenText.Ok : LenText → Prop
  | none => True
  | one d => Digits d
  | two a b => Digits a ∧ Digits b

/-- the text of a column: its name between backticks, type, length, words, and what follows -/
def colText (n t : Str) (l : LenText) (ws : List Word) (e : Str) : Str :=
  py"`" ++ n ++ py"`" ++ ' ' :: (t ++ (l.text ++ wordsTail ws e))

theorem word_noSpace {c : Char} (h : isWord c = true) : isSpace c = false := by
  simp only [isWord, isDigit, Bool.or_eq_true, Bool.and_eq_true, decide_eq_true_eq, beq_iff_eq, Char.le_def, UInt32.le_iff_toNat_le] at h
  have : 48 ≤ c.toNat ∧ c.toNat ≤ 122 := by
    rcases h with ((h | h) | h) | h
    · simp at h; omega
    · simp at h; omega
    · simp at h; omega
    · subst h; decide
  simp only [isSpace, Bool.or_eq_false_iff, Bool.and_eq_false_iff, decide_eq_false_iff_not, beq_eq_false_iff_ne]
  omega

theorem digit_word {c : Char} (h : isDigit c = true) : isWord c = true := by simp [isWord, h]

theorem word_nameChar {c : Char} (h : isWord c = true) : nameChar c = true := by
  have := word_noSpace h
  simp only [nameChar, this, Bool.not_false, Bool.and_true, Bool.and_eq_true, bne_iff_ne]
  constructor <;> rintro rfl <;> revert h <;> decide

theorem Ident.flat {n : Str} (h : Ident n) (b : Bool) : flat b n = true :=
  flat_noSpace (fun c hc => word_noSpace (h.2 c hc)) b (fun _ => h.1)

theorem ticked_nameChar {n : Str} (h : ∀ c ∈ n, isWord c = true) : ∀ c ∈ py"`" ++ n ++ py"`", nameChar c = true := by
  intro c hc
  simp only [List.mem_append, List.mem_cons, List.not_mem_nil, or_false] at hc
  rcases hc with (rfl | hc) | rfl
  · decide
  · exact word_nameChar (h c hc)
  · decide

theorem flat_ticked {n : Str} (h : ∀ c ∈ n, isWord c = true) : flat true (py"`" ++ n ++ py"`") = true := by
  apply flat_noSpace
  · intro c hc
    have := ticked_nameChar h c hc
    simp only [nameChar, Bool.and_eq_true, Bool.not_eq_true'] at this
    exact this.2
  · simp

theorem LenText.noSpace {l : LenText} (h : l.Ok) : ∀ c ∈ l.text, isSpace c = false := by
  cases l with
  | none => simp [LenText.text]
  | one d =>
    intro c hc
    simp only [LenText.text, List.mem_append, List.mem_cons, List.not_mem_nil, or_false] at hc
    rcases hc with (rfl | hc) | rfl
    · decide
    · exact word_noSpace (digit_word (h.2 c hc))
    · decide
  | two a b =>
    intro c hc
    simp only [LenText.text, List.mem_append, List.mem_cons, List.not_mem_nil, or_false] at hc
    rcases hc with (((rfl | hc) | rfl) | hc) | rfl
    · decide
    · exact word_noSpace (digit_word (h.1.2 c hc))
    · decide
    · exact word_noSpace (digit_word (h.2.2 c hc))
    · decide

section
variable {n t : Str} {l : LenText} {ws : List Word} {e : Str}

theorem lenTail_flat (hl : l.Ok) (he : Closing e) (hws : ∀ w ∈ ws, w.Ok) : flat false (l.text ++ wordsTail ws e) = true := by
  rw [flat_append (flat_noSpace (LenText.noSpace hl) false (by simp))]
  exact wordsTail_flat he hws

theorem colText_flat (hn : Ident n) (ht : Ident t) (hl : l.Ok) (he : Closing e) (hws : ∀ w ∈ ws, w.Ok) :
    flat true (colText n t l ws e) = true := by
  unfold colText
  rw [flat_space (flat_ticked hn.2), flat_append (ht.flat true)]
  exact lenTail_flat hl he hws

/-- the values of the first two rules -/
def headVals (n t : Str) : Dict PVal := [(py"name", .str (py"`" ++ n ++ py"`")), (py"type", .str t)]

/-- the first two rules of the column parsers -/
theorem column_head {rs : List (Rule Kind)} (hrs : ∀ r ∈ rs, r.kind.Idle) (hn : Ident n) (ht : Ident t) (hl : l.Ok) (he : Closing e)
    (hws : ∀ w ∈ ws, w.Ok) (hsep : ∀ c, (l.text ++ wordsTail ws e).head? = some c → isWord c = false) :
    simpleParse (columnHead ++ rs) (colText n t l ws e) = runRules Kind.parse rs (headVals n t) (strip (l.text ++ wordsTail ws e)) := by
  have hflat := lenTail_flat hl he hws
  unfold simpleParse
  rw [normalize_normal (Or.inr (colText_flat hn ht hl he hws))]
  simp only [columnHead, List.cons_append, List.nil_append]
  have h1 : (nameRule py"name").kind.parse (colText n t l ws e) =
      .ok (some (.str (py"`" ++ n ++ py"`"), t ++ (l.text ++ wordsTail ws e))) := by
    have := regex_hit (p := nameChar) (pre := []) (run := py"`" ++ n ++ py"`") (post := [])
      (r := ' ' :: (t ++ (l.text ++ wordsTail ws e))) (by simp) (ticked_nameChar hn.2) (by simp; decide)
    rw [strip_space (by rw [flat_append (ht.flat true)]; exact hflat)] at this
    exact congrArg Except.ok this
  have h2 : typeRule.kind.parse (t ++ (l.text ++ wordsTail ws e)) = .ok (some (.str t, strip (l.text ++ wordsTail ws e))) := by
    have := regex_hit (p := isWord) (pre := []) (run := t) (post := []) (r := l.text ++ wordsTail ws e) ht.1 ht.2 hsep
    exact congrArg Except.ok this
  have idle : ∀ p n, (({ kind := plus p, name := n } : Rule Kind)).kind.Idle := fun p n => rfl
  rw [run_step _ h1, run_step hrs h2]
  · rfl
  · intro r hr
    rcases List.mem_cons.mp hr with rfl | hr
    · rfl
    · exact hrs r hr

theorem sep_head (he : Closing e) : ∀ c, (l.text ++ wordsTail ws e).head? = some c → isWord c = false := by
  intro c hc
  cases l with
  | none =>
    rcases wordsTail_head he ws (by simpa [LenText.text] using hc) with rfl | rfl | rfl | rfl <;> decide
  | one d => simp [LenText.text] at hc; subst hc; decide
  | two a b => simp [LenText.text] at hc; subst hc; decide

/-- the text which is left when the words in `ws` are left -/
def restOf : List Word → Str → Str
  | [], ',' :: more => strip more
  | [], e => strip e
  | w :: ws, e => wordsText (w :: ws) e

theorem closeComma_rest (vals : Dict PVal) (ws : List Word) (e : Str) : (closeComma vals ws e).rest = restOf ws e := by
  unfold closeComma restOf
  split <;> first | rfl | (split <;> simp_all)

theorem closeComma_matched (vals : Dict PVal) (ws : List Word) (e : Str) : (closeComma vals ws e).matched = true := by
  unfold closeComma
  split <;> rfl

theorem restOf_nil_le (e : Str) : (restOf [] e).length ≤ e.length := by
  unfold restOf
  split
  · rename_i more _
    have := strip_length more
    simp only [List.length_cons]
    omega
  · rename_i h _; cases h; exact strip_length _
  · rename_i h; cases h

theorem wordsTail_length : ∀ (ws : List Word) (e : Str), e.length ≤ (wordsTail ws e).length
  | [], e => Nat.le_refl _
  | w :: ws, e => by
    have := wordsTail_length ws e
    simp only [wordsTail, List.length_cons, List.length_append]
    omega

theorem restOf_lt (w : Word) (ws : List Word) (e : Str) (hw : w.Ok) : (restOf [] e).length < (restOf (w :: ws) e).length := by
  have h1 := restOf_nil_le e
  have h2 := wordsTail_length ws e
  obtain ⟨c, cs, hc, _⟩ := Word.head_ne_comma hw
  simp only [restOf, wordsText, hc, List.length_append, List.length_cons] at *
  omega

theorem restOf_le {ws : List Word} (hws : ∀ w ∈ ws, w.Ok) (e : Str) : (restOf [] e).length ≤ (restOf ws e).length := by
  cases ws with
  | nil => exact Nat.le_refl _
  | cons w ws => exact Nat.le_of_lt (restOf_lt w ws e (hws w List.mem_cons_self))

/-- the rules which read words, and the comma -/
def tagRules (gs : List Tag) : List (Rule Kind) := gs.map Tag.rule ++ [endingComma]

theorem tagRules_idle (gs : List Tag) : ∀ r ∈ tagRules gs, r.kind.Idle := by
  intro r hr
  rcases List.mem_append.mp hr with hr | hr
  · obtain ⟨g, _, rfl⟩ := List.mem_map.mp hr
    exact g.idle
  · rw [List.mem_singleton] at hr; subst hr; exact endingComma_idle

/-- what a class makes of the words: its result -/
def outcome (c : ChildClass α) (gs : List Tag) (vals : Dict PVal) (ws : List Word) (e : Str) : α × Str :=
  (c.process (closeComma (runTags gs ws vals).1 (runTags gs ws vals).2 e).values, restOf (runTags gs ws vals).2 e)

theorem try_of_run {c : ChildClass α} {s : Str} {gs : List Tag} {vals : Dict PVal} {ws : List Word} {e : Str} (he : Closing e)
    (hws : ∀ w ∈ ws, w.Ok) (h : simpleParse c.rules s = runRules Kind.parse (tagRules gs) vals (wordsText ws e)) :
    c.tryParse s = .ok (some (outcome c gs vals ws e)) := by
  unfold ChildClass.tryParse
  rw [h, tagRules, run_tags gs vals he hws]
  simp only [closeComma_matched, if_true, closeComma_rest]
  rfl

theorem try_none {c : ChildClass α} {s : Str} {vals : Dict PVal} {rest : Str} (h : simpleParse c.rules s = .ok ⟨false, vals, rest⟩) :
    c.tryParse s = .ok none := by
  unfold ChildClass.tryParse
  rw [h]
  rfl

/-- classes which do not look for a length -/
theorem try_plain {c : ChildClass α} {gs : List Tag} (hc : c.rules = columnHead ++ tagRules gs) (hn : Ident n) (ht : Ident t)
    (he : Closing e) (hws : ∀ w ∈ ws, w.Ok) :
    c.tryParse (colText n t .none ws e) = .ok (some (outcome c gs (headVals n t) ws e)) := by
  apply try_of_run he hws
  rw [hc, column_head (l := .none) (tagRules_idle gs) hn ht trivial he hws (sep_head he)]
  simp only [LenText.text, List.nil_append]
  rw [strip_wordsTail he hws]

theorem closing_len (hl : l.Ok) (hne : l ≠ .none) (he : Closing e) (hws : ∀ w ∈ ws, w.Ok) : Closing (l.text ++ wordsTail ws e) := by
  right
  refine ⟨?_, lenTail_flat hl he hws⟩
  cases l with
  | none => exact absurd rfl hne
  | one d => exact ⟨d ++ py")" ++ wordsTail ws e, Or.inr (Or.inr (Or.inl (by simp [LenText.text])))⟩
  | two a b => exact ⟨a ++ py"," ++ b ++ py")" ++ wordsTail ws e, Or.inr (Or.inr (Or.inl (by simp [LenText.text])))⟩

theorem runTags_nil (gs : List Tag) (vals : Dict PVal) : runTags gs [] vals = (vals, []) := by cases gs <;> rfl

/-- they leave the length and everything after it -/
theorem try_plain_len {c : ChildClass α} {gs : List Tag} (hc : c.rules = columnHead ++ tagRules gs) (hn : Ident n) (ht : Ident t)
    (hl : l.Ok) (hne : l ≠ .none) (he : Closing e) (hws : ∀ w ∈ ws, w.Ok) :
    ∃ d rest, c.tryParse (colText n t l ws e) = .ok (some (d, rest)) ∧ e.length < rest.length := by
  have hcl := closing_len hl hne he hws
  have h := try_plain (ws := []) hc hn ht hcl (by simp)
  have h1 : colText n t .none [] (l.text ++ wordsTail ws e) = colText n t l ws e := by simp [colText, LenText.text, wordsTail]
  rw [h1] at h
  refine ⟨_, _, h, ?_⟩
  simp only [runTags_nil]
  have h2 : restOf [] (l.text ++ wordsTail ws e) = l.text ++ wordsTail ws e := by
    have hf := lenTail_flat hl he hws
    cases l with
    | none => exact absurd rfl hne
    | one d =>
      have : strip (LenText.text (.one d) ++ wordsTail ws e) = LenText.text (.one d) ++ wordsTail ws e :=
        strip_flat (by simpa [LenText.text, flat, show isSpace '(' = false from by decide] using hf)
      simpa [restOf, LenText.text] using this
    | two a b =>
      have : strip (LenText.text (.two a b) ++ wordsTail ws e) = LenText.text (.two a b) ++ wordsTail ws e :=
        strip_flat (by simpa [LenText.text, flat, show isSpace '(' = false from by decide] using hf)
      simpa [restOf, LenText.text] using this
  rw [h2]
  have h3 := wordsTail_length ws e
  have h4 : 0 < l.text.length := by cases l <;> simp [LenText.text] at * 
  simp only [List.length_append]
  omega

/-- the opening parenthesis is missing -/
theorem paren_miss {ws : List Word} (he : Closing e) (hp : ∀ r, e ≠ '(' :: r) (hws : ∀ w ∈ ws, w.Ok) :
    (lit py"(").kind.parse (wordsText ws e) = .ok none := by
  show Except.ok (literalParse py"(" _) = _
  have key : ∀ c cs, c ≠ '(' → literalParse py"(" (c :: cs) = none := by
    intro c cs h
    apply literal_miss
    simp only [startsWithCI_cons, startsWithCI_nil, Bool.and_true, beq_eq_false_iff_ne, ne_eq]
    intro h'
    exact h (toLower_eq (by decide) h')
  cases ws with
  | nil =>
    simp only [wordsText]
    rcases he.cases with ⟨rfl, h⟩ | ⟨r, h, rfl | rfl | rfl⟩ | ⟨r, h, rfl⟩ | ⟨r, h, rfl⟩ | ⟨r, h, rfl⟩ | ⟨r, h, rfl⟩ <;> rw [h]
    · rfl
    · rw [key _ _ (by decide)]
    · rw [key _ _ (by decide)]
    · exact absurd rfl (hp r)
    · rw [key _ _ (by decide)]
    · show Except.ok (literalParse py"(" ('C' :: (py"OMMENT '" ++ r))) = _
      rw [key _ _ (by decide)]
    · show Except.ok (literalParse py"(" ('O' :: (py"N UPDATE CURRENT_TIMESTAMP" ++ r))) = _
      rw [key _ _ (by decide)]
    · show Except.ok (literalParse py"(" ('C' :: (py"URRENT_TIMESTAMP" ++ r))) = _
      rw [key _ _ (by decide)]
  | cons w ws =>
    simp only [wordsText]
    have hw := hws w List.mem_cons_self
    obtain ⟨c, cs, h, _, hne⟩ := Word.head_ne hw
    rw [h, List.cons_append, key _ _ hne]

/-- classes which look for a length do not match when there is none -/
theorem try_len_none {c : ChildClass α} {rs : List (Rule Kind)} (hc : c.rules = columnHead ++ lit py"(" :: rs)
    (hrs : ∀ r ∈ rs, r.kind.Idle) (hn : Ident n) (ht : Ident t) (he : Closing e) (hp : ∀ r, e ≠ '(' :: r) (hws : ∀ w ∈ ws, w.Ok) :
    c.tryParse (colText n t .none ws e) = .ok none := by
  refine try_none (vals := headVals n t) (rest := wordsText ws e) ?_
  rw [hc, column_head (l := .none) _ hn ht trivial he hws (sep_head he)]
  · simp only [LenText.text, List.nil_append]
    rw [strip_wordsTail he hws, run_fail (paren_miss he hp hws) rfl]
  · intro r hr
    rcases List.mem_cons.mp hr with rfl | hr
    · rfl
    · exact hrs r hr

/-- a literal at the start of flat text -/
theorem lit_hit (v : Str) {r : Str} (h : flat true r = true) : (lit v).kind.parse (v ++ r) = .ok (some (.str v, r)) := by
  show Except.ok (literalParse v (v ++ r)) = _
  rw [literal_hit, strip_flat h]

theorem lit_miss {a c : Char} (as : Str) {cs : Str} (ha : a.toLower = a) (hr : a.toNat < 97 ∨ 122 < a.toNat) (h : c ≠ a) :
    (lit (a :: as)).kind.parse (c :: cs) = .ok none := by
  show Except.ok (literalParse (a :: as) (c :: cs)) = _
  rw [literal_miss]
  simp only [startsWithCI_cons, Bool.and_eq_false_imp, beq_iff_eq, ha]
  intro h'
  exact absurd (toLower_eq hr h') h

theorem Digits.flat {d : Str} (h : Digits d) (b : Bool) : flat b d = true :=
  flat_noSpace (fun c hc => word_noSpace (digit_word (h.2 c hc))) b (fun _ => h.1)

theorem digits_hit {d r : Str} (name : Str) (hd : Digits d) (hr : flat true r = true) (hh : ∀ c, r.head? = some c → isDigit c = false) :
    (digitsRule name).kind.parse (d ++ r) = .ok (some (.str d, r)) := by
  have := regex_hit (p := isDigit) (pre := []) (run := d) (post := []) (r := r) hd.1 hd.2 hh
  rw [strip_flat hr] at this
  exact congrArg Except.ok this

theorem close_hit (he : Closing e) (hws : ∀ w ∈ ws, w.Ok) : (lit py")").kind.parse (py")" ++ wordsTail ws e) = .ok (some (.str py")", wordsText ws e)) := by
  show Except.ok (literalParse py")" (py")" ++ wordsTail ws e)) = _
  rw [literal_hit, strip_wordsTail he hws]

theorem closeTail_flat (he : Closing e) (hws : ∀ w ∈ ws, w.Ok) : flat true (py")" ++ wordsTail ws e) = true := by
  rw [flat_append (by decide)]; exact wordsTail_flat he hws

/-- the values of a length with one number -/
def oneVals (n t d : Str) : Dict PVal :=
  headVals n t ++ [(py"(", .str py"("), (py"length", .str d), (py")", .str py")")]

/-- the length of `TypeCharacter` and `TypeNumeric` -/
theorem try_one {c : ChildClass α} {gs : List Tag} {d : Str}
    (hc : c.rules = columnHead ++ lit py"(" :: digitsRule py"length" :: lit py")" :: tagRules gs) (hn : Ident n) (ht : Ident t) (hd : Digits d)
    (he : Closing e) (hws : ∀ w ∈ ws, w.Ok) :
    c.tryParse (colText n t (.one d) ws e) = .ok (some (outcome c gs (oneVals n t d) ws e)) := by
  apply try_of_run he hws
  have hf := lenTail_flat (l := .one d) hd he hws
  have hct := closeTail_flat he hws
  have idle : ∀ r ∈ lit py"(" :: digitsRule py"length" :: lit py")" :: tagRules gs, r.kind.Idle := by
    intro r hr
    simp only [List.mem_cons] at hr
    rcases hr with rfl | rfl | rfl | hr
    · rfl
    · rfl
    · rfl
    · exact tagRules_idle gs r hr
  rw [hc, column_head idle hn ht (l := .one d) hd he hws (sep_head he)]
  have hs : strip (LenText.text (.one d) ++ wordsTail ws e) = py"(" ++ (d ++ (py")" ++ wordsTail ws e)) := by
    rw [strip_flat (by simpa [LenText.text, flat, show isSpace '(' = false from by decide] using hf)]
    simp [LenText.text]
  have hdt : flat true (d ++ (py")" ++ wordsTail ws e)) = true := by
    rw [flat_append (hd.flat true)]; exact flat_false_of_true hct
  rw [hs, run_step (fun r hr => idle r (List.mem_cons_of_mem _ hr)) (lit_hit py"(" hdt),
    run_step (fun r hr => idle r (List.mem_cons_of_mem _ (List.mem_cons_of_mem _ hr))) (digits_hit _ hd hct (by simp; decide)),
    run_step (tagRules_idle gs) (close_hit he hws)]
  rfl

/-- the values of a length with two numbers -/
def twoVals (n t a b : Str) : Dict PVal :=
  headVals n t ++ [(py"(", .str py"("), (py"length", .str a), (py"separating_comma", .str py","), (py"decimals", .str b), (py")", .str py")")]

theorem two_flat {a b : Str} (ha : Digits a) (hb : Digits b) (he : Closing e) (hws : ∀ w ∈ ws, w.Ok) :
    flat true (b ++ (py")" ++ wordsTail ws e)) = true ∧ flat true (py"," ++ (b ++ (py")" ++ wordsTail ws e))) = true ∧
    flat true (a ++ (py"," ++ (b ++ (py")" ++ wordsTail ws e)))) = true := by
  have h1 : flat true (b ++ (py")" ++ wordsTail ws e)) = true := by
    rw [flat_append (hb.flat true)]; exact flat_false_of_true (closeTail_flat he hws)
  have h2 : flat true (py"," ++ (b ++ (py")" ++ wordsTail ws e))) = true := by
    rw [flat_append (by decide)]; exact flat_false_of_true h1
  refine ⟨h1, h2, ?_⟩
  rw [flat_append (ha.flat true)]; exact flat_false_of_true h2

theorem two_strip {a b : Str} (ha : Digits a) (hb : Digits b) (he : Closing e) (hws : ∀ w ∈ ws, w.Ok) :
    strip (LenText.text (.two a b) ++ wordsTail ws e) = py"(" ++ (a ++ (py"," ++ (b ++ (py")" ++ wordsTail ws e)))) := by
  have hf := lenTail_flat (l := .two a b) ⟨ha, hb⟩ he hws
  rw [strip_flat (by simpa [LenText.text, flat, show isSpace '(' = false from by decide] using hf)]
  simp [LenText.text]

/-- the length of `TypeDecimal` -/
theorem try_two {c : ChildClass α} {gs : List Tag} {a b : Str}
    (hc : c.rules = columnHead ++ lit py"(" :: digitsRule py"length" :: { kind := .literal py",", name := py"separating_comma" } ::
      digitsRule py"decimals" :: lit py")" :: tagRules gs)
    (hn : Ident n) (ht : Ident t) (ha : Digits a) (hb : Digits b) (he : Closing e) (hws : ∀ w ∈ ws, w.Ok) :
    c.tryParse (colText n t (.two a b) ws e) = .ok (some (outcome c gs (twoVals n t a b) ws e)) := by
  apply try_of_run he hws
  have hct := closeTail_flat he hws
  obtain ⟨h1, h2, h3⟩ := two_flat ha hb he hws
  have idle : ∀ r ∈ lit py"(" :: digitsRule py"length" :: { kind := .literal py",", name := py"separating_comma" } ::
      digitsRule py"decimals" :: lit py")" :: tagRules gs, r.kind.Idle := by
    intro r hr
    simp only [List.mem_cons] at hr
    rcases hr with rfl | rfl | rfl | rfl | rfl | hr
    · rfl
    · rfl
    · rfl
    · rfl
    · rfl
    · exact tagRules_idle gs r hr
  have idle1 := fun r hr => idle r (List.mem_cons_of_mem _ hr)
  have idle2 := fun r hr => idle1 r (List.mem_cons_of_mem _ hr)
  have idle3 := fun r hr => idle2 r (List.mem_cons_of_mem _ hr)
  have idle4 := fun r hr => idle3 r (List.mem_cons_of_mem _ hr)
  have comma : (({ kind := .literal py",", name := py"separating_comma" } : Rule Kind)).kind.parse (py"," ++ (b ++ (py")" ++ wordsTail ws e))) =
      .ok (some (.str py",", b ++ (py")" ++ wordsTail ws e))) := lit_hit py"," h1
  rw [hc, column_head idle hn ht (l := .two a b) ⟨ha, hb⟩ he hws (sep_head he), two_strip ha hb he hws, run_step idle1 (lit_hit py"(" h3),
    run_step idle2 (digits_hit _ ha h2 (by simp; decide)), run_step idle3 comma,
    run_step idle4 (digits_hit _ hb hct (by simp; decide)), run_step (tagRules_idle gs) (close_hit he hws)]
  rfl

/-- `TypeDecimal` on one number, `TypeCharacter` and `TypeNumeric` on two -/
theorem try_one_two {c : ChildClass α} {r : Rule Kind} {rs : List (Rule Kind)} {a b : Str} (hr : r = lit py")")
    (hc : c.rules = columnHead ++ lit py"(" :: digitsRule py"length" :: r :: rs) (hrs : ∀ r ∈ rs, r.kind.Idle)
    (hn : Ident n) (ht : Ident t) (ha : Digits a) (hb : Digits b) (he : Closing e) (hws : ∀ w ∈ ws, w.Ok) :
    c.tryParse (colText n t (.two a b) ws e) = .ok none := by
  obtain ⟨h1, h2, h3⟩ := two_flat ha hb he hws
  subst hr
  have idle : ∀ r ∈ lit py"(" :: digitsRule py"length" :: lit py")" :: rs, r.kind.Idle := by
    intro r hr
    simp only [List.mem_cons] at hr
    rcases hr with rfl | rfl | rfl | hr
    · rfl
    · rfl
    · rfl
    · exact hrs r hr
  have idle1 := fun r hr => idle r (List.mem_cons_of_mem _ hr)
  have idle2 := fun r hr => idle1 r (List.mem_cons_of_mem _ hr)
  have close : (lit py")").kind.parse (py"," ++ (b ++ (py")" ++ wordsTail ws e))) = .ok none :=
    lit_miss (a := ')') (c := ',') [] (by decide) (by decide) (by decide)
  apply try_none
  rw [hc, column_head idle hn ht (l := .two a b) ⟨ha, hb⟩ he hws (sep_head he), two_strip ha hb he hws, run_step idle1 (lit_hit py"(" h3),
    run_step idle2 (digits_hit _ ha h2 (by simp; decide)), run_fail close rfl]

theorem try_two_one {c : ChildClass α} {rs : List (Rule Kind)} {d : Str}
    (hc : c.rules = columnHead ++ lit py"(" :: digitsRule py"length" :: { kind := .literal py",", name := py"separating_comma" } :: rs)
    (hrs : ∀ r ∈ rs, r.kind.Idle) (hn : Ident n) (ht : Ident t) (hd : Digits d) (he : Closing e) (hws : ∀ w ∈ ws, w.Ok) :
    c.tryParse (colText n t (.one d) ws e) = .ok none := by
  have hf := lenTail_flat (l := .one d) hd he hws
  have hct := closeTail_flat he hws
  have idle : ∀ r ∈ lit py"(" :: digitsRule py"length" :: { kind := .literal py",", name := py"separating_comma" } :: rs, r.kind.Idle := by
    intro r hr
    simp only [List.mem_cons] at hr
    rcases hr with rfl | rfl | rfl | hr
    · rfl
    · rfl
    · rfl
    · exact hrs r hr
  have idle1 := fun r hr => idle r (List.mem_cons_of_mem _ hr)
  have idle2 := fun r hr => idle1 r (List.mem_cons_of_mem _ hr)
  have hs : strip (LenText.text (.one d) ++ wordsTail ws e) = py"(" ++ (d ++ (py")" ++ wordsTail ws e)) := by
    rw [strip_flat (by simpa [LenText.text, flat, show isSpace '(' = false from by decide] using hf)]
    simp [LenText.text]
  have hdt : flat true (d ++ (py")" ++ wordsTail ws e)) = true := by
    rw [flat_append (hd.flat true)]; exact flat_false_of_true hct
  have comma : (({ kind := .literal py",", name := py"separating_comma" } : Rule Kind)).kind.parse (py")" ++ wordsTail ws e) = .ok none :=
    lit_miss (a := ',') (c := ')') [] (by decide) (by decide) (by decide)
  apply try_none
  rw [hc, column_head idle hn ht (l := .one d) hd he hws (sep_head he), hs, run_step idle1 (lit_hit py"(" hdt),
    run_step idle2 (digits_hit _ hd hct (by simp; decide)), run_fail comma rfl]

/-! ## `TypeEnum` takes a number for the list of its values -/

theorem delim_word {endc sep quote : Char} : ∀ (d : Str) (st : DelimState) (r : Str), st.inQuote = false →
    (∀ c ∈ d, c ≠ quote ∧ c.toLower ≠ endc.toLower ∧ c ≠ sep ∧ c ≠ ' ') → d ≠ [] →
    delimLoop [endc] sep quote (d ++ r) st = delimLoop [endc] sep quote r { st with hasWord := true, current := st.current ++ d }
  | [], _, _, _, _, h => absurd rfl h
  | c :: d, st, r, hq, hd, _ => by
    obtain ⟨h1, h2, h3, h4⟩ := hd c List.mem_cons_self
    have he : startsWithCI [endc] (c :: (d ++ r)) = false := by
      simp [startsWithCI_cons, startsWithCI_nil, h2]
    rw [List.cons_append, delimLoop]
    simp only [h1, if_false, hq, Bool.false_eq_true, he, h3, h4]
    cases d with
    | nil => simp
    | cons x xs =>
      rw [delim_word (x :: xs) _ r rfl (fun c hc => hd c (List.mem_cons_of_mem _ hc)) (by simp)]
      simp

theorem digit_delim {c : Char} (h : isDigit c = true) : c ≠ '\'' ∧ c.toLower ≠ Char.toLower ')' ∧ c ≠ ',' ∧ c ≠ ' ' := by
  rw [digit_toLower h]
  refine ⟨digit_ne h (by decide), digit_ne h (by decide), digit_ne h (by decide), digit_ne h (by decide)⟩

theorem delim_end {endc sep quote : Char} (st : DelimState) (r : Str) (hq : st.inQuote = false) (h : endc ≠ quote) :
    delimLoop [endc] sep quote (endc :: r) st = (st.flush, some (endc :: r)) := by
  have he : startsWithCI [endc] (endc :: r) = true := by simp [startsWithCI_cons, startsWithCI_nil]
  rw [delimLoop]
  simp [h, hq, he]

theorem delim_sep {endc sep quote : Char} (st : DelimState) (r : Str) (hq : st.inQuote = false) (h : sep ≠ quote)
    (h' : sep.toLower ≠ endc.toLower) :
    delimLoop [endc] sep quote (sep :: r) st = delimLoop [endc] sep quote r { st.flush with current := [] } := by
  have he : startsWithCI [endc] (sep :: r) = false := by simp [startsWithCI_cons, startsWithCI_nil, h']
  rw [delimLoop]
  simp [h, hq, he]

theorem delim_one {d : Str} (hd : Digits d) (r : Str) :
    delimParse py")" ',' '\'' (d ++ (py")" ++ r)) = .ok (some (.list [d], py")" ++ r)) := by
  unfold delimParse
  rw [delim_word d {} _ rfl (fun c hc => digit_delim (hd.2 c hc)) hd.1, List.cons_append, List.nil_append, delim_end _ _ rfl (by decide)]
  simp [DelimState.flush]

theorem delim_two {a b : Str} (ha : Digits a) (hb : Digits b) (r : Str) :
    delimParse py")" ',' '\'' (a ++ (py"," ++ (b ++ (py")" ++ r)))) = .ok (some (.list [a, b], py")" ++ r)) := by
  unfold delimParse
  rw [delim_word a {} _ rfl (fun c hc => digit_delim (ha.2 c hc)) ha.1, List.cons_append, List.nil_append,
    delim_sep _ _ rfl (by decide) (by decide),
    delim_word b _ _ rfl (fun c hc => digit_delim (hb.2 c hc)) hb.1, List.cons_append, List.nil_append, delim_end _ _ rfl (by decide)]
  simp [DelimState.flush]

/-- the values of an enumeration -/
def enumVals (n t : Str) (vs : List Str) : Dict PVal :=
  headVals n t ++ [(py"(", .str py"("), (py"enum_values", .list vs), (py")", .str py")")]

theorem try_enum {c : ChildClass α} {gs : List Tag}
    (hc : c.rules = columnHead ++ lit py"(" :: delimited py"enum_values" '\'' py")" :: lit py")" :: tagRules gs)
    (hn : Ident n) (ht : Ident t) (hl : l.Ok) (hne : l ≠ .none) (he : Closing e) (hws : ∀ w ∈ ws, w.Ok) :
    ∃ vs, c.tryParse (colText n t l ws e) = .ok (some (outcome c gs (enumVals n t vs) ws e)) := by
  have hct := closeTail_flat he hws
  have idle : ∀ r ∈ lit py"(" :: delimited py"enum_values" '\'' py")" :: lit py")" :: tagRules gs, r.kind.Idle := by
    intro r hr
    simp only [List.mem_cons] at hr
    rcases hr with rfl | rfl | rfl | hr
    · rfl
    · rfl
    · rfl
    · exact tagRules_idle gs r hr
  have idle1 := fun r hr => idle r (List.mem_cons_of_mem _ hr)
  have idle2 := fun r hr => idle1 r (List.mem_cons_of_mem _ hr)
  cases l with
  | none => exact absurd rfl hne
  | one d =>
    refine ⟨[d], ?_⟩
    apply try_of_run he hws
    have hf := lenTail_flat (l := .one d) hl he hws
    have hs : strip (LenText.text (.one d) ++ wordsTail ws e) = py"(" ++ (d ++ (py")" ++ wordsTail ws e)) := by
      rw [strip_flat (by simpa [LenText.text, flat, show isSpace '(' = false from by decide] using hf)]
      simp [LenText.text]
    have hdt : flat true (d ++ (py")" ++ wordsTail ws e)) = true := by
      rw [flat_append (Digits.flat hl true)]; exact flat_false_of_true hct
    rw [hc, column_head idle hn ht (l := .one d) hl he hws (sep_head he), hs, run_step idle1 (lit_hit py"(" hdt),
      run_step (r := delimited py"enum_values" '\'' py")") idle2 (delim_one hl _), run_step (tagRules_idle gs) (close_hit he hws)]
    rfl
  | two a b =>
    refine ⟨[a, b], ?_⟩
    apply try_of_run he hws
    obtain ⟨h1, h2, h3⟩ := two_flat hl.1 hl.2 he hws
    rw [hc, column_head idle hn ht (l := .two a b) hl he hws (sep_head he), two_strip hl.1 hl.2 he hws, run_step idle1 (lit_hit py"(" h3),
      run_step (r := delimited py"enum_values" '\'' py")") idle2 (delim_two hl.1 hl.2 _), run_step (tagRules_idle gs) (close_hit he hws)]
    rfl

/-! ## The classes -/

/-- the words which the classes look for -/
def characterTags : List Tag := [.collate, .charset, .collate, .bareNull, .notNull, .collate, .charset, .collate, .default, .collate, .charset, .collate]
/-- `TypeNumeric` -/
def numericTags : List Tag := [.unsigned, .bareNull, .notNull, .default, .auto]
/-- `TypeDecimal` -/
def decimalTags : List Tag := [.unsigned, .bareNull, .notNull, .default]
/-- `TypeEnum` -/
def enumTags : List Tag := [.bareNull, .notNull, .default, .charset, .collate]
/-- `TypePlain` -/
def plainTags : List Tag := [.unsigned, .bareNull, .notNull, .primaryKey, .default, .bareNull, .notNull, .primaryKey, .auto]
/-- `TypeDateTime` -/
def dateTimeTags : List Tag := [.collate, .charset, .collate, .bareNull, .notNull, .collate, .charset, .collate, .single, .double, .collate, .charset, .collate]

/-- indexes and constraints do not start with a backtick -/
theorem try_tick {c : ChildClass α} {rs : List (Rule Kind)} {a : Char} {as : Str} (hc : c.rules = lit (a :: as) :: rs)
    (ha : a.toLower ≠ '`') {s : Str} (hs : flat true ('`' :: s) = true) : c.tryParse ('`' :: s) = .ok none := by
  refine try_none (vals := []) (rest := '`' :: s) ?_
  unfold simpleParse
  rw [hc, normalize_normal (Or.inr hs)]
  apply run_fail _ rfl
  show Except.ok (literalParse (a :: as) ('`' :: s)) = _
  rw [literal_miss]
  simp only [startsWithCI_cons, Bool.and_eq_false_imp, beq_iff_eq]
  intro h
  exact absurd h.symm ha

theorem try_tick_key {s : Str} (hs : flat true ('`' :: s) = true) : indexKey.tryParse ('`' :: s) = .ok none := by
  refine try_none (vals := []) (rest := '`' :: s) ?_
  unfold simpleParse
  rw [normalize_normal (Or.inr hs)]
  apply run_fail _ rfl
  show Except.ok (regexParse _ ('`' :: s)) = _
  have : ∀ (a : Char) (as : Str), a.toLower ≠ '`' → startsWithCI (a :: as) ('`' :: s) = false := by
    intro a as ha
    simp only [startsWithCI_cons, Bool.and_eq_false_imp, beq_iff_eq]
    intro h
    exact absurd h.symm ha
  simp [regexParse, this]

/-- the longest match among the twelve classes when a class `c` reads all of the words -/
theorem best_column {d : Definition} {i : Nat} {s : Str} {rest : Str} (hs : flat true ('`' :: s) = true)
    (total : ∀ c ∈ definitionClasses.drop 5, ∃ o, c.tryParse ('`' :: s) = .ok o)
    (before : ∀ c ∈ (definitionClasses.drop 5).take i, ∀ m r, c.tryParse ('`' :: s) = .ok (some (m, r)) → rest.length < r.length)
    (at_ : ∃ c, (definitionClasses.drop 5)[i]? = some c ∧ c.tryParse ('`' :: s) = .ok (some (d, rest)))
    (after : ∀ c ∈ (definitionClasses.drop 5).drop (i + 1), ∀ m r, c.tryParse ('`' :: s) = .ok (some (m, r)) → rest.length ≤ r.length) :
    bestChild definitionClasses ('`' :: s) none = .ok (some (d, rest)) := by
  have h1 : indexPrimary.tryParse ('`' :: s) = .ok none := try_tick rfl (by decide) hs
  have h2 : indexKey.tryParse ('`' :: s) = .ok none := try_tick_key hs
  have h3 : indexUnique.tryParse ('`' :: s) = .ok none := try_tick rfl (by decide) hs
  have h4 : constraintForeign.tryParse ('`' :: s) = .ok none := try_tick rfl (by decide) hs
  have h5 : constraintForeignBare.tryParse ('`' :: s) = .ok none := try_tick rfl (by decide) hs
  have hd : definitionClasses = indexPrimary :: indexKey :: indexUnique :: constraintForeign :: constraintForeignBare :: definitionClasses.drop 5 := rfl
  rw [hd]
  simp only [bestChild, h1, h2, h3, h4, h5]
  rw [bestChild_chosen]
  refine ⟨total, ?_⟩
  obtain ⟨c, hc, hm⟩ := at_
  have hi : i < (definitionClasses.drop 5).length := by
    rcases Nat.lt_or_ge i (definitionClasses.drop 5).length with h | h
    · exact h
    · rw [List.getElem?_eq_none h] at hc; cases hc
  refine ⟨(definitionClasses.drop 5).take i, c, (definitionClasses.drop 5).drop (i + 1), ?_, hm, before, after⟩
  rw [List.getElem?_eq_getElem hi, Option.some.injEq] at hc
  rw [← hc, List.getElem_cons_drop, List.take_append_drop]

theorem runTags_ok : ∀ (gs : List Tag) {ws : List Word} (vals : Dict PVal), (∀ w ∈ ws, w.Ok) → ∀ w ∈ (runTags gs ws vals).2, w.Ok
  | [], ws, vals, h => h
  | g :: gs, [], vals, h => by simp [runTags]
  | g :: gs, w :: ws, vals, h => by
    simp only [runTags]
    split
    · rename_i v new ha
      apply runTags_ok gs
      intro x hx
      rcases List.mem_append.mp hx with hx | hx
      · exact Tag.accept_ok ha (h w List.mem_cons_self) x hx
      · exact h x (List.mem_cons_of_mem _ hx)
    · exact runTags_ok gs vals h

/-- a class which leaves at least as much as `rest`, if it matches -/
def Leaves (rest : Str) (c : ChildClass α) (s : Str) : Prop :=
  ∃ o, c.tryParse s = .ok o ∧ ∀ m r, o = some (m, r) → rest.length ≤ r.length

/-- a class which leaves more than `rest`, if it matches -/
def LeavesMore (rest : Str) (c : ChildClass α) (s : Str) : Prop :=
  ∃ o, c.tryParse s = .ok o ∧ ∀ m r, o = some (m, r) → rest.length < r.length

theorem LeavesMore.le {rest : Str} {c : ChildClass α} {s : Str} (h : LeavesMore rest c s) : Leaves rest c s := by
  obtain ⟨o, h1, h2⟩ := h
  exact ⟨o, h1, fun m r hr => Nat.le_of_lt (h2 m r hr)⟩

theorem leavesMore_none {rest : Str} {c : ChildClass α} {s : Str} (h : c.tryParse s = .ok none) : LeavesMore rest c s :=
  ⟨none, h, fun _ _ h => by cases h⟩

theorem leaves_outcome {c : ChildClass α} {s : Str} {gs : List Tag} {vals : Dict PVal} (hws : ∀ w ∈ ws, w.Ok)
    (h : c.tryParse s = .ok (some (outcome c gs vals ws e))) : Leaves (restOf [] e) c s := by
  refine ⟨_, h, ?_⟩
  intro m r hr
  cases hr
  exact restOf_le (runTags_ok gs vals hws) e

theorem leavesMore_outcome {c : ChildClass α} {s : Str} {gs : List Tag} {vals : Dict PVal} (hws : ∀ w ∈ ws, w.Ok)
    (hne : (runTags gs ws vals).2 ≠ []) (h : c.tryParse s = .ok (some (outcome c gs vals ws e))) : LeavesMore (restOf [] e) c s := by
  refine ⟨_, h, ?_⟩
  intro m r hr
  cases hr
  obtain ⟨w, ws', hw⟩ := List.exists_cons_of_ne_nil hne
  have := runTags_ok gs vals hws
  show (restOf [] e).length < (restOf (runTags gs ws vals).2 e).length
  rw [hw] at this ⊢
  exact restOf_lt w ws' e (this w List.mem_cons_self)

theorem leavesMore_len {c : ChildClass α} {gs : List Tag} (hc : c.rules = columnHead ++ tagRules gs) (hn : Ident n) (ht : Ident t)
    (hl : l.Ok) (hne : l ≠ .none) (he : Closing e) (hws : ∀ w ∈ ws, w.Ok) : LeavesMore (restOf [] e) c (colText n t l ws e) := by
  obtain ⟨d, rest, h, hlt⟩ := try_plain_len hc hn ht hl hne he hws
  refine ⟨_, h, ?_⟩
  intro m r hr
  cases hr
  exact Nat.lt_of_le_of_lt (restOf_nil_le e) hlt

/-- the winner among the column classes -/
theorem best_column' (before after : List (ChildClass Definition)) (c : ChildClass Definition)
    (hcl : before ++ c :: after = [typeCharacter, typeNumeric, typeDecimal, typeEnum, typePlain, typeText, typeDateTime])
    (hn : Ident n) (ht : Ident t) (hl : l.Ok) (he : Closing e) (hws : ∀ w ∈ ws, w.Ok) {d : Definition} {rest : Str}
    (h1 : ∀ c ∈ before, LeavesMore rest c (colText n t l ws e)) (h2 : c.tryParse (colText n t l ws e) = .ok (some (d, rest)))
    (h3 : ∀ c ∈ after, Leaves rest c (colText n t l ws e)) :
    bestChild definitionClasses (colText n t l ws e) none = .ok (some (d, rest)) := by
  have hflat := colText_flat hn ht hl he hws
  obtain ⟨s, hs⟩ : ∃ s, colText n t l ws e = '`' :: s := ⟨_, rfl⟩
  rw [hs] at hflat h1 h2 h3 ⊢
  have hd : definitionClasses.drop 5 = before ++ c :: after := by rw [hcl]; rfl
  have hmem : ∀ x ∈ definitionClasses.drop 5, x ∈ before ∨ x = c ∨ x ∈ after := by
    intro x hx
    rw [hd] at hx
    simpa using hx
  apply best_column (i := before.length) hflat
  · intro x hx
    rcases hmem x hx with h | rfl | h
    · obtain ⟨o, ho, _⟩ := h1 x h; exact ⟨o, ho⟩
    · exact ⟨_, h2⟩
    · obtain ⟨o, ho, _⟩ := h3 x h; exact ⟨o, ho⟩
  · intro x hx m r hr
    rw [hd, List.take_left] at hx
    obtain ⟨o, ho, hlt⟩ := h1 x hx
    rw [ho] at hr
    cases hr
    exact hlt m r rfl
  · refine ⟨c, ?_, h2⟩
    rw [hd]
    simp
  · intro x hx m r hr
    rw [hd, show before.length + 1 = (before ++ [c]).length by simp, show before ++ c :: after = (before ++ [c]) ++ after by simp, List.drop_left] at hx
    obtain ⟨o, ho, hle⟩ := h3 x hx
    rw [ho] at hr
    cases hr
    exact hle m r rfl

section
variable (hn : Ident n) (ht : Ident t) (he : Closing e) (hws : ∀ w ∈ ws, w.Ok)
include hn ht he hws

theorem after_len (hl : l.Ok) (hne : l ≠ .none) :
    ∀ c ∈ [typeEnum, typePlain, typeText, typeDateTime], Leaves (restOf [] e) c (colText n t l ws e) := by
  intro c hc
  simp only [List.mem_cons, List.not_mem_nil, or_false] at hc
  rcases hc with rfl | rfl | rfl | rfl
  · obtain ⟨vs, h⟩ := try_enum (c := typeEnum) (gs := enumTags) rfl hn ht hl hne he hws
    exact leaves_outcome hws h
  · exact (leavesMore_len (gs := plainTags) rfl hn ht hl hne he hws).le
  · exact (leavesMore_len (gs := characterTags) rfl hn ht hl hne he hws).le
  · exact (leavesMore_len (gs := dateTimeTags) rfl hn ht hl hne he hws).le

theorem best_character {d : Str} (hd : Digits d) (hw : (runTags characterTags ws (oneVals n t d)).2 = []) :
    bestChild definitionClasses (colText n t (.one d) ws e) none =
      .ok (some (outcome typeCharacter characterTags (oneVals n t d) ws e)) := by
  have h := try_one (c := typeCharacter) (gs := characterTags) (d := d) rfl hn ht hd he hws
  apply best_column' [] [typeNumeric, typeDecimal, typeEnum, typePlain, typeText, typeDateTime] typeCharacter rfl hn ht (l := .one d) hd he hws (by simp) h
  rw [hw]
  intro c hc
  rcases List.mem_cons.mp hc with rfl | hc
  · exact leaves_outcome hws (try_one (c := typeNumeric) (gs := numericTags) (d := d) rfl hn ht hd he hws)
  rcases List.mem_cons.mp hc with rfl | hc
  · exact (leavesMore_none (try_two_one (c := typeDecimal) rfl (by simp [digitsRule, lit, optLit, endingComma, bareNull, defaultRule, Kind.Idle, plus, keyword, Kind.parse]; decide) hn ht hd he hws)).le
  · exact after_len hn ht he hws (l := .one d) hd (by simp) c hc

theorem best_numeric {d : Str} (hd : Digits d) (hw : (runTags characterTags ws (oneVals n t d)).2 ≠ [])
    (hw' : (runTags numericTags ws (oneVals n t d)).2 = []) :
    bestChild definitionClasses (colText n t (.one d) ws e) none =
      .ok (some (outcome typeNumeric numericTags (oneVals n t d) ws e)) := by
  have h := try_one (c := typeNumeric) (gs := numericTags) (d := d) rfl hn ht hd he hws
  apply best_column' [typeCharacter] [typeDecimal, typeEnum, typePlain, typeText, typeDateTime] typeNumeric rfl hn ht (l := .one d) hd he hws _ h
  · rw [hw']
    intro c hc
    rcases List.mem_cons.mp hc with rfl | hc
    · exact (leavesMore_none (try_two_one (c := typeDecimal) rfl (by simp [digitsRule, lit, optLit, endingComma, bareNull, defaultRule, Kind.Idle, plus, keyword, Kind.parse]; decide) hn ht hd he hws)).le
    · exact after_len hn ht he hws (l := .one d) hd (by simp) c hc
  · rw [hw']
    intro c hc
    rw [List.mem_singleton] at hc
    subst hc
    exact leavesMore_outcome hws hw (try_one (c := typeCharacter) (gs := characterTags) (d := d) rfl hn ht hd he hws)

theorem best_decimal {a b : Str} (ha : Digits a) (hb : Digits b) (hw : (runTags decimalTags ws (twoVals n t a b)).2 = []) :
    bestChild definitionClasses (colText n t (.two a b) ws e) none =
      .ok (some (outcome typeDecimal decimalTags (twoVals n t a b) ws e)) := by
  have h := try_two (c := typeDecimal) (gs := decimalTags) rfl hn ht ha hb he hws
  apply best_column' [typeCharacter, typeNumeric] [typeEnum, typePlain, typeText, typeDateTime] typeDecimal rfl hn ht (l := .two a b) ⟨ha, hb⟩ he hws _ h
  · rw [hw]
    exact after_len hn ht he hws (l := .two a b) ⟨ha, hb⟩ (by simp)
  · rw [hw]
    intro c hc
    simp only [List.mem_cons, List.not_mem_nil, or_false] at hc
    rcases hc with rfl | rfl
    · exact leavesMore_none (try_one_two (c := typeCharacter) rfl rfl (tagRules_idle characterTags) hn ht ha hb he hws)
    · exact leavesMore_none (try_one_two (c := typeNumeric) rfl rfl (tagRules_idle numericTags) hn ht ha hb he hws)

theorem before_none (hp : ∀ r, e ≠ '(' :: r) :
    ∀ c ∈ [typeCharacter, typeNumeric, typeDecimal, typeEnum], LeavesMore (restOf [] e) c (colText n t .none ws e) := by
  intro c hc
  simp only [List.mem_cons, List.not_mem_nil, or_false] at hc
  have i1 : ∀ n, (digitsRule n).kind.Idle := fun _ => rfl
  rcases hc with rfl | rfl | rfl | rfl
  · exact leavesMore_none (try_len_none (rs := digitsRule py"length" :: lit py")" :: tagRules characterTags) rfl
      (by intro r hr; simp only [List.mem_cons] at hr; rcases hr with rfl | rfl | hr; rfl; rfl; exact tagRules_idle _ r hr) hn ht he hp hws)
  · exact leavesMore_none (try_len_none (rs := digitsRule py"length" :: lit py")" :: tagRules numericTags) rfl
      (by intro r hr; simp only [List.mem_cons] at hr; rcases hr with rfl | rfl | hr; rfl; rfl; exact tagRules_idle _ r hr) hn ht he hp hws)
  · exact leavesMore_none (try_len_none (rs := digitsRule py"length" :: { kind := .literal py",", name := py"separating_comma" } ::
        digitsRule py"decimals" :: lit py")" :: tagRules decimalTags) rfl
      (by intro r hr; simp only [List.mem_cons] at hr; rcases hr with rfl | rfl | rfl | rfl | hr; rfl; rfl; rfl; rfl; exact tagRules_idle _ r hr) hn ht he hp hws)
  · exact leavesMore_none (try_len_none (rs := delimited py"enum_values" '\'' py")" :: lit py")" :: tagRules enumTags) rfl
      (by intro r hr; simp only [List.mem_cons] at hr; rcases hr with rfl | rfl | hr; rfl; rfl; exact tagRules_idle _ r hr) hn ht he hp hws)

theorem best_plain (hp : ∀ r, e ≠ '(' :: r) (hw : (runTags plainTags ws (headVals n t)).2 = []) :
    bestChild definitionClasses (colText n t .none ws e) none = .ok (some (outcome typePlain plainTags (headVals n t) ws e)) := by
  have h := try_plain (c := typePlain) (gs := plainTags) rfl hn ht he hws
  apply best_column' [typeCharacter, typeNumeric, typeDecimal, typeEnum] [typeText, typeDateTime] typePlain rfl hn ht (l := .none) trivial he hws _ h
  · rw [hw]
    intro c hc
    simp only [List.mem_cons, List.not_mem_nil, or_false] at hc
    rcases hc with rfl | rfl
    · exact leaves_outcome hws (try_plain (c := typeText) (gs := characterTags) rfl hn ht he hws)
    · exact leaves_outcome hws (try_plain (c := typeDateTime) (gs := dateTimeTags) rfl hn ht he hws)
  · rw [hw]
    exact before_none hn ht he hws hp

theorem best_text (hp : ∀ r, e ≠ '(' :: r) (hw : (runTags plainTags ws (headVals n t)).2 ≠ [])
    (hw' : (runTags characterTags ws (headVals n t)).2 = []) :
    bestChild definitionClasses (colText n t .none ws e) none = .ok (some (outcome typeText characterTags (headVals n t) ws e)) := by
  have h := try_plain (c := typeText) (gs := characterTags) rfl hn ht he hws
  apply best_column' [typeCharacter, typeNumeric, typeDecimal, typeEnum, typePlain] [typeDateTime] typeText rfl hn ht (l := .none) trivial he hws _ h
  · rw [hw']
    intro c hc
    rw [List.mem_singleton] at hc
    subst hc
    exact leaves_outcome hws (try_plain (c := typeDateTime) (gs := dateTimeTags) rfl hn ht he hws)
  · rw [hw']
    intro c hc
    rw [show [typeCharacter, typeNumeric, typeDecimal, typeEnum, typePlain] = [typeCharacter, typeNumeric, typeDecimal, typeEnum] ++ [typePlain] from rfl] at hc
    rcases List.mem_append.mp hc with hc | hc
    · exact before_none hn ht he hws hp c hc
    · rw [List.mem_singleton] at hc
      subst hc
      exact leavesMore_outcome hws hw (try_plain (c := typePlain) (gs := plainTags) rfl hn ht he hws)

theorem best_dateTime (hp : ∀ r, e ≠ '(' :: r) (hw : (runTags plainTags ws (headVals n t)).2 ≠ [])
    (hw' : (runTags characterTags ws (headVals n t)).2 ≠ []) (hw'' : (runTags dateTimeTags ws (headVals n t)).2 = []) :
    bestChild definitionClasses (colText n t .none ws e) none = .ok (some (outcome typeDateTime dateTimeTags (headVals n t) ws e)) := by
  have h := try_plain (c := typeDateTime) (gs := dateTimeTags) rfl hn ht he hws
  apply best_column' [typeCharacter, typeNumeric, typeDecimal, typeEnum, typePlain, typeText] [] typeDateTime rfl hn ht (l := .none) trivial he hws _ h
    (by simp)
  rw [hw'']
  intro c hc
  rw [show [typeCharacter, typeNumeric, typeDecimal, typeEnum, typePlain, typeText] = [typeCharacter, typeNumeric, typeDecimal, typeEnum] ++ [typePlain, typeText] from rfl] at hc
  rcases List.mem_append.mp hc with hc | hc
  · exact before_none hn ht he hws hp c hc
  · simp only [List.mem_cons, List.not_mem_nil, or_false] at hc
    rcases hc with rfl | rfl
    · exact leavesMore_outcome hws hw (try_plain (c := typePlain) (gs := plainTags) rfl hn ht he hws)
    · exact leavesMore_outcome hws hw' (try_plain (c := typeText) (gs := characterTags) rfl hn ht he hws)

end

end

/-! ## The column that is read -/

/-- how the words of a column are written: the spelling of the keywords, `NULL` written out, character set and collation
early or late, in quotes or not -/
structure WordStyle where
  spell : Str → Str
  null : Bool
  early : Bool
  quotes : Bool

/-- `NOT NULL` or `NULL` -/
def nullWords (s : WordStyle) (nn : Bool) : List Word :=
  if nn then [.notNull (s.spell py"NOT NULL")] else if s.null then [.null (s.spell py"NULL")] else []

/-- character set and collation -/
def charWords (s : WordStyle) (cs co : Option Str) : List Word :=
  (cs.map (Word.charset (s.spell py"CHARACTER SET") s.quotes)).toList ++ (co.map (Word.collate (s.spell py"COLLATE") s.quotes)).toList

/-- the words of a column -/
def words (s : WordStyle) (u nn : Bool) (dw : List Word) (a : Bool) (cs co : Option Str) : List Word :=
  (if u then [.unsigned (s.spell py"UNSIGNED")] else []) ++ (if s.early then charWords s cs co else []) ++ nullWords s nn ++ dw ++
    (if a then [.auto (s.spell py"AUTO_INCREMENT")] else []) ++ (if s.early then [] else charWords s cs co)

/-- the words of a default -/
inductive IsDefault : List Word → Prop
  | none : IsDefault []
  | some (k : Str) (q : Bool) (v : Str) : IsDefault [.default k q v]

/-- the text of a default -/
def defaultText : List Word → Option Str
  | [.default _ q v] => some (inQuotesIf q v)
  | [.stamp _ a b] => some (a ++ py" " ++ b)
  | _ => none

section
variable {n t d a b k : Str} {s : WordStyle} {u nn au : Bool} {dw : List Word} {cs co : Option Str}

set_option maxHeartbeats 800000 in
theorem read_character (h : IsDefault dw) :
    (runTags characterTags (words s false nn dw false cs co) (oneVals n t d)).2 = [] ∧
    typeCharacter.process (runTags characterTags (words s false nn dw false cs co) (oneVals n t d)).1 = .column
      { name := stripTicks (py"`" ++ n ++ py"`"), ctype := normalizeType t, len := .str d, null := !nn, hasDefault := (defaultText dw).isSome
        default := senseDefault (defaultText dw), charset := unquote (cs.map (inQuotesIf s.quotes)), collation := unquote (co.map (inQuotesIf s.quotes))
        parsingWarnings := characterWarnings (stripTicks (py"`" ++ n ++ py"`")) (defaultText dw) } := by
  obtain ⟨sp, nl, early, q⟩ := s
  cases h with
  | none => cases nn <;> cases nl <;> cases early <;> cases cs <;> cases co <;> exact ⟨rfl, rfl⟩
  | some k' q' v => cases nn <;> cases nl <;> cases early <;> cases cs <;> cases co <;> exact ⟨rfl, rfl⟩

set_option maxHeartbeats 800000 in
theorem read_text (h : IsDefault dw) :
    (runTags characterTags (words s false nn dw false cs co) (headVals n t)).2 = [] ∧
    typeText.process (runTags characterTags (words s false nn dw false cs co) (headVals n t)).1 = .column
      { name := stripTicks (py"`" ++ n ++ py"`"), ctype := normalizeType t, len := .str [], null := !nn, hasDefault := (defaultText dw).isSome
        default := senseDefault (defaultText dw), charset := unquote (cs.map (inQuotesIf s.quotes)), collation := unquote (co.map (inQuotesIf s.quotes))
        parsingWarnings := characterWarnings (stripTicks (py"`" ++ n ++ py"`")) (defaultText dw) } := by
  obtain ⟨sp, nl, early, q⟩ := s
  cases h with
  | none => cases nn <;> cases nl <;> cases early <;> cases cs <;> cases co <;> exact ⟨rfl, rfl⟩
  | some k' q' v => cases nn <;> cases nl <;> cases early <;> cases cs <;> cases co <;> exact ⟨rfl, rfl⟩

set_option maxHeartbeats 800000 in
theorem read_dateTime :
    (runTags dateTimeTags (words s false nn [.stamp k a b] false cs co) (headVals n t)).2 = [] ∧
    (runTags characterTags (words s false nn [.stamp k a b] false cs co) (headVals n t)).2 ≠ [] ∧
    (runTags plainTags (words s false nn [.stamp k a b] false cs co) (headVals n t)).2 ≠ [] ∧
    typeDateTime.process (runTags dateTimeTags (words s false nn [.stamp k a b] false cs co) (headVals n t)).1 = .column
      { name := stripTicks (py"`" ++ n ++ py"`"), ctype := t, len := .none, null := !nn, hasDefault := true
        default := senseDefault (some (a ++ py" " ++ b)), charset := unquote (cs.map (inQuotesIf s.quotes)), collation := unquote (co.map (inQuotesIf s.quotes))
        parsingWarnings := characterWarnings (stripTicks (py"`" ++ n ++ py"`")) (some (a ++ py" " ++ b)) } := by
  obtain ⟨sp, nl, early, q⟩ := s
  cases nn <;> cases nl <;> cases early <;> cases cs <;> cases co <;> exact ⟨rfl, List.cons_ne_nil _ _, List.cons_ne_nil _ _, rfl⟩

set_option maxHeartbeats 800000 in
theorem read_numeric (h : IsDefault dw) :
    (runTags numericTags (words s u nn dw au none none) (oneVals n t d)).2 = [] ∧
    ((u || au) = true → (runTags characterTags (words s u nn dw au none none) (oneVals n t d)).2 ≠ []) ∧
    typeNumeric.process (runTags numericTags (words s u nn dw au none none) (oneVals n t d)).1 = .column
      { name := stripTicks (py"`" ++ n ++ py"`"), ctype := normalizeType t, len := .str d, null := !nn, hasDefault := (defaultText dw).isSome
        default := senseDefault (defaultText dw), unsigned := some u, autoInc := some au, parsingWarnings := numericWarnings (stripTicks (py"`" ++ n ++ py"`")) (normalizeType t) (defaultText dw) } := by
  obtain ⟨sp, nl, early, q⟩ := s
  cases h with
  | none => cases nn <;> cases nl <;> cases early <;> cases u <;> cases au <;> refine ⟨rfl, fun h => ?_, rfl⟩ <;> first | exact List.cons_ne_nil _ _ | cases h
  | some k' q' v => cases nn <;> cases nl <;> cases early <;> cases u <;> cases au <;> refine ⟨rfl, fun h => ?_, rfl⟩ <;> first | exact List.cons_ne_nil _ _ | cases h

theorem read_decimal (h : IsDefault dw) :
    (runTags decimalTags (words s u nn dw false none none) (twoVals n t a b)).2 = [] ∧
    typeDecimal.process (runTags decimalTags (words s u nn dw false none none) (twoVals n t a b)).1 = .column
      { name := stripTicks (py"`" ++ n ++ py"`"), ctype := t, len := .str (a ++ py"," ++ b), null := !nn, hasDefault := (defaultText dw).isSome
        default := senseDefault (defaultText dw), unsigned := some u, parsingWarnings := decimalWarnings (stripTicks (py"`" ++ n ++ py"`")) (defaultText dw) } := by
  obtain ⟨sp, nl, early, q⟩ := s
  cases h with
  | none => cases nn <;> cases nl <;> cases early <;> cases u <;> exact ⟨rfl, rfl⟩
  | some k' q' v => cases nn <;> cases nl <;> cases early <;> cases u <;> exact ⟨rfl, rfl⟩

set_option maxHeartbeats 800000 in
theorem read_plain (h : IsDefault dw) (hb : isBoolType (normalizeType t) = false) :
    (runTags plainTags (words s u nn dw au none none) (headVals n t)).2 = [] ∧
    typePlain.process (runTags plainTags (words s u nn dw au none none) (headVals n t)).1 = .column
      { name := stripTicks (py"`" ++ n ++ py"`"), ctype := normalizeType t, len := .str [], null := !nn, hasDefault := (defaultText dw).isSome
        default := plainDefault false (defaultText dw), unsigned := some u, autoInc := some au } := by
  have key : ∀ vals : Dict PVal, textOf vals py"type" = t → typePlain.process vals = .column
      { name := stripTicks (textOf vals py"name"), ctype := normalizeType t, len := .str []
        null := !vals.has py"NOT NULL" && !vals.has py"PRIMARY KEY", hasDefault := vals.has py"default"
        default := plainDefault false (optTextOf vals py"default"), unsigned := some (vals.has py"UNSIGNED")
        autoInc := some (vals.has py"AUTO_INCREMENT"), isPrimaryKey := vals.has py"PRIMARY KEY" } := by
    intro vals ht
    simp only [typePlain, ht, hb]
    rfl
  obtain ⟨sp, nl, early, q⟩ := s
  cases h with
  | none => cases nn <;> cases nl <;> cases early <;> cases u <;> cases au <;> exact ⟨rfl, key _ rfl⟩
  | some k' q' v => cases nn <;> cases nl <;> cases early <;> cases u <;> cases au <;> exact ⟨rfl, key _ rfl⟩

theorem plain_leaves (h : IsDefault dw) (hc : cs.isSome || co.isSome) :
    (runTags plainTags (words s false nn dw false cs co) (headVals n t)).2 ≠ [] := by
  obtain ⟨sp, nl, early, q⟩ := s
  cases h with
  | none => cases nn <;> cases nl <;> cases early <;> cases cs <;> cases co <;> first | exact List.cons_ne_nil _ _ | cases hc
  | some k' q' v => cases nn <;> cases nl <;> cases early <;> cases cs <;> cases co <;> first | exact List.cons_ne_nil _ _ | cases hc

theorem has_eq_isSome {V : Type} (d : Dict V) (k : Str) : Dict.has d k = (Dict.get? d k).isSome := by
  induction d with
  | nil => rfl
  | cons e d ih =>
    obtain ⟨k', v⟩ := e
    simp only [Dict.has, List.any_cons, Dict.get?] at *
    by_cases h : k' = k
    · simp [h]
    · simp only [h, if_false, ← ih]
      simp [h]

/-- the comma is not looked at -/
theorem process_comma (vals : Dict PVal) (e : Str) : ∀ c ∈ [typeCharacter, typeNumeric, typeDecimal, typePlain, typeText, typeDateTime],
    c.process (closeComma vals [] e).values = c.process vals := by
  have key : ∀ c ∈ [typeCharacter, typeNumeric, typeDecimal, typePlain, typeText, typeDateTime], ∀ v,
      c.process (vals.set py"ending_comma" v) = c.process vals := by
    intro c hc v
    have h1 : ∀ k, k ≠ py"ending_comma" → Dict.get? (vals.set py"ending_comma" v) k = Dict.get? vals k := fun k hk => by
      rw [Dict.get?_set]; simp [hk.symm]
    have h2 : ∀ k, k ≠ py"ending_comma" → Dict.has (vals.set py"ending_comma" v) k = Dict.has vals k := fun k hk => by
      simp only [has_eq_isSome, h1 k hk]
    simp only [List.mem_cons, List.not_mem_nil, or_false] at hc
    rcases hc with rfl | rfl | rfl | rfl | rfl | rfl <;>
      simp only [typeCharacter, typeNumeric, typeDecimal, typePlain, typeText, typeDateTime, textOf, optTextOf, extractNull] <;>
      simp (discharger := decide) only [h1, h2] <;> rfl
  intro c hc
  unfold closeComma
  split
  · exact key c hc _
  · rfl
  · rename_i h; cases h

end

end Mygrations

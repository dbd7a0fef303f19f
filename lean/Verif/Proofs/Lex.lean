import Verif.Proofs.Engine
import Verif.Spec.Text

/-! # One rule at a time, on text of a known shape -/

namespace Mygrations

theorem startsWithCI_nil (s : Str) : startsWithCI [] s = true := by simp [startsWithCI, lower]

theorem startsWithCI_cons_nil (a : Char) (as : Str) : startsWithCI (a :: as) [] = false := by simp [startsWithCI, lower]

theorem startsWithCI_cons (a b : Char) (as bs : Str) :
    startsWithCI (a :: as) (b :: bs) = (b.toLower == a.toLower && startsWithCI as bs) := by simp [startsWithCI, lower]

theorem startsWithCI_append (l r : Str) : startsWithCI l (l ++ r) = true := by
  induction l with
  | nil => exact startsWithCI_nil _
  | cons a l ih => simp [startsWithCI_cons, ih]

theorem literal_hit (l r : Str) : literalParse l (l ++ r) = some (.str l, strip r) := by
  simp [literalParse, startsWithCI_append]

theorem literal_miss {l s : Str} (h : startsWithCI l s = false) : literalParse l s = none := by simp [literalParse, h]

theorem takeRun_eq {p : Char → Bool} {run r : Str} (hrun : ∀ c ∈ run, p c = true) (hr : ∀ c, r.head? = some c → p c = false) :
    takeRun p none (run ++ r) = run := by
  induction run with
  | nil =>
    cases r with
    | nil => rfl
    | cons c cs => simp [takeRun, hr c rfl]
  | cons a run ih =>
    simp only [List.cons_append, takeRun, hrun a List.mem_cons_self, if_true]
    rw [ih (fun c hc => hrun c (List.mem_cons_of_mem _ hc))]

theorem regex_hit {p : Char → Bool} {pre run post r : Str} (hne : run ≠ []) (hrun : ∀ c ∈ run, p c = true)
    (hr : ∀ c, (post ++ r).head? = some c → p c = false) :
    regexParse (.cls pre p none post) (pre ++ (run ++ (post ++ r))) = some (.str run, strip r) := by
  have hd : (pre ++ (run ++ (post ++ r))).drop pre.length = run ++ (post ++ r) := by simp
  have hd' : (pre ++ (run ++ (post ++ r))).drop (pre.length + run.length) = post ++ r := by
    rw [← List.drop_drop, hd]; simp
  simp only [regexParse, startsWithCI_append, if_true, hd, takeRun_eq hrun hr, hne, if_false, hd']
  simp

theorem regex_miss {p : Char → Bool} {m : Option Nat} {pre post s : Str} (h : startsWithCI pre s = false) :
    regexParse (.cls pre p m post) s = none := by simp [regexParse, h]

/-- a run which is empty -/
theorem regex_none {p : Char → Bool} {pre post r : Str} (hr : ∀ c, r.head? = some c → p c = false) :
    regexParse (.cls pre p none post) (pre ++ r) = none := by
  have hd : (pre ++ r).drop pre.length = r := by simp
  simp only [regexParse, startsWithCI_append, if_true, hd]
  rw [show takeRun p none r = [] from takeRun_eq (run := []) (by simp) hr]
  simp

/-! ## Spelling

Keywords are read in any mixture of capital and small letters. -/

/-- a way to write a keyword -/
def Spelled (kw k : Str) : Prop := lower k = lower kw

theorem Spelled.refl (k : Str) : Spelled k k := rfl

theorem Spelled.length {kw k : Str} (h : Spelled kw k) : k.length = kw.length := by
  have := congrArg List.length (show lower k = lower kw from h)
  simpa [lower] using this

theorem Spelled.append {kw k : Str} (h : Spelled kw k) (r : Str) : Spelled (kw ++ r) (k ++ r) := by
  show lower _ = lower _
  simp only [lower, List.map_append]
  rw [show List.map Char.toLower k = List.map Char.toLower kw from h]

theorem lower_take (s : Str) (n : Nat) : lower (s.take n) = (lower s).take n := by simp [lower, List.map_take]

theorem startsWithCI_spelled {kw k : Str} (h : Spelled kw k) (p r : Str) : startsWithCI p (k ++ r) = startsWithCI p (kw ++ r) := by
  have : lower (k ++ r) = lower (kw ++ r) := h.append r
  simp only [startsWithCI, lower_take, this]

theorem startsWithCI_hit {kw k : Str} (h : Spelled kw k) (r : Str) : startsWithCI kw (k ++ r) = true := by
  rw [startsWithCI_spelled h, startsWithCI_append]

theorem literal_spelled {l k : Str} (h : Spelled l k) (r : Str) : literalParse l (k ++ r) = some (.str l, strip r) := by
  simp [literalParse, startsWithCI_hit h, ← h.length]

theorem regex_spelled {p : Char → Bool} {pre k run post r : Str} (h : Spelled pre k) (hne : run ≠ []) (hrun : ∀ c ∈ run, p c = true)
    (hr : ∀ c, (post ++ r).head? = some c → p c = false) :
    regexParse (.cls pre p none post) (k ++ (run ++ (post ++ r))) = some (.str run, strip r) := by
  have hd : (k ++ (run ++ (post ++ r))).drop pre.length = run ++ (post ++ r) := by simp [← h.length]
  have hd' : (k ++ (run ++ (post ++ r))).drop (pre.length + run.length) = post ++ r := by
    rw [← List.drop_drop, hd]; simp
  simp only [regexParse, startsWithCI_hit h, if_true, hd, takeRun_eq hrun hr, hne, if_false, hd', startsWithCI_append]
  simp

theorem regex_spelled_none {p : Char → Bool} {pre k post r : Str} (h : Spelled pre k) (hr : ∀ c, r.head? = some c → p c = false) :
    regexParse (.cls pre p none post) (k ++ r) = none := by
  have hd : (k ++ r).drop pre.length = r := by simp [← h.length]
  simp only [regexParse, startsWithCI_hit h, if_true, hd]
  rw [show takeRun p none r = [] from takeRun_eq (run := []) (by simp) hr]
  simp

/-- a character which is not a letter is the same in both spellings -/
theorem Spelled.not_mem {kw k : Str} (h : Spelled kw k) {c : Char} (hc : c.toNat < 65 ∨ 122 < c.toNat) (hm : c ∉ kw) : c ∉ k := by
  intro hk
  have h1 : c.toLower = c := by
    rcases toLower_range c with e | e
    · exact e
    · exfalso
      unfold Char.toLower at e
      split at e
      · rename_i hh
        have h1 := UInt32.le_iff_toNat_le.mp hh.1
        have h2 := UInt32.le_iff_toNat_le.mp hh.2
        have h1 : 65 ≤ c.toNat := h1
        have h2 : c.toNat ≤ 90 := h2
        omega
      · omega
  have h2 : c ∈ lower k := List.mem_map.mpr ⟨c, hk, h1⟩
  rw [show lower k = lower kw from h] at h2
  obtain ⟨d, hd, he⟩ := List.mem_map.mp h2
  have := toLower_eq (x := d) (c := c) (by omega) he
  subst this
  exact hm hd

theorem toLower_space (c : Char) : isSpace c.toLower = isSpace c := by
  by_cases h : c.val ≥ 65 ∧ c.val ≤ 90
  · have h1 : 65 ≤ c.toNat := UInt32.le_iff_toNat_le.mp h.1
    have h2 : c.toNat ≤ 90 := UInt32.le_iff_toNat_le.mp h.2
    have a : isSpace c = false := by
      simp only [isSpace, Bool.or_eq_false_iff, Bool.and_eq_false_iff, decide_eq_false_iff_not, beq_eq_false_iff_ne]
      omega
    have b : isSpace c.toLower = false := by
      rcases toLower_range c with e | e
      · rw [e]; exact a
      · simp only [isSpace, Bool.or_eq_false_iff, Bool.and_eq_false_iff, decide_eq_false_iff_not, beq_eq_false_iff_ne]
        omega
    rw [a, b]
  · have : c.toLower = c := by
      unfold Char.toLower
      exact dif_neg h
    rw [this]

theorem flat_lower (s : Str) : ∀ b, flat b (lower s) = flat b s := by
  induction s with
  | nil => intro b; rfl
  | cons c s ih =>
    intro b
    have h1 := toLower_space c
    have h2 : (c.toLower == ' ') = (c == ' ') := by
      rw [Bool.eq_iff_iff, beq_iff_eq, beq_iff_eq]
      exact ⟨fun h => toLower_eq (by decide) h, fun h => by rw [h]; rfl⟩
    have ih : ∀ b, flat b (List.map Char.toLower s) = flat b s := ih
    show flat b (c.toLower :: List.map Char.toLower s) = _
    simp only [flat, h1, h2, ih]

theorem Spelled.flat {kw k : Str} (h : Spelled kw k) (b : Bool) : flat b k = flat b kw := by
  rw [← flat_lower k, ← flat_lower kw, show lower k = lower kw from h]

/-! ## Lists of rules -/

section
variable {K V : Type} {P : K → Str → Except PyErr (Option (V × Str))} {r : Rule K} {rs : List (Rule K)} {vals : Dict V} {s : Str}

theorem run_hit {v : V} {s' : Str} (h : P r.kind s = .ok (some (v, s'))) (hne : s' ≠ []) :
    runRules P (r :: rs) vals s = runRules P rs (vals.set r.name v) s' := by simp [runRules, h, hne]

theorem run_end {v : V} (h : P r.kind s = .ok (some (v, []))) :
    runRules P (r :: rs) vals s = .ok ⟨rs.all (·.optional), vals.set r.name v, []⟩ := by simp [runRules, h]

theorem run_skip (h : P r.kind s = .ok none) (ho : r.optional = true) : runRules P (r :: rs) vals s = runRules P rs vals s := by
  simp [runRules, h, ho]

theorem run_fail (h : P r.kind s = .ok none) (ho : r.optional = false) : runRules P (r :: rs) vals s = .ok ⟨false, vals, s⟩ := by
  simp [runRules, h, ho]

end

/-! ## The options of a column

What follows the type of a column is a list of words, and the rules which read it are all optional.  Running the rules
over the text amounts to running them over the words. -/

/-- the words -/
inductive Word
  | unsigned (k : Str)
  | null (k : Str)
  | notNull (k : Str)
  | default (k : Str) (quoted : Bool) (v : Str)
  | stamp (k : Str) (a b : Str)
  | junk (b : Str)
  | auto (k : Str)
  | charset (k : Str) (quoted : Bool) (v : Str)
  | collate (k : Str) (quoted : Bool) (v : Str)
  deriving DecidableEq, Repr

/-- a value with or without quotes -/
def inQuotesIf (q : Bool) (v : Str) : Str := if q then py"'" ++ v ++ py"'" else v

/-- the text of a word, the keyword of which is written `k`; a `stamp` is a quoted default with a blank in it, `junk` is
what is left of it when it was cut at the blank -/
def Word.text : Word → Str
  | unsigned k => k
  | null k => k
  | notNull k => k
  | default k q v => k ++ (py" " ++ inQuotesIf q v)
  | stamp k a b => k ++ (py" '" ++ a ++ py" " ++ b ++ py"'")
  | junk b => b ++ py"'"
  | auto k => k
  | charset k q v => k ++ (py" " ++ inQuotesIf q v)
  | collate k q v => k ++ (py" " ++ inQuotesIf q v)

theorem Bare.value {v : Str} (h : Bare v) : ∀ c ∈ v, valueChar c = true ∧ c ≠ '\'' ∧ c ≠ '"' := by
  intro c hc
  obtain ⟨h1, h2, h3, h4, h5, h6⟩ := h c hc
  exact ⟨by simp [valueChar, h1, h2, h3, h4], h5, h6⟩

/-- words as they can occur -/
def Word.Ok : Word → Prop
  | unsigned k => Spelled py"UNSIGNED" k
  | null k => Spelled py"NULL" k
  | notNull k => Spelled py"NOT NULL" k
  | default k q v => Spelled py"DEFAULT" k ∧ Bare v ∧ (q = false → v ≠ [])
  | stamp k a b => Spelled py"DEFAULT" k ∧ Bare a ∧ (∃ c cs, b = c :: cs ∧ isDigit c = true) ∧ flat true b = true ∧ ∀ c ∈ b, c ≠ '\''
  | junk b => (∃ c cs, b = c :: cs ∧ isDigit c = true) ∧ flat true b = true ∧ ∀ c ∈ b, c ≠ '\''
  | auto k => Spelled py"AUTO_INCREMENT" k
  | charset k q v => Spelled py"CHARACTER SET" k ∧ Bare v ∧ (q = false → v ≠ [])
  | collate k q v => Spelled py"COLLATE" k ∧ Bare v ∧ (q = false → v ≠ [])

/-- the text after the words: a comma or a parenthesis (perhaps after a blank) and more, a comment of the column, `ON UPDATE CURRENT_TIMESTAMP` (of
which the last word can be left), or nothing -/
def Closing (e : Str) : Prop := e = [] ∨
  ((∃ r, e = ',' :: r ∨ e = ')' :: r ∨ e = '(' :: r ∨ e = ' ' :: ')' :: r ∨ e = ' ' :: (py"COMMENT '" ++ r) ∨
    e = ' ' :: (py"ON UPDATE CURRENT_TIMESTAMP" ++ r) ∨ e = ' ' :: (py"CURRENT_TIMESTAMP" ++ r)) ∧ flat false e = true)

/-- a closing text without its leading blank -/
theorem Closing.cases {e : Str} (h : Closing e) : (e = [] ∧ strip e = []) ∨
    (∃ r, strip e = e ∧ (e = ',' :: r ∨ e = ')' :: r ∨ e = '(' :: r)) ∨ (∃ r, strip e = ')' :: r ∧ e = ' ' :: ')' :: r) ∨
    (∃ r, strip e = py"COMMENT '" ++ r ∧ e = ' ' :: (py"COMMENT '" ++ r)) ∨
    (∃ r, strip e = py"ON UPDATE CURRENT_TIMESTAMP" ++ r ∧ e = ' ' :: (py"ON UPDATE CURRENT_TIMESTAMP" ++ r)) ∨
    (∃ r, strip e = py"CURRENT_TIMESTAMP" ++ r ∧ e = ' ' :: (py"CURRENT_TIMESTAMP" ++ r)) := by
  rcases h with rfl | ⟨⟨r, rfl | rfl | rfl | rfl | rfl | rfl | rfl⟩, hf⟩
  · exact Or.inl ⟨rfl, rfl⟩
  · exact Or.inr (Or.inl ⟨r, strip_flat (by simpa [flat, show isSpace ',' = false from by decide] using hf), Or.inl rfl⟩)
  · exact Or.inr (Or.inl ⟨r, strip_flat (by simpa [flat, show isSpace ')' = false from by decide] using hf), Or.inr (Or.inl rfl)⟩)
  · exact Or.inr (Or.inl ⟨r, strip_flat (by simpa [flat, show isSpace '(' = false from by decide] using hf), Or.inr (Or.inr rfl)⟩)
  · refine Or.inr (Or.inr (Or.inl ⟨r, strip_space ?_, rfl⟩))
    have : flat (isSpace ' ') (')' :: r) = true := flat_tail hf
    exact this
  · refine Or.inr (Or.inr (Or.inr (Or.inl ⟨r, strip_space ?_, rfl⟩)))
    have : flat (isSpace ' ') (py"COMMENT '" ++ r) = true := flat_tail hf
    exact this
  · refine Or.inr (Or.inr (Or.inr (Or.inr (Or.inl ⟨r, strip_space ?_, rfl⟩))))
    have : flat (isSpace ' ') (py"ON UPDATE CURRENT_TIMESTAMP" ++ r) = true := flat_tail hf
    exact this
  · refine Or.inr (Or.inr (Or.inr (Or.inr (Or.inr ⟨r, strip_space ?_, rfl⟩))))
    have : flat (isSpace ' ') (py"CURRENT_TIMESTAMP" ++ r) = true := flat_tail hf
    exact this

/-- the words as text, with a blank before each -/
def wordsTail : List Word → Str → Str
  | [], e => e
  | w :: ws, e => ' ' :: (w.text ++ wordsTail ws e)

/-- the same without the leading blank: what is left when a rule has stripped it -/
def wordsText : List Word → Str → Str
  | [], e => strip e
  | w :: ws, e => w.text ++ wordsTail ws e

/-- the rules -/
inductive Tag
  | unsigned | bareNull | notNull | primaryKey | default | single | double | auto | charset | collate
  deriving DecidableEq, Repr

/-- the rule of a tag -/
def Tag.rule : Tag → Rule Kind
  | unsigned => optLit py"UNSIGNED"
  | bareNull => Mygrations.bareNull
  | notNull => optLit py"NOT NULL"
  | primaryKey => optLit py"PRIMARY KEY"
  | default => defaultRule
  | single => { kind := .regexp (.cls py"DEFAULT '" (· != '\'') none py"'"), name := py"default", optional := true }
  | double => { kind := .regexp (.cls py"DEFAULT \"" (· != '"') none py"\""), name := py"default", optional := true }
  | auto => optLit py"AUTO_INCREMENT"
  | charset => charsetRule
  | collate => collateRule

/-- what a rule makes of a word: its value and the words which replace it -/
def Tag.accept : Tag → Word → Option (Str × List Word)
  | unsigned, .unsigned _ => some (py"UNSIGNED", [])
  | bareNull, .null _ => some (py"NULL", [])
  | notNull, .notNull _ => some (py"NOT NULL", [])
  | default, .default _ q v => some (inQuotesIf q v, [])
  | default, .stamp _ a b => some (py"'" ++ a, [.junk b])
  | single, .default _ true v => if v = [] then none else some (v, [])
  | single, .stamp _ a b => some (a ++ py" " ++ b, [])
  | auto, .auto _ => some (py"AUTO_INCREMENT", [])
  | charset, .charset _ q v => some (inQuotesIf q v, [])
  | collate, .collate _ q v => some (inQuotesIf q v, [])
  | _, _ => none

theorem bare_noSpace {v : Str} (h : Bare v) : ∀ c ∈ v, isSpace c = false := by
  intro c hc
  exact (h c hc).1

theorem flat_quoted {v : Str} (h : ∀ c ∈ v, isSpace c = false) (pre : Str) (hp : flat true pre = true) :
    flat true (pre ++ v ++ py"'") = true := by
  have h1 : flat true (pre ++ v) = true := by
    rw [flat_append hp]
    exact flat_noSpace h false (by simp)
  rw [flat_append h1]
  decide

theorem inQuotesIf_noSpace {q : Bool} {v : Str} (h : Bare v) : ∀ c ∈ inQuotesIf q v, isSpace c = false := by
  intro c hc
  cases q with
  | false => exact (h c hc).1
  | true =>
    simp only [inQuotesIf, if_true, List.mem_append, List.mem_cons, List.not_mem_nil, or_false] at hc
    rcases hc with (rfl | hc) | rfl
    · decide
    · exact (h c hc).1
    · decide

theorem inQuotesIf_ne {q : Bool} {v : Str} (h : q = false → v ≠ []) : inQuotesIf q v ≠ [] := by
  cases q with
  | false => exact h rfl
  | true => simp [inQuotesIf]

/-- a keyword and a value -/
theorem flat_value {kw k v : Str} {q : Bool} (hk : Spelled kw k) (hkw : flat true kw = true) (hv : Bare v) (hne : q = false → v ≠ []) :
    flat true (k ++ (py" " ++ inQuotesIf q v)) = true := by
  show flat true (k ++ ' ' :: inQuotesIf q v) = true
  rw [flat_space (by rw [hk.flat]; exact hkw)]
  exact flat_noSpace (inQuotesIf_noSpace hv) true (fun _ => inQuotesIf_ne hne)

theorem Word.flat_text {w : Word} (h : w.Ok) : flat true w.text = true := by
  cases w with
  | unsigned k => exact (Spelled.flat h true).trans (by decide)
  | null k => exact (Spelled.flat h true).trans (by decide)
  | notNull k => exact (Spelled.flat h true).trans (by decide)
  | default k q v => exact flat_value h.1 (by decide) h.2.1 h.2.2
  | stamp k a b =>
    obtain ⟨hk, ha, _, hb, _⟩ := h
    have h0 : flat true (k ++ py" '") = true := (hk.append py" '").flat true
    have h1 : flat true (k ++ py" '" ++ a) = true := by
      rw [flat_append h0]
      exact flat_noSpace (bare_noSpace ha) false (by simp)
    have h2 : flat true (k ++ py" '" ++ a ++ ' ' :: b) = true := by rw [flat_space h1]; exact hb
    have h3 : flat true ((k ++ py" '" ++ a ++ ' ' :: b) ++ py"'") = true := by rw [flat_append h2]; decide
    simpa [Word.text] using h3
  | junk b =>
    have h3 : flat true (b ++ py"'") = true := by rw [flat_append h.2.1]; decide
    exact h3
  | auto k => exact (Spelled.flat h true).trans (by decide)
  | charset k q v => exact flat_value h.1 (by decide) h.2.1 h.2.2
  | collate k q v => exact flat_value h.1 (by decide) h.2.1 h.2.2

theorem closing_flat {e : Str} (h : Closing e) : flat false e = true := by
  rcases h with rfl | ⟨_, h⟩
  · rfl
  · exact h

theorem wordsTail_flat {e : Str} (he : Closing e) : ∀ {ws : List Word}, (∀ w ∈ ws, w.Ok) → flat false (wordsTail ws e) = true
  | [], _ => closing_flat he
  | w :: ws, h => by
    have h1 := Word.flat_text (h w List.mem_cons_self)
    have h2 := wordsTail_flat he (ws := ws) (fun x hx => h x (List.mem_cons_of_mem _ hx))
    have : flat false ([] ++ ' ' :: (w.text ++ wordsTail ws e)) = true := by
      rw [flat_space rfl, flat_append h1]
      exact h2
    exact this

theorem strip_wordsTail {e : Str} (he : Closing e) {ws : List Word} (h : ∀ w ∈ ws, w.Ok) : strip (wordsTail ws e) = wordsText ws e := by
  cases ws with
  | nil => rfl
  | cons w ws =>
    simp only [wordsTail, wordsText]
    apply strip_space
    rw [flat_append (Word.flat_text (h w List.mem_cons_self))]
    exact wordsTail_flat he (fun x hx => h x (List.mem_cons_of_mem _ hx))

/-- the text after a word starts with a blank, a comma or a parenthesis -/
theorem wordsTail_head {e : Str} (he : Closing e) (ws : List Word) {c : Char} (h : (wordsTail ws e).head? = some c) :
    c = ' ' ∨ c = ',' ∨ c = ')' ∨ c = '(' := by
  cases ws with
  | nil =>
    rcases he with rfl | ⟨⟨r, rfl | rfl | rfl | rfl | rfl | rfl | rfl⟩, _⟩ <;> simp [wordsTail] at h <;> simp [← h]
  | cons w ws => simp only [wordsTail, List.head?_cons, Option.some.injEq] at h; exact Or.inl h.symm

theorem digit_toLower {c : Char} (h : isDigit c = true) : c.toLower = c := by
  simp only [isDigit, Bool.and_eq_true, decide_eq_true_eq] at h
  have h1 : c.toNat ≤ 57 := by
    have := h.2
    rw [Char.le_def, UInt32.le_iff_toNat_le] at this
    exact this
  unfold Char.toLower
  rw [dif_neg]
  rintro ⟨h2, _⟩
  have := UInt32.le_iff_toNat_le.mp h2
  have h3 : (65 : Nat) ≤ c.toNat := this
  omega

theorem digit_ne {c d : Char} (h : isDigit c = true) (hd : isDigit d = false) : c ≠ d := by rintro rfl; simp_all

theorem startsWithCI_digit {c a : Char} {cs as : Str} (h : isDigit c = true) (ha : isDigit a.toLower = false) :
    startsWithCI (a :: as) (c :: cs) = false := by
  simp only [startsWithCI_cons, digit_toLower h, Bool.and_eq_false_imp, beq_iff_eq]
  intro e
  exact absurd e (digit_ne h ha)

theorem kind_regex (r : Regex) (s : Str) : Kind.parse (.regexp r) s = .ok (regexParse r s) := rfl
theorem kind_literal (l s : Str) : Kind.parse (.literal l) s = .ok (literalParse l s) := rfl

theorem inQuotesIf_valueChar {q : Bool} {v : Str} (h : Bare v) : ∀ c ∈ inQuotesIf q v, valueChar c = true := by
  intro c hc
  cases q with
  | false => exact (h.value c hc).1
  | true =>
    simp only [inQuotesIf, if_true, List.mem_append, List.mem_cons, List.not_mem_nil, or_false] at hc
    rcases hc with (rfl | hc) | rfl
    · decide
    · exact (h.value c hc).1
    · decide

/-- a rule on a word -/
theorem tag_word (g : Tag) (w : Word) (ws : List Word) {e : Str} (he : Closing e) (hw : w.Ok) (hws : ∀ x ∈ ws, x.Ok) :
    g.rule.kind.parse (wordsText (w :: ws) e) = .ok ((g.accept w).map (fun a => (.str a.1, wordsText (a.2 ++ ws) e))) := by
  have hstrip := strip_wordsTail he hws
  have hhead : ∀ c, (wordsTail ws e).head? = some c → valueChar c = false := by
    intro c hc
    rcases wordsTail_head he ws hc with rfl | rfl | rfl | rfl <;> decide
  show g.rule.kind.parse (w.text ++ wordsTail ws e) = _
  generalize ht : wordsTail ws e = T at *
  -- a miss of a literal or of the prefix of a regular expression
  have missL : ∀ (a : Char) (as : Str), isDigit a.toLower = false → ∀ b, (∃ c cs, b = c :: cs ∧ isDigit c = true) →
      literalParse (a :: as) (b ++ py"'" ++ T) = none := by
    rintro a as ha b ⟨c, cs, rfl, hc⟩
    exact literal_miss (startsWithCI_digit hc ha)
  have missR : ∀ (a : Char) (as : Str) (p : Char → Bool) (post : Str), isDigit a.toLower = false → ∀ b, (∃ c cs, b = c :: cs ∧ isDigit c = true) →
      regexParse (.cls (a :: as) p none post) (b ++ py"'" ++ T) = none := by
    rintro a as p post ha b ⟨c, cs, rfl, hc⟩
    exact regex_miss (startsWithCI_digit hc ha)
  cases w with
  | unsigned k =>
    cases g <;> simp only [Tag.rule, Tag.accept, Word.text, optLit, bareNull, defaultRule, keyword, charsetRule, collateRule, kind_regex,
      kind_literal, Option.map_none, Option.map_some, List.nil_append] <;>
    first
    | (rw [literal_miss]; rw [startsWithCI_spelled hw]; simp [startsWithCI_cons]; done)
    | (rw [regex_miss]; rw [startsWithCI_spelled hw]; simp [startsWithCI_cons]; done)
    | rw [literal_spelled hw, hstrip]
  | null k =>
    cases g <;> simp only [Tag.rule, Tag.accept, Word.text, optLit, bareNull, defaultRule, keyword, charsetRule, collateRule, kind_regex,
      kind_literal, Option.map_none, Option.map_some, List.nil_append] <;>
    first
    | (rw [literal_miss]; rw [startsWithCI_spelled hw]; simp [startsWithCI_cons]; done)
    | (rw [regex_miss]; rw [startsWithCI_spelled hw]; simp [startsWithCI_cons]; done)
    | rw [literal_spelled hw, hstrip]
  | notNull k =>
    cases g <;> simp only [Tag.rule, Tag.accept, Word.text, optLit, bareNull, defaultRule, keyword, charsetRule, collateRule, kind_regex,
      kind_literal, Option.map_none, Option.map_some, List.nil_append] <;>
    first
    | (rw [literal_miss]; rw [startsWithCI_spelled hw]; simp [startsWithCI_cons]; done)
    | (rw [regex_miss]; rw [startsWithCI_spelled hw]; simp [startsWithCI_cons]; done)
    | rw [literal_spelled hw, hstrip]
  | auto k =>
    cases g <;> simp only [Tag.rule, Tag.accept, Word.text, optLit, bareNull, defaultRule, keyword, charsetRule, collateRule, kind_regex,
      kind_literal, Option.map_none, Option.map_some, List.nil_append] <;>
    first
    | (rw [literal_miss]; rw [startsWithCI_spelled hw]; simp [startsWithCI_cons]; done)
    | (rw [regex_miss]; rw [startsWithCI_spelled hw]; simp [startsWithCI_cons]; done)
    | rw [literal_spelled hw, hstrip]
  | charset k q v =>
    obtain ⟨hk, hb, hne⟩ := hw
    rw [show Word.text (.charset k q v) ++ T = k ++ (py" " ++ (inQuotesIf q v ++ T)) by simp [Word.text]]
    cases g <;> simp only [Tag.rule, Tag.accept, Word.text, optLit, bareNull, defaultRule, keyword, charsetRule, collateRule, kind_regex,
      kind_literal, Option.map_none, Option.map_some, List.nil_append] <;>
    first
    | (rw [literal_miss]; rw [startsWithCI_spelled hk]; simp [startsWithCI_cons]; done)
    | (rw [regex_miss]; rw [startsWithCI_spelled hk]; simp [startsWithCI_cons]; done)
    | skip
    have := regex_spelled (p := valueChar) (pre := py"CHARACTER SET ") (k := k ++ py" ") (run := inQuotesIf q v) (post := []) (r := T) (hk.append py" ") (inQuotesIf_ne hne)
      (inQuotesIf_valueChar hb) hhead
    rw [hstrip] at this
    simpa using this
  | collate k q v =>
    obtain ⟨hk, hb, hne⟩ := hw
    rw [show Word.text (.collate k q v) ++ T = k ++ (py" " ++ (inQuotesIf q v ++ T)) by simp [Word.text]]
    cases g <;> simp only [Tag.rule, Tag.accept, Word.text, optLit, bareNull, defaultRule, keyword, charsetRule, collateRule, kind_regex,
      kind_literal, Option.map_none, Option.map_some, List.nil_append] <;>
    first
    | (rw [literal_miss]; rw [startsWithCI_spelled hk]; simp [startsWithCI_cons]; done)
    | (rw [regex_miss]; rw [startsWithCI_spelled hk]; simp [startsWithCI_cons]; done)
    | skip
    have := regex_spelled (p := valueChar) (pre := py"COLLATE ") (k := k ++ py" ") (run := inQuotesIf q v) (post := []) (r := T) (hk.append py" ") (inQuotesIf_ne hne)
      (inQuotesIf_valueChar hb) hhead
    rw [hstrip] at this
    simpa using this
  | default k q v =>
    obtain ⟨hk, hb, hne⟩ := hw
    have hval : regexParse (.cls py"DEFAULT " valueChar none []) (k ++ (py" " ++ (inQuotesIf q v ++ T))) = some (.str (inQuotesIf q v), wordsText ws e) := by
      have := regex_spelled (p := valueChar) (pre := py"DEFAULT ") (k := k ++ py" ") (run := inQuotesIf q v) (post := []) (r := T) (hk.append py" ") (inQuotesIf_ne hne)
        (inQuotesIf_valueChar hb) hhead
      rw [hstrip] at this
      simpa using this
    rw [show Word.text (.default k q v) ++ T = k ++ (py" " ++ (inQuotesIf q v ++ T)) by simp [Word.text]]
    cases q with
    | true =>
      cases g <;> simp only [Tag.rule, Tag.accept, Word.text, optLit, bareNull, defaultRule, keyword, charsetRule, collateRule, kind_regex,
        kind_literal, Option.map_none, Option.map_some, List.nil_append] <;>
      first
      | (rw [literal_miss]; rw [startsWithCI_spelled hk]; simp [startsWithCI_cons, inQuotesIf]; done)
      | (rw [regex_miss]; rw [startsWithCI_spelled hk]; simp [startsWithCI_cons, inQuotesIf]; done)
      | skip
      · rw [hval]
      · by_cases hv : v = []
        · subst hv
          have := regex_spelled_none (p := (· != '\'')) (pre := py"DEFAULT '") (k := k ++ py" '") (post := py"'") (r := py"'" ++ T) (hk.append py" '") (by simp)
          simpa [inQuotesIf] using this
        · have := regex_spelled (p := (· != '\'')) (pre := py"DEFAULT '") (k := k ++ py" '") (run := v) (post := py"'") (r := T) (hk.append py" '") hv
            (fun c hc => by simpa using (hb.value c hc).2.1) (by simp)
          rw [hstrip] at this
          simpa [hv, inQuotesIf] using this
    | false =>
      obtain ⟨x, xs, rfl⟩ := List.exists_cons_of_ne_nil (hne rfl)
      have hx := hb.value x List.mem_cons_self
      cases g <;> simp only [Tag.rule, Tag.accept, Word.text, optLit, bareNull, defaultRule, keyword, charsetRule, collateRule, kind_regex,
        kind_literal, Option.map_none, Option.map_some, List.nil_append] <;>
      first
      | (rw [literal_miss]; rw [startsWithCI_spelled hk]; simp [startsWithCI_cons, inQuotesIf]; done)
      | (rw [regex_miss]; rw [startsWithCI_spelled hk]; simp [startsWithCI_cons, inQuotesIf]; done)
      | skip
      · rw [hval]
      · rw [regex_miss]
        rw [startsWithCI_spelled hk]
        simp only [inQuotesIf, Bool.false_eq_true, if_false, List.cons_append, List.nil_append, startsWithCI_cons, startsWithCI_nil]
        have : x.toLower ≠ '\'' := fun h => hx.2.1 (toLower_eq (by decide) h)
        simpa using this
      · rw [regex_miss]
        rw [startsWithCI_spelled hk]
        simp only [inQuotesIf, Bool.false_eq_true, if_false, List.cons_append, List.nil_append, startsWithCI_cons, startsWithCI_nil]
        have : x.toLower ≠ '"' := fun h => hx.2.2 (toLower_eq (by decide) h)
        simpa using this
  | stamp k a b =>
    obtain ⟨hk, ha, hb, hflat, hq⟩ := hw
    rw [show Word.text (.stamp k a b) ++ T = k ++ (py" '" ++ (a ++ (py" " ++ (b ++ (py"'" ++ T))))) by simp [Word.text]]
    cases g <;> simp only [Tag.rule, Tag.accept, Word.text, optLit, bareNull, defaultRule, keyword, charsetRule, collateRule, kind_regex,
      kind_literal, Option.map_none, Option.map_some, List.nil_append] <;>
    first
    | (rw [literal_miss]; rw [startsWithCI_spelled hk]; simp [startsWithCI_cons]; done)
    | (rw [regex_miss]; rw [startsWithCI_spelled hk]; simp [startsWithCI_cons]; done)
    | skip
    · have := regex_spelled (p := valueChar) (pre := py"DEFAULT ") (k := k ++ py" ") (run := py"'" ++ a) (post := []) (r := ' ' :: (b ++ py"'" ++ T)) (hk.append py" ") (by simp)
        (by
          intro c hc
          rcases List.mem_append.mp hc with hc | hc
          · rw [List.mem_singleton] at hc; subst hc; decide
          · exact (ha.value c hc).1)
        (by intro c hc; simp at hc; subst hc; decide)
      rw [strip_space] at this
      · simpa [wordsText, Word.text, ht] using this
      · have h3 : flat true (b ++ py"'") = true := by rw [flat_append hflat]; decide
        rw [flat_append h3, ← ht]
        exact wordsTail_flat he hws
    · have := regex_spelled (p := (· != '\'')) (pre := py"DEFAULT '") (k := k ++ py" '") (run := a ++ py" " ++ b) (post := py"'") (r := T) (hk.append py" '") (by simp)
        (by
          intro c hc
          simp only [List.mem_append, List.mem_cons, List.not_mem_nil, or_false] at hc
          rcases hc with (hc | rfl) | hc
          · simpa using (ha.value c hc).2.1
          · decide
          · simpa using hq c hc)
        (by simp)
      rw [hstrip] at this
      simpa using this
  | junk b =>
    cases g <;> simp only [Tag.rule, Tag.accept, Word.text, optLit, bareNull, defaultRule, keyword, charsetRule, collateRule, kind_regex,
      kind_literal, Option.map_none]
    · rw [missL _ _ (by decide) b hw.1]
    · rw [missL _ _ (by decide) b hw.1]
    · rw [missL _ _ (by decide) b hw.1]
    · rw [missL _ _ (by decide) b hw.1]
    · rw [missR _ _ _ _ (by decide) b hw.1]
    · rw [missR _ _ _ _ (by decide) b hw.1]
    · rw [missR _ _ _ _ (by decide) b hw.1]
    · rw [missL _ _ (by decide) b hw.1]
    · rw [missR _ _ _ _ (by decide) b hw.1]
    · rw [missR _ _ _ _ (by decide) b hw.1]

/-- a rule at the end of the words -/
theorem tag_end (g : Tag) {e : Str} (he : Closing e) : g.rule.kind.parse (wordsText [] e) = .ok none := by
  simp only [wordsText]
  rcases he.cases with ⟨rfl, h⟩ | ⟨r, h, rfl | rfl | rfl⟩ | ⟨r, h, rfl⟩ | ⟨r, h, rfl⟩ | ⟨r, h, rfl⟩ | ⟨r, h, rfl⟩ <;> rw [h] <;> cases g <;>
    simp only [Tag.rule, optLit, bareNull, defaultRule, keyword, charsetRule, collateRule, kind_regex, kind_literal] <;>
    first
    | (rw [literal_miss]; simp [startsWithCI_cons, startsWithCI_cons_nil]; done)
    | (rw [regex_miss]; simp [startsWithCI_cons, startsWithCI_cons_nil]; done)

/-- running the rules over the words: the values and the words which are left -/
def runTags : List Tag → List Word → Dict PVal → Dict PVal × List Word
  | [], ws, vals => (vals, ws)
  | _ :: _, [], vals => (vals, [])
  | g :: gs, w :: ws, vals =>
    match g.accept w with
    | some (v, new) => runTags gs (new ++ ws) (vals.set g.rule.name (.str v))
    | none => runTags gs (w :: ws) vals

/-- a rule which reads nothing from nothing -/
def Kind.Idle (k : Kind) : Prop := k.parse [] = .ok none

theorem run_nil : ∀ {rs : List (Rule Kind)} {vals : Dict PVal}, (∀ r ∈ rs, r.kind.Idle) →
    runRules Kind.parse rs vals [] = .ok ⟨rs.all (·.optional), vals, []⟩
  | [], _, _ => by simp [runRules]
  | r :: rs, vals, h => by
    have h1 : r.kind.parse [] = .ok none := h r List.mem_cons_self
    by_cases ho : r.optional = true
    · rw [run_skip h1 ho, run_nil (fun x hx => h x (List.mem_cons_of_mem _ hx))]
      simp [ho]
    · simp only [Bool.not_eq_true] at ho
      rw [run_fail h1 ho]
      simp [ho]

/-- a rule which matches, whether or not it reaches the end -/
theorem run_step {r : Rule Kind} {rs : List (Rule Kind)} {vals : Dict PVal} {s s' : Str} {v : PVal} (hrs : ∀ r ∈ rs, r.kind.Idle)
    (h : r.kind.parse s = .ok (some (v, s'))) :
    runRules Kind.parse (r :: rs) vals s = runRules Kind.parse rs (vals.set r.name v) s' := by
  by_cases hs : s' = []
  · subst hs
    rw [run_end h, run_nil hrs]
  · exact run_hit h hs

theorem Tag.idle (g : Tag) : g.rule.kind.Idle := tag_end g (Or.inl rfl)

theorem Tag.optional (g : Tag) : g.rule.optional = true := by cases g <;> rfl

theorem endingComma_idle : endingComma.kind.Idle := rfl

theorem Tag.accept_ok {g : Tag} {w : Word} {v : Str} {new : List Word} (h : g.accept w = some (v, new)) (hw : w.Ok) : ∀ x ∈ new, x.Ok := by
  cases g <;> cases w <;> simp only [Tag.accept, reduceCtorEq, Option.some.injEq, Prod.mk.injEq] at h
  all_goals (first | (obtain ⟨_, rfl⟩ := h; simp; done) | skip)
  · obtain ⟨_, rfl⟩ := h
    intro x hx
    rw [List.mem_singleton] at hx
    subst hx
    exact ⟨hw.2.2.1, hw.2.2.2.1, hw.2.2.2.2⟩
  · rename_i k q v'
    cases q
    · cases h
    · simp only at h
      split at h
      · cases h
      · cases h; simp

/-- what the optional comma makes of the text after the words -/
def closeComma (vals : Dict PVal) (ws : List Word) (e : Str) : ParseResult PVal :=
  match ws, e with
  | [], ',' :: more => ⟨true, vals.set py"ending_comma" (.str py","), strip more⟩
  | [], e => ⟨true, vals, strip e⟩
  | w :: ws, e => ⟨true, vals, wordsText (w :: ws) e⟩

theorem comma_miss {c : Char} {cs : Str} (h : c ≠ ',') : literalParse py"," (c :: cs) = none := by
  apply literal_miss
  simp only [startsWithCI_cons, startsWithCI_nil, Bool.and_true, beq_eq_false_iff_ne, ne_eq]
  intro e
  exact h (toLower_eq (by decide) e)

/-- a word does not start with a comma or a parenthesis -/
theorem Word.head_ne {w : Word} (h : w.Ok) : ∃ c cs, w.text = c :: cs ∧ c ≠ ',' ∧ c ≠ '(' := by
  have key : ∀ {kw k : Str}, Spelled kw k → kw ≠ [] → ',' ∉ kw → '(' ∉ kw → ∀ r, ∃ c cs, k ++ r = c :: cs ∧ c ≠ ',' ∧ c ≠ '(' := by
    intro kw k hk hne h1 h2 r
    have hl := hk.length
    cases k with
    | nil => cases kw with
      | nil => exact absurd rfl hne
      | cons _ _ => cases hl
    | cons c cs =>
      have h1 := hk.not_mem (c := ',') (by decide) h1
      have h2 := hk.not_mem (c := '(') (by decide) h2
      exact ⟨c, _, rfl, fun e => h1 (by rw [← e]; exact List.mem_cons_self), fun e => h2 (by rw [← e]; exact List.mem_cons_self)⟩
  cases w with
  | junk b =>
    obtain ⟨⟨c, cs, rfl, hc⟩, _⟩ := h
    exact ⟨c, _, rfl, digit_ne hc (by decide), digit_ne hc (by decide)⟩
  | unsigned k => simpa [Word.text] using key h (by decide) (by decide) (by decide) []
  | null k => simpa [Word.text] using key h (by decide) (by decide) (by decide) []
  | notNull k => simpa [Word.text] using key h (by decide) (by decide) (by decide) []
  | auto k => simpa [Word.text] using key h (by decide) (by decide) (by decide) []
  | default k q v => exact key h.1 (by decide) (by decide) (by decide) _
  | stamp k a b => exact key h.1 (by decide) (by decide) (by decide) _
  | charset k q v => exact key h.1 (by decide) (by decide) (by decide) _
  | collate k q v => exact key h.1 (by decide) (by decide) (by decide) _

theorem Word.head_ne_comma {w : Word} (h : w.Ok) : ∃ c cs, w.text = c :: cs ∧ c ≠ ',' := by
  obtain ⟨c, cs, h1, h2, _⟩ := Word.head_ne h
  exact ⟨c, cs, h1, h2⟩

theorem run_comma (vals : Dict PVal) {ws : List Word} {e : Str} (he : Closing e) (hws : ∀ w ∈ ws, w.Ok) :
    runRules Kind.parse [endingComma] vals (wordsText ws e) = .ok (closeComma vals ws e) := by
  cases ws with
  | cons w ws =>
    obtain ⟨c, cs, hc, hne⟩ := Word.head_ne_comma (hws w List.mem_cons_self)
    have : endingComma.kind.parse (wordsText (w :: ws) e) = .ok none := by
      simp only [wordsText, hc, List.cons_append]
      show Except.ok (literalParse py"," _) = _
      rw [comma_miss hne]
    rw [run_skip this rfl]
    rfl
  | nil =>
    have miss : ∀ c r, strip e = c :: r → c ≠ ',' → (∀ more, e ≠ ',' :: more) →
        runRules Kind.parse [endingComma] vals (wordsText [] e) = .ok (closeComma vals [] e) := by
      intro c r h hc hm
      have : endingComma.kind.parse (wordsText [] e) = .ok none := by
        show Except.ok (literalParse py"," (strip e)) = _
        rw [h, comma_miss hc]
      rw [run_skip this rfl]
      simp only [closeComma, runRules, wordsText]
    rcases he.cases with ⟨rfl, h⟩ | ⟨r, h, rfl | rfl | rfl⟩ | ⟨r, h, rfl⟩ | ⟨r, h, rfl⟩ | ⟨r, h, rfl⟩ | ⟨r, h, rfl⟩
    · rfl
    · have : endingComma.kind.parse (wordsText [] (',' :: r)) = .ok (some (.str py",", strip r)) := by
        show Except.ok (literalParse py"," (strip (',' :: r))) = _
        rw [h]
        exact congrArg _ (literal_hit py"," r)
      rw [run_step (by simp) this]
      rfl
    · exact miss _ _ h (by decide) (by simp)
    · exact miss _ _ h (by decide) (by simp)
    · exact miss _ _ h (by decide) (by simp)
    · exact miss _ _ h (by decide) (by simp)
    · exact miss _ _ h (by decide) (by simp)
    · exact miss _ _ h (by decide) (by simp)

/-- the rules over the text are the rules over the words -/
theorem run_tags : ∀ (gs : List Tag) (vals : Dict PVal) {ws : List Word} {e : Str} (_ : Closing e) (_ : ∀ w ∈ ws, w.Ok),
    runRules Kind.parse (gs.map Tag.rule ++ [endingComma]) vals (wordsText ws e) =
      .ok (closeComma (runTags gs ws vals).1 (runTags gs ws vals).2 e)
  | [], vals, ws, e, he, hws => by
    simp only [List.map_nil, List.nil_append, runTags]
    exact run_comma vals he hws
  | g :: gs, vals, [], e, he, hws => by
    simp only [List.map_cons, List.cons_append]
    rw [run_skip (tag_end g he) g.optional, run_tags gs vals he hws]
    cases gs <;> rfl
  | g :: gs, vals, w :: ws, e, he, hws => by
    simp only [List.map_cons, List.cons_append]
    have hw := hws w List.mem_cons_self
    have hws' : ∀ x ∈ ws, x.Ok := fun x hx => hws x (List.mem_cons_of_mem _ hx)
    have h := tag_word g w ws he hw hws'
    cases ha : g.accept w with
    | none =>
      rw [ha] at h
      rw [run_skip h g.optional, run_tags gs vals he hws]
      simp only [runTags, ha]
    | some a =>
      obtain ⟨v, new⟩ := a
      rw [ha] at h
      rw [run_step _ h, run_tags gs _ he]
      · simp only [runTags, ha]
      · intro x hx
        rcases List.mem_append.mp hx with hx | hx
        · exact Tag.accept_ok ha hw x hx
        · exact hws' x hx
      · intro r hr
        rcases List.mem_append.mp hr with hr | hr
        · obtain ⟨g', _, rfl⟩ := List.mem_map.mp hr
          exact g'.idle
        · rw [List.mem_singleton] at hr; subst hr; exact endingComma_idle

end Mygrations

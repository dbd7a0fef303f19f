import Verif.Proofs.ReadDefs

/-! # C83: the reader warns about defaults which are written in the wrong way -/

namespace Mygrations

/-! ## Specification -/

/-- A default which is some text without quotes around it: not `NULL`, not a number. -/
def defaultUnquoted : List Word → List Str
  | [.default _ false v] => if lower v = py"null" ∨ isNumeric v = true then [] else [v]
  | _ => []

/-- A default with quotes around it. -/
def defaultQuoted : List Word → Bool
  | [.default _ q _] => q
  | _ => false

/-- The text is read as a column with these warnings, up to `rest`. -/
def ReadWith (text : Str) (warnings : List Str) (rest : Str) : Prop :=
  ∃ c, bestChild definitionClasses text none = .ok (some (.column c, rest)) ∧ c.parsingWarnings = warnings

/-! ## Proofs -/

section
variable {n t d a b k : Str} {s : WordStyle} {u nn au : Bool} {dw : List Word} {cs co : Option Str} {e : Str}

theorem character_warned (h : IsDefault dw) (hok : ∀ w ∈ dw, w.Ok) :
    characterWarnings n (defaultText dw) = (defaultUnquoted dw).map (missingQuotes n) := by
  unfold characterWarnings
  cases h with
  | none => rfl
  | some k q v =>
    cases q with
    | true => simp only [defaultText, inQuotesIf, if_true, defaultUnquoted, isQuoted_quoted, List.map_nil]
    | false =>
      have hb : Bare v := (hok _ List.mem_cons_self).2.1
      simp only [defaultText, inQuotesIf, defaultUnquoted, isQuoted_bare (bare_head hb), Bool.false_eq_true, if_false]
      by_cases h1 : lower v = py"null"
      · simp [h1]
      · by_cases h2 : isNumeric v = true
        · simp [h2]
        · simp [h1, h2, quotesText, missingQuotes]

theorem decimal_warned (h : IsDefault dw) (hok : ∀ w ∈ dw, w.Ok) :
    decimalWarnings n (defaultText dw) = if defaultQuoted dw then [needlessQuotes n] else [] := by
  unfold decimalWarnings
  cases h with
  | none => rfl
  | some k q v =>
    cases q with
    | true => simp only [defaultText, inQuotesIf, if_true, defaultQuoted, isQuoted_quoted]; rfl
    | false =>
      have hbare : Bare v := (hok _ List.mem_cons_self).2.1
      simp [defaultText, inQuotesIf, defaultQuoted, isQuoted_bare (bare_head hbare)]

theorem dw_ok {ws : List Word} (h : ∀ w ∈ words s u nn ws au cs co, w.Ok) : ∀ w ∈ ws, w.Ok :=
  fun w hw => h w (by simp [words, hw])

theorem readWith_of {text : Str} {c : ChildClass Definition} {gs : List Tag} {vs : Dict PVal} {ws : List Word} {pc : ParsedColumn} {L : List Str}
    (hm : c ∈ [typeCharacter, typeNumeric, typeDecimal, typePlain, typeText, typeDateTime]) (hr : (runTags gs ws vs).2 = [])
    (hb : bestChild definitionClasses text none = .ok (some (outcome c gs vs ws e))) (hp : c.process (runTags gs ws vs).1 = .column pc)
    (hw : pc.parsingWarnings = L) : ReadWith text L (restOf [] e) := by
  unfold outcome at hb
  rw [hr, process_comma _ _ c hm, hp] at hb
  exact ⟨pc, hb, hw⟩

/-! ## The properties -/

/-- **C83.**  A column with a length, such as `VARCHAR(20)`: the reader warns exactly if the default is text without quotes. -/
theorem C83_partial (hn : Ident n) (ht : Ident t) (hd : Digits d) (h : IsDefault dw) (he : Closing e)
    (hws : ∀ w ∈ words s false nn dw false cs co, w.Ok) :
    ReadWith (colText n t (.one d) (words s false nn dw false cs co) e) ((defaultUnquoted dw).map (missingQuotes n)) (restOf [] e) := by
  have hr := read_character (n := n) (t := t) (d := d) (s := s) (nn := nn) (cs := cs) (co := co) h
  exact readWith_of (by simp) hr.1 (best_character hn ht he hws hd hr.1) hr.2 (by rw [stripTicks_ident hn]; exact character_warned h (dw_ok hws))

/-- **C83, texts.**  A column without a length but with a character set or a collation, such as a `TEXT`: the same. -/
theorem C83_text_partial (hn : Ident n) (ht : Ident t) (h : IsDefault dw) (he : Closing e) (hp : ∀ r, e ≠ '(' :: r) (hc : cs.isSome || co.isSome)
    (hws : ∀ w ∈ words s false nn dw false cs co, w.Ok) :
    ReadWith (colText n t .none (words s false nn dw false cs co) e) ((defaultUnquoted dw).map (missingQuotes n)) (restOf [] e) := by
  have hr := read_text (n := n) (t := t) (s := s) (nn := nn) (cs := cs) (co := co) h
  exact readWith_of (by simp) hr.1 (best_text hn ht he hws hp (plain_leaves h hc) hr.1) hr.2 (by rw [stripTicks_ident hn]; exact character_warned h (dw_ok hws))

/-- **C83, decimals.**  A column with two numbers in parentheses, such as `DECIMAL(7,2)`: the reader warns exactly if the default has quotes. -/
theorem C83_decimal_partial (hn : Ident n) (ht : Ident t) (ha : Digits a) (hb : Digits b) (h : IsDefault dw) (he : Closing e)
    (hws : ∀ w ∈ words s u nn dw false none none, w.Ok) :
    ReadWith (colText n t (.two a b) (words s u nn dw false none none) e) (if defaultQuoted dw then [needlessQuotes n] else []) (restOf [] e) := by
  have hr := read_decimal (n := n) (t := t) (a := a) (b := b) (s := s) (u := u) (nn := nn) h
  exact readWith_of (by simp) hr.1 (best_decimal hn ht he hws ha hb hr.1) hr.2 (by rw [stripTicks_ident hn]; exact decimal_warned h (dw_ok hws))

/-- **C83, unsigned and counted columns.**  No warning, unless the type is `char` or `varchar`. -/
theorem C83_unsigned_partial (hn : Ident n) (ht : Ident t) (hd : Digits d) (h : IsDefault dw) (he : Closing e) (hua : (u || au) = true)
    (hch : normalizeType t ≠ py"char" ∧ normalizeType t ≠ py"varchar") (hws : ∀ w ∈ words s u nn dw au none none, w.Ok) :
    ReadWith (colText n t (.one d) (words s u nn dw au none none) e) [] (restOf [] e) := by
  obtain ⟨hr, hne, hp⟩ := read_numeric (n := n) (t := t) (d := d) (s := s) (u := u) (au := au) (nn := nn) h
  exact readWith_of (by simp) hr (best_numeric hn ht he hws hd (hne hua) hr) hp (numeric_warned hch)

/-- **C83 fails for texts without a character set**: whatever their default is, there is no warning. -/
theorem C83_text_refuted (hn : Ident n) (ht : Ident t) (hb : isBoolType (normalizeType t) = false) (h : IsDefault dw) (he : Closing e)
    (hp : ∀ r, e ≠ '(' :: r) (hws : ∀ w ∈ words s u nn dw au none none, w.Ok) :
    ReadWith (colText n t .none (words s u nn dw au none none) e) [] (restOf [] e) := by
  have hr := read_plain (n := n) (t := t) (s := s) (u := u) (au := au) (nn := nn) h hb
  exact readWith_of (by simp) hr.1 (best_plain hn ht he hws hp hr.1) hr.2 rfl

/-- **C83 fails for dates with times**: they are in quotes, and the reader says that they should be. -/
theorem C83_date_refuted (hn : Ident n) (ht : Ident t) (he : Closing e) (hp : ∀ r, e ≠ '(' :: r)
    (hws : ∀ w ∈ words s false nn [.stamp k a b] false cs co, w.Ok) :
    ReadWith (colText n t .none (words s false nn [.stamp k a b] false cs co) e) [missingQuotes n (a ++ py" " ++ b)] (restOf [] e) := by
  obtain ⟨hr, hr2, hr3, hr4⟩ := read_dateTime (n := n) (t := t) (s := s) (nn := nn) (cs := cs) (co := co) (k := k) (a := a) (b := b)
  exact readWith_of (by simp) hr (best_dateTime hn ht he hws hp hr3 hr2 hr) hr4
    (by rw [stripTicks_ident hn]; exact stamp_warned (dw_ok hws _ List.mem_cons_self))

/-- **C83 fails for negative numbers**: the reader says that the default of an `INT(10)` should have quotes. -/
theorem C83_number_refuted (v : Str) (hn : Ident n) (hd : Digits d) (hv : Digits v) (he : Closing e) :
    ReadWith (colText n py"INT" (.one d) [.default py"DEFAULT" false ('-' :: v)] e) [missingQuotes n ('-' :: v)] (restOf [] e) := by
  have hbare : Bare ('-' :: v) := by
    intro c hc
    rcases List.mem_cons.mp hc with rfl | hc
    · decide
    · have := hv.2 c hc
      refine ⟨word_noSpace (digit_word this), ?_, ?_, ?_, ?_, ?_⟩ <;> (rintro rfl; exact absurd this (by decide))
  have h := C83_partial (n := n) (t := py"INT") (d := d) (s := ⟨id, false, false, false⟩) (nn := false) (cs := none) (co := none)
    (dw := [.default py"DEFAULT" false ('-' :: v)]) hn (by decide) hd (.some _ _ _) he
    (by
      intro w hw
      simp [words, nullWords, charWords] at hw
      subst hw
      exact ⟨rfl, hbare, fun _ => by simp⟩)
  have hu : defaultUnquoted [.default py"DEFAULT" false ('-' :: v)] = ['-' :: v] := by
    have h1 : lower ('-' :: v) ≠ py"null" := by
      intro hl
      have := congrArg List.head? hl
      exact absurd this (by simp [lower])
    have h2 : isNumeric ('-' :: v) = false := by
      simp [isNumeric, show isDigit '-' = false from by decide]
    simp [defaultUnquoted, h1, h2]
  rw [hu] at h
  exact h

end

/-! ## Commas between the rows of an `INSERT` -/

/-- How many rows are followed by another one without a comma. -/
def missingCommas : List ValueGroup → Nat
  | [] => 0
  | [_] => 0
  | g :: h :: gs => (if g.hasComma then 0 else 1) + missingCommas (h :: gs)

theorem commaWarnings_true {k : Nat} : ∀ {gs : List ValueGroup}, (∀ g ∈ gs, g.values.length = k) →
    commaWarnings k true gs = List.replicate (missingCommas gs) py"Missing comma between insert value groups" := by
  have step : ∀ (gs : List ValueGroup) (b : Bool), (∀ g ∈ gs, g.values.length = k) → gs ≠ [] → commaWarnings k b gs =
      List.replicate ((if b then 0 else 1) + missingCommas gs) py"Missing comma between insert value groups" := by
    intro gs
    induction gs with
    | nil => intro b _ h; exact absurd rfl h
    | cons g gs ih =>
      intro b hg _
      have h1 : ¬ (k ≠ 0 ∧ g.values.length ≠ k) := fun h => h.2 (hg g List.mem_cons_self)
      simp only [commaWarnings, if_neg h1]
      cases gs with
      | nil => cases b <;> simp [commaWarnings, missingCommas]
      | cons h gs =>
        rw [ih g.hasComma (fun x hx => hg x (List.mem_cons_of_mem _ hx)) (by simp)]
        show _ = List.replicate (_ + ((if g.hasComma then 0 else 1) + missingCommas (h :: gs))) _
        generalize ((if g.hasComma then 0 else 1) + missingCommas (h :: gs)) = x
        cases b
        · simp [Nat.add_comm 1 x, List.replicate_succ]
        · simp
  intro gs hg
  cases gs with
  | nil => rfl
  | cons g gs => simpa using step (g :: gs) true hg (by simp)

/-- **C83, `INSERT`s.**  If all rows have as many values as there are columns, there is one warning for each missing comma. -/
theorem C83_commas_partial (vals : Dict (TVal ValueGroup)) (h : ∀ g ∈ topNodes vals py"inserts", g.values.length = (topList vals py"columns").length) :
    (insertProcess vals).parsingWarnings = List.replicate (missingCommas (topNodes vals py"inserts")) py"Missing comma between insert value groups" :=
  commaWarnings_true h

/-- **C83 fails for rows of the wrong length**: after a missing comma, each of them repeats the warning, whatever commas there are. -/
theorem C83_commas_refuted (k : Nat) (hk : k ≠ 0) (bad : List ValueGroup) (h : ∀ g ∈ bad, g.values.length ≠ k) :
    commaWarnings k false bad = List.replicate bad.length py"Missing comma between insert value groups" := by
  induction bad with
  | nil => rfl
  | cons g gs ih =>
    simp only [commaWarnings, if_pos (And.intro hk (h g List.mem_cons_self)), ih (fun x hx => h x (List.mem_cons_of_mem _ hx))]
    rfl

/-! ## Examples -/

/-- keywords as they are, `NOT NULL` -/
def plainWords : WordStyle := ⟨id, false, false, false⟩

example : ReadWith py"`name` VARCHAR(20) NOT NULL DEFAULT nobody, `age` INT" [py"Default value of \"nobody\" should have quotes for field name"] py"`age` INT" :=
  C83_partial (n := py"name") (t := py"VARCHAR") (d := py"20") (s := plainWords) (nn := true) (cs := none) (co := none) (e := py", `age` INT")
    (dw := [.default py"DEFAULT" false py"nobody"]) (by decide) (by decide) (by decide) (.some _ _ _) (Or.inr ⟨⟨_, Or.inl rfl⟩, by decide⟩)
    (by
      intro w hw
      simp [words, nullWords, charWords, plainWords] at hw
      rcases hw with rfl | rfl
      · rfl
      · exact ⟨rfl, by decide, fun _ => by decide⟩)

example : ReadWith py"`name` VARCHAR(20) NOT NULL DEFAULT 'nobody'" [] [] :=
  C83_partial (n := py"name") (t := py"VARCHAR") (d := py"20") (s := plainWords) (nn := true) (cs := none) (co := none) (e := [])
    (dw := [.default py"DEFAULT" true py"nobody"]) (by decide) (by decide) (by decide) (.some _ _ _) (Or.inl rfl)
    (by
      intro w hw
      simp [words, nullWords, charWords, plainWords] at hw
      rcases hw with rfl | rfl
      · rfl
      · exact ⟨rfl, by decide, fun h => by cases h⟩)

example : ReadWith py"`about` TEXT DEFAULT nothing COLLATE utf8_bin" [py"Default value of \"nothing\" should have quotes for field about"] [] :=
  C83_text_partial (n := py"about") (t := py"TEXT") (s := plainWords) (nn := false) (cs := none) (co := some py"utf8_bin") (e := [])
    (dw := [.default py"DEFAULT" false py"nothing"]) (by decide) (by decide) (.some _ _ _) (Or.inl rfl) (by simp) rfl
    (by
      intro w hw
      simp [words, nullWords, charWords, plainWords] at hw
      rcases hw with rfl | rfl
      · exact ⟨rfl, by decide, fun _ => by decide⟩
      · exact ⟨rfl, by decide, fun _ => by decide⟩)

example : ReadWith py"`price` DECIMAL(7,2) NOT NULL DEFAULT '1.5'" [py"Column 'price' has a numeric type but its default value is a string"] [] :=
  C83_decimal_partial (n := py"price") (t := py"DECIMAL") (a := py"7") (b := py"2") (s := plainWords) (u := false) (nn := true) (e := [])
    (dw := [.default py"DEFAULT" true py"1.5"]) (by decide) (by decide) (by decide) (by decide) (.some _ _ _) (Or.inl rfl)
    (by
      intro w hw
      simp [words, nullWords, charWords, plainWords] at hw
      rcases hw with rfl | rfl
      · rfl
      · exact ⟨rfl, by decide, fun h => by cases h⟩)

example : ReadWith py"`age` INT(10) UNSIGNED DEFAULT some" [] [] :=
  C83_unsigned_partial (n := py"age") (t := py"INT") (d := py"10") (s := plainWords) (u := true) (au := false) (nn := false) (e := [])
    (dw := [.default py"DEFAULT" false py"some"]) (by decide) (by decide) (by decide) (.some _ _ _) (Or.inl rfl) rfl (by decide)
    (by
      intro w hw
      simp [words, nullWords, charWords, plainWords] at hw
      rcases hw with rfl | rfl
      · rfl
      · exact ⟨rfl, by decide, fun _ => by decide⟩)

example : ReadWith py"`about` TEXT DEFAULT nothing" [] [] :=
  C83_text_refuted (n := py"about") (t := py"TEXT") (s := plainWords) (u := false) (au := false) (nn := false) (e := [])
    (dw := [.default py"DEFAULT" false py"nothing"]) (by decide) (by decide) (by decide) (.some _ _ _) (Or.inl rfl) (by simp)
    (by
      intro w hw
      simp [words, nullWords, charWords, plainWords] at hw
      subst hw
      exact ⟨rfl, by decide, fun _ => by decide⟩)

example : ReadWith py"`at` DATETIME DEFAULT '2020-01-01 10:00:00'" [py"Default value of \"2020-01-01 10:00:00\" should have quotes for field at"] [] :=
  C83_date_refuted (n := py"at") (t := py"DATETIME") (s := plainWords) (nn := false) (cs := none) (co := none) (k := py"DEFAULT") (a := py"2020-01-01")
    (b := py"10:00:00") (e := []) (by decide) (by decide) (Or.inl rfl) (by simp)
    (by
      intro w hw
      simp [words, nullWords, charWords, plainWords] at hw
      subst hw
      exact ⟨rfl, by decide, ⟨_, _, rfl, by decide⟩, by decide, by decide⟩)

example : ReadWith py"`level` INT(10) DEFAULT -1" [py"Default value of \"-1\" should have quotes for field level"] [] :=
  C83_number_refuted (n := py"level") (d := py"10") (e := []) py"1" (by decide) (by decide) (by decide) (Or.inl rfl)

/-- three rows, with one comma -/
def threeGroups : List ValueGroup := [⟨[.str py"1"], true⟩, ⟨[.str py"2"], false⟩, ⟨[.str py"3"], false⟩]

example : (insertProcess [(py"columns", .simple (.list [py"id"])), (py"inserts", .nodes threeGroups)]).parsingWarnings = [py"Missing comma between insert value groups"] :=
  C83_commas_partial _ (by decide)

end Mygrations

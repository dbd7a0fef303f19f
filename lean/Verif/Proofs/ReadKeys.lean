import Verif.Proofs.ReadDefs

/-! # Indexes and constraints read back -/

namespace Mygrations

/-- the winner among the twelve classes -/
theorem best_of {α : Type} {classes : List (ChildClass α)} {s : Str} {d : α} {rest : Str} (before after : List (ChildClass α)) (c : ChildClass α)
    (hcl : classes = before ++ c :: after)
    (h1 : ∀ c ∈ before, ∃ o, c.tryParse s = .ok o ∧ ∀ m r, o = some (m, r) → rest.length < r.length)
    (h2 : c.tryParse s = .ok (some (d, rest)))
    (h3 : ∀ c ∈ after, ∃ o, c.tryParse s = .ok o ∧ ∀ m r, o = some (m, r) → rest.length ≤ r.length) :
    bestChild classes s none = .ok (some (d, rest)) := by
  rw [bestChild_chosen]
  subst hcl
  refine ⟨?_, before, c, after, rfl, h2, ?_, ?_⟩
  · intro x hx
    rcases List.mem_append.mp hx with hx | hx
    · obtain ⟨o, ho, _⟩ := h1 x hx; exact ⟨o, ho⟩
    · rcases List.mem_cons.mp hx with rfl | hx
      · exact ⟨_, h2⟩
      · obtain ⟨o, ho, _⟩ := h3 x hx; exact ⟨o, ho⟩
  · intro x hx m r hr
    obtain ⟨o, ho, hlt⟩ := h1 x hx
    rw [ho] at hr
    cases hr
    exact hlt m r rfl
  · intro x hx m r hr
    obtain ⟨o, ho, hlt⟩ := h3 x hx
    rw [ho] at hr
    cases hr
    exact hlt m r rfl

theorem try_some {α : Type} {c : ChildClass α} {s : Str} {vals : Dict PVal} {rest : Str} (h : simpleParse c.rules s = .ok ⟨true, vals, rest⟩) :
    c.tryParse s = .ok (some (c.process vals, rest)) := by
  unfold ChildClass.tryParse
  rw [h]
  rfl

/-! ## Lists of quoted values -/

/-- a quoted word -/
def quoted (q : Char) (v : Str) : Str := q :: (v ++ [q])

theorem delim_inQuote {endLit : Str} {sep q : Char} : ∀ (v : Str) (st : DelimState) (r : Str), st.inQuote = true → (∀ c ∈ v, c ≠ q) →
    delimLoop endLit sep q (v ++ r) st = delimLoop endLit sep q r { st with current := st.current ++ v }
  | [], st, r, _, _ => by simp
  | c :: v, st, r, hq, hv => by
    rw [List.cons_append, delimLoop]
    simp only [hv c List.mem_cons_self, if_false, hq, if_true]
    rw [delim_inQuote v _ r rfl (fun c hc => hv c (List.mem_cons_of_mem _ hc))]
    simp

theorem delim_quoted {endLit : Str} {sep q : Char} {v : Str} {st : DelimState} (r : Str) (hq : st.inQuote = false) (hv : ∀ c ∈ v, c ≠ q) :
    delimLoop endLit sep q (quoted q v ++ r) st =
      delimLoop endLit sep q r { hasWord := false, vals := st.vals ++ [v], current := v, inQuote := false } := by
  unfold quoted
  rw [List.cons_append, delimLoop]
  simp only [if_true, hq, Bool.false_eq_true, if_false]
  rw [List.append_assoc, delim_inQuote v _ _ rfl hv, List.singleton_append, delimLoop]
  simp

/-- a list of quoted values, separated by commas which may be followed by a blank -/
theorem delim_list {q : Char} (h1 : ',' ≠ q) (h2 : ')' ≠ q) (h3 : ' ' ≠ q) {sep : Str} (hs : sep = py"," ∨ sep = py", ") (r : Str) :
    ∀ (v : Str) (vs : List Str) (st : DelimState), st.inQuote = false → (∀ x ∈ v :: vs, ∀ c ∈ x, c ≠ q) →
    ∃ cur, delimLoop py")" ',' q (join sep ((v :: vs).map (quoted q)) ++ ')' :: r) st =
      ({ hasWord := false, vals := st.vals ++ v :: vs, current := cur, inQuote := false }, some (')' :: r))
  | v, [], st, hq, hv => by
    refine ⟨v, ?_⟩
    simp only [List.map_cons, List.map_nil, join]
    rw [delim_quoted _ hq (hv v List.mem_cons_self), delim_end _ _ rfl h2]
    rfl
  | v, w :: vs, st, hq, hv => by
    obtain ⟨cur, ih⟩ := delim_list h1 h2 h3 hs r w vs { hasWord := false, vals := st.vals ++ [v], current := [], inQuote := false } rfl
      (fun x hx => hv x (List.mem_cons_of_mem _ hx))
    refine ⟨cur, ?_⟩
    simp only [List.map_cons, join, List.append_assoc] at ih ⊢
    rw [delim_quoted _ hq (hv v List.mem_cons_self)]
    rcases hs with rfl | rfl
    · rw [List.cons_append, List.nil_append, delim_sep _ _ rfl h1 (by decide)]
      simp only [DelimState.flush, Bool.false_eq_true, if_false]
      rw [ih]
      rfl
    · rw [List.cons_append, List.cons_append, List.nil_append, delim_sep _ _ rfl h1 (by decide)]
      simp only [DelimState.flush, Bool.false_eq_true, if_false]
      rw [delimLoop]
      simp only [h3, if_false, Bool.false_eq_true, show startsWithCI py")" (' ' :: (join (py", ") (quoted q w :: List.map (quoted q) vs) ++ ')' :: r)) = false by
        simp [startsWithCI_cons, startsWithCI_nil], show ¬ (' ' = ',') by decide, if_true, DelimState.flush]
      exact ih

/-- words separated by commas, without quotes -/
theorem delim_words {q : Char} (h1 : ',' ≠ q) (h2 : ')' ≠ q) (r : Str) :
    ∀ (v : Str) (vs : List Str) (st : DelimState), st.inQuote = false → st.current = [] →
    (∀ x ∈ v :: vs, x ≠ [] ∧ ∀ c ∈ x, c ≠ q ∧ c.toLower ≠ Char.toLower ')' ∧ c ≠ ',' ∧ c ≠ ' ') →
    ∃ cur, delimLoop py")" ',' q (join py"," (v :: vs) ++ ')' :: r) st =
      ({ hasWord := false, vals := st.vals ++ v :: vs, current := cur, inQuote := false }, some (')' :: r))
  | v, [], st, hq, hc, hv => by
    refine ⟨v, ?_⟩
    obtain ⟨hne, hv⟩ := hv v List.mem_cons_self
    simp only [join]
    rw [delim_word v st _ hq hv hne, delim_end]
    · simp [DelimState.flush, hc, hq]
    · exact hq
    · exact h2
  | v, w :: vs, st, hq, hc, hv => by
    obtain ⟨cur, ih⟩ := delim_words h1 h2 r w vs { hasWord := false, vals := st.vals ++ [v], current := [], inQuote := false } rfl rfl
      (fun x hx => hv x (List.mem_cons_of_mem _ hx))
    refine ⟨cur, ?_⟩
    obtain ⟨hne, hv⟩ := hv v List.mem_cons_self
    simp only [join, List.append_assoc] at ih ⊢
    rw [delim_word v st _ hq hv hne, List.cons_append, List.nil_append, delim_sep]
    · simp only [DelimState.flush, if_true, hc, List.nil_append, hq]
      rw [ih]
      rfl
    · exact hq
    · exact h1
    · decide

/-- the columns of an index -/
theorem columns_parse {cols : List Str} (hne : cols ≠ []) (hc : ∀ c ∈ cols, Ident c) (r : Str) :
    (delimited py"columns" '`' py")").kind.parse (join py"," (cols.map (quoted '`')) ++ ')' :: r) = .ok (some (.list cols, ')' :: r)) := by
  obtain ⟨v, vs, rfl⟩ := List.exists_cons_of_ne_nil hne
  have hv : ∀ x ∈ v :: vs, ∀ c ∈ x, c ≠ '`' := by
    intro x hx c hcx
    have := (hc x hx).2 c hcx
    rintro rfl
    revert this; decide
  obtain ⟨cur, h⟩ := delim_list (q := '`') (by decide) (by decide) (by decide) (Or.inl rfl) r v vs {} rfl hv
  show delimParse py")" ',' '`' _ = _
  unfold delimParse
  rw [h]
  simp

theorem word_toLower {c : Char} (h : isWord c = true) : c.toLower ≠ ')' := by
  intro h'
  rw [toLower_eq (by decide) h'] at h
  revert h; decide

/-- the columns of an index, taken for the values of an enumeration -/
theorem columns_enum {cols : List Str} (hne : cols ≠ []) (hc : ∀ c ∈ cols, Ident c) (r : Str) :
    ∃ vs, (delimited py"enum_values" '\'' py")").kind.parse (join py"," (cols.map (quoted '`')) ++ ')' :: r) = .ok (some (.list vs, ')' :: r)) := by
  obtain ⟨v, vs, rfl⟩ := List.exists_cons_of_ne_nil hne
  have hv : ∀ x ∈ quoted '`' v :: vs.map (quoted '`'), x ≠ [] ∧ ∀ c ∈ x, c ≠ '\'' ∧ c.toLower ≠ Char.toLower ')' ∧ c ≠ ',' ∧ c ≠ ' ' := by
    intro x hx
    rw [← List.map_cons] at hx
    obtain ⟨y, hy, rfl⟩ := List.mem_map.mp hx
    refine ⟨by simp [quoted], ?_⟩
    intro c hcx
    simp only [quoted, List.mem_cons, List.mem_append, List.not_mem_nil, or_false] at hcx
    rcases hcx with rfl | hcx | rfl
    · decide
    · have := (hc y hy).2 c hcx
      refine ⟨?_, word_toLower this, ?_, ?_⟩ <;> (rintro rfl; revert this; decide)
    · decide
  obtain ⟨cur, h⟩ := delim_words (q := '\'') (by decide) (by decide) r _ _ {} rfl rfl hv
  refine ⟨quoted '`' v :: vs.map (quoted '`'), ?_⟩
  show delimParse py")" ',' '\'' _ = _
  unfold delimParse
  rw [List.map_cons, h]
  simp


/-! ## Classes which do not match -/

theorem try_miss {c : ChildClass Definition} {rs : List (Rule Kind)} {a x : Char} {as s : Str} (hc : c.rules = lit (a :: as) :: rs)
    (hs : flat true (x :: s) = true) (hx : x.toLower ≠ a.toLower) : c.tryParse (x :: s) = .ok none := by
  refine try_none (vals := []) (rest := x :: s) ?_
  unfold simpleParse
  rw [hc, normalize_normal (Or.inr hs)]
  apply run_fail _ rfl
  show Except.ok (literalParse (a :: as) (x :: s)) = _
  rw [literal_miss]
  simp [startsWithCI_cons, hx]

theorem try_miss_key {x : Char} {s : Str} (hs : flat true (x :: s) = true) (hk : x.toLower ≠ 'k') (hi : x.toLower ≠ 'i') :
    indexKey.tryParse (x :: s) = .ok none := by
  refine try_none (vals := []) (rest := x :: s) ?_
  unfold simpleParse
  rw [normalize_normal (Or.inr hs)]
  apply run_fail _ rfl
  show Except.ok (regexParse (.alt _ _) (x :: s)) = _
  simp [regexParse, startsWithCI_cons, show Char.toLower 'K' = 'k' from by decide, show Char.toLower 'I' = 'i' from by decide, hk, hi]

/-- a name in front of a blank -/
theorem name_hit {pre s : Str} (hne : pre ≠ []) (hpre : ∀ c ∈ pre, nameChar c = true) (hs : flat true s = true) (name : Str) :
    (nameRule name).kind.parse (pre ++ ' ' :: s) = .ok (some (.str pre, s)) := by
  have := regex_hit (p := nameChar) (pre := []) (run := pre) (post := []) (r := ' ' :: s) hne hpre (by simp; decide)
  rw [strip_space hs] at this
  exact congrArg Except.ok this

theorem nameChar_noSpace {c : Char} (h : nameChar c = true) : isSpace c = false := by
  simp only [nameChar, Bool.and_eq_true, Bool.not_eq_true'] at h
  exact h.2

theorem pre_flat {pre s : Str} (hne : pre ≠ []) (hpre : ∀ c ∈ pre, nameChar c = true) (hs : flat true s = true) : flat true (pre ++ ' ' :: s) = true := by
  rw [flat_space (flat_noSpace (fun c hc => nameChar_noSpace (hpre c hc)) true (fun _ => hne))]
  exact hs

/-- a column class on a keyword and a quoted name -/
theorem try_no_type {c : ChildClass Definition} {rs : List (Rule Kind)} (hc : c.rules = columnHead ++ rs) (hrs : ∀ r ∈ rs, r.kind.Idle)
    {x : Char} (hx : isWord x = false) {pre s : Str} (hne : pre ≠ []) (hpre : ∀ c ∈ pre, nameChar c = true) (hs : flat true (x :: s) = true) :
    c.tryParse (pre ++ ' ' :: x :: s) = .ok none := by
  refine try_none (vals := [(py"name", .str pre)]) (rest := x :: s) ?_
  unfold simpleParse
  rw [hc, normalize_normal (Or.inr (pre_flat hne hpre hs))]
  simp only [columnHead, List.cons_append, List.nil_append]
  rw [run_step _ (name_hit hne hpre hs _)]
  · apply run_fail _ rfl
    show Except.ok (regexParse _ _) = _
    simp [regexParse, startsWithCI_nil, takeRun, hx]
  · intro r hr
    rcases List.mem_cons.mp hr with rfl | hr
    · rfl
    · exact hrs r hr

theorem try_tick_type {c : ChildClass Definition} {rs : List (Rule Kind)} (hc : c.rules = columnHead ++ rs) (hrs : ∀ r ∈ rs, r.kind.Idle)
    {pre s : Str} (hne : pre ≠ []) (hpre : ∀ c ∈ pre, nameChar c = true) (hs : flat true ('`' :: s) = true) :
    c.tryParse (pre ++ ' ' :: '`' :: s) = .ok none :=
  try_no_type hc hrs (by decide) hne hpre hs

/-- the rules of the column classes after the name and the type -/
def columnTails : List (List (Rule Kind)) :=
  [lit py"(" :: digitsRule py"length" :: lit py")" :: tagRules characterTags,
   lit py"(" :: digitsRule py"length" :: lit py")" :: tagRules numericTags,
   lit py"(" :: digitsRule py"length" :: { kind := .literal py",", name := py"separating_comma" } :: digitsRule py"decimals" :: lit py")" ::
     tagRules decimalTags,
   lit py"(" :: delimited py"enum_values" '\'' py")" :: lit py")" :: tagRules enumTags,
   tagRules plainTags, tagRules characterTags, tagRules dateTimeTags]

theorem columnTails_idle : ∀ rs ∈ columnTails, ∀ r ∈ rs, r.kind.Idle := by
  intro rs hrs r hr
  simp only [columnTails, List.mem_cons, List.not_mem_nil, or_false] at hrs
  rcases hrs with rfl | rfl | rfl | rfl | rfl | rfl | rfl
  · simp only [List.mem_cons] at hr
    rcases hr with rfl | rfl | rfl | hr
    · rfl
    · rfl
    · rfl
    · exact tagRules_idle _ r hr
  · simp only [List.mem_cons] at hr
    rcases hr with rfl | rfl | rfl | hr
    · rfl
    · rfl
    · rfl
    · exact tagRules_idle _ r hr
  · simp only [List.mem_cons] at hr
    rcases hr with rfl | rfl | rfl | rfl | rfl | hr
    · rfl
    · rfl
    · rfl
    · rfl
    · rfl
    · exact tagRules_idle _ r hr
  · simp only [List.mem_cons] at hr
    rcases hr with rfl | rfl | rfl | hr
    · rfl
    · rfl
    · rfl
    · exact tagRules_idle _ r hr
  · exact tagRules_idle _ r hr
  · exact tagRules_idle _ r hr
  · exact tagRules_idle _ r hr

theorem columnClass_tail : ∀ c ∈ [typeCharacter, typeNumeric, typeDecimal, typeEnum, typePlain, typeText, typeDateTime],
    ∃ rs ∈ columnTails, c.rules = columnHead ++ rs := by
  intro c hc
  simp only [List.mem_cons, List.not_mem_nil, or_false] at hc
  simp only [columnTails, List.mem_cons, List.not_mem_nil, or_false]
  rcases hc with rfl | rfl | rfl | rfl | rfl | rfl | rfl
  · exact ⟨_, Or.inl rfl, rfl⟩
  · exact ⟨_, Or.inr (Or.inl rfl), rfl⟩
  · exact ⟨_, Or.inr (Or.inr (Or.inl rfl)), rfl⟩
  · exact ⟨_, Or.inr (Or.inr (Or.inr (Or.inl rfl))), rfl⟩
  · exact ⟨_, Or.inr (Or.inr (Or.inr (Or.inr (Or.inl rfl)))), rfl⟩
  · exact ⟨_, Or.inr (Or.inr (Or.inr (Or.inr (Or.inr (Or.inl rfl))))), rfl⟩
  · exact ⟨_, Or.inr (Or.inr (Or.inr (Or.inr (Or.inr (Or.inr rfl))))), rfl⟩

theorem tag_tick (g : Tag) (s : Str) : g.rule.kind.parse ('`' :: s) = .ok none := by
  cases g <;>
    simp only [Tag.rule, optLit, bareNull, defaultRule, keyword, charsetRule, collateRule, kind_regex, kind_literal] <;>
    first
    | (rw [literal_miss]; simp [startsWithCI_cons]; done)
    | (simp [regexParse, startsWithCI_cons]; done)

theorem tags_tick (s : Str) (vals : Dict PVal) : ∀ gs : List Tag, runRules Kind.parse (tagRules gs) vals ('`' :: s) = .ok ⟨true, vals, '`' :: s⟩
  | [] => by
    have : endingComma.kind.parse ('`' :: s) = .ok none := congrArg Except.ok (comma_miss (by decide))
    show runRules Kind.parse [endingComma] vals _ = _
    simp only [runRules, this]
    rfl
  | g :: gs => by
    have ih := tags_tick s vals gs
    show runRules Kind.parse (g.rule :: tagRules gs) vals _ = _
    simp only [runRules, tag_tick]
    rw [g.optional]
    exact ih

/-- a column class on a keyword and `KEY` -/
theorem head_word {rs : List (Rule Kind)} (hrs : ∀ r ∈ rs, r.kind.Idle) {pre w s : Str} (hw : w ≠ []) (hw' : ∀ c ∈ w, isWord c = true) (hne : pre ≠ []) (hpre : ∀ c ∈ pre, nameChar c = true)
    (hs : flat true s = true) :
    simpleParse (columnHead ++ rs) (pre ++ ' ' :: (w ++ ' ' :: s)) =
      runRules Kind.parse rs [(py"name", .str pre), (py"type", .str w)] s := by
  have hf : flat true (w ++ ' ' :: s) = true := pre_flat hw (fun c hc => word_nameChar (hw' c hc)) hs
  unfold simpleParse
  rw [normalize_normal (Or.inr (pre_flat hne hpre hf))]
  show runRules Kind.parse (nameRule py"name" :: typeRule :: rs) [] (pre ++ ' ' :: (w ++ ' ' :: s)) = _
  have h2 : typeRule.kind.parse (w ++ ' ' :: s) = .ok (some (.str w, s)) := by
    have := regex_hit (p := isWord) (pre := []) (run := w) (post := []) (r := ' ' :: s) hw hw' (by simp; decide)
    rw [strip_space hs] at this
    exact congrArg Except.ok this
  rw [run_step (s' := w ++ ' ' :: s) _ (name_hit hne hpre hf _), run_step hrs h2]
  · rfl
  · intro r hr
    rcases List.mem_cons.mp hr with rfl | hr
    · rfl
    · exact hrs r hr

theorem head_key {rs : List (Rule Kind)} (hrs : ∀ r ∈ rs, r.kind.Idle) {pre s : Str} (hne : pre ≠ []) (hpre : ∀ c ∈ pre, nameChar c = true)
    (hs : flat true s = true) :
    simpleParse (columnHead ++ rs) (pre ++ ' ' :: (py"KEY" ++ ' ' :: s)) =
      runRules Kind.parse rs [(py"name", .str pre), (py"type", .str py"KEY")] s :=
  head_word hrs (by decide) (by decide) hne hpre hs

/-! ## Indexes -/

/-- the columns of an index, after the opening parenthesis -/
def colList (cols : List Str) (e : Str) : Str := join py"," (cols.map (quoted '`')) ++ ')' :: e

theorem quoted_noSpace {n : Str} (h : Ident n) : ∀ c ∈ quoted '`' n, nameChar c = true := by
  have := ticked_nameChar h.2
  intro c hc
  apply this
  simpa [quoted] using hc

theorem colList_flat {cols : List Str} (hc : ∀ c ∈ cols, Ident c) {e : Str} (he : Closing e) : flat true (colList cols e) = true := by
  have key : ∀ cols : List Str, (∀ c ∈ cols, Ident c) → ∀ c ∈ join py"," (cols.map (quoted '`')), isSpace c = false := by
    intro cols
    induction cols with
    | nil => intro _ c hc; simp [join] at hc
    | cons x xs ih =>
      intro h c hc
      rw [List.map_cons, join_cons] at hc
      simp only [List.mem_append, List.mem_flatMap, List.mem_map] at hc
      rcases hc with hc | ⟨_, ⟨y, hy, rfl⟩, hc⟩
      · exact nameChar_noSpace (quoted_noSpace (h x List.mem_cons_self) c hc)
      · rcases hc with hc | hc
        · rw [List.mem_singleton] at hc; subst hc; decide
        · exact nameChar_noSpace (quoted_noSpace (h y (List.mem_cons_of_mem _ hy)) c hc)
  unfold colList
  have h1 : flat true (join py"," (cols.map (quoted '`')) ++ [')']) = true := by
    apply flat_noSpace
    · intro c hcm
      rcases List.mem_append.mp hcm with h | h
      · exact key cols hc c h
      · rw [List.mem_singleton] at h; subst h; decide
    · simp
  have := flat_append h1 e
  rw [List.append_assoc, List.singleton_append] at this
  rw [this]
  exact closing_flat he

section
variable {cols : List Str} {e : Str}

theorem paren_flat {s : Str} (h : flat true s = true) : flat true ('(' :: s) = true := by
  simpa [flat, show isSpace '(' = false from by decide] using flat_false_of_true h

/-- the values of the end of an index -/
def tailVals (vals : Dict PVal) (cols : List Str) : Dict PVal :=
  ((vals.set py"(" (.str py"(")).set py"columns" (.list cols)).set py")" (.str py")")

theorem index_tail (hne : cols ≠ []) (hc : ∀ c ∈ cols, Ident c) (he : Closing e) (vals : Dict PVal) :
    runRules Kind.parse indexTail vals ('(' :: colList cols e) = .ok (closeComma (tailVals vals cols) [] e) := by
  unfold indexTail
  have idle : ∀ r ∈ [lit py"(", delimited py"columns" '`' py")", lit py")", endingComma], r.kind.Idle := by
    intro r hr
    simp only [List.mem_cons, List.not_mem_nil, or_false] at hr
    rcases hr with rfl | rfl | rfl | rfl <;> rfl
  have idle1 := fun r hr => idle r (List.mem_cons_of_mem _ hr)
  have idle2 := fun r hr => idle1 r (List.mem_cons_of_mem _ hr)
  have idle3 := fun r hr => idle2 r (List.mem_cons_of_mem _ hr)
  have h1 : (lit py"(").kind.parse ('(' :: colList cols e) = .ok (some (.str py"(", colList cols e)) := lit_hit py"(" (colList_flat hc he)
  have h2 := columns_parse hne hc e
  have h3 : (lit py")").kind.parse (')' :: e) = .ok (some (.str py")", wordsText [] e)) := close_hit (ws := []) he (by simp)
  rw [run_step idle1 h1, colList, run_step idle2 h2, run_step idle3 h3, run_comma _ he (by simp)]
  rfl

theorem index_tail_idle : ∀ r ∈ indexTail, r.kind.Idle := by
  intro r hr
  simp only [indexTail, List.mem_cons, List.not_mem_nil, or_false] at hr
  rcases hr with rfl | rfl | rfl | rfl <;> rfl

theorem cleanIndexColumn_ident {c : Str} (h : Ident c) : cleanIndexColumn c = c := by
  unfold cleanIndexColumn
  simp only [strip_flat (h.flat true)]
  cases hr : c.reverse with
  | nil => rfl
  | cons x xs =>
    have hx : x ∈ c := by rw [← List.mem_reverse, hr]; exact List.mem_cons_self
    have := h.2 x hx
    split
    · rename_i heq
      cases heq
      exact absurd this (by decide)
    · rfl

theorem clean_columns (hc : ∀ c ∈ cols, Ident c) : cols.map cleanIndexColumn = cols := by
  conv => rhs; rw [← List.map_id cols]
  exact List.map_congr_left (fun c h => cleanIndexColumn_ident (hc c h))

theorem closeComma_get (vals : Dict PVal) (e : Str) {k : Str} (hk : k ≠ py"ending_comma") :
    Dict.get? (closeComma vals [] e).values k = Dict.get? vals k := by
  unfold closeComma
  split
  · rw [Dict.get?_set]; simp [hk.symm]
  · rfl
  · rfl

theorem closeComma_list (vals : Dict PVal) (e : Str) {k : Str} (hk : k ≠ py"ending_comma") : listOf (closeComma vals [] e).values k = listOf vals k := by
  unfold listOf; rw [closeComma_get _ _ hk]

theorem closeComma_text (vals : Dict PVal) (e : Str) {k : Str} (hk : k ≠ py"ending_comma") : textOf (closeComma vals [] e).values k = textOf vals k := by
  unfold textOf; rw [closeComma_get _ _ hk]

theorem restOf_lt_paren (hc : ∀ c ∈ cols, Ident c) (he : Closing e) : (restOf [] e).length < (restOf [] ('(' :: colList cols e)).length := by
  have h1 := restOf_nil_le e
  have h2 : restOf [] ('(' :: colList cols e) = '(' :: colList cols e := strip_flat (paren_flat (colList_flat hc he))
  rw [h2]
  simp only [colList, List.length_cons, List.length_append]
  omega

/-- the column classes on a keyword, another word and columns -/
theorem columns_leave (hne : cols ≠ []) (hc : ∀ c ∈ cols, Ident c) (he : Closing e) {pre w : Str} (hw : w ≠ []) (hw' : ∀ c ∈ w, isWord c = true) (hpre : pre ≠ []) (hpre' : ∀ c ∈ pre, nameChar c = true) :
    ∀ c ∈ [typeCharacter, typeNumeric, typeDecimal, typeEnum, typePlain, typeText, typeDateTime],
      Leaves (restOf [] e) c (pre ++ ' ' :: (w ++ ' ' :: '(' :: colList cols e)) := by
  have hf := paren_flat (colList_flat hc he)
  have hcl : Closing ('(' :: colList cols e) := Or.inr ⟨⟨_, Or.inr (Or.inr (Or.inl rfl))⟩, flat_false_of_true hf⟩
  have h1 : (lit py"(").kind.parse ('(' :: colList cols e) = .ok (some (.str py"(", colList cols e)) := lit_hit py"(" (colList_flat hc he)
  have hd : ∀ n, (digitsRule n).kind.parse (colList cols e) = .ok none := by
    intro n
    obtain ⟨x, xs, rfl⟩ := List.exists_cons_of_ne_nil hne
    have : colList (x :: xs) e = '`' :: (x ++ ['`'] ++ (xs.map (quoted '`')).flatMap (fun y => py"," ++ y) ++ ')' :: e) := by
      simp only [colList, List.map_cons, join_cons]
      simp [quoted]
    rw [this]
    show Except.ok (regexParse _ _) = _
    simp [regexParse, startsWithCI_nil, takeRun, show isDigit '`' = false from by decide]
  -- the classes which look for digits
  have digits : ∀ (c : ChildClass Definition) (n : Str) (rs : List (Rule Kind)), c.rules = columnHead ++ lit py"(" :: digitsRule n :: rs → (∀ r ∈ rs, r.kind.Idle) →
      Leaves (restOf [] e) c (pre ++ ' ' :: (w ++ ' ' :: '(' :: colList cols e)) := by
    intro c n rs hcr hrs
    have idle1 : ∀ r ∈ digitsRule n :: rs, r.kind.Idle := by
      intro r hr
      rcases List.mem_cons.mp hr with rfl | hr
      · rfl
      · exact hrs r hr
    have idle : ∀ r ∈ lit py"(" :: digitsRule n :: rs, r.kind.Idle := by
      intro r hr
      rcases List.mem_cons.mp hr with rfl | hr
      · rfl
      · exact idle1 r hr
    have := try_none (c := c) (by rw [hcr, head_word idle hw hw' hpre hpre' hf, run_step idle1 h1, run_fail (hd n) rfl])
    exact (leavesMore_none this).le
  -- the classes which look for nothing
  have plain : ∀ (c : ChildClass Definition) (gs : List Tag), c.rules = columnHead ++ tagRules gs →
      Leaves (restOf [] e) c (pre ++ ' ' :: (w ++ ' ' :: '(' :: colList cols e)) := by
    intro c gs hcr
    have := try_of_run (c := c) (s := pre ++ ' ' :: (w ++ ' ' :: '(' :: colList cols e)) (gs := gs) (ws := []) hcl (by simp)
      (by rw [hcr, head_word (tagRules_idle gs) hw hw' hpre hpre' hf]; congr 1; exact (strip_flat hf).symm)
    refine ⟨_, this, ?_⟩
    intro m r hr
    cases hr
    simp only [runTags_nil]
    exact Nat.le_of_lt (restOf_lt_paren hc he)
  intro c hcm
  simp only [List.mem_cons, List.not_mem_nil, or_false] at hcm
  rcases hcm with rfl | rfl | rfl | rfl | rfl | rfl | rfl
  · exact digits _ _ (lit py")" :: tagRules characterTags) rfl (fun r hr => columnTails_idle _ (List.mem_cons_self) r (List.mem_cons_of_mem _ (List.mem_cons_of_mem _ hr)))
  · exact digits _ _ (lit py")" :: tagRules numericTags) rfl
      (fun r hr => columnTails_idle _ (List.mem_cons_of_mem _ List.mem_cons_self) r (List.mem_cons_of_mem _ (List.mem_cons_of_mem _ hr)))
  · exact digits _ _ ({ kind := .literal py",", name := py"separating_comma" } :: digitsRule py"decimals" :: lit py")" :: tagRules decimalTags) rfl
      (fun r hr => columnTails_idle _ (List.mem_cons_of_mem _ (List.mem_cons_of_mem _ List.mem_cons_self)) r
        (List.mem_cons_of_mem _ (List.mem_cons_of_mem _ hr)))
  · obtain ⟨vs, h2⟩ := columns_enum hne hc e
    have idle := columnTails_idle (lit py"(" :: delimited py"enum_values" '\'' py")" :: lit py")" :: tagRules enumTags) (by simp [columnTails])
    have idle1 := fun r hr => idle r (List.mem_cons_of_mem _ hr)
    have idle2 := fun r hr => idle1 r (List.mem_cons_of_mem _ hr)
    have h3 : (lit py")").kind.parse (')' :: e) = .ok (some (.str py")", wordsText [] e)) := close_hit (ws := []) he (by simp)
    refine leaves_outcome (ws := []) (gs := enumTags) (vals := [(py"name", .str pre), (py"type", .str w), (py"(", .str py"("),
      (py"enum_values", .list vs), (py")", .str py")")]) (by simp) (try_of_run he (by simp) ?_)
    show simpleParse (columnHead ++ (lit py"(" :: delimited py"enum_values" '\'' py")" :: lit py")" :: tagRules enumTags)) _ = _
    rw [head_word idle hw hw' hpre hpre' hf, run_step idle1 h1, colList, run_step idle2 h2, run_step (tagRules_idle _) h3]
    rfl
  · exact plain _ plainTags rfl
  · exact plain _ characterTags rfl
  · exact plain _ dateTimeTags rfl

end


/-- what the rule for the word finds -/
def wordVal (w : Str) : PVal := if startsWithCI py"KEY" w then .str w else .none

theorem keyWords_facts : ∀ w ∈ keyWords, w ≠ [] ∧ (∀ c ∈ w, isWord c = true) ∧ (∀ c ∈ w, isSpace c = false) ∧
    (w.length = 3 ∧ startsWithCI py"KEY" w = true ∨ (w.length = 5 ∧ startsWithCI py"KEY" w = false ∧ startsWithCI py"INDEX" w = true)) ∧
    ∃ x xs, w = x :: xs ∧ (x.toLower = 'k' ∨ x.toLower = 'i') := by
  intro w hw
  simp only [keyWords, List.mem_cons, List.not_mem_nil, or_false] at hw
  rcases hw with rfl | rfl | rfl | rfl <;> exact ⟨by decide, by decide, by decide, by decide, _, _, rfl, by decide⟩

theorem word_run {w : Str} (hw : w ∈ keyWords) {vals : Dict PVal} {rs : List (Rule Kind)} {s : Str} (hrs : ∀ r ∈ rs, r.kind.Idle) (hs : flat true s = true) (opt : Bool) :
    runRules Kind.parse ({ kind := keyOrIndex, name := py"index_name", optional := opt } :: rs) vals (w ++ ' ' :: s) =
      runRules Kind.parse rs (vals.set py"index_name" (wordVal w)) s := by
  apply run_step hrs
  show Except.ok (regexParse (.alt _ _) _) = _
  have h := strip_space hs
  simp only [keyWords, List.mem_cons, List.not_mem_nil, or_false] at hw
  rcases hw with rfl | rfl | rfl | rfl <;> simp only [regexParse, List.cons_append, List.nil_append, List.length_cons, List.length_nil, Nat.zero_add, Nat.reduceAdd, List.drop_succ_cons,
    List.drop_zero, List.take_succ_cons, List.take_zero, h, startsWithCI] <;> rfl

theorem key_run {vals : Dict PVal} {rs : List (Rule Kind)} {s : Str} (hrs : ∀ r ∈ rs, r.kind.Idle) (hs : flat true s = true) (opt : Bool) :
    runRules Kind.parse ({ kind := keyOrIndex, name := py"index_name", optional := opt } :: rs) vals (py"KEY" ++ ' ' :: s) =
      runRules Kind.parse rs (vals.set py"index_name" (.str py"KEY")) s := word_run (w := py"KEY") (by decide) hrs hs opt

section
variable {cols : List Str} {e : Str} (hne : cols ≠ []) (hc : ∀ c ∈ cols, Ident c) (he : Closing e)
include hne hc he

theorem try_of_tail {c : ChildClass Definition} {s : Str} {vals : Dict PVal}
    (h : simpleParse c.rules s = runRules Kind.parse indexTail vals ('(' :: colList cols e)) :
    c.tryParse s = .ok (some (c.process (closeComma (tailVals vals cols) [] e).values, restOf [] e)) := by
  unfold ChildClass.tryParse
  rw [h, index_tail hne hc he]
  simp only [closeComma_matched, if_true, closeComma_rest]

theorem read_primary :
    bestChild definitionClasses (py"PRIMARY KEY " ++ '(' :: colList cols e) none =
      .ok (some (.index { rawName := [], columns := cols, itype := py"primary" }, restOf [] e)) := by
  have hf := paren_flat (colList_flat hc he)
  have hall : flat true (py"PRIMARY KEY " ++ '(' :: colList cols e) = true := by
    show flat true (py"PRIMARY KEY" ++ ' ' :: '(' :: colList cols e) = true
    rw [flat_space (by decide)]; exact hf
  apply best_of [] [indexKey, indexUnique, constraintForeign, constraintForeignBare, typeCharacter, typeNumeric, typeDecimal, typeEnum, typePlain,
    typeText, typeDateTime] indexPrimary rfl (by simp)
  · have := try_of_tail hne hc he (c := indexPrimary) (s := py"PRIMARY KEY " ++ '(' :: colList cols e) (vals := [(py"PRIMARY KEY", .str py"PRIMARY KEY")]) (by
      unfold simpleParse
      rw [normalize_normal (Or.inr hall)]
      have h1 : (lit py"PRIMARY KEY").kind.parse (py"PRIMARY KEY " ++ '(' :: colList cols e) =
          .ok (some (.str py"PRIMARY KEY", '(' :: colList cols e)) := by
        show Except.ok (literalParse py"PRIMARY KEY" (py"PRIMARY KEY" ++ (' ' :: '(' :: colList cols e))) = _
        rw [literal_hit, strip_space hf]
      show runRules Kind.parse (lit py"PRIMARY KEY" :: indexTail) [] _ = _
      rw [run_step index_tail_idle h1]
      rfl)
    rw [this]
    simp only [indexPrimary, closeComma_list _ e (k := py"columns") (by decide)]
    have : listOf (tailVals [(py"PRIMARY KEY", .str py"PRIMARY KEY")] cols) py"columns" = cols := rfl
    rw [this, clean_columns hc]
  · intro c hcm
    have hcols := columns_leave hne hc he (pre := py"PRIMARY") (w := py"KEY") (by decide) (by decide) (by simp) (by decide)
    simp only [List.mem_cons, List.not_mem_nil, or_false] at hcm
    rcases hcm with rfl | rfl | rfl | rfl | h
    · exact (leavesMore_none (try_miss_key hall (by decide) (by decide))).le
    · exact (leavesMore_none (try_miss rfl hall (by decide))).le
    · exact (leavesMore_none (try_miss rfl hall (by decide))).le
    · exact (leavesMore_none (try_miss rfl hall (by decide))).le
    · exact hcols c (by simpa using h)

omit hne hc he in
theorem unique_idle : ∀ r ∈ ({ kind := plus (· != '('), name := py"name", optional := true } : Rule Kind) :: indexTail, r.kind.Idle := by
  intro r hr
  rcases List.mem_cons.mp hr with rfl | hr
  · rfl
  · exact index_tail_idle r hr

omit hne hc he in
/-- the first two rules of `IndexUnique` -/
theorem unique_head {w : Str} (hw : w ∈ keyWords) {s : Str} (hs : flat true s = true) :
    simpleParse indexUnique.rules (py"UNIQUE " ++ (w ++ ' ' :: s)) =
      runRules Kind.parse ({ kind := plus (· != '('), name := py"name", optional := true } :: indexTail)
        [(py"UNIQUE", .str py"UNIQUE"), (py"index_name", wordVal w)] s := by
  have hk : flat true (w ++ ' ' :: s) = true :=
    pre_flat (keyWords_facts w hw).1 (fun c hc => word_nameChar ((keyWords_facts w hw).2.1 c hc)) hs
  have hall : flat true (py"UNIQUE " ++ (w ++ ' ' :: s)) = true := by
    show flat true (py"UNIQUE" ++ ' ' :: (w ++ ' ' :: s)) = true
    rw [flat_space (by decide)]; exact hk
  unfold simpleParse
  rw [normalize_normal (Or.inr hall)]
  have h1 : (lit py"UNIQUE").kind.parse (py"UNIQUE " ++ (w ++ ' ' :: s)) = .ok (some (.str py"UNIQUE", w ++ ' ' :: s)) := by
    show Except.ok (literalParse py"UNIQUE" (py"UNIQUE" ++ (' ' :: (w ++ ' ' :: s)))) = _
    rw [literal_hit, strip_space hk]
  have idle := unique_idle
  show runRules Kind.parse (lit py"UNIQUE" :: { kind := keyOrIndex, name := py"index_name", optional := true } ::
    { kind := plus (· != '('), name := py"name", optional := true } :: indexTail) [] _ = _
  rw [run_step _ h1, word_run hw idle hs]
  · rfl
  · intro r hr
    rcases List.mem_cons.mp hr with rfl | hr
    · rfl
    · exact idle r hr

theorem read_unique_bare {w : Str} (hw : w ∈ keyWords) :
    bestChild definitionClasses (py"UNIQUE " ++ (w ++ ' ' :: '(' :: colList cols e)) none =
      .ok (some (.index { rawName := [], columns := cols, itype := py"unique" }, restOf [] e)) := by
  have hf := paren_flat (colList_flat hc he)
  have hall : flat true (py"UNIQUE " ++ (w ++ ' ' :: '(' :: colList cols e)) = true := by
    show flat true (py"UNIQUE" ++ ' ' :: (w ++ ' ' :: '(' :: colList cols e)) = true
    rw [flat_space (by decide)]
    exact pre_flat (keyWords_facts w hw).1 (fun c hc => word_nameChar ((keyWords_facts w hw).2.1 c hc)) hf
  apply best_of [indexPrimary, indexKey] [constraintForeign, constraintForeignBare, typeCharacter, typeNumeric, typeDecimal, typeEnum, typePlain,
    typeText, typeDateTime] indexUnique rfl
  · intro c hcm
    simp only [List.mem_cons, List.not_mem_nil, or_false] at hcm
    rcases hcm with rfl | rfl
    · exact leavesMore_none (try_miss rfl hall (by decide))
    · exact leavesMore_none (try_miss_key hall (by decide) (by decide))
  · have hmiss : (({ kind := plus (· != '('), name := py"name", optional := true } : Rule Kind)).kind.parse ('(' :: colList cols e) = .ok none := by
      show Except.ok (regexParse _ _) = _
      simp [regexParse, startsWithCI_nil, takeRun]
    have := try_of_tail hne hc he (c := indexUnique) (s := py"UNIQUE " ++ (w ++ ' ' :: '(' :: colList cols e))
      (vals := [(py"UNIQUE", .str py"UNIQUE"), (py"index_name", wordVal w)]) (by
        rw [unique_head hw hf]
        rw [runRules]
        simp only [hmiss, if_true])
    rw [this]
    simp only [indexUnique, closeComma_list _ e (k := py"columns") (by decide), closeComma_get _ e (k := py"name") (by decide)]
    have : listOf (tailVals [(py"UNIQUE", .str py"UNIQUE"), (py"index_name", wordVal w)] cols) py"columns" = cols := rfl
    rw [this, clean_columns hc]
    rfl
  · intro c hcm
    have hcols := columns_leave hne hc he (pre := py"UNIQUE") (keyWords_facts w hw).1 (keyWords_facts w hw).2.1 (by simp) (by decide)
    simp only [List.mem_cons, List.not_mem_nil, or_false] at hcm
    rcases hcm with rfl | rfl | h
    · exact (leavesMore_none (try_miss rfl hall (by decide))).le
    · exact (leavesMore_none (try_miss rfl hall (by decide))).le
    · exact hcols c (by simpa using h)

omit hne in
theorem named_flat {n : Str} (hn : Ident n) : flat true (quoted '`' n ++ ' ' :: '(' :: colList cols e) = true :=
  pre_flat (by simp [quoted]) (quoted_noSpace hn) (paren_flat (colList_flat hc he))

omit hne hc he in
theorem stripTicks_strip {n : Str} (hn : Ident n) (r : Str) (hr : r = [] ∨ r = [' ']) : stripTicks (strip (quoted '`' n ++ r)) = n := by
  have hf : flat true (quoted '`' n) = true := flat_noSpace (fun c hc => nameChar_noSpace (quoted_noSpace hn c hc)) true (by simp [quoted])
  have : strip (quoted '`' n ++ r) = quoted '`' n := by
    rcases hr with rfl | rfl
    · rw [List.append_nil, strip_flat hf]
    · rw [strip_trailing, strip_flat hf]
  rw [this]
  have := stripTicks_ident hn
  simpa [quoted] using this

theorem read_unique {w : Str} (hw : w ∈ keyWords) {n : Str} (hn : Ident n) :
    bestChild definitionClasses (py"UNIQUE " ++ (w ++ ' ' :: (quoted '`' n ++ ' ' :: '(' :: colList cols e))) none =
      .ok (some (.index { rawName := n, columns := cols, itype := py"unique" }, restOf [] e)) := by
  have hf := paren_flat (colList_flat hc he)
  have hnf := named_flat hc he hn
  have hall : flat true (py"UNIQUE " ++ (w ++ ' ' :: (quoted '`' n ++ ' ' :: '(' :: colList cols e))) = true := by
    show flat true (py"UNIQUE" ++ ' ' :: (w ++ ' ' :: (quoted '`' n ++ ' ' :: '(' :: colList cols e))) = true
    rw [flat_space (by decide)]
    exact pre_flat (keyWords_facts w hw).1 (fun c hc => word_nameChar ((keyWords_facts w hw).2.1 c hc)) hnf
  apply best_of [indexPrimary, indexKey] [constraintForeign, constraintForeignBare, typeCharacter, typeNumeric, typeDecimal, typeEnum, typePlain,
    typeText, typeDateTime] indexUnique rfl
  · intro c hcm
    simp only [List.mem_cons, List.not_mem_nil, or_false] at hcm
    rcases hcm with rfl | rfl
    · exact leavesMore_none (try_miss rfl hall (by decide))
    · exact leavesMore_none (try_miss_key hall (by decide) (by decide))
  · have hhit : (({ kind := plus (· != '('), name := py"name", optional := true } : Rule Kind)).kind.parse (quoted '`' n ++ ' ' :: '(' :: colList cols e) =
        .ok (some (.str (quoted '`' n ++ [' ']), '(' :: colList cols e)) := by
      have := regex_hit (p := (· != '(')) (pre := []) (run := quoted '`' n ++ [' ']) (post := []) (r := '(' :: colList cols e) (by simp [quoted])
        (by
          intro c hcm
          rcases List.mem_append.mp hcm with h | h
          · have := quoted_noSpace hn c h
            simp only [nameChar, Bool.and_eq_true] at this
            exact this.1.1
          · rw [List.mem_singleton] at h; subst h; decide)
        (by simp)
      rw [strip_flat hf, List.nil_append, List.nil_append, List.append_assoc] at this
      exact congrArg Except.ok this
    have := try_of_tail hne hc he (c := indexUnique) (s := py"UNIQUE " ++ (w ++ ' ' :: (quoted '`' n ++ ' ' :: '(' :: colList cols e)))
      (vals := [(py"UNIQUE", .str py"UNIQUE"), (py"index_name", wordVal w), (py"name", .str (quoted '`' n ++ [' ']))]) (by
        rw [unique_head hw hnf, run_step index_tail_idle hhit]
        rfl)
    rw [this]
    simp only [indexUnique, closeComma_list _ e (k := py"columns") (by decide), closeComma_get _ e (k := py"name") (by decide)]
    have h1 : listOf (tailVals [(py"UNIQUE", .str py"UNIQUE"), (py"index_name", wordVal w), (py"name", .str (quoted '`' n ++ [' ']))] cols) py"columns" = cols := rfl
    have h2 : Dict.get? (tailVals [(py"UNIQUE", .str py"UNIQUE"), (py"index_name", wordVal w), (py"name", .str (quoted '`' n ++ [' ']))] cols) py"name" =
      some (.str (quoted '`' n ++ [' '])) := rfl
    rw [h1, h2, clean_columns hc]
    simp only [PVal.text]
    rw [stripTicks_strip hn _ (Or.inr rfl)]
  · intro c hcm
    simp only [List.mem_cons, List.not_mem_nil, or_false] at hcm
    have hs : quoted '`' n ++ ' ' :: '(' :: colList cols e = '`' :: (n ++ ['`'] ++ ' ' :: '(' :: colList cols e) := by simp [quoted]
    have paren : ∀ (c : ChildClass Definition) (rs : List (Rule Kind)), c.rules = columnHead ++ lit py"(" :: rs → (∀ r ∈ rs, r.kind.Idle) →
        LeavesMore (restOf [] e) c (py"UNIQUE " ++ (w ++ ' ' :: (quoted '`' n ++ ' ' :: '(' :: colList cols e))) := by
      intro c rs hcr hrs
      have idle : ∀ r ∈ lit py"(" :: rs, r.kind.Idle := by
        intro r hr
        rcases List.mem_cons.mp hr with rfl | hr
        · rfl
        · exact hrs r hr
      have hm : (lit py"(").kind.parse (quoted '`' n ++ ' ' :: '(' :: colList cols e) = .ok none := by
        rw [hs]
        exact lit_miss (a := '(') [] (by decide) (by decide) (by decide)
      have := try_none (c := c) (by rw [hcr]; exact (head_word (pre := py"UNIQUE") idle (keyWords_facts w hw).1 (keyWords_facts w hw).2.1 (by simp) (by decide) hnf).trans (run_fail hm rfl))
      exact leavesMore_none this
    have plain : ∀ (c : ChildClass Definition) (gs : List Tag), c.rules = columnHead ++ tagRules gs →
        LeavesMore (restOf [] e) c (py"UNIQUE " ++ (w ++ ' ' :: (quoted '`' n ++ ' ' :: '(' :: colList cols e))) := by
      intro c gs hcr
      have hp : simpleParse c.rules (py"UNIQUE " ++ (w ++ ' ' :: (quoted '`' n ++ ' ' :: '(' :: colList cols e))) =
          .ok ⟨true, [(py"name", .str py"UNIQUE"), (py"type", .str w)], quoted '`' n ++ ' ' :: '(' :: colList cols e⟩ := by
        rw [hcr]
        exact (head_word (pre := py"UNIQUE") (tagRules_idle gs) (keyWords_facts w hw).1 (keyWords_facts w hw).2.1 (by simp) (by decide) hnf).trans (by rw [hs]; exact tags_tick _ _ gs)
      refine ⟨_, try_some hp, ?_⟩
      intro m r hr
      simp only [Option.some.injEq, Prod.mk.injEq] at hr
      obtain ⟨_, rfl⟩ := hr
      have := restOf_nil_le e
      simp only [colList, List.length_cons, List.length_append]
      omega
    rcases hcm with rfl | rfl | rfl | rfl | rfl | rfl | rfl | rfl | rfl
    · exact (leavesMore_none (try_miss rfl hall (by decide))).le
    · exact (leavesMore_none (try_miss rfl hall (by decide))).le
    · exact (paren _ (digitsRule py"length" :: lit py")" :: tagRules characterTags) rfl
        (fun r hr => columnTails_idle _ (by simp [columnTails]) r (List.mem_cons_of_mem (lit py"(") hr))).le
    · exact (paren _ (digitsRule py"length" :: lit py")" :: tagRules numericTags) rfl
        (fun r hr => columnTails_idle _ (by simp [columnTails]) r (List.mem_cons_of_mem (lit py"(") hr))).le
    · exact (paren _ (digitsRule py"length" :: { kind := .literal py",", name := py"separating_comma" } :: digitsRule py"decimals" :: lit py")" ::
        tagRules decimalTags) rfl (fun r hr => columnTails_idle _ (by simp [columnTails]) r (List.mem_cons_of_mem (lit py"(") hr))).le
    · exact (paren _ (delimited py"enum_values" '\'' py")" :: lit py")" :: tagRules enumTags) rfl
        (fun r hr => columnTails_idle _ (by simp [columnTails]) r (List.mem_cons_of_mem (lit py"(") hr))).le
    · exact (plain _ plainTags rfl).le
    · exact (plain _ characterTags rfl).le
    · exact (plain _ dateTimeTags rfl).le

theorem read_key {w : Str} (hw : w ∈ keyWords) {n : Str} (hn : Ident n) :
    bestChild definitionClasses (w ++ ' ' :: (quoted '`' n ++ ' ' :: '(' :: colList cols e)) none =
      .ok (some (.index { rawName := n, columns := cols, itype := py"index" }, restOf [] e)) := by
  have hf := paren_flat (colList_flat hc he)
  have hnf := named_flat hc he hn
  have hall : flat true (w ++ ' ' :: (quoted '`' n ++ ' ' :: '(' :: colList cols e)) = true := 
    pre_flat (keyWords_facts w hw).1 (fun c hc => word_nameChar ((keyWords_facts w hw).2.1 c hc)) hnf
  have hs : quoted '`' n ++ ' ' :: '(' :: colList cols e = '`' :: (n ++ ['`'] ++ ' ' :: '(' :: colList cols e) := by simp [quoted]
  have miss : ∀ (c : ChildClass Definition) (a : Char) (as : Str) (rs : List (Rule Kind)), c.rules = lit (a :: as) :: rs → a.toLower ≠ 'k' → a.toLower ≠ 'i' →
      c.tryParse (w ++ ' ' :: (quoted '`' n ++ ' ' :: '(' :: colList cols e)) = .ok none := by
    intro c a as rs hc h1 h2
    obtain ⟨x, xs, hx, hk⟩ := (keyWords_facts w hw).2.2.2.2
    have hall' := hall
    rw [hx] at hall' ⊢
    refine try_miss hc hall' ?_
    rcases hk with hk | hk <;> rw [hk]
    · exact h1.symm
    · exact h2.symm
  apply best_of [indexPrimary] [indexUnique, constraintForeign, constraintForeignBare, typeCharacter, typeNumeric, typeDecimal, typeEnum, typePlain,
    typeText, typeDateTime] indexKey rfl
  · intro c hcm
    simp only [List.mem_cons, List.not_mem_nil, or_false] at hcm
    subst hcm
    exact leavesMore_none (miss _ _ _ _ rfl (by decide) (by decide))
  · have idle : ∀ r ∈ nameRule py"name" :: indexTail, r.kind.Idle := by
      intro r hr
      rcases List.mem_cons.mp hr with rfl | hr
      · rfl
      · exact index_tail_idle r hr
    have := try_of_tail hne hc he (c := indexKey) (s := w ++ ' ' :: (quoted '`' n ++ ' ' :: '(' :: colList cols e))
      (vals := [(py"index_name", wordVal w), (py"name", .str (quoted '`' n))]) (by
        unfold simpleParse
        rw [normalize_normal (Or.inr hall)]
        have h1 := word_run hw (vals := []) (s := quoted '`' n ++ ' ' :: '(' :: colList cols e) idle hnf false
        have h2 := name_hit (pre := quoted '`' n) (by simp [quoted]) (quoted_noSpace hn) hf py"name"
        rw [run_step index_tail_idle h2] at h1
        exact h1)
    rw [this]
    simp only [indexKey, closeComma_list _ e (k := py"columns") (by decide), closeComma_text _ e (k := py"name") (by decide)]
    have h1 : listOf (tailVals [(py"index_name", wordVal w), (py"name", .str (quoted '`' n))] cols) py"columns" = cols := rfl
    have h2 : textOf (tailVals [(py"index_name", wordVal w), (py"name", .str (quoted '`' n))] cols) py"name" = quoted '`' n := rfl
    have h3 := stripTicks_strip hn [] (Or.inl rfl)
    rw [List.append_nil] at h3
    rw [h1, h2, clean_columns hc, h3]
  · intro c hcm
    simp only [List.mem_cons, List.not_mem_nil, or_false] at hcm
    rcases hcm with rfl | rfl | rfl | h
    · exact (leavesMore_none (miss _ _ _ _ rfl (by decide) (by decide))).le
    · exact (leavesMore_none (miss _ _ _ _ rfl (by decide) (by decide))).le
    · exact (leavesMore_none (miss _ _ _ _ rfl (by decide) (by decide))).le
    · obtain ⟨rs, hrs, hcr⟩ := columnClass_tail c (by simpa using h)
      have := try_tick_type hcr (columnTails_idle rs hrs) (pre := w) (s := n ++ ['`'] ++ ' ' :: '(' :: colList cols e) (keyWords_facts w hw).1 (fun c hc => word_nameChar ((keyWords_facts w hw).2.1 c hc))
        (by rw [← hs]; exact hnf)
      rw [← hs] at this
      exact (leavesMore_none this).le

omit hne hc he in
/-- the first two rules of `IndexUnique`, when there is no word -/
theorem unique_head_wordless {x : Char} {s : Str} (hk : x.toLower ≠ 'k') (hi : x.toLower ≠ 'i') (hs : flat true (x :: s) = true) :
    simpleParse indexUnique.rules (py"UNIQUE " ++ x :: s) =
      runRules Kind.parse ({ kind := plus (· != '('), name := py"name", optional := true } :: indexTail)
        [(py"UNIQUE", .str py"UNIQUE")] (x :: s) := by
  have hall : flat true (py"UNIQUE " ++ x :: s) = true := by
    show flat true (py"UNIQUE" ++ ' ' :: (x :: s)) = true
    rw [flat_space (by decide)]; exact hs
  unfold simpleParse
  rw [normalize_normal (Or.inr hall)]
  have h1 : (lit py"UNIQUE").kind.parse (py"UNIQUE " ++ x :: s) = .ok (some (.str py"UNIQUE", x :: s)) := by
    show Except.ok (literalParse py"UNIQUE" (py"UNIQUE" ++ (' ' :: (x :: s)))) = _
    rw [literal_hit, strip_space hs]
  have idle := unique_idle
  have hm : keyOrIndex.parse (x :: s) = .ok none := by
    show Except.ok (regexParse (.alt _ _) (x :: s)) = _
    simp [regexParse, startsWithCI_cons, show Char.toLower 'K' = 'k' from by decide, show Char.toLower 'I' = 'i' from by decide, hk, hi]
  show runRules Kind.parse (lit py"UNIQUE" :: { kind := keyOrIndex, name := py"index_name", optional := true } ::
    { kind := plus (· != '('), name := py"name", optional := true } :: indexTail) [] _ = _
  rw [run_step _ h1]
  · rw [runRules]
    simp only [hm, if_true]
    rfl
  · intro r hr
    rcases List.mem_cons.mp hr with rfl | hr
    · rfl
    · exact idle r hr

theorem read_unique_wordless :
    bestChild definitionClasses (py"UNIQUE " ++ '(' :: colList cols e) none =
      .ok (some (.index { rawName := [], columns := cols, itype := py"unique" }, restOf [] e)) := by
  have hf := paren_flat (colList_flat hc he)
  have hall : flat true (py"UNIQUE " ++ '(' :: colList cols e) = true := by
    show flat true (py"UNIQUE" ++ ' ' :: ('(' :: colList cols e)) = true
    rw [flat_space (by decide)]; exact hf
  apply best_of [indexPrimary, indexKey] [constraintForeign, constraintForeignBare, typeCharacter, typeNumeric, typeDecimal, typeEnum, typePlain,
    typeText, typeDateTime] indexUnique rfl
  · intro c hcm
    simp only [List.mem_cons, List.not_mem_nil, or_false] at hcm
    rcases hcm with rfl | rfl
    · exact leavesMore_none (try_miss rfl hall (by decide))
    · exact leavesMore_none (try_miss_key hall (by decide) (by decide))
  · have hmiss : (({ kind := plus (· != '('), name := py"name", optional := true } : Rule Kind)).kind.parse ('(' :: colList cols e) = .ok none := by
      show Except.ok (regexParse _ _) = _
      simp [regexParse, startsWithCI_nil, takeRun]
    have := try_of_tail hne hc he (c := indexUnique) (s := py"UNIQUE " ++ '(' :: colList cols e)
      (vals := [(py"UNIQUE", .str py"UNIQUE")]) (by
        rw [unique_head_wordless (by decide) (by decide) hf]
        rw [runRules]
        simp only [hmiss, if_true])
    rw [this]
    simp only [indexUnique, closeComma_list _ e (k := py"columns") (by decide), closeComma_get _ e (k := py"name") (by decide)]
    have : listOf (tailVals [(py"UNIQUE", .str py"UNIQUE")] cols) py"columns" = cols := rfl
    rw [this, clean_columns hc]
    rfl
  · intro c hcm
    simp only [List.mem_cons, List.not_mem_nil, or_false] at hcm
    rcases hcm with rfl | rfl | h
    · exact (leavesMore_none (try_miss rfl hall (by decide))).le
    · exact (leavesMore_none (try_miss rfl hall (by decide))).le
    · obtain ⟨rs, hrs, hcr⟩ := columnClass_tail c (by simpa using h)
      exact (leavesMore_none (try_no_type hcr (columnTails_idle rs hrs) (x := '(') (by decide) (pre := py"UNIQUE") (by simp) (by decide) hf)).le

theorem read_unique_named {n : Str} (hn : Ident n) :
    bestChild definitionClasses (py"UNIQUE " ++ (quoted '`' n ++ ' ' :: '(' :: colList cols e)) none =
      .ok (some (.index { rawName := n, columns := cols, itype := py"unique" }, restOf [] e)) := by
  have hf := paren_flat (colList_flat hc he)
  have hnf := named_flat hc he hn
  have hs : quoted '`' n ++ ' ' :: '(' :: colList cols e = '`' :: (n ++ ['`'] ++ ' ' :: '(' :: colList cols e) := by simp [quoted]
  have hall : flat true (py"UNIQUE " ++ (quoted '`' n ++ ' ' :: '(' :: colList cols e)) = true := by
    show flat true (py"UNIQUE" ++ ' ' :: (quoted '`' n ++ ' ' :: '(' :: colList cols e)) = true
    rw [flat_space (by decide)]; exact hnf
  apply best_of [indexPrimary, indexKey] [constraintForeign, constraintForeignBare, typeCharacter, typeNumeric, typeDecimal, typeEnum, typePlain,
    typeText, typeDateTime] indexUnique rfl
  · intro c hcm
    simp only [List.mem_cons, List.not_mem_nil, or_false] at hcm
    rcases hcm with rfl | rfl
    · exact leavesMore_none (try_miss rfl hall (by decide))
    · exact leavesMore_none (try_miss_key hall (by decide) (by decide))
  · have hhit : (({ kind := plus (· != '('), name := py"name", optional := true } : Rule Kind)).kind.parse (quoted '`' n ++ ' ' :: '(' :: colList cols e) =
        .ok (some (.str (quoted '`' n ++ [' ']), '(' :: colList cols e)) := by
      have := regex_hit (p := (· != '(')) (pre := []) (run := quoted '`' n ++ [' ']) (post := []) (r := '(' :: colList cols e) (by simp [quoted])
        (by
          intro c hcm
          rcases List.mem_append.mp hcm with h | h
          · have := quoted_noSpace hn c h
            simp only [nameChar, Bool.and_eq_true] at this
            exact this.1.1
          · rw [List.mem_singleton] at h; subst h; decide)
        (by simp)
      rw [strip_flat hf, List.nil_append, List.nil_append, List.append_assoc] at this
      exact congrArg Except.ok this
    have hhead : simpleParse indexUnique.rules (py"UNIQUE " ++ (quoted '`' n ++ ' ' :: '(' :: colList cols e)) =
        runRules Kind.parse ({ kind := plus (· != '('), name := py"name", optional := true } :: indexTail)
          [(py"UNIQUE", .str py"UNIQUE")] (quoted '`' n ++ ' ' :: '(' :: colList cols e) := by
      rw [hs]
      exact unique_head_wordless (by decide) (by decide) (by rw [← hs]; exact hnf)
    have := try_of_tail hne hc he (c := indexUnique) (s := py"UNIQUE " ++ (quoted '`' n ++ ' ' :: '(' :: colList cols e))
      (vals := [(py"UNIQUE", .str py"UNIQUE"), (py"name", .str (quoted '`' n ++ [' ']))]) (by
        rw [hhead, run_step index_tail_idle hhit]
        rfl)
    rw [this]
    simp only [indexUnique, closeComma_list _ e (k := py"columns") (by decide), closeComma_get _ e (k := py"name") (by decide)]
    have h1 : listOf (tailVals [(py"UNIQUE", .str py"UNIQUE"), (py"name", .str (quoted '`' n ++ [' ']))] cols) py"columns" = cols := rfl
    have h2 : Dict.get? (tailVals [(py"UNIQUE", .str py"UNIQUE"), (py"name", .str (quoted '`' n ++ [' ']))] cols) py"name" =
      some (.str (quoted '`' n ++ [' '])) := rfl
    rw [h1, h2, clean_columns hc]
    simp only [PVal.text]
    rw [stripTicks_strip hn _ (Or.inr rfl)]
  · intro c hcm
    simp only [List.mem_cons, List.not_mem_nil, or_false] at hcm
    rcases hcm with rfl | rfl | h
    · exact (leavesMore_none (try_miss rfl hall (by decide))).le
    · exact (leavesMore_none (try_miss rfl hall (by decide))).le
    · obtain ⟨rs, hrs, hcr⟩ := columnClass_tail c (by simpa using h)
      have := try_tick_type hcr (columnTails_idle rs hrs) (pre := py"UNIQUE") (s := n ++ ['`'] ++ ' ' :: '(' :: colList cols e) (by simp) (by decide)
        (by rw [← hs]; exact hnf)
      rw [← hs] at this
      exact (leavesMore_none this).le

end

theorem ticked_join (cols : List Str) (hne : cols ≠ []) (e : Str) :
    py"(`" ++ join py"`,`" cols ++ py"`)" ++ e = '(' :: colList cols e := by
  obtain ⟨c, cs, rfl⟩ := List.exists_cons_of_ne_nil hne
  unfold colList
  rw [List.map_cons, join_cons, join_cons]
  have key : ∀ cs : List Str, cs.flatMap (fun x => py"`,`" ++ x) ++ ['`'] = '`' :: (cs.map (quoted '`')).flatMap (fun x => py"," ++ x) := by
    intro cs
    induction cs with
    | nil => rfl
    | cons x xs ih =>
      simp only [List.flatMap_cons, List.map_cons, List.append_assoc, ih]
      simp [quoted]
  have h := key cs
  simp only [quoted, List.cons_append, List.nil_append, List.append_assoc] at h ⊢
  have h' := congrArg (· ++ ')' :: e) h
  simp only [List.append_assoc, List.cons_append, List.nil_append] at h'
  rw [h']

/-- the text of an index, with its columns apart -/
theorem written_split (i : Index) (w e : Str) (hne : i.columns ≠ []) : i.written w ++ e =
    (if i.indexType = py"PRIMARY" then py"PRIMARY KEY " else if i.indexType = py"UNIQUE" then py"UNIQUE " else []) ++
    ((if i.indexType = py"PRIMARY" ∨ w = [] then [] else w ++ py" ") ++
    ((if i.rawName = [] then [] else quoted '`' i.rawName ++ py" ") ++ '(' :: colList i.columns e)) := by
  rw [← ticked_join i.columns hne e]
  unfold Index.written
  simp only [List.append_assoc, quoted, List.cons_append, List.nil_append]

/-- as mygrations writes an index -/
theorem render_written (i : Index) (h : i.Plain) : i.render = i.written py"KEY" := by
  unfold Index.render Index.written
  rcases h.type with ⟨h1, h2⟩ | ⟨h1, h2⟩ | ⟨h1, h2⟩
  · rw [h1, h2]; simp [join]
  · rw [h1]
    rcases h2 with h2 | h2
    · rw [h2]; simp [join]
    · simp [join, h2.1, Index.name]
  · rw [h1]; simp [join, h2.1, Index.name]

/-- a plain index is read back, whatever closes it -/
theorem written_read {i : Index} (h : i.Plain) {w : Str} (hw : i.Spelled w) {e : Str} (he : Closing e) :
    bestChild definitionClasses (i.written w ++ e) none =
      .ok (some (.index { rawName := i.rawName, columns := i.columns, itype := lower i.indexType }, restOf [] e)) := by
  obtain ⟨hne, hc⟩ := h.columns
  rw [written_split i w e hne]
  rcases h.type with ⟨h1, h2⟩ | ⟨h1, h2⟩ | ⟨h1, h2⟩
  · have := read_primary hne hc he
    rw [h1, h2, show lower py"PRIMARY" = py"primary" from by decide, ← this]
    rfl
  · have hl : lower i.indexType = py"unique" := by rw [h1]; decide
    rw [hl, h1]
    rcases hw with hw | ⟨rfl, _⟩
    · have hw0 := (keyWords_facts w hw).1
      rcases h2 with h2 | h2
      · have := read_unique_bare hne hc he hw
        rw [h2, ← this]
        simp [hw0]
      · have := read_unique hne hc he hw h2
        rw [← this]
        simp [hw0, h2.1]
    · rcases h2 with h2 | h2
      · have := read_unique_wordless hne hc he
        rw [h2, ← this]
        simp
      · have := read_unique_named hne hc he h2
        rw [← this]
        simp [h2.1]
  · have hl : lower i.indexType = py"index" := by rw [h1]; decide
    rcases hw with hw | ⟨_, h3⟩
    · have hw0 := (keyWords_facts w hw).1
      have := read_key hne hc he hw h2
      rw [hl, h1, ← this]
      simp [hw0, h2.1]
    · rw [h1] at h3; exact absurd h3 (by decide)

theorem index_read {i : Index} (h : i.Plain) {e : Str} (he : Closing e) :
    bestChild definitionClasses (i.render ++ e) none =
      .ok (some (.index { rawName := i.rawName, columns := i.columns, itype := lower i.indexType }, restOf [] e)) := by
  rw [render_written i h]
  exact written_read h (.inl (by decide)) he

end Mygrations

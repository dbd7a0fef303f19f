import Verif.Proofs.ReadComment
import Verif.Spec.Updated

/-! # A column which MySQL updates ends the reading of a table -/

namespace Mygrations

/-- what follows `CURRENT_TIMESTAMP`, normalised: the end of the definitions, or a column -/
def UpdateRest (m : Str) : Prop := (∃ g r, Gap g ∧ m = g ++ ')' :: r) ∨ (∃ r, m = ',' :: ' ' :: '`' :: r)

theorem try_stamp {c : ChildClass Definition} {rs : List (Rule Kind)} (hc : c.rules = columnHead ++ rs) (hrs : ∀ r ∈ rs, r.kind.Idle) {m : Str}
    (hm : UpdateRest m) (hf : flat true (py"CURRENT_TIMESTAMP" ++ m) = true) : c.tryParse (py"CURRENT_TIMESTAMP" ++ m) = .ok none := by
  rcases hm with ⟨g, r, rfl | rfl, rfl⟩ | ⟨r, rfl⟩
  · have hr : flat true (')' :: r) = true := by
      rw [flat_append (by decide)] at hf
      simpa [flat, show isSpace ')' = false from by decide] using hf
    refine try_none (vals := [(py"name", .str py"CURRENT_TIMESTAMP")]) (rest := ')' :: r) ?_
    unfold simpleParse
    rw [hc, normalize_normal (Or.inr hf)]
    simp only [columnHead, List.cons_append, List.nil_append]
    have h1 : (nameRule py"name").kind.parse (py"CURRENT_TIMESTAMP" ++ ')' :: r) = .ok (some (.str py"CURRENT_TIMESTAMP", ')' :: r)) := by
      have := regex_hit (p := nameChar) (pre := []) (run := py"CURRENT_TIMESTAMP") (post := []) (r := ')' :: r) (by simp) (by decide) (by simp; decide)
      rw [strip_flat hr] at this
      exact congrArg Except.ok this
    refine (run_step ?_ h1).trans ?_
    · intro r hr
      rcases List.mem_cons.mp hr with rfl | hr
      · rfl
      · exact hrs r hr
    · apply run_fail _ rfl
      show Except.ok (regexParse _ _) = _
      simp [regexParse, startsWithCI_nil, takeRun, show isWord ')' = false from by decide]
  · have hr : flat true (')' :: r) = true := by
      have : flat true (py"CURRENT_TIMESTAMP" ++ ' ' :: ')' :: r) = true := hf
      rwa [flat_space (by decide)] at this
    exact try_no_type hc hrs (x := ')') (by decide) (pre := py"CURRENT_TIMESTAMP") (by simp) (by decide) hr
  · have hr : flat true ('`' :: r) = true := by
      have : flat true (py"CURRENT_TIMESTAMP," ++ ' ' :: '`' :: r) = true := hf
      rwa [flat_space (by decide)] at this
    exact try_no_type hc hrs (x := '`') (by decide) (pre := py"CURRENT_TIMESTAMP,") (by simp) (by decide) hr

/-- nothing starts with what follows `ON UPDATE` -/
theorem definitions_stamp {m : Str} (hm : UpdateRest m) (hf : flat true (py"CURRENT_TIMESTAMP" ++ m) = true) :
    bestChild definitionClasses (py"CURRENT_TIMESTAMP" ++ m) none = .ok none := by
  rw [bestChild_none]
  intro c hc
  simp only [definitionClasses, List.mem_cons, List.not_mem_nil, or_false] at hc
  have key : ∀ (c : ChildClass Definition) (x : Rule Kind) (xs : List (Rule Kind)), c.rules = x :: xs → x.optional = false →
      x.kind.parse (py"CURRENT_TIMESTAMP" ++ m) = .ok none → c.tryParse (py"CURRENT_TIMESTAMP" ++ m) = .ok none := by
    intro c x xs h1 h2 h3
    refine try_none (vals := []) (rest := py"CURRENT_TIMESTAMP" ++ m) ?_
    unfold simpleParse
    rw [h1, normalize_normal (Or.inr hf), run_fail h3 h2]
  have hlit : ∀ v, startsWithCI v (py"CURRENT_TIMESTAMP" ++ m) = false → (lit v).kind.parse (py"CURRENT_TIMESTAMP" ++ m) = .ok none := fun v hv => by
    show Except.ok (literalParse v (py"CURRENT_TIMESTAMP" ++ m)) = _
    rw [literal_miss hv]
  have hkey : keyOrIndex.parse (py"CURRENT_TIMESTAMP" ++ m) = .ok none := by
    show Except.ok (regexParse (.alt py"KEY" py"INDEX") (py"CURRENT_TIMESTAMP" ++ m)) = _
    simp [regexParse, startsWithCI_cons]
  rcases hc with rfl | rfl | rfl | rfl | rfl | h
  · exact key _ _ _ rfl rfl (hlit _ (by simp [startsWithCI_cons]))
  · exact key _ _ _ rfl rfl hkey
  · exact key _ _ _ rfl rfl (hlit _ (by simp [startsWithCI_cons]))
  · exact key _ _ _ rfl rfl (hlit _ (by simp [startsWithCI_cons]))
  · exact key _ _ _ rfl rfl (hlit _ (by simp [startsWithCI_cons]))
  · obtain ⟨rs, hrs, hcr⟩ := columnClass_tail c (by simpa using h)
    exact try_stamp hcr (columnTails_idle rs hrs) hm hf

/-- `ON UPDATE` is read as a column `ON` of type `UPDATE` -/
theorem definitions_on {m : Str} (hf : flat true (py"CURRENT_TIMESTAMP" ++ m) = true) :
    ∃ d, bestChild definitionClasses (py"ON UPDATE CURRENT_TIMESTAMP" ++ m) none = .ok (some (d, py"CURRENT_TIMESTAMP" ++ m)) := by
  have hU : flat true (py"UPDATE CURRENT_TIMESTAMP" ++ m) = true := by
    show flat true (py"UPDATE" ++ ' ' :: (py"CURRENT_TIMESTAMP" ++ m)) = true
    rw [flat_space (by decide)]; exact hf
  have hall : flat true (py"ON UPDATE CURRENT_TIMESTAMP" ++ m) = true := by
    show flat true (py"ON" ++ ' ' :: (py"UPDATE CURRENT_TIMESTAMP" ++ m)) = true
    rw [flat_space (by decide)]; exact hU
  have hcl : Closing (' ' :: (py"CURRENT_TIMESTAMP" ++ m)) := by
    refine Or.inr ⟨⟨m, Or.inr (Or.inr (Or.inr (Or.inr (Or.inr (Or.inr rfl)))))⟩, ?_⟩
    show flat false ([] ++ ' ' :: (py"CURRENT_TIMESTAMP" ++ m)) = true
    rw [flat_space rfl]; exact hf
  have hst : strip (' ' :: (py"CURRENT_TIMESTAMP" ++ m)) = py"CURRENT_TIMESTAMP" ++ m := strip_space hf
  have key : ∀ (c : ChildClass Definition) (x : Rule Kind) (xs : List (Rule Kind)), c.rules = x :: xs → x.optional = false →
      x.kind.parse (py"ON UPDATE CURRENT_TIMESTAMP" ++ m) = .ok none → c.tryParse (py"ON UPDATE CURRENT_TIMESTAMP" ++ m) = .ok none := by
    intro c x xs h1 h2 h3
    refine try_none (vals := []) (rest := py"ON UPDATE CURRENT_TIMESTAMP" ++ m) ?_
    unfold simpleParse
    rw [h1, normalize_normal (Or.inr hall), run_fail h3 h2]
  have hlit : ∀ v, startsWithCI v (py"ON UPDATE CURRENT_TIMESTAMP" ++ m) = false → (lit v).kind.parse (py"ON UPDATE CURRENT_TIMESTAMP" ++ m) = .ok none := fun v hv => by
    show Except.ok (literalParse v (py"ON UPDATE CURRENT_TIMESTAMP" ++ m)) = _
    rw [literal_miss hv]
  have hkey : keyOrIndex.parse (py"ON UPDATE CURRENT_TIMESTAMP" ++ m) = .ok none := by
    show Except.ok (regexParse (.alt py"KEY" py"INDEX") (py"ON UPDATE CURRENT_TIMESTAMP" ++ m)) = _
    simp [regexParse, startsWithCI_cons]
  have h1 : indexPrimary.tryParse (py"ON UPDATE CURRENT_TIMESTAMP" ++ m) = .ok none := key _ _ _ rfl rfl (hlit _ (by simp [startsWithCI_cons]))
  have h2 : indexKey.tryParse (py"ON UPDATE CURRENT_TIMESTAMP" ++ m) = .ok none := key _ _ _ rfl rfl hkey
  have h3 : indexUnique.tryParse (py"ON UPDATE CURRENT_TIMESTAMP" ++ m) = .ok none := key _ _ _ rfl rfl (hlit _ (by simp [startsWithCI_cons]))
  have h4 : constraintForeign.tryParse (py"ON UPDATE CURRENT_TIMESTAMP" ++ m) = .ok none := key _ _ _ rfl rfl (hlit _ (by simp [startsWithCI_cons]))
  have h5 : constraintForeignBare.tryParse (py"ON UPDATE CURRENT_TIMESTAMP" ++ m) = .ok none := key _ _ _ rfl rfl (hlit _ (by simp [startsWithCI_cons]))
  have head : ∀ (rs : List (Rule Kind)), (∀ r ∈ rs, r.kind.Idle) → simpleParse (columnHead ++ rs) (py"ON UPDATE CURRENT_TIMESTAMP" ++ m) =
      runRules Kind.parse rs [(py"name", .str py"ON"), (py"type", .str py"UPDATE")] (py"CURRENT_TIMESTAMP" ++ m) := by
    intro rs hrs
    unfold simpleParse
    rw [normalize_normal (Or.inr hall)]
    simp only [columnHead, List.cons_append, List.nil_append]
    have n1 : (nameRule py"name").kind.parse (py"ON UPDATE CURRENT_TIMESTAMP" ++ m) = .ok (some (.str py"ON", py"UPDATE CURRENT_TIMESTAMP" ++ m)) :=
      name_hit (pre := py"ON") (by simp) (by decide) hU _
    have n2 : typeRule.kind.parse (py"UPDATE CURRENT_TIMESTAMP" ++ m) = .ok (some (.str py"UPDATE", py"CURRENT_TIMESTAMP" ++ m)) := by
      have := regex_hit (p := isWord) (pre := []) (run := py"UPDATE") (post := []) (r := ' ' :: (py"CURRENT_TIMESTAMP" ++ m)) (by simp) (by decide)
        (by simp; decide)
      rw [hst] at this
      exact congrArg Except.ok this
    refine (run_step ?_ n1).trans ((run_step hrs n2).trans rfl)
    intro r hr
    rcases List.mem_cons.mp hr with rfl | hr
    · rfl
    · exact hrs r hr
  have len : ∀ (c : ChildClass Definition) rs, c.rules = columnHead ++ lit py"(" :: rs → (∀ r ∈ lit py"(" :: rs, r.kind.Idle) →
      c.tryParse (py"ON UPDATE CURRENT_TIMESTAMP" ++ m) = .ok none := by
    intro c rs hc hrs
    refine try_none (vals := [(py"name", .str py"ON"), (py"type", .str py"UPDATE")]) (rest := py"CURRENT_TIMESTAMP" ++ m) ?_
    rw [hc, head _ hrs, run_fail _ rfl]
    show Except.ok (literalParse _ _) = _
    rw [literal_miss]
    simp [startsWithCI_cons]
  have h6 : typeCharacter.tryParse (py"ON UPDATE CURRENT_TIMESTAMP" ++ m) = .ok none :=
    len _ _ rfl (columnTails_idle _ List.mem_cons_self)
  have h7 : typeNumeric.tryParse (py"ON UPDATE CURRENT_TIMESTAMP" ++ m) = .ok none := len _ _ rfl (columnTails_idle _ (List.mem_cons_of_mem _ List.mem_cons_self))
  have h8 : typeDecimal.tryParse (py"ON UPDATE CURRENT_TIMESTAMP" ++ m) = .ok none :=
    len _ _ rfl (columnTails_idle _ (List.mem_cons_of_mem _ (List.mem_cons_of_mem _ List.mem_cons_self)))
  have h9 : typeEnum.tryParse (py"ON UPDATE CURRENT_TIMESTAMP" ++ m) = .ok none :=
    len _ _ rfl (columnTails_idle _ (List.mem_cons_of_mem _ (List.mem_cons_of_mem _ (List.mem_cons_of_mem _ List.mem_cons_self))))
  have plain : ∀ (c : ChildClass Definition) gs, c.rules = columnHead ++ tagRules gs →
      ∃ d, c.tryParse (py"ON UPDATE CURRENT_TIMESTAMP" ++ m) = .ok (some (d, py"CURRENT_TIMESTAMP" ++ m)) := by
    intro c gs hc
    have := try_of_run (c := c) (s := py"ON UPDATE CURRENT_TIMESTAMP" ++ m) (gs := gs) (vals := [(py"name", .str py"ON"), (py"type", .str py"UPDATE")])
      (ws := []) (e := ' ' :: (py"CURRENT_TIMESTAMP" ++ m)) hcl (by simp) (by rw [hc, head _ (tagRules_idle gs)]; simp only [wordsText]; rw [hst])
    obtain ⟨d, r, ho⟩ : ∃ d r, outcome c gs [(py"name", .str py"ON"), (py"type", .str py"UPDATE")] [] (' ' :: (py"CURRENT_TIMESTAMP" ++ m)) = (d, r) :=
      ⟨_, _, rfl⟩
    have hr : r = py"CURRENT_TIMESTAMP" ++ m := by
      have := congrArg Prod.snd ho
      simp only [outcome, runTags_nil] at this
      exact this.symm.trans hst
    rw [ho, hr] at this
    exact ⟨d, this⟩
  obtain ⟨d, hd⟩ := plain typePlain plainTags rfl
  obtain ⟨d1, hd1⟩ := plain typeText characterTags rfl
  obtain ⟨d2, hd2⟩ := plain typeDateTime dateTimeTags rfl
  refine ⟨d, ?_⟩
  rw [show definitionClasses = [indexPrimary, indexKey, indexUnique, constraintForeign, constraintForeignBare, typeCharacter, typeNumeric, typeDecimal,
    typeEnum, typePlain, typeText, typeDateTime] from rfl]
  clear len plain head hlit hkey key hst hcl hall hU hf
  generalize py"ON UPDATE CURRENT_TIMESTAMP" ++ m = s at *
  generalize py"CURRENT_TIMESTAMP" ++ m = t at *
  simp [bestChild, h1, h2, h3, h4, h5, h6, h7, h8, h9, hd, hd1, hd2]

/-- no word of a column starts with the rest of a primary key -/
theorem tags_key (m : Str) (vals : Dict PVal) : ∀ gs : List Tag, runRules Kind.parse (tagRules gs) vals (py"KEY (`" ++ m) = .ok ⟨true, vals, py"KEY (`" ++ m⟩
  | [] => by
    have : endingComma.kind.parse (py"KEY (`" ++ m) = .ok none := by
      show Except.ok (literalParse _ _) = _
      rw [literal_miss]
      simp [startsWithCI_cons]
    show runRules Kind.parse [endingComma] vals _ = _
    rw [run_skip this rfl]
    rfl
  | g :: gs => by
    have : g.rule.kind.parse (py"KEY (`" ++ m) = .ok none := by
      cases g <;> simp only [Tag.rule, optLit, bareNull, defaultRule, keyword, charsetRule, collateRule, kind_regex, kind_literal] <;>
        first
        | (rw [literal_miss]; simp [startsWithCI_cons, startsWithCI_cons_nil]; done)
        | (rw [regex_miss]; simp [startsWithCI_cons, startsWithCI_cons_nil]; done)
    show runRules Kind.parse (g.rule :: tagRules gs) vals _ = _
    rw [run_skip this g.optional, tags_key m vals gs]

/-- a primary key after `CURRENT_TIMESTAMP,` is read as a column `CURRENT_TIMESTAMP,` of type `PRIMARY` -/
theorem definitions_primary {m : Str} (hf : flat true (py"KEY (`" ++ m) = true) :
    ∃ d, bestChild definitionClasses (py"CURRENT_TIMESTAMP, PRIMARY KEY (`" ++ m) none = .ok (some (d, py"KEY (`" ++ m)) := by
  have hU : flat true (py"PRIMARY KEY (`" ++ m) = true := by
    show flat true (py"PRIMARY" ++ ' ' :: (py"KEY (`" ++ m)) = true
    rw [flat_space (by decide)]; exact hf
  have hall : flat true (py"CURRENT_TIMESTAMP, PRIMARY KEY (`" ++ m) = true := by
    show flat true (py"CURRENT_TIMESTAMP," ++ ' ' :: (py"PRIMARY KEY (`" ++ m)) = true
    rw [flat_space (by decide)]; exact hU
  have hst : strip (' ' :: (py"KEY (`" ++ m)) = py"KEY (`" ++ m := strip_space hf
  have key : ∀ (c : ChildClass Definition) (x : Rule Kind) (xs : List (Rule Kind)), c.rules = x :: xs → x.optional = false →
      x.kind.parse (py"CURRENT_TIMESTAMP, PRIMARY KEY (`" ++ m) = .ok none → c.tryParse (py"CURRENT_TIMESTAMP, PRIMARY KEY (`" ++ m) = .ok none := by
    intro c x xs h1 h2 h3
    refine try_none (vals := []) (rest := py"CURRENT_TIMESTAMP, PRIMARY KEY (`" ++ m) ?_
    unfold simpleParse
    rw [h1, normalize_normal (Or.inr hall), run_fail h3 h2]
  have hlit : ∀ v, startsWithCI v (py"CURRENT_TIMESTAMP, PRIMARY KEY (`" ++ m) = false → (lit v).kind.parse (py"CURRENT_TIMESTAMP, PRIMARY KEY (`" ++ m) = .ok none := fun v hv => by
    show Except.ok (literalParse v (py"CURRENT_TIMESTAMP, PRIMARY KEY (`" ++ m)) = _
    rw [literal_miss hv]
  have hkey : keyOrIndex.parse (py"CURRENT_TIMESTAMP, PRIMARY KEY (`" ++ m) = .ok none := by
    show Except.ok (regexParse (.alt py"KEY" py"INDEX") (py"CURRENT_TIMESTAMP, PRIMARY KEY (`" ++ m)) = _
    simp [regexParse, startsWithCI_cons]
  have h1 : indexPrimary.tryParse (py"CURRENT_TIMESTAMP, PRIMARY KEY (`" ++ m) = .ok none := key _ _ _ rfl rfl (hlit _ (by simp [startsWithCI_cons]))
  have h2 : indexKey.tryParse (py"CURRENT_TIMESTAMP, PRIMARY KEY (`" ++ m) = .ok none := key _ _ _ rfl rfl hkey
  have h3 : indexUnique.tryParse (py"CURRENT_TIMESTAMP, PRIMARY KEY (`" ++ m) = .ok none := key _ _ _ rfl rfl (hlit _ (by simp [startsWithCI_cons]))
  have h4 : constraintForeign.tryParse (py"CURRENT_TIMESTAMP, PRIMARY KEY (`" ++ m) = .ok none := key _ _ _ rfl rfl (hlit _ (by simp [startsWithCI_cons]))
  have h5 : constraintForeignBare.tryParse (py"CURRENT_TIMESTAMP, PRIMARY KEY (`" ++ m) = .ok none := key _ _ _ rfl rfl (hlit _ (by simp [startsWithCI_cons]))
  have head : ∀ (rs : List (Rule Kind)), (∀ r ∈ rs, r.kind.Idle) → simpleParse (columnHead ++ rs) (py"CURRENT_TIMESTAMP, PRIMARY KEY (`" ++ m) =
      runRules Kind.parse rs [(py"name", .str py"CURRENT_TIMESTAMP,"), (py"type", .str py"PRIMARY")] (py"KEY (`" ++ m) := by
    intro rs hrs
    unfold simpleParse
    rw [normalize_normal (Or.inr hall)]
    simp only [columnHead, List.cons_append, List.nil_append]
    have n1 : (nameRule py"name").kind.parse (py"CURRENT_TIMESTAMP, PRIMARY KEY (`" ++ m) = .ok (some (.str py"CURRENT_TIMESTAMP,", py"PRIMARY KEY (`" ++ m)) :=
      name_hit (pre := py"CURRENT_TIMESTAMP,") (by simp) (by decide) hU _
    have n2 : typeRule.kind.parse (py"PRIMARY KEY (`" ++ m) = .ok (some (.str py"PRIMARY", py"KEY (`" ++ m)) := by
      have := regex_hit (p := isWord) (pre := []) (run := py"PRIMARY") (post := []) (r := ' ' :: (py"KEY (`" ++ m)) (by simp) (by decide)
        (by simp; decide)
      rw [hst] at this
      exact congrArg Except.ok this
    refine (run_step ?_ n1).trans ((run_step hrs n2).trans rfl)
    intro r hr
    rcases List.mem_cons.mp hr with rfl | hr
    · rfl
    · exact hrs r hr
  have len : ∀ (c : ChildClass Definition) rs, c.rules = columnHead ++ lit py"(" :: rs → (∀ r ∈ lit py"(" :: rs, r.kind.Idle) →
      c.tryParse (py"CURRENT_TIMESTAMP, PRIMARY KEY (`" ++ m) = .ok none := by
    intro c rs hc hrs
    refine try_none (vals := [(py"name", .str py"CURRENT_TIMESTAMP,"), (py"type", .str py"PRIMARY")]) (rest := py"KEY (`" ++ m) ?_
    rw [hc, head _ hrs, run_fail _ rfl]
    show Except.ok (literalParse _ _) = _
    rw [literal_miss]
    simp [startsWithCI_cons]
  have h6 : typeCharacter.tryParse (py"CURRENT_TIMESTAMP, PRIMARY KEY (`" ++ m) = .ok none :=
    len _ _ rfl (columnTails_idle _ List.mem_cons_self)
  have h7 : typeNumeric.tryParse (py"CURRENT_TIMESTAMP, PRIMARY KEY (`" ++ m) = .ok none := len _ _ rfl (columnTails_idle _ (List.mem_cons_of_mem _ List.mem_cons_self))
  have h8 : typeDecimal.tryParse (py"CURRENT_TIMESTAMP, PRIMARY KEY (`" ++ m) = .ok none :=
    len _ _ rfl (columnTails_idle _ (List.mem_cons_of_mem _ (List.mem_cons_of_mem _ List.mem_cons_self)))
  have h9 : typeEnum.tryParse (py"CURRENT_TIMESTAMP, PRIMARY KEY (`" ++ m) = .ok none :=
    len _ _ rfl (columnTails_idle _ (List.mem_cons_of_mem _ (List.mem_cons_of_mem _ (List.mem_cons_of_mem _ List.mem_cons_self))))
  have plain : ∀ (c : ChildClass Definition) gs, c.rules = columnHead ++ tagRules gs →
      ∃ d, c.tryParse (py"CURRENT_TIMESTAMP, PRIMARY KEY (`" ++ m) = .ok (some (d, py"KEY (`" ++ m)) := by
    intro c gs hc
    refine ⟨c.process [(py"name", .str py"CURRENT_TIMESTAMP,"), (py"type", .str py"PRIMARY")], ?_⟩
    unfold ChildClass.tryParse
    rw [hc, head _ (tagRules_idle gs), tags_key]
    rfl
  obtain ⟨d, hd⟩ := plain typePlain plainTags rfl
  obtain ⟨d1, hd1⟩ := plain typeText characterTags rfl
  obtain ⟨d2, hd2⟩ := plain typeDateTime dateTimeTags rfl
  refine ⟨d, ?_⟩
  rw [show definitionClasses = [indexPrimary, indexKey, indexUnique, constraintForeign, constraintForeignBare, typeCharacter, typeNumeric, typeDecimal,
    typeEnum, typePlain, typeText, typeDateTime] from rfl]
  clear len plain head hlit hkey key hst hall hU hf
  generalize py"CURRENT_TIMESTAMP, PRIMARY KEY (`" ++ m = s at *
  generalize py"KEY (`" ++ m = t at *
  simp [bestChild, h1, h2, h3, h4, h5, h6, h7, h8, h9, hd, hd1, hd2]

/-- nothing starts with the rest of a primary key -/
theorem definitions_key_left {m : Str} (hf : flat true (py"KEY (`" ++ m) = true) :
    bestChild definitionClasses (py"KEY (`" ++ m) none = .ok none := by
  rw [bestChild_none]
  intro c hc
  simp only [definitionClasses, List.mem_cons, List.not_mem_nil, or_false] at hc
  have key : ∀ (c : ChildClass Definition) (x : Rule Kind) (xs : List (Rule Kind)), c.rules = x :: xs → x.optional = false →
      x.kind.parse (py"KEY (`" ++ m) = .ok none → c.tryParse (py"KEY (`" ++ m) = .ok none := by
    intro c x xs h1 h2 h3
    refine try_none (vals := []) (rest := py"KEY (`" ++ m) ?_
    unfold simpleParse
    rw [h1, normalize_normal (Or.inr hf), run_fail h3 h2]
  have hlit : ∀ v, startsWithCI v (py"KEY (`" ++ m) = false → (lit v).kind.parse (py"KEY (`" ++ m) = .ok none := fun v hv => by
    show Except.ok (literalParse v (py"KEY (`" ++ m)) = _
    rw [literal_miss hv]
  have hq : flat true ('(' :: '`' :: m) = true := by
    have : flat true (py"KEY" ++ ' ' :: '(' :: '`' :: m) = true := hf
    rwa [flat_space (by decide)] at this
  have hkey : indexKey.tryParse (py"KEY (`" ++ m) = .ok none := by
    refine try_none (vals := [(py"index_name", .str py"KEY")]) (rest := '(' :: '`' :: m) ?_
    unfold simpleParse
    rw [normalize_normal (Or.inr hf)]
    show runRules Kind.parse ({ kind := keyOrIndex, name := py"index_name", optional := false } :: nameRule py"name" :: indexTail) [] (py"KEY" ++ ' ' :: '(' :: '`' :: m) = _
    refine (key_run ?_ hq false).trans ?_
    · intro r hr
      rcases List.mem_cons.mp hr with rfl | hr
      · rfl
      · exact index_tail_idle r hr
    refine (run_fail ?_ rfl).trans rfl
    show Except.ok (regexParse _ _) = _
    simp [regexParse, startsWithCI_nil, takeRun, nameChar]
  have hcol : ∀ (c : ChildClass Definition) rs, rs ∈ columnTails → c.rules = columnHead ++ rs → c.tryParse (py"KEY (`" ++ m) = .ok none := fun c rs hrs hcr =>
    try_no_type hcr (columnTails_idle rs hrs) (x := '(') (by decide) (pre := py"KEY") (by simp) (by decide) hq
  rcases hc with rfl | rfl | rfl | rfl | rfl | h
  · exact key _ _ _ rfl rfl (hlit _ (by simp [startsWithCI_cons]))
  · exact hkey
  · exact key _ _ _ rfl rfl (hlit _ (by simp [startsWithCI_cons]))
  · exact key _ _ _ rfl rfl (hlit _ (by simp [startsWithCI_cons]))
  · exact key _ _ _ rfl rfl (hlit _ (by simp [startsWithCI_cons]))
  · obtain ⟨rs, hrs, hcr⟩ := columnClass_tail c (by simpa using h)
    exact hcol _ rs hrs hcr

/-- what follows `CURRENT_TIMESTAMP`, normalised: the end of the definitions, a column, or a primary key -/
def UpdateNext (m : Str) : Prop := UpdateRest m ∨ ∃ r, m = py", PRIMARY KEY (`" ++ r

/-- where the reader gets stuck -/
def UpdateLeft (s : Str) : Prop := flat true s = true ∧ ((∃ r, s = py"CURRENT_TIMESTAMP" ++ r) ∨ ∃ r, s = py"KEY (`" ++ r)

theorem stamp_loop {m : Str} (hm : UpdateNext m) (hf : flat true (py"CURRENT_TIMESTAMP" ++ m) = true) (n : Nat) {done : List CreateNode} (hd : done.isEmpty = false) :
    ∃ ns left, UpdateLeft left ∧ childrenLoop nodeClasses (n + 1 + 1) (py"CURRENT_TIMESTAMP" ++ m) done = .ok (some (ns, left)) := by
  rcases hm with hm | ⟨r, rfl⟩
  · have hstop : bestChild nodeClasses (py"CURRENT_TIMESTAMP" ++ m) none = .ok none := best_map_none CreateNode.definition (definitions_stamp hm hf)
    refine ⟨done, _, ⟨hf, Or.inl ⟨m, rfl⟩⟩, ?_⟩
    rw [childrenLoop, if_neg (by simp), hstop]
    simp only [hd]
    rfl
  · have hf' : flat true (py"KEY (`" ++ r) = true := by
      have : flat true (py"CURRENT_TIMESTAMP, PRIMARY" ++ ' ' :: (py"KEY (`" ++ r)) = true := hf
      rwa [flat_space (by decide)] at this
    obtain ⟨x, hx⟩ := definitions_primary hf'
    have hx' : bestChild nodeClasses (py"CURRENT_TIMESTAMP, PRIMARY KEY (`" ++ r) none = .ok (some (.definition x, py"KEY (`" ++ r)) :=
      best_map_some CreateNode.definition hx
    have hstop : bestChild nodeClasses (py"KEY (`" ++ r) none = .ok none := best_map_none CreateNode.definition (definitions_key_left hf')
    refine ⟨done ++ [.definition x], _, ⟨hf', Or.inr ⟨r, rfl⟩⟩, ?_⟩
    rw [show py"CURRENT_TIMESTAMP" ++ (py", PRIMARY KEY (`" ++ r) = py"CURRENT_TIMESTAMP, PRIMARY KEY (`" ++ r from rfl, loop_step (by simp) hx']
    have hne : (done ++ [CreateNode.definition x]).isEmpty = false := by simp
    rw [childrenLoop, if_neg (by simp), hstop]
    simp only [hne]
    rfl

/-- the text of a statement up to `ON UPDATE CURRENT_TIMESTAMP`, and what follows -/
def updatedHead (name lead sep : Str) (d : Src) (ds : List Src) (more : Str) : Str :=
  py"CREATE TABLE" ++ ' ' :: (quoted '`' name ++ ' ' :: (py"(" ++ (lead ++ (d.render ++ defTail sep ds (py" ON UPDATE CURRENT_TIMESTAMP" ++ more)))))

theorem create_updated {name lead sep : Str} {d : Src} {ds : List Src} {more s : Str} (hn : Ident name) (hl : Gap lead) (hs : Gap sep)
    (hd : ∀ x ∈ d :: ds, x.Plain) (hm : UpdateNext more) (hf : flat true (py"CURRENT_TIMESTAMP" ++ more) = true)
    (hnd : ds.length + 3 < 1000) (htext : normalize s = updatedHead name lead sep d ds more) :
    ∃ vals left, UpdateLeft left ∧ topParse createRules s = .ok ⟨false, vals, left⟩ := by
  have hfU : flat true (py"ON UPDATE CURRENT_TIMESTAMP" ++ more) = true := by
    show flat true (py"ON UPDATE" ++ ' ' :: (py"CURRENT_TIMESTAMP" ++ more)) = true
    rw [flat_space (by decide)]; exact hf
  have hcl : Closing (py" ON UPDATE CURRENT_TIMESTAMP" ++ more) := by
    refine Or.inr ⟨⟨more, Or.inr (Or.inr (Or.inr (Or.inr (Or.inr (Or.inl rfl)))))⟩, ?_⟩
    show flat false ([] ++ ' ' :: (py"ON UPDATE CURRENT_TIMESTAMP" ++ more)) = true
    rw [flat_space rfl]; exact hfU
  have hst : strip (py" ON UPDATE CURRENT_TIMESTAMP" ++ more) = py"ON UPDATE CURRENT_TIMESTAMP" ++ more := strip_space hfU
  have f4 : flat true (d.render ++ defTail sep ds (py" ON UPDATE CURRENT_TIMESTAMP" ++ more)) = true := by
    rw [flat_append (Src.flat (hd d List.mem_cons_self))]
    exact defTail_closing hs hcl (fun x hx => hd x (List.mem_cons_of_mem _ hx))
  have hne4 : d.render ++ defTail sep ds (py" ON UPDATE CURRENT_TIMESTAMP" ++ more) ≠ [] := by
    obtain ⟨c, cs, hc, _⟩ := flat_true_head f4
    rw [hc]; simp
  have f5 : flat true (py"(" ++ (lead ++ (d.render ++ defTail sep ds (py" ON UPDATE CURRENT_TIMESTAMP" ++ more)))) = true := by
    rw [flat_append (by decide)]; exact flat_gap hl f4
  have f6 := pre_flat (pre := quoted '`' name) (by simp [quoted]) (quoted_noSpace hn) f5
  obtain ⟨xs, hxs, hloop⟩ := definitions_loop hs hcl (by simp) (by simp) d ds (999 - ds.length) [] hd
  rw [hst] at hloop
  unfold topParse
  rw [htext]
  have r1 : (TopKind.simple (α := CreateNode) (.literal py"CREATE TABLE")).parse (updatedHead name lead sep d ds more) =
      .ok (some (.simple (.str py"CREATE TABLE"), _)) := top_simple (by
    show Except.ok (literalParse _ _) = _
    unfold updatedHead
    rw [literal_hit, strip_space f6])
  have r2 : (TopKind.simple (α := CreateNode) (.literal py"IF NOT EXISTS")).parse
      (quoted '`' name ++ ' ' :: (py"(" ++ (lead ++ (d.render ++ defTail sep ds (py" ON UPDATE CURRENT_TIMESTAMP" ++ more))))) = .ok none :=
    top_simple_none (by
      show Except.ok (literalParse _ _) = _
      rw [literal_miss]
      simp [quoted, startsWithCI_cons])
  have r3 : (TopKind.simple (α := CreateNode) (plus (fun c => !isSpace c))).parse
      (quoted '`' name ++ ' ' :: (py"(" ++ (lead ++ (d.render ++ defTail sep ds (py" ON UPDATE CURRENT_TIMESTAMP" ++ more))))) =
      .ok (some (.simple (.str (quoted '`' name)), py"(" ++ (lead ++ (d.render ++ defTail sep ds (py" ON UPDATE CURRENT_TIMESTAMP" ++ more))))) :=
    top_simple (by
      have := regex_hit (p := fun c => !isSpace c) (pre := []) (run := quoted '`' name) (post := [])
        (r := ' ' :: (py"(" ++ (lead ++ (d.render ++ defTail sep ds (py" ON UPDATE CURRENT_TIMESTAMP" ++ more)))))
        (by simp [quoted]) (fun c hc => by simp [nameChar_noSpace (quoted_noSpace hn c hc)]) (fun c hc => by
          simp at hc; subst hc; decide)
      rw [strip_space f5] at this
      exact congrArg Except.ok this)
  have r4 : (TopKind.simple (α := CreateNode) (.literal py"(")).parse
      (py"(" ++ (lead ++ (d.render ++ defTail sep ds (py" ON UPDATE CURRENT_TIMESTAMP" ++ more)))) =
      .ok (some (.simple (.str py"("), d.render ++ defTail sep ds (py" ON UPDATE CURRENT_TIMESTAMP" ++ more))) := top_simple (by
    show Except.ok (literalParse _ _) = _
    rw [literal_hit, strip_gap hl f4])
  obtain ⟨on, hon⟩ := definitions_on hf
  obtain ⟨n, hn'⟩ : ∃ n, 999 - ds.length = n + 1 + 1 + 1 := ⟨996 - ds.length, by omega⟩
  have hne : (xs.map CreateNode.definition ++ [CreateNode.definition on]).isEmpty = false := by simp
  obtain ⟨ns, left, hleft, hstamp⟩ := stamp_loop hm hf n hne
  have hleft0 : left ≠ [] := by
    rcases hleft.2 with ⟨r, rfl⟩ | ⟨r, rfl⟩ <;> simp
  have r5 : (TopKind.children nodeClasses).parse (d.render ++ defTail sep ds (py" ON UPDATE CURRENT_TIMESTAMP" ++ more)) =
      .ok (some (.nodes ns, left)) := by
    have hon' : bestChild nodeClasses (py"ON UPDATE CURRENT_TIMESTAMP" ++ more) none = .ok (some (.definition on, py"CURRENT_TIMESTAMP" ++ more)) :=
      best_map_some CreateNode.definition hon
    have h1 : childrenParse nodeClasses (d.render ++ defTail sep ds (py" ON UPDATE CURRENT_TIMESTAMP" ++ more)) = .ok (some (ns, left)) := by
      unfold childrenParse
      rw [show 1000 = 999 - ds.length + (ds.length + 1) by omega, hloop, hn', loop_step (by simp) hon']
      simp only [List.nil_append]
      exact hstamp
    simp only [TopKind.parse, h1]
  have r6 : (TopKind.simple (α := CreateNode) (.literal py")")).parse left = .ok none := top_simple_none (by
    show Except.ok (literalParse _ _) = _
    rw [literal_miss]
    rcases hleft.2 with ⟨r, rfl⟩ | ⟨r, rfl⟩ <;> simp [startsWithCI_cons])
  refine ⟨[(py"CREATE TABLE", .simple (.str py"CREATE TABLE")), (py"name", .simple (.str (quoted '`' name))), (py"(", .simple (.str py"(")),
    (py"definitions", .nodes ns)], left, hleft, ?_⟩
  show runRules TopKind.parse [(lit py"CREATE TABLE").top,
   Rule.top { kind := .literal py"IF NOT EXISTS", name := py"if_not_exists", optional := true },
   Rule.top { kind := plus (fun c => !isSpace c), name := py"name" },
   (lit py"(").top, { kind := .children nodeClasses, name := py"definitions" }, (lit py")").top,
   { kind := .children [tableOption.map .option], name := py"table_options", optional := true }, closingSemicolon.top] [] _ = _
  rw [run_hit (r := (lit py"CREATE TABLE").top) r1 (by simp [quoted]), run_skip (r := Rule.top { kind := .literal py"IF NOT EXISTS", name := py"if_not_exists", optional := true }) r2 rfl,
    run_hit (r := Rule.top { kind := plus (fun c => !isSpace c), name := py"name" }) r3 (by simp), run_hit (r := (lit py"(").top) r4 hne4,
    run_hit (r := { kind := TopKind.children nodeClasses, name := py"definitions" }) r5 hleft0, run_fail (r := (lit py")").top) r6 rfl]
  rfl

theorem updatedHead_head (name lead sep : Str) (d : Src) (ds : List Src) (more : Str) : ∃ cs, updatedHead name lead sep d ds more = 'C' :: cs := ⟨_, rfl⟩

theorem trimmed_updated {name lead sep : Str} {d : Src} {ds : List Src} (more : Str) (hn : Ident name) (hl : Blanks lead) (hs : Blanks sep)
    (hd : ∀ x ∈ d :: ds, x.Plain) : trimmed (updatedHead name lead sep d ds more) = updatedHead name (squeeze lead) (squeeze sep) d ds (trimmed more) := by
  have h1 : trimmed (py" ON UPDATE CURRENT_TIMESTAMP" ++ more) = py" ON UPDATE CURRENT_TIMESTAMP" ++ trimmed more :=
    trimmed_gap (bs := py" ") (a := py"ON UPDATE CURRENT_TIMESTAMP") (by intro c hc; simp at hc; subst hc; decide) (by decide) more
  have h2 := trimmed_defTail hs h1 (fun x hx => hd x (List.mem_cons_of_mem _ hx))
  have h3 := trimmed_src hl (hd d List.mem_cons_self) (defTail sep ds (py" ON UPDATE CURRENT_TIMESTAMP" ++ more))
  rw [h2] at h3
  have e1 : updatedHead name lead sep d ds more = (py"CREATE TABLE" ++ ' ' :: (quoted '`' name ++ ' ' :: py"(")) ++
      (lead ++ (d.render ++ defTail sep ds (py" ON UPDATE CURRENT_TIMESTAMP" ++ more))) := by
    simp [updatedHead]
  rw [e1, trimmed_append (create_head_flat hn), h3]
  simp [updatedHead]

theorem tame_updated {name lead sep : Str} {d : Src} {ds : List Src} {more : Str} (hn : Ident name) (hl : Blanks lead) (hs : Blanks sep)
    (hd : ∀ x ∈ d :: ds, x.Plain) (hq : ∀ x ∈ d :: ds, x.Quiet) (hm : Tame (py" ON UPDATE CURRENT_TIMESTAMP" ++ more)) : Tame (updatedHead name lead sep d ds more) := by
  have h3 := tame_defTail hs hm (fun x hx => hd x (List.mem_cons_of_mem _ hx)) (fun x hx => hq x (List.mem_cons_of_mem _ hx))
  have h4 := tame_sep (hd d List.mem_cons_self) (hq d List.mem_cons_self) (c := '(') (Or.inl rfl) hl h3
  exact tame_dull (by decide) (tame_cons (by decide) (tame_dull (quoted_dull hn) (tame_cons (by decide) h4)))

theorem updated_last (name lead sep : Str) (d : Src) (ds : List Src) {z : Str} {y : Char} (hy : isSpace y = false) :
    strip (updatedHead name lead sep d ds (z ++ [y])) = updatedHead name lead sep d ds (z ++ [y]) := by
  obtain ⟨a, ha⟩ := defTail_last sep ds (py" ON UPDATE CURRENT_TIMESTAMP" ++ z)
  have e : updatedHead name lead sep d ds (z ++ [y]) = (py"CREATE TABLE" ++ ' ' :: (quoted '`' name ++ ' ' :: (py"(" ++ (lead ++ (d.render ++ a))))) ++ [y] := by
    have := ha [y]
    simp only [updatedHead]
    rw [← List.append_assoc (py" ON UPDATE CURRENT_TIMESTAMP"), this]
    simp
  obtain ⟨cs, hcs⟩ := updatedHead_head name lead sep d ds (z ++ [y])
  rw [hcs, strip_cons_char (by decide), ← hcs, e]
  simp [Mygrations.rstrip, hy]

/-- what follows `CURRENT_TIMESTAMP`: the end of the definitions, a column, or a primary key -/
def UpdateMore (m : Str) : Prop := (∃ g r, Blanks g ∧ m = g ++ ')' :: r) ∨ (∃ g r, Blanks g ∧ g ≠ [] ∧ m = ',' :: (g ++ '`' :: r)) ∨
  ∃ g r, Blanks g ∧ g ≠ [] ∧ m = ',' :: (g ++ (py"PRIMARY KEY (`" ++ r))

theorem UpdateMore.rest {m : Str} (h : UpdateMore m) : UpdateNext (trimmed m) := by
  have one : ∀ {g : Str}, g ≠ [] → squeeze g = py" " := by
    intro g hne
    unfold squeeze
    cases g with
    | nil => exact absurd rfl hne
    | cons x xs => rfl
  rcases h with ⟨g, r, hg, rfl⟩ | ⟨g, r, hg, hne, rfl⟩ | ⟨g, r, hg, hne, rfl⟩
  · refine Or.inl <| Or.inl ⟨squeeze g, trimmed r, squeeze_gap g, ?_⟩
    have := trimmed_gap hg (a := py")") (by decide) r
    simpa using this
  · refine Or.inl <| Or.inr ⟨trimmed r, ?_⟩
    have h1 := trimmed_gap hg (a := py"`") (by decide) r
    have h2 := trimmed_append (a := py",") (by decide) (g ++ '`' :: r)
    rw [one hne] at h1
    have h1' : trimmed (g ++ '`' :: r) = ' ' :: '`' :: trimmed r := h1
    rw [h1'] at h2
    exact h2
  · refine Or.inr ⟨trimmed r, ?_⟩
    have h1 := trimmed_gap hg (a := py"PRIMARY KEY (`") (by decide) r
    have h2 := trimmed_append (a := py",") (by decide) (g ++ (py"PRIMARY KEY (`" ++ r))
    rw [one hne] at h1
    rw [h1] at h2
    exact h2

/-- such a text gives a table without a name -/
theorem updated_read_text {name lead sep : Str} {d : Src} {ds : List Src} {more z : Str} {y : Char} (hn : Ident name) (hl : Blanks lead) (hs : Blanks sep)
    (hd : ∀ x ∈ d :: ds, x.Plain) (hq : ∀ x ∈ d :: ds, x.Quiet) (hm : Tame (py" ON UPDATE CURRENT_TIMESTAMP" ++ more)) (hmore : UpdateMore more)
    (hz : more = z ++ [y]) (hy : isSpace y = false) (hnd : ds.length + 3 < 1000) :
    ∃ errors, readSource (updatedHead name lead sep d ds more) = ({ tables := [([], {})], globalErrors := errors }, none) := by
  have hnorm : normalize (updatedHead name lead sep d ds more) = updatedHead name (squeeze lead) (squeeze sep) d ds (trimmed more) := by
    rw [← trimmed_updated more hn hl hs hd]
    obtain ⟨cs, hcs⟩ := updatedHead_head name lead sep d ds more
    rw [hcs, normalize_lead (by decide)]
    exact (trimmed_append (a := ['C']) (by decide) cs).symm
  have hflat : flat true (py"CURRENT_TIMESTAMP" ++ trimmed more) = true := by
    have := normalize_ne (d := 'C') (by decide) (py"URRENT_TIMESTAMP" ++ more)
    rw [normalize_lead (by decide)] at this
    have e : 'C' :: rstrip (collapse (py"URRENT_TIMESTAMP" ++ more)) = py"CURRENT_TIMESTAMP" ++ trimmed more :=
      congrArg (List.cons 'C') (trimmed_append (a := py"URRENT_TIMESTAMP") (by decide) more)
    rw [e] at this
    exact this
  obtain ⟨vals, left, hleft, hp⟩ := create_updated hn (squeeze_gap lead) (squeeze_gap sep) hd hmore.rest hflat hnd hnorm
  have hpc : parseCreate (updatedHead name lead sep d ds more) = .ok ({}, left) := by
    unfold parseCreate
    rw [(tame_updated hn hl hs hd hq hm).clean, hp]
    rfl
  subst hz
  obtain ⟨cs, hcs⟩ := updatedHead_head name lead sep d ds (z ++ [y])
  unfold readSource
  rw [readLoop_create 9999 {} (updated_last name lead sep d ds hy) (by rw [hcs]; simp) rfl
    (by show lower (py"CREATE") = py"create"; decide) hpc,
    readLoop_unknown 9998 _ (strip_flat hleft.1) (by rcases hleft.2 with ⟨r, rfl⟩ | ⟨r, rfl⟩ <;> simp)
      (by rcases hleft.2 with ⟨r, rfl⟩ | ⟨r, rfl⟩ <;> rfl)
      (by
        rcases hleft.2 with ⟨r, rfl⟩ | ⟨r, rfl⟩
        · show lower (py"CURREN") ≠ py"create"; decide
        · show lower (py"KEY (`") ≠ py"create"; decide)
      (by
        rcases hleft.2 with ⟨r, rfl⟩ | ⟨r, rfl⟩
        · show lower (py"CURREN") ≠ py"insert"; decide
        · show lower (py"KEY (`") ≠ py"insert"; decide)]
  exact ⟨_, rfl⟩

/-- the definitions after the first, with their marks -/
def updatedTail (sep : Str) : List (Src × Bool) → Str → Str
  | [], e => e
  | x :: xs, e => py"," ++ sep ++ x.1.render ++ (updateText x.2 ++ updatedTail sep xs e)

theorem join_updated (sep e : Str) : ∀ (d : Src) (n : Bool) (ds : List Src) (ns : List Bool), ns.length = ds.length →
    join (py"," ++ sep) (List.zipWith (fun x n => x.render ++ updateText n) (d :: ds) (n :: ns)) ++ e =
      d.render ++ (updateText n ++ updatedTail sep (ds.zip ns) e)
  | d, n, [], [], _ => by simp [join, updatedTail]
  | d, n, d' :: ds, n' :: ns, h => by
    have := join_updated sep e d' n' ds ns (by simpa using h)
    simp only [List.zipWith_cons_cons, join, List.append_assoc, List.zip_cons_cons, updatedTail] at this ⊢
    rw [this]
  | _, _, [], _ :: _, h => by cases h
  | _, _, _ :: _, [], h => by cases h

theorem tame_update {n : Bool} {s : Str} (hs : Tame s) : Tame (updateText n ++ s) := by
  cases n with
  | false => exact hs
  | true => exact tame_dull (by decide) hs

theorem tame_updatedTail {sep : Str} (hs : Blanks sep) {e : Str} (he : Tame e) : ∀ {xs : List (Src × Bool)},
    (∀ x ∈ xs, x.1.Plain ∧ x.1.Quiet) → Tame (updatedTail sep xs e)
  | [], _ => he
  | x :: xs, h => by
    obtain ⟨h1, h2⟩ := h x List.mem_cons_self
    have ih := tame_updatedTail hs he (fun y hy => h y (List.mem_cons_of_mem _ hy))
    have := tame_sep h1 h2 (c := ',') (Or.inr rfl) hs (tame_update (n := x.2) ih)
    simpa [updatedTail] using this

theorem updatedTail_last (sep e : Str) : ∀ xs, ∃ z, updatedTail sep xs e = z ++ e
  | [] => ⟨[], rfl⟩
  | x :: xs => by
    obtain ⟨z, hz⟩ := updatedTail_last sep e xs
    exact ⟨py"," ++ sep ++ x.1.render ++ updateText x.2 ++ z, by simp [updatedTail, hz]⟩

/-- the text up to the first mark -/
theorem updated_split {sep : Str} (hs : Blanks sep) (hsep : sep ≠ []) {g r : Str} (hg : Blanks g) (he : Tame (g ++ ')' :: r)) :
    ∀ (d : Src) (n : Bool) (xs : List (Src × Bool)),
    (∀ x ∈ (d, n) :: xs, x.1.Plain ∧ x.1.Quiet) → (∃ x ∈ (d, n) :: xs, x.2 = true) →
    (∀ (i : Nat) x, ((d, n) :: xs)[i]? = some (x, true) → ∀ y : Src × Bool, xs[i]? = some y → (∃ c s, y.1 = Src.column c s) ∨ ∃ i w, y.1 = Src.index i w ∧ i.indexType = py"PRIMARY") →
    ∃ ds more, d.render ++ (updateText n ++ updatedTail sep xs (g ++ ')' :: r)) = d.render ++ defTail sep ds (py" ON UPDATE CURRENT_TIMESTAMP" ++ more) ∧
      (∀ x ∈ ds, x ∈ xs.map (·.1)) ∧ ds.length ≤ xs.length ∧ Tame (py" ON UPDATE CURRENT_TIMESTAMP" ++ more) ∧ UpdateMore more ∧ ∃ z, more = z ++ (g ++ ')' :: r)
  | d, true, xs, h, _, hnext => by
    have ht := tame_update (n := true) (tame_updatedTail hs he (fun y hy => h y (List.mem_cons_of_mem _ hy)))
    obtain ⟨z, hz⟩ := updatedTail_last sep (g ++ ')' :: r) xs
    refine ⟨[], updatedTail sep xs (g ++ ')' :: r), by simp [updateText, defTail], by simp, by simp, ht, ?_, z, hz⟩
    cases xs with
    | nil => exact Or.inl ⟨g, r, hg, rfl⟩
    | cons y ys =>
      rcases hnext 0 d rfl y rfl with ⟨c, s, hy⟩ | ⟨i, w, hy, hi⟩
      rotate_left
      · have hpl := (h y (by simp)).1
        rw [hy] at hpl
        have hraw : i.rawName = [] := by
          rcases hpl.1.type with ⟨_, h⟩ | ⟨h, _⟩ | ⟨h, _⟩
          · exact h
          · rw [hi] at h; exact absurd h (by decide)
          · rw [hi] at h; exact absurd h (by decide)
        refine Or.inr (Or.inr ⟨sep, join py"`,`" i.columns ++ py"`)" ++ (updateText y.2 ++ updatedTail sep ys (g ++ ')' :: r)), hs, hsep, ?_⟩)
        simp only [updatedTail, hy]
        simp [Src.render, Index.written, hi, hraw]
      refine Or.inr <| Or.inl ⟨sep, c.name ++ (Src.render (.column c s)).drop (c.name.length + 1) ++ (updateText y.2 ++ updatedTail sep ys (g ++ ')' :: r)), hs, hsep, ?_⟩
      simp only [updatedTail, hy]
      simp [Src.render, Column.written]
  | d, false, [], _, hc, _ => by simp at hc
  | d, false, (d', n') :: xs, h, hc, hnext => by
    obtain ⟨ds, more, h1, h2, h3, h4, h5, h6⟩ := updated_split hs hsep hg he d' n' xs (fun y hy => h y (List.mem_cons_of_mem _ hy)) (by simpa using hc)
      (fun i x hi y hy => hnext (i + 1) x (by simpa using hi) y (by simpa using hy))
    refine ⟨d' :: ds, more, ?_, ?_, by simpa using h3, h4, h5, h6⟩
    · show d.render ++ ([] ++ updatedTail sep ((d', n') :: xs) (g ++ ')' :: r)) = _
      simp only [List.nil_append, updatedTail, defTail, List.append_assoc] at h1 ⊢
      rw [h1]
    · intro x hx
      rcases List.mem_cons.mp hx with rfl | hx
      · simp
      · simp only [List.map_cons, List.mem_cons]; exact Or.inr (h2 x hx)

/-- a table of which some definition is updated is read as a table without a name -/
theorem updated_read {d : TableDecl} (h : d.Ok) {l : Layout} (hl : l.Ok) (hsep : l.sep ≠ []) (hfew : d.defs.length < 998) {marks : List Bool}
    (hlen : marks.length = d.defs.length) (hsome : true ∈ marks)
    (hnext : ∀ i, marks[i]? = some true → ∀ x, d.defs[i + 1]? = some x → (∃ c s, x = .column c s) ∨ ∃ j w, x = .index j w ∧ j.indexType = py"PRIMARY") :
    ∃ errors, readSource (d.updatedText l marks) = ({ tables := [([], {})], globalErrors := errors }, none) := by
  obtain ⟨n, ns, rfl⟩ : ∃ n ns, marks = n :: ns := by
    cases marks with
    | nil => simp [TableDecl.defs] at hlen
    | cons n ns => exact ⟨n, ns, rfl⟩
  have hlen' : ns.length = d.others.length := by simpa [TableDecl.defs] using hlen
  have hopts : ∀ (os : List TableOpt) (e : Str), os.flatMap (fun o => py" " ++ o.name ++ py"=" ++ o.value) ++ e = optTail os e := by
    intro os e
    induction os with
    | nil => rfl
    | cons o os ih => rw [List.flatMap_cons, List.append_assoc, ih]; simp [optTail]
  have hj := join_updated l.sep (l.trail ++ ')' :: optTail d.options []) d.first n d.others ns hlen'
  have hte : Tame (l.trail ++ ')' :: optTail d.options []) :=
    tame_dull (fun c hc => blank_dull (hl.trail c hc)) (tame_dull (a := py")") (by decide) (tame_optTail tame_nil h.options))
  have hall : ∀ x ∈ (d.first, n) :: d.others.zip ns, x.1.Plain ∧ x.1.Quiet := by
    intro x hx
    have hx' : x ∈ d.defs.zip (n :: ns) := hx
    obtain ⟨h1, h2⟩ := List.of_mem_zip (a := x.1) (b := x.2) hx'
    exact ⟨h.plain _ h1, h.quiet _ h1⟩
  have hex : ∃ x ∈ (d.first, n) :: d.others.zip ns, x.2 = true := by
    have hmap : (d.defs.zip (n :: ns)).map Prod.snd = n :: ns := List.map_snd_zip (by rw [hlen]; exact Nat.le_refl _)
    rw [← hmap] at hsome
    obtain ⟨x, hx, hxc⟩ := List.mem_map.mp hsome
    exact ⟨x, hx, hxc⟩
  have hnx : ∀ (i : Nat) x, ((d.first, n) :: d.others.zip ns)[i]? = some (x, true) → ∀ y : Src × Bool, (d.others.zip ns)[i]? = some y → (∃ c s, y.1 = Src.column c s) ∨ ∃ i w, y.1 = Src.index i w ∧ i.indexType = py"PRIMARY" := by
    intro i x hi y hy
    have hi' : (d.defs.zip (n :: ns))[i]? = some (x, true) := hi
    rw [List.getElem?_zip_eq_some] at hi' hy
    exact hnext i hi'.2 y.1 (by simpa [TableDecl.defs] using hy.1)
  obtain ⟨ds, more, h1, h2, h3, h4, h4', z, h5⟩ := updated_split hl.sep hsep hl.trail hte d.first n (d.others.zip ns) hall hex hnx
  have hds : ∀ x ∈ d.first :: ds, x ∈ d.defs := by
    intro x hx
    rcases List.mem_cons.mp hx with rfl | hx
    · exact List.mem_cons_self
    · obtain ⟨y, hy, rfl⟩ := List.mem_map.mp (h2 x hx)
      exact List.mem_cons_of_mem _ (List.of_mem_zip (a := y.1) (b := y.2) hy).1
  obtain ⟨b, y, hy, hb⟩ := opts_last [] ')' (by decide) h.options
  have htext : d.updatedText l (n :: ns) = updatedHead d.name l.lead l.sep d.first ds more := by
    unfold TableDecl.updatedText updatedHead TableDecl.defs
    rw [← h1, ← hj, ← hopts]
    simp [quoted]
  rw [htext]
  refine updated_read_text (z := z ++ l.trail ++ b) (y := y) h.name hl.lead hl.sep (fun x hx => h.plain x (hds x hx)) (fun x hx => h.quiet x (hds x hx)) h4 h4' ?_ hy ?_
  · rw [h5]
    have : ')' :: optTail d.options [] = b ++ [y] := hb
    rw [this]
    simp
  · simp only [TableDecl.defs, List.length_cons] at hfew
    have h6 : (d.others.zip ns).length = d.others.length := by simp [hlen']
    omega

theorem updated_none {d : TableDecl} {l : Layout} {marks : List Bool} (hlen : marks.length = d.defs.length) (h : true ∉ marks) :
    d.updatedText l marks = d.text l := by
  have : ∀ (ds : List Src) (ns : List Bool), ns.length = ds.length → true ∉ ns →
      List.zipWith (fun x n => Src.render x ++ updateText n) ds ns = ds.map Src.render := by
    intro ds
    induction ds with
    | nil => intro ns hl _; cases ns <;> simp at hl ⊢
    | cons d ds ih =>
      intro ns hl hn
      cases ns with
      | nil => simp at hl
      | cons n ns =>
        cases n with
        | true => simp at hn
        | false =>
          rw [List.zipWith_cons_cons, ih ns (by simpa using hl) (fun hx => hn (List.mem_cons_of_mem _ hx))]
          simp [updateText]
  unfold TableDecl.updatedText TableDecl.text
  rw [this d.defs marks hlen h]

/-- some tables are read, the others give a table without a name -/
theorem load_unread (B : TableDecl → Prop) : ∀ (ds : List TableDecl) (texts : List Str) (db : Database), (∀ d ∈ ds, d.Ok) →
    (ds.map (·.name)).Nodup →
    Paired (fun (d : TableDecl) text => (¬ B d ∧ ∃ l : Layout, l.Ok ∧ text = d.text l) ∨
      (B d ∧ ∃ errors, readSource text = ({ tables := [([], {})], globalErrors := errors }, none))) ds texts →
    ∃ db', LiveDatabase.loadTables db texts = .ok db' ∧ (∀ n, n ≠ [] → n ∉ ds.map (·.name) → db'.tables.get? n = db.tables.get? n) ∧
      (∀ d ∈ ds, ¬ B d ∧ (∃ t, db'.tables.get? d.name = some t ∧ SameTable d.table t) ∨ B d ∧ db'.tables.get? d.name = db.tables.get? d.name) ∧
      (db.tables.get? [] = some {} ∨ (∃ d ∈ ds, B d) → db'.tables.get? [] = some {})
  | [], [], db, _, _, .nil => ⟨db, rfl, by simp, by simp, by simp⟩
  | d :: ds, text :: texts, db, hok, hnd, .cons hx hr => by
    have hd := hok d List.mem_cons_self
    have hne : d.name ≠ [] := hd.name.1
    rw [List.map_cons, List.nodup_cons] at hnd
    have rest := fun db1 => load_unread B ds texts db1 (fun x hx => hok x (List.mem_cons_of_mem _ hx)) hnd.2 hr
    rcases hx with ⟨hB, l, hl, rfl⟩ | ⟨hB, errors, he⟩
    · obtain ⟨t, s1, s2, s3, s4, s5⟩ := answer_read hd hl
      have hname : t.name = d.name := s1.name
      obtain ⟨db', h1, h2, h3, h4⟩ := rest (LiveDatabase.storeTables db [t])
      have hget : ∀ n, n ≠ d.name → (LiveDatabase.storeTables db [t]).tables.get? n = db.tables.get? n := by
        intro n hn
        simp only [LiveDatabase.storeTables]
        rw [Dict.get?_set, hname, if_neg (Ne.symm hn)]
        split <;> rfl
      have hgot : (LiveDatabase.storeTables db [t]).tables.get? d.name = some t := by
        simp only [LiveDatabase.storeTables]
        rw [hname, Dict.get?_set, if_pos rfl]
      refine ⟨db', ?_, ?_, ?_, ?_⟩
      rotate_right
      · rintro (h | ⟨x, hx, h⟩)
        · exact h4 (Or.inl (by rw [hget _ (Ne.symm hne)]; exact h))
        · rcases List.mem_cons.mp hx with rfl | hx
          · exact absurd h hB
          · exact h4 (Or.inr ⟨x, hx, h⟩)
      · simp only [LiveDatabase.loadTables, s5, Option.filter_none]
        exact h1
      · intro n hn hnot
        simp only [List.map_cons, List.mem_cons, not_or] at hnot
        rw [h2 n hn hnot.2, hget n hnot.1]
      · intro x hx
        rcases List.mem_cons.mp hx with rfl | hx
        · exact Or.inl ⟨hB, t, by rw [h2 _ hne hnd.1, hgot], s1⟩
        · rcases h3 x hx with h | ⟨h, h'⟩
          · exact Or.inl h
          · refine Or.inr ⟨h, ?_⟩
            rw [h', hget]
            intro he
            exact hnd.1 (he ▸ List.mem_map_of_mem hx)
    · obtain ⟨db', h1, h2, h3, h4⟩ := rest (LiveDatabase.storeTables db [{}])
      have hget : ∀ n, n ≠ [] → (LiveDatabase.storeTables db [{}]).tables.get? n = db.tables.get? n := by
        intro n hn
        simp only [LiveDatabase.storeTables]
        rw [Dict.get?_set, if_neg (Ne.symm hn)]
        split <;> rfl
      refine ⟨db', ?_, ?_, ?_, fun _ => h4 (Or.inl (by simp only [LiveDatabase.storeTables]; rw [Dict.get?_set, if_pos rfl]))⟩
      · simp only [LiveDatabase.loadTables, he, Option.filter_none]
        exact h1
      · intro n hn hnot
        rw [h2 n hn (fun hm => hnot (List.mem_cons_of_mem _ hm)), hget n hn]
      · intro x hx
        rcases List.mem_cons.mp hx with rfl | hx
        · exact Or.inr ⟨hB, by rw [h2 _ hne hnd.1, hget _ hne]⟩
        · rcases h3 x hx with h | ⟨h, h'⟩
          · exact Or.inl h
          · exact Or.inr ⟨h, by rw [h', hget _ (hok x (List.mem_cons_of_mem _ hx)).name.1]⟩

/-- the live database of a server of which tables have columns that are updated -/
theorem live_updated {srv : Server} {ds : List TableDecl} {marks : Str → List Bool} (h : srv.HasUpdated ds marks) :
    ∃ live, (LiveDatabase.new srv).result = .ok live ∧ (∀ d ∈ ds,
      true ∉ marks d.name ∧ (∃ t, live.tables.get? d.name = some t ∧ SameTable d.table t) ∨
        true ∈ marks d.name ∧ live.tables.get? d.name = none) ∧
      ((∃ d ∈ ds, true ∈ marks d.name) → live.tables.get? [] = some {}) := by
  have hans : ∃ ts : Dict Str, Paired (fun (d : TableDecl) (e : Str × Str) => e.1 = d.name ∧
      ((¬ true ∈ marks d.name ∧ ∃ l : Layout, l.Ok ∧ e.2 = d.text l) ∨
        (true ∈ marks d.name ∧ ∃ errors, readSource e.2 = ({ tables := [([], {})], globalErrors := errors }, none))) ∧
      srv.createText e.1 = .ok (some e.2)) ds ts := by
    have h1 := h.answers
    have h2 := h.ok
    have h3 := h.few
    have h4 := h.each
    have h5 := h.next
    clear h
    induction ds with
    | nil => exact ⟨[], .nil⟩
    | cons d ds ih =>
      obtain ⟨ts, hts⟩ := ih (fun x hx => h1 x (List.mem_cons_of_mem _ hx)) (fun x hx => h2 x (List.mem_cons_of_mem _ hx))
        (fun x hx => h3 x (List.mem_cons_of_mem _ hx)) (fun x hx => h4 x (List.mem_cons_of_mem _ hx)) (fun x hx => h5 x (List.mem_cons_of_mem _ hx))
      obtain ⟨l, hl, hsep, ha⟩ := h1 d List.mem_cons_self
      refine ⟨(d.name, d.updatedText l (marks d.name)) :: ts, .cons ⟨rfl, ?_, ha⟩ hts⟩
      by_cases hm : true ∈ marks d.name
      · exact Or.inr ⟨hm, updated_read (h2 d List.mem_cons_self) hl hsep (h3 d List.mem_cons_self) (h4 d List.mem_cons_self) hm (h5 d List.mem_cons_self)⟩
      · exact Or.inl ⟨hm, l, hl, updated_none (h4 d List.mem_cons_self) hm⟩
  obtain ⟨ts, hts⟩ := hans
  have hkeys : Dict.keys ts = ds.map (·.name) := by
    clear h
    induction hts with
    | nil => rfl
    | cons hx _ ih => simp [hx.1, ih]
  have hmem : ∀ e ∈ ts, srv.createText e.1 = .ok (some e.2) := by
    clear h hkeys
    induction hts with
    | nil => intro e he; cases he
    | cons hx _ ih =>
      intro e he
      rcases List.mem_cons.mp he with rfl | he
      · exact hx.2.2
      · exact ih e he
  have hvals : Paired (fun (d : TableDecl) text => (¬ true ∈ marks d.name ∧ ∃ l : Layout, l.Ok ∧ text = d.text l) ∨
      (true ∈ marks d.name ∧ ∃ errors, readSource text = ({ tables := [([], {})], globalErrors := errors }, none))) ds (Dict.values ts) := by
    clear h hkeys hmem
    induction hts with
    | nil => exact .nil
    | cons hx _ ih => exact .cons hx.2.1 ih
  have htab : (Driver.tables srv).result = .ok ts := by
    unfold Driver.tables
    rw [Run.bind_ok (a := ()) rfl]
    exact (Driver.showCreates_result srv _ ts).mpr ⟨by rw [hkeys, h.names], fun n text hm => hmem (n, text) hm⟩
  obtain ⟨db', h1, _, h3, h4⟩ := load_unread (fun d => true ∈ marks d.name) ds (Dict.values ts) {} h.ok h.distinct hvals
  refine ⟨db', ?_, h3, fun h => h4 (Or.inr h)⟩
  unfold LiveDatabase.new
  rw [Run.bind_ok htab]
  exact h1

end Mygrations

import Verif.Proofs.ReadCreate

/-! # `CREATE TABLE` reads back -/

namespace Mygrations

/-! ## Options -/

/-- an option which can be written down and read back -/
structure TableOpt.Ok (o : TableOpt) : Prop where
  nameFlat : flat true o.name = true
  nameShort : o.name.length ≤ 30
  nameEq : '=' ∉ o.name
  value : o.value ≠ [] ∧ ∀ c ∈ o.value, isSpace c = false ∧ c ≠ ';'

/-- the options and what follows -/
def optTail : List TableOpt → Str → Str
  | [], e => e
  | o :: os, e => ' ' :: (o.name ++ py"=" ++ o.value ++ optTail os e)

theorem takeRun_max {p : Char → Bool} : ∀ {run r : Str} {n : Nat}, run.length ≤ n → (∀ c ∈ run, p c = true) → (∀ c, r.head? = some c → p c = false) →
    takeRun p (some n) (run ++ r) = run
  | [], [], n, _, _, _ => by cases n <;> rfl
  | [], c :: r, 0, _, _, _ => rfl
  | [], c :: r, n + 1, _, _, hr => by simp [takeRun, hr c rfl]
  | c :: run, r, 0, hl, _, _ => by simp at hl
  | c :: run, r, n + 1, hl, hrun, hr => by
    simp only [List.cons_append, takeRun, hrun c List.mem_cons_self, if_true]
    rw [takeRun_max (by simpa using hl) (fun x hx => hrun x (List.mem_cons_of_mem _ hx)) hr]

theorem takeRun_take {p : Char → Bool} : ∀ {s : Str} {n : Nat}, (∀ c ∈ s.take n, p c = true) → takeRun p (some n) s = s.take n
  | [], n, _ => by cases n <;> rfl
  | c :: s, 0, _ => rfl
  | c :: s, n + 1, h => by
    simp only [List.take_succ_cons, List.mem_cons, forall_eq_or_imp] at h
    simp only [takeRun, h.1, if_true, List.take_succ_cons]
    rw [takeRun_take h.2]

theorem value_flat {o : TableOpt} (h : o.Ok) : flat true o.value = true :=
  flat_noSpace (fun c hc => (h.value.2 c hc).1) true (fun _ => h.value.1)

theorem option_flat {o : TableOpt} (h : o.Ok) : flat true (o.name ++ py"=" ++ o.value) = true := by
  rw [List.append_assoc, flat_append h.nameFlat]
  rw [flat_append (b := false) (a := py"=") (by decide)]
  exact flat_false_of_true (value_flat h)

theorem optTail_flat {e : Str} (he : flat false e = true) : ∀ {os : List TableOpt}, (∀ o ∈ os, o.Ok) → flat false (optTail os e) = true
  | [], _ => he
  | o :: os, h => by
    have ih := optTail_flat he (fun x hx => h x (List.mem_cons_of_mem _ hx))
    show flat false ([] ++ ' ' :: (o.name ++ py"=" ++ o.value ++ optTail os e)) = true
    rw [flat_space rfl, flat_append (option_flat (h o List.mem_cons_self))]
    exact ih

/-- one option is read -/
theorem option_read {o : TableOpt} (h : o.Ok) {t : Str} (ht : ∀ c, t.head? = some c → c = ' ' ∨ c = ';') (hf : flat false t = true) :
    tableOption.tryParse (o.name ++ py"=" ++ o.value ++ t) = .ok (some (o, strip t)) := by
  have hall : flat true (o.name ++ py"=" ++ o.value ++ t) = true := by
    rw [flat_append (option_flat h)]; exact hf
  have hvf : flat true (o.value ++ t) = true := by rw [flat_append (value_flat h)]; exact hf
  have h1 : (Kind.regexp (.cls [] (· != '=') (some 30) [])).parse (o.name ++ py"=" ++ o.value ++ t) = .ok (some (.str o.name, py"=" ++ (o.value ++ t))) := by
    show Except.ok (regexParse _ _) = _
    have hrun : takeRun (· != '=') (some 30) (o.name ++ py"=" ++ o.value ++ t) = o.name := by
      rw [List.append_assoc, List.append_assoc]
      apply takeRun_max h.nameShort
      · intro c hc
        simp only [bne_iff_ne, ne_eq]
        rintro rfl
        exact h.nameEq hc
      · intro c hc
        simp at hc; subst hc; decide
    obtain ⟨x, xs, hx, _⟩ := flat_true_head h.nameFlat
    have hne : o.name ≠ [] := by simp [hx]
    have hd : (o.name ++ py"=" ++ o.value ++ t).drop o.name.length = py"=" ++ (o.value ++ t) := by simp
    have hs : strip (py"=" ++ (o.value ++ t)) = py"=" ++ (o.value ++ t) := by
      apply strip_flat
      rw [flat_append (by decide)]; exact flat_false_of_true hvf
    simp only [regexParse, startsWithCI, List.take_zero, List.length_nil, List.drop_zero, hrun, hne, Nat.zero_add, hd, hs]
    simp [lower]
  have h2 : (lit py"=").kind.parse (py"=" ++ (o.value ++ t)) = .ok (some (.str py"=", o.value ++ t)) := lit_hit _ hvf
  have h3 : (plus (fun c => !isSpace c && c != ';')).parse (o.value ++ t) = .ok (some (.str o.value, strip t)) := by
    have := regex_hit (p := fun c => !isSpace c && c != ';') (pre := []) (run := o.value) (post := []) (r := t) h.value.1
      (fun c hc => by simp [h.value.2 c hc]) (fun c hc => by
        rcases ht c hc with rfl | rfl <;> decide)
    exact congrArg Except.ok this
  refine (try_some (vals := [(py"name", .str o.name), (py"=", .str py"="), (py"value", .str o.value)]) (rest := strip t) ?_).trans ?_
  · unfold simpleParse
    rw [normalize_normal (Or.inr hall)]
    show runRules Kind.parse [{ kind := .regexp (.cls [] (· != '=') (some 30) []), name := py"name" }, lit py"=",
      { kind := plus (fun c => !isSpace c && c != ';'), name := py"value" }] [] _ = _
    rw [run_hit h1 (by simp), run_hit h2 (by simp [h.value.1])]
    by_cases hst : strip t = []
    · rw [hst] at h3
      rw [run_end h3, hst]
      rfl
    · rw [run_hit h3 hst]
      rfl
  · show Except.ok (some (({ name := strip o.name, value := strip o.value } : TableOpt), strip t)) = _
    rw [strip_flat h.nameFlat, strip_flat (value_flat h)]

/-- nothing is taken for an option if there is no `=` in the next 32 characters -/
theorem option_miss {s : Str} (hf : flat true s = true) (h : '=' ∉ s.take 32) : tableOption.tryParse s = .ok none := by
  obtain ⟨c, cs, hs, _⟩ := flat_true_head hf
  have hrun : takeRun (· != '=') (some 30) s = s.take 30 := by
    apply takeRun_take
    intro x hx
    simp only [bne_iff_ne, ne_eq]
    rintro rfl
    exact h ((List.take_subset_take_left s (by omega)) hx)
  have hne : s.take 30 ≠ [] := by simp [hs]
  have h1 : (Kind.regexp (.cls [] (· != '=') (some 30) [])).parse s = .ok (some (.str (s.take 30), strip (s.drop 30))) := by
    show Except.ok (regexParse _ _) = _
    have hd : s.drop (s.take 30).length = s.drop 30 := by
      rw [List.length_take]
      by_cases hl : 30 ≤ s.length
      · rw [Nat.min_eq_left hl]
      · rw [Nat.min_eq_right (by omega), List.drop_eq_nil_of_le (Nat.le_refl _), List.drop_eq_nil_of_le (by omega)]
    simp only [regexParse, startsWithCI, List.take_zero, List.length_nil, List.drop_zero, hrun, hne, Nat.zero_add, hd]
    simp [lower]
  have hb : ∀ x, (strip (s.drop 30)).head? = some x → x ≠ '=' := by
    intro x hx
    rcases flat_suffix hf (List.drop_suffix 30 s) with h0 | ⟨b, hb⟩
    · rw [h0] at hx; cases hx
    · have hmem : ∀ i, i < 32 → s[i]? ≠ some '=' := by
        intro i hi hc
        apply h
        rw [List.mem_iff_getElem?]
        exact ⟨i, by rw [List.getElem?_take_of_lt hi]; exact hc⟩
      have h30 := hmem 30 (by omega)
      have h31 := hmem 31 (by omega)
      have hd30 : s[30]? = (s.drop 30)[0]? := by simp
      have hd31 : s[31]? = (s.drop 30)[1]? := by simp
      rw [hd30] at h30
      rw [hd31] at h31
      generalize s.drop 30 = u at *
      cases u with
      | nil => cases hx
      | cons a u =>
        by_cases ha : isSpace a = true
        · have hta := flat_tail hb
          rw [ha] at hta
          obtain ⟨y, ys, rfl, hy⟩ := flat_true_head hta
          rw [strip_cons_space ha, strip_flat hta] at hx
          simp only [List.head?_cons, Option.some.injEq] at hx
          subst hx
          simpa using h31
        · simp only [Bool.not_eq_true] at ha
          have hta : flat true (a :: u) = true := by
            simp only [flat, ha, Bool.false_eq_true, if_false] at hb ⊢
            exact hb
          rw [strip_flat hta] at hx
          simp only [List.head?_cons, Option.some.injEq] at hx
          subst hx
          simpa using h30
  unfold ChildClass.tryParse simpleParse
  rw [normalize_normal (Or.inr hf)]
  show (match runRules Kind.parse [{ kind := .regexp (.cls [] (· != '=') (some 30) []), name := py"name" }, lit py"=",
      { kind := plus (fun c => !isSpace c && c != ';'), name := py"value" }] [] s with | .error e => _ | .ok r => _) = _
  by_cases hst : strip (s.drop 30) = []
  · rw [hst] at h1
    rw [run_end h1]
    rfl
  · rw [run_hit h1 hst]
    obtain ⟨x, xs, hx⟩ := List.exists_cons_of_ne_nil hst
    have h2 : (lit py"=").kind.parse (strip (s.drop 30)) = .ok none := by
      rw [hx] at hb ⊢
      exact lit_miss [] (by decide) (by decide) (hb x rfl)
    rw [run_fail h2 rfl]
    rfl

/-- all options are read -/
theorem options_loop {e : Str} (he : ∀ c, e.head? = some c → c = ';') (hf : flat false e = true) :
    ∀ (os : List TableOpt) (n : Nat) (done : List CreateNode), (∀ o ∈ os, o.Ok) →
    childrenLoop [tableOption.map .option] (n + os.length) (strip (optTail os e)) done =
      childrenLoop [tableOption.map .option] n (strip e) (done ++ os.map .option)
  | [], n, done, _ => by simp [optTail]
  | o :: os, n, done, h => by
    have ho := h o List.mem_cons_self
    have hos : ∀ o ∈ os, o.Ok := fun x hx => h x (List.mem_cons_of_mem _ hx)
    have htf := optTail_flat hf hos
    have hft : flat true (o.name ++ py"=" ++ o.value ++ optTail os e) = true := by
      rw [flat_append (option_flat ho)]; exact htf
    have hhead : ∀ c, (optTail os e).head? = some c → c = ' ' ∨ c = ';' := by
      intro c hc
      cases os with
      | nil => exact Or.inr (he c hc)
      | cons o' os' => simp [optTail] at hc; exact Or.inl hc.symm
    have hr := option_read ho hhead htf
    have hb : bestChild [tableOption] (o.name ++ py"=" ++ o.value ++ optTail os e) none = .ok (some (o, strip (optTail os e))) := by
      simp only [bestChild, hr]
    have hb' := best_map_some (cs := [tableOption]) CreateNode.option hb
    simp only [List.map_cons, List.map_nil] at hb'
    rw [show n + (o :: os).length = (n + os.length) + 1 from rfl]
    show childrenLoop _ _ (strip (' ' :: (o.name ++ py"=" ++ o.value ++ optTail os e))) done = _
    rw [strip_space hft]
    rw [loop_step (by simp) hb', options_loop he hf os n _ hos]
    simp

/-! ## The statement -/

/-- the normalised text of a statement, with what follows -/
def createText (name lead sep trail : Str) (d : Src) (ds : List Src) (os : List TableOpt) (more : Str) : Str :=
  py"CREATE TABLE" ++ ' ' :: (quoted '`' name ++ ' ' :: (py"(" ++ (lead ++ (d.render ++ defTail sep ds (trail ++ (py")" ++ optTail os (py";" ++ more)))))))

/-- what the rules of a `CREATE TABLE` leave behind -/
def createVals (name : Str) (xs : List Definition) (os : List TableOpt) : Dict (TVal CreateNode) :=
  [(py"CREATE TABLE", .simple (.str py"CREATE TABLE")), (py"name", .simple (.str (quoted '`' name))), (py"(", .simple (.str py"(")),
   (py"definitions", .nodes (xs.map .definition)), (py")", .simple (.str py")"))] ++
  (if os = [] then [] else [(py"table_options", .nodes (os.map .option))]) ++ [(py"closing_semicolon", .simple (.str py";"))]

/-- blank or nothing -/
def Gap (s : Str) : Prop := s = [] ∨ s = py" "

theorem flat_gap {g s : Str} (hg : Gap g) (hs : flat true s = true) : flat false (g ++ s) = true := by
  rcases hg with rfl | rfl
  · exact flat_false_of_true hs
  · show flat false ([] ++ ' ' :: s) = true
    rw [flat_space rfl]; exact hs

theorem strip_gap {g s : Str} (hg : Gap g) (hs : flat true s = true) : strip (g ++ s) = s := by
  rcases hg with rfl | rfl
  · exact strip_flat hs
  · exact strip_space hs

theorem top_simple {α : Type} {k : Kind} {s : Str} {v : PVal} {s' : Str} (h : k.parse s = .ok (some (v, s'))) :
    (TopKind.simple (α := α) k).parse s = .ok (some (.simple v, s')) := by simp [TopKind.parse, h]

theorem top_simple_none {α : Type} {k : Kind} {s : Str} (h : k.parse s = .ok none) : (TopKind.simple (α := α) k).parse s = .ok none := by
  simp [TopKind.parse, h]

theorem semicolon_flat {more : Str} (hm : flat false more = true) : flat true (py";" ++ more) = true := by
  rw [flat_append (by decide)]; exact hm

/-- the normalised text of a statement up to its closing parenthesis, with its options and what follows -/
def openText (name lead sep trail : Str) (d : Src) (ds : List Src) (os : List TableOpt) (e : Str) : Str :=
  py"CREATE TABLE" ++ ' ' :: (quoted '`' name ++ ' ' :: (py"(" ++ (lead ++ (d.render ++ defTail sep ds (trail ++ (py")" ++ optTail os e))))))

/-- what the rules of a `CREATE TABLE` leave behind up to its closing parenthesis -/
def openVals (name : Str) (xs : List Definition) : Dict (TVal CreateNode) :=
  [(py"CREATE TABLE", .simple (.str py"CREATE TABLE")), (py"name", .simple (.str (quoted '`' name))), (py"(", .simple (.str py"(")),
   (py"definitions", .nodes (xs.map .definition)), (py")", .simple (.str py")"))]

/-- the rule for options -/
def optionsRule : Rule (TopKind CreateNode) := { kind := .children [tableOption.map .option], name := py"table_options", optional := true }

theorem create_open {name lead sep trail : Str} {d : Src} {ds : List Src} {os : List TableOpt} {e s : Str} (hn : Ident name) (hl : Gap lead) (hs : Gap sep)
    (ht : Gap trail) (hd : ∀ x ∈ d :: ds, x.Plain) (ho : ∀ o ∈ os, o.Ok) (hf : flat false e = true)
    (hnd : ds.length + 1 < 1000) (htext : normalize s = openText name lead sep trail d ds os e) :
    ∃ xs, AllRead (d :: ds) xs ∧ topParse createRules s =
      if strip (optTail os e) = [] then .ok ⟨true, openVals name xs, []⟩
      else runRules TopKind.parse [optionsRule, closingSemicolon.top] (openVals name xs) (strip (optTail os e)) := by
  have f2 : flat false (optTail os e) = true := optTail_flat hf ho
  have f3 : flat true (py")" ++ optTail os e) = true := by rw [flat_append (by decide)]; exact f2
  have hcl : Closing (trail ++ (py")" ++ optTail os e)) := by
    refine Or.inr ⟨⟨optTail os e, ?_⟩, flat_gap ht f3⟩
    rcases ht with rfl | rfl
    · exact Or.inr (Or.inl rfl)
    · exact Or.inr (Or.inr (Or.inr (Or.inl rfl)))
  have f4 : flat true (d.render ++ defTail sep ds (trail ++ (py")" ++ optTail os e))) = true := by
    rw [flat_append (Src.flat (hd d List.mem_cons_self))]
    exact defTail_closing hs hcl (fun x hx => hd x (List.mem_cons_of_mem _ hx))
  have hne4 : d.render ++ defTail sep ds (trail ++ (py")" ++ optTail os e)) ≠ [] := by
    obtain ⟨c, cs, hc, _⟩ := flat_true_head f4
    rw [hc]; simp
  have f5 : flat true (py"(" ++ (lead ++ (d.render ++ defTail sep ds (trail ++ (py")" ++ optTail os e))))) = true := by
    rw [flat_append (by decide)]; exact flat_gap hl f4
  have f6 := pre_flat (pre := quoted '`' name) (by simp [quoted]) (quoted_noSpace hn) f5
  obtain ⟨xs, hxs, hloop⟩ := definitions_loop hs hcl (by rcases ht with rfl | rfl <;> simp) (by rcases ht with rfl | rfl <;> simp) d ds
    (999 - ds.length) [] hd
  rw [strip_gap ht f3] at hloop
  refine ⟨xs, hxs, ?_⟩
  unfold topParse
  rw [htext]
  -- CREATE TABLE
  have r1 : (TopKind.simple (α := CreateNode) (.literal py"CREATE TABLE")).parse (openText name lead sep trail d ds os e) =
      .ok (some (.simple (.str py"CREATE TABLE"), _)) := top_simple (by
    show Except.ok (literalParse _ _) = _
    unfold openText
    rw [literal_hit, strip_space f6])
  -- IF NOT EXISTS
  have r2 : (TopKind.simple (α := CreateNode) (.literal py"IF NOT EXISTS")).parse
      (quoted '`' name ++ ' ' :: (py"(" ++ (lead ++ (d.render ++ defTail sep ds (trail ++ (py")" ++ optTail os e)))))) = .ok none :=
    top_simple_none (by
      show Except.ok (literalParse _ _) = _
      rw [literal_miss]
      simp [quoted, startsWithCI_cons])
  -- the name
  have r3 : (TopKind.simple (α := CreateNode) (plus (fun c => !isSpace c))).parse
      (quoted '`' name ++ ' ' :: (py"(" ++ (lead ++ (d.render ++ defTail sep ds (trail ++ (py")" ++ optTail os e)))))) =
      .ok (some (.simple (.str (quoted '`' name)), py"(" ++ (lead ++ (d.render ++ defTail sep ds (trail ++ (py")" ++ optTail os e)))))) :=
    top_simple (by
      have := regex_hit (p := fun c => !isSpace c) (pre := []) (run := quoted '`' name) (post := [])
        (r := ' ' :: (py"(" ++ (lead ++ (d.render ++ defTail sep ds (trail ++ (py")" ++ optTail os e))))))
        (by simp [quoted]) (fun c hc => by simp [nameChar_noSpace (quoted_noSpace hn c hc)]) (fun c hc => by
          simp at hc; subst hc; decide)
      rw [strip_space f5] at this
      exact congrArg Except.ok this)
  -- the parenthesis
  have r4 : (TopKind.simple (α := CreateNode) (.literal py"(")).parse
      (py"(" ++ (lead ++ (d.render ++ defTail sep ds (trail ++ (py")" ++ optTail os e))))) =
      .ok (some (.simple (.str py"("), d.render ++ defTail sep ds (trail ++ (py")" ++ optTail os e)))) := top_simple (by
    show Except.ok (literalParse _ _) = _
    rw [literal_hit, strip_gap hl f4])
  -- the definitions
  have r5 : (TopKind.children nodeClasses).parse (d.render ++ defTail sep ds (trail ++ (py")" ++ optTail os e))) =
      .ok (some (.nodes (xs.map .definition), py")" ++ optTail os e)) := by
    have hstop := best_map_none CreateNode.definition (definitions_stop f3)
    have h1 : childrenParse nodeClasses (d.render ++ defTail sep ds (trail ++ (py")" ++ optTail os e))) =
        .ok (some (xs.map .definition, py")" ++ optTail os e)) := by
      unfold childrenParse
      rw [show 1000 = 999 - ds.length + (ds.length + 1) by omega, hloop]
      obtain ⟨n, hn⟩ : ∃ n, 999 - ds.length = n + 1 := ⟨998 - ds.length, by omega⟩
      rw [hn]
      have hne : (xs.map CreateNode.definition).isEmpty = false := by
        have := hxs.length
        cases xs with
        | nil => simp at this
        | cons x xs => rfl
      simp only [List.nil_append]
      have hstop' : bestChild nodeClasses (py")" ++ optTail os e) none = .ok none := hstop
      simp only [childrenLoop]
      rw [if_neg (by simp), hstop', hne]
      rfl
    simp only [TopKind.parse, h1]
  -- the closing parenthesis
  have r6 : (TopKind.simple (α := CreateNode) (.literal py")")).parse (py")" ++ optTail os e) =
      .ok (some (.simple (.str py")"), strip (optTail os e))) := top_simple (by
    show Except.ok (literalParse _ _) = _
    rw [literal_hit])
  show runRules TopKind.parse [(lit py"CREATE TABLE").top,
   Rule.top { kind := .literal py"IF NOT EXISTS", name := py"if_not_exists", optional := true },
   Rule.top { kind := plus (fun c => !isSpace c), name := py"name" },
   (lit py"(").top, { kind := .children nodeClasses, name := py"definitions" }, (lit py")").top,
   { kind := .children [tableOption.map .option], name := py"table_options", optional := true }, closingSemicolon.top] [] _ = _
  rw [run_hit (r := (lit py"CREATE TABLE").top) r1 (by simp [quoted]), run_skip (r := Rule.top { kind := .literal py"IF NOT EXISTS", name := py"if_not_exists", optional := true }) r2 rfl,
    run_hit (r := Rule.top { kind := plus (fun c => !isSpace c), name := py"name" }) r3 (by simp), run_hit (r := (lit py"(").top) r4 hne4,
    run_hit (r := { kind := TopKind.children nodeClasses, name := py"definitions" }) r5 (by simp)]
  split
  · rename_i he
    rw [he] at r6
    rw [run_end (r := (lit py")").top) r6]
    rfl
  · rename_i he
    rw [run_hit (r := (lit py")").top) r6 he]
    rfl

theorem create_read {name lead sep trail : Str} {d : Src} {ds : List Src} {os : List TableOpt} {more s : Str} (hn : Ident name) (hl : Gap lead) (hs : Gap sep)
    (ht : Gap trail) (hd : ∀ x ∈ d :: ds, x.Plain) (ho : ∀ o ∈ os, o.Ok) (hm : flat false more = true) (hmiss : tableOption.tryParse (py";" ++ more) = .ok none)
    (hnd : ds.length + 1 < 1000) (hno : os.length < 1000) (htext : normalize s = createText name lead sep trail d ds os more) :
    ∃ xs, AllRead (d :: ds) xs ∧ topParse createRules s = .ok ⟨true, createVals name xs os, strip more⟩ := by
  have f1 := semicolon_flat hm
  obtain ⟨xs, hxs, hopen⟩ := create_open hn hl hs ht hd ho (flat_false_of_true f1) hnd htext
  refine ⟨xs, hxs, ?_⟩
  have hopt : ∀ done, childrenLoop [tableOption.map CreateNode.option] (1000 - os.length) (strip (py";" ++ more)) done =
      if done.isEmpty then .ok none else .ok (some (done, py";" ++ more)) := by
    intro done
    obtain ⟨n, hn⟩ : ∃ n, 1000 - os.length = n + 1 := ⟨999 - os.length, by omega⟩
    rw [hn, strip_flat f1]
    have hb : bestChild [tableOption] (py";" ++ more) none = .ok none := by simp only [bestChild, hmiss]
    have hb' := best_map_none CreateNode.option hb
    simp only [List.map_cons, List.map_nil] at hb'
    simp only [childrenLoop]
    rw [if_neg (by simp), hb']
  have hoploop := options_loop (e := py";" ++ more) (by simp) (flat_false_of_true f1) os (1000 - os.length) [] ho
  rw [show 1000 - os.length + os.length = 1000 by omega, hopt] at hoploop
  -- the semicolon
  have r8 : (TopKind.simple (α := CreateNode) (.literal py";")).parse (py";" ++ more) = .ok (some (.simple (.str py";"), strip more)) := top_simple (by
    show Except.ok (literalParse _ _) = _
    rw [literal_hit])
  have fin : ∀ vals : Dict (TVal CreateNode), py"closing_semicolon" ∉ Dict.keys vals →
      runRules TopKind.parse [closingSemicolon.top] vals (py";" ++ more) =
        .ok ⟨true, vals ++ [(py"closing_semicolon", .simple (.str py";"))], strip more⟩ := by
    intro vals hv
    have hset : Dict.set vals py"closing_semicolon" (TVal.simple (.str py";")) = vals ++ [(py"closing_semicolon", .simple (.str py";"))] :=
      Dict.set_of_not_mem _ hv
    by_cases hst : strip more = []
    · rw [hst] at r8
      rw [run_end (r := closingSemicolon.top) r8, hst]
      show Except.ok (ParseResult.mk true (Dict.set vals py"closing_semicolon" (TVal.simple (.str py";"))) []) = _
      rw [hset]
    · rw [run_hit (r := closingSemicolon.top) r8 hst]
      show Except.ok (ParseResult.mk true (Dict.set vals py"closing_semicolon" (TVal.simple (.str py";"))) (strip more)) = _
      rw [hset]
  have hne6 : strip (optTail os (py";" ++ more)) ≠ [] := by
    cases os with
    | nil => show strip (py";" ++ more) ≠ []; rw [strip_flat f1]; simp
    | cons o os =>
      have : flat true (o.name ++ py"=" ++ o.value ++ optTail os (py";" ++ more)) = true := by
        rw [flat_append (option_flat (ho o List.mem_cons_self))]
        exact optTail_flat (flat_false_of_true f1) (fun x hx => ho x (List.mem_cons_of_mem _ hx))
      show strip (' ' :: (o.name ++ py"=" ++ o.value ++ optTail os (py";" ++ more))) ≠ []
      rw [strip_space this]; simp
  rw [hopen, if_neg hne6]
  cases hos : os with
  | nil =>
    subst hos
    have r7 : (TopKind.children [tableOption.map CreateNode.option]).parse (strip (optTail [] (py";" ++ more))) = .ok none := by
      have : childrenParse [tableOption.map CreateNode.option] (strip (optTail [] (py";" ++ more))) = .ok none := hoploop
      simp only [TopKind.parse, this]
    rw [run_skip (r := optionsRule) r7 rfl]
    show runRules TopKind.parse _ _ (strip (py";" ++ more)) = _
    rw [strip_flat f1]
    rw [fin]
    · rfl
    · exact fun h => absurd (show py"closing_semicolon" ∈ [py"CREATE TABLE", py"name", py"(", py"definitions", py")"] from h) (by decide)
  | cons o os' =>
    rw [← hos]
    have r7 : (TopKind.children [tableOption.map CreateNode.option]).parse (strip (optTail os (py";" ++ more))) =
        .ok (some (.nodes (os.map .option), py";" ++ more)) := by
      have : childrenParse [tableOption.map CreateNode.option] (strip (optTail os (py";" ++ more))) = .ok (some (os.map .option, py";" ++ more)) := by
        unfold childrenParse
        rw [hoploop]
        simp [hos]
      simp only [TopKind.parse, this]
    rw [run_hit (r := optionsRule) r7 (by simp)]
    rw [fin]
    · rw [createVals, if_neg (by simp [hos])]
      rfl
    · exact fun h => absurd (show py"closing_semicolon" ∈ [py"CREATE TABLE", py"name", py"(", py"definitions", py")", py"table_options"] from h) (by decide)

end Mygrations

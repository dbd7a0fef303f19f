import Verif.Proofs.ReadLive

/-! # A definition with a comment ends the reading of a table -/

namespace Mygrations

/-- nothing starts with a comment of a definition -/
theorem definitions_comment {r : Str} (hf : flat true (py"COMMENT '" ++ r) = true) : bestChild definitionClasses (py"COMMENT '" ++ r) none = .ok none := by
  rw [bestChild_none]
  intro c hc
  simp only [definitionClasses, List.mem_cons, List.not_mem_nil, or_false] at hc
  have hq : flat true ('\'' :: r) = true := by
    have : flat true (py"COMMENT" ++ ' ' :: '\'' :: r) = true := hf
    rw [flat_space (by decide)] at this
    exact this
  have key : ∀ (c : ChildClass Definition) (x : Rule Kind) (xs : List (Rule Kind)), c.rules = x :: xs → x.optional = false →
      x.kind.parse (py"COMMENT '" ++ r) = .ok none → c.tryParse (py"COMMENT '" ++ r) = .ok none := by
    intro c x xs h1 h2 h3
    refine try_none (vals := []) (rest := py"COMMENT '" ++ r) ?_
    unfold simpleParse
    rw [h1, normalize_normal (Or.inr hf), run_fail h3 h2]
  have hlit : ∀ v, startsWithCI v (py"COMMENT '" ++ r) = false → (lit v).kind.parse (py"COMMENT '" ++ r) = .ok none := fun v hv => by
    show Except.ok (literalParse v (py"COMMENT '" ++ r)) = _
    rw [literal_miss hv]
  have hkey : keyOrIndex.parse (py"COMMENT '" ++ r) = .ok none := by
    show Except.ok (regexParse (.alt py"KEY" py"INDEX") (py"COMMENT '" ++ r)) = _
    simp [regexParse, startsWithCI_cons]
  have hcol : ∀ (c : ChildClass Definition) rs, rs ∈ columnTails → c.rules = columnHead ++ rs → c.tryParse (py"COMMENT '" ++ r) = .ok none := fun c rs hrs hcr =>
    try_no_type hcr (columnTails_idle rs hrs) (x := '\'') (by decide) (pre := py"COMMENT") (by simp) (by decide) hq
  rcases hc with rfl | rfl | rfl | rfl | rfl | h
  · exact key _ _ _ rfl rfl (hlit _ (by simp [startsWithCI_cons]))
  · exact key _ _ _ rfl rfl hkey
  · exact key _ _ _ rfl rfl (hlit _ (by simp [startsWithCI_cons]))
  · exact key _ _ _ rfl rfl (hlit _ (by simp [startsWithCI_cons]))
  · exact key _ _ _ rfl rfl (hlit _ (by simp [startsWithCI_cons]))
  · obtain ⟨rs, hrs, hcr⟩ := columnClass_tail c (by simpa using h)
    exact hcol _ rs hrs hcr

/-- the text of a statement up to the comment of a definition, and what follows -/
def brokenText (name lead sep : Str) (d : Src) (ds : List Src) (more : Str) : Str :=
  py"CREATE TABLE" ++ ' ' :: (quoted '`' name ++ ' ' :: (py"(" ++ (lead ++ (d.render ++ defTail sep ds (py" COMMENT '" ++ more)))))

theorem create_broken {name lead sep : Str} {d : Src} {ds : List Src} {more s : Str} (hn : Ident name) (hl : Gap lead) (hs : Gap sep)
    (hd : ∀ x ∈ d :: ds, x.Plain) (hf : flat true (py"COMMENT '" ++ more) = true)
    (hnd : ds.length + 1 < 1000) (htext : normalize s = brokenText name lead sep d ds more) :
    ∃ vals, topParse createRules s = .ok ⟨false, vals, py"COMMENT '" ++ more⟩ := by
  have hcl : Closing (py" COMMENT '" ++ more) := by
    refine Or.inr ⟨⟨more, Or.inr (Or.inr (Or.inr (Or.inr (Or.inl rfl))))⟩, ?_⟩
    show flat false ([] ++ ' ' :: (py"COMMENT '" ++ more)) = true
    rw [flat_space rfl]; exact hf
  have hst : strip (py" COMMENT '" ++ more) = py"COMMENT '" ++ more := strip_space hf
  have f4 : flat true (d.render ++ defTail sep ds (py" COMMENT '" ++ more)) = true := by
    rw [flat_append (Src.flat (hd d List.mem_cons_self))]
    exact defTail_closing hs hcl (fun x hx => hd x (List.mem_cons_of_mem _ hx))
  have hne4 : d.render ++ defTail sep ds (py" COMMENT '" ++ more) ≠ [] := by
    obtain ⟨c, cs, hc, _⟩ := flat_true_head f4
    rw [hc]; simp
  have f5 : flat true (py"(" ++ (lead ++ (d.render ++ defTail sep ds (py" COMMENT '" ++ more)))) = true := by
    rw [flat_append (by decide)]; exact flat_gap hl f4
  have f6 := pre_flat (pre := quoted '`' name) (by simp [quoted]) (quoted_noSpace hn) f5
  obtain ⟨xs, hxs, hloop⟩ := definitions_loop hs hcl (by simp) (by simp) d ds (999 - ds.length) [] hd
  rw [hst] at hloop
  unfold topParse
  rw [htext]
  have r1 : (TopKind.simple (α := CreateNode) (.literal py"CREATE TABLE")).parse (brokenText name lead sep d ds more) =
      .ok (some (.simple (.str py"CREATE TABLE"), _)) := top_simple (by
    show Except.ok (literalParse _ _) = _
    unfold brokenText
    rw [literal_hit, strip_space f6])
  have r2 : (TopKind.simple (α := CreateNode) (.literal py"IF NOT EXISTS")).parse
      (quoted '`' name ++ ' ' :: (py"(" ++ (lead ++ (d.render ++ defTail sep ds (py" COMMENT '" ++ more))))) = .ok none :=
    top_simple_none (by
      show Except.ok (literalParse _ _) = _
      rw [literal_miss]
      simp [quoted, startsWithCI_cons])
  have r3 : (TopKind.simple (α := CreateNode) (plus (fun c => !isSpace c))).parse
      (quoted '`' name ++ ' ' :: (py"(" ++ (lead ++ (d.render ++ defTail sep ds (py" COMMENT '" ++ more))))) =
      .ok (some (.simple (.str (quoted '`' name)), py"(" ++ (lead ++ (d.render ++ defTail sep ds (py" COMMENT '" ++ more))))) :=
    top_simple (by
      have := regex_hit (p := fun c => !isSpace c) (pre := []) (run := quoted '`' name) (post := [])
        (r := ' ' :: (py"(" ++ (lead ++ (d.render ++ defTail sep ds (py" COMMENT '" ++ more)))))
        (by simp [quoted]) (fun c hc => by simp [nameChar_noSpace (quoted_noSpace hn c hc)]) (fun c hc => by
          simp at hc; subst hc; decide)
      rw [strip_space f5] at this
      exact congrArg Except.ok this)
  have r4 : (TopKind.simple (α := CreateNode) (.literal py"(")).parse
      (py"(" ++ (lead ++ (d.render ++ defTail sep ds (py" COMMENT '" ++ more)))) =
      .ok (some (.simple (.str py"("), d.render ++ defTail sep ds (py" COMMENT '" ++ more))) := top_simple (by
    show Except.ok (literalParse _ _) = _
    rw [literal_hit, strip_gap hl f4])
  have r5 : (TopKind.children nodeClasses).parse (d.render ++ defTail sep ds (py" COMMENT '" ++ more)) =
      .ok (some (.nodes (xs.map .definition), py"COMMENT '" ++ more)) := by
    have hstop' : bestChild nodeClasses (py"COMMENT '" ++ more) none = .ok none := best_map_none CreateNode.definition (definitions_comment hf)
    have h1 : childrenParse nodeClasses (d.render ++ defTail sep ds (py" COMMENT '" ++ more)) =
        .ok (some (xs.map .definition, py"COMMENT '" ++ more)) := by
      unfold childrenParse
      rw [show 1000 = 999 - ds.length + (ds.length + 1) by omega, hloop]
      obtain ⟨n, hn⟩ : ∃ n, 999 - ds.length = n + 1 := ⟨998 - ds.length, by omega⟩
      rw [hn]
      have hne : (xs.map CreateNode.definition).isEmpty = false := by
        have := hxs.length
        cases xs with
        | nil => simp at this
        | cons x xs => rfl
      simp only [List.nil_append]
      simp only [childrenLoop]
      rw [if_neg (by simp), hstop', hne]
      rfl
    simp only [TopKind.parse, h1]
  have r6 : (TopKind.simple (α := CreateNode) (.literal py")")).parse (py"COMMENT '" ++ more) = .ok none := top_simple_none (by
    show Except.ok (literalParse _ _) = _
    rw [literal_miss]
    simp [startsWithCI_cons])
  refine ⟨[(py"CREATE TABLE", .simple (.str py"CREATE TABLE")), (py"name", .simple (.str (quoted '`' name))), (py"(", .simple (.str py"(")),
    (py"definitions", .nodes (xs.map .definition))], ?_⟩
  show runRules TopKind.parse [(lit py"CREATE TABLE").top,
   Rule.top { kind := .literal py"IF NOT EXISTS", name := py"if_not_exists", optional := true },
   Rule.top { kind := plus (fun c => !isSpace c), name := py"name" },
   (lit py"(").top, { kind := .children nodeClasses, name := py"definitions" }, (lit py")").top,
   { kind := .children [tableOption.map .option], name := py"table_options", optional := true }, closingSemicolon.top] [] _ = _
  rw [run_hit (r := (lit py"CREATE TABLE").top) r1 (by simp [quoted]), run_skip (r := Rule.top { kind := .literal py"IF NOT EXISTS", name := py"if_not_exists", optional := true }) r2 rfl,
    run_hit (r := Rule.top { kind := plus (fun c => !isSpace c), name := py"name" }) r3 (by simp), run_hit (r := (lit py"(").top) r4 hne4,
    run_hit (r := { kind := TopKind.children nodeClasses, name := py"definitions" }) r5 (by simp), run_fail (r := (lit py")").top) r6 rfl]
  rfl

theorem brokenText_head (name lead sep : Str) (d : Src) (ds : List Src) (more : Str) : ∃ cs, brokenText name lead sep d ds more = 'C' :: cs := ⟨_, rfl⟩

theorem trimmed_broken {name lead sep : Str} {d : Src} {ds : List Src} (more : Str) (hn : Ident name) (hl : Blanks lead) (hs : Blanks sep)
    (hd : ∀ x ∈ d :: ds, x.Plain) : trimmed (brokenText name lead sep d ds more) = brokenText name (squeeze lead) (squeeze sep) d ds (trimmed more) := by
  have h1 : trimmed (py" COMMENT '" ++ more) = py" COMMENT '" ++ trimmed more :=
    trimmed_gap (bs := py" ") (a := py"COMMENT '") (by intro c hc; simp at hc; subst hc; decide) (by decide) more
  have h2 := trimmed_defTail hs h1 (fun x hx => hd x (List.mem_cons_of_mem _ hx))
  have h3 := trimmed_src hl (hd d List.mem_cons_self) (defTail sep ds (py" COMMENT '" ++ more))
  rw [h2] at h3
  have e1 : brokenText name lead sep d ds more = (py"CREATE TABLE" ++ ' ' :: (quoted '`' name ++ ' ' :: py"(")) ++
      (lead ++ (d.render ++ defTail sep ds (py" COMMENT '" ++ more))) := by
    simp [brokenText]
  rw [e1, trimmed_append (create_head_flat hn), h3]
  simp [brokenText]

theorem tame_broken {name lead sep : Str} {d : Src} {ds : List Src} {more : Str} (hn : Ident name) (hl : Blanks lead) (hs : Blanks sep)
    (hd : ∀ x ∈ d :: ds, x.Plain) (hq : ∀ x ∈ d :: ds, x.Quiet) (hm : Tame (py" COMMENT '" ++ more)) : Tame (brokenText name lead sep d ds more) := by
  have h3 := tame_defTail hs hm (fun x hx => hd x (List.mem_cons_of_mem _ hx)) (fun x hx => hq x (List.mem_cons_of_mem _ hx))
  have h4 := tame_sep (hd d List.mem_cons_self) (hq d List.mem_cons_self) (c := '(') (Or.inl rfl) hl h3
  exact tame_dull (by decide) (tame_cons (by decide) (tame_dull (quoted_dull hn) (tame_cons (by decide) h4)))

theorem broken_last (name lead sep : Str) (d : Src) (ds : List Src) {z : Str} {y : Char} (hy : isSpace y = false) :
    strip (brokenText name lead sep d ds (z ++ [y])) = brokenText name lead sep d ds (z ++ [y]) := by
  obtain ⟨a, ha⟩ := defTail_last sep ds (py" COMMENT '" ++ z)
  have e : brokenText name lead sep d ds (z ++ [y]) = (py"CREATE TABLE" ++ ' ' :: (quoted '`' name ++ ' ' :: (py"(" ++ (lead ++ (d.render ++ a))))) ++ [y] := by
    have := ha [y]
    simp only [brokenText]
    rw [← List.append_assoc (py" COMMENT '"), this]
    simp
  obtain ⟨cs, hcs⟩ := brokenText_head name lead sep d ds (z ++ [y])
  rw [hcs, strip_cons_char (by decide), ← hcs, e]
  simp [Mygrations.rstrip, hy]

/-- such a text gives a table without a name -/
theorem broken_read {name lead sep : Str} {d : Src} {ds : List Src} {more z : Str} {y : Char} (hn : Ident name) (hl : Blanks lead) (hs : Blanks sep)
    (hd : ∀ x ∈ d :: ds, x.Plain) (hq : ∀ x ∈ d :: ds, x.Quiet) (hm : Tame (py" COMMENT '" ++ more)) (hz : more = z ++ [y]) (hy : isSpace y = false)
    (hnd : ds.length + 1 < 1000) :
    ∃ errors, readSource (brokenText name lead sep d ds more) = ({ tables := [([], {})], globalErrors := errors }, none) := by
  have hnorm : normalize (brokenText name lead sep d ds more) = brokenText name (squeeze lead) (squeeze sep) d ds (trimmed more) := by
    rw [← trimmed_broken more hn hl hs hd]
    obtain ⟨cs, hcs⟩ := brokenText_head name lead sep d ds more
    rw [hcs, normalize_lead (by decide)]
    exact (trimmed_append (a := ['C']) (by decide) cs).symm
  have hflat : flat true (py"COMMENT '" ++ trimmed more) = true := by
    have := normalize_ne (d := '\'') (by decide) more
    rw [normalize_lead (by decide)] at this
    show flat true (py"COMMENT" ++ ' ' :: ('\'' :: trimmed more)) = true
    rw [flat_space (by decide)]
    exact this
  obtain ⟨vals, hp⟩ := create_broken hn (squeeze_gap lead) (squeeze_gap sep) hd hflat hnd hnorm
  have hpc : parseCreate (brokenText name lead sep d ds more) = .ok ({}, py"COMMENT '" ++ trimmed more) := by
    unfold parseCreate
    rw [(tame_broken hn hl hs hd hq hm).clean, hp]
    rfl
  subst hz
  obtain ⟨cs, hcs⟩ := brokenText_head name lead sep d ds (z ++ [y])
  unfold readSource
  rw [readLoop_create 9999 {} (broken_last name lead sep d ds hy) (by rw [hcs]; simp) rfl
    (by show lower (py"CREATE") = py"create"; decide) hpc,
    readLoop_unknown 9998 _ (strip_flat hflat) (by simp) rfl (by show lower (py"COMMEN") ≠ py"create"; decide) (by show lower (py"COMMEN") ≠ py"insert"; decide)]
  exact ⟨_, rfl⟩

/-- the definitions after the first, with their comments -/
def commentedTail (sep : Str) : List (Src × Option Str) → Str → Str
  | [], e => e
  | x :: xs, e => py"," ++ sep ++ x.1.render ++ (commentText x.2 ++ commentedTail sep xs e)

theorem join_commented (sep e : Str) : ∀ (d : Src) (n : Option Str) (ds : List Src) (ns : List (Option Str)), ns.length = ds.length →
    join (py"," ++ sep) (List.zipWith (fun x n => x.render ++ commentText n) (d :: ds) (n :: ns)) ++ e =
      d.render ++ (commentText n ++ commentedTail sep (ds.zip ns) e)
  | d, n, [], [], _ => by simp [join, commentedTail]
  | d, n, d' :: ds, n' :: ns, h => by
    have := join_commented sep e d' n' ds ns (by simpa using h)
    simp only [List.zipWith_cons_cons, join, List.append_assoc, List.zip_cons_cons, commentedTail] at this ⊢
    rw [this]
  | _, _, [], _ :: _, h => by cases h
  | _, _, _ :: _, [], h => by cases h

/-- what a comment may contain -/
def QuietComment (c : Str) : Prop := (∀ x ∈ c, x ≠ '(' ∧ x ≠ ',') ∧ NoComment c

theorem tame_comment {n : Option Str} (hn : ∀ c, n = some c → QuietComment c) {s : Str} (hs : Tame s) : Tame (commentText n ++ s) := by
  cases n with
  | none => exact hs
  | some c =>
    obtain ⟨h1, h2⟩ := hn c rfl
    have := tame_value (a := py" COMMENT '") (v := c) (by decide) (by simp) h1 (dashless_iff.mp h2) (tame_cons (c := '\'') (by decide) hs)
    simpa [commentText] using this

theorem tame_commentedTail {sep : Str} (hs : Blanks sep) {e : Str} (he : Tame e) : ∀ {xs : List (Src × Option Str)},
    (∀ x ∈ xs, x.1.Plain ∧ x.1.Quiet ∧ ∀ c, x.2 = some c → QuietComment c) → Tame (commentedTail sep xs e)
  | [], _ => he
  | x :: xs, h => by
    obtain ⟨h1, h2, h3⟩ := h x List.mem_cons_self
    have ih := tame_commentedTail hs he (fun y hy => h y (List.mem_cons_of_mem _ hy))
    have := tame_sep h1 h2 (c := ',') (Or.inr rfl) hs (tame_comment h3 ih)
    simpa [commentedTail] using this

theorem commentedTail_last (sep e : Str) : ∀ xs, ∃ z, commentedTail sep xs e = z ++ e
  | [] => ⟨[], rfl⟩
  | x :: xs => by
    obtain ⟨z, hz⟩ := commentedTail_last sep e xs
    exact ⟨py"," ++ sep ++ x.1.render ++ commentText x.2 ++ z, by simp [commentedTail, hz]⟩

/-- the text up to the first comment -/
theorem commented_split {sep : Str} (hs : Blanks sep) {e : Str} (he : Tame e) : ∀ (d : Src) (n : Option Str) (xs : List (Src × Option Str)),
    (∀ x ∈ (d, n) :: xs, x.1.Plain ∧ x.1.Quiet ∧ ∀ c, x.2 = some c → QuietComment c) → (∃ x ∈ (d, n) :: xs, x.2 ≠ none) →
    ∃ ds more, d.render ++ (commentText n ++ commentedTail sep xs e) = d.render ++ defTail sep ds (py" COMMENT '" ++ more) ∧
      (∀ x ∈ ds, x ∈ xs.map (·.1)) ∧ ds.length ≤ xs.length ∧ Tame (py" COMMENT '" ++ more) ∧ ∃ z, more = z ++ e
  | d, some c, xs, h, _ => by
    have ht := tame_comment (h _ List.mem_cons_self).2.2 (tame_commentedTail hs he (fun y hy => h y (List.mem_cons_of_mem _ hy)))
    obtain ⟨z, hz⟩ := commentedTail_last sep e xs
    refine ⟨[], c ++ py"'" ++ commentedTail sep xs e, by simp [commentText, defTail], by simp, by simp, ?_, c ++ py"'" ++ z, by simp [hz]⟩
    simpa [commentText] using ht
  | d, none, [], _, hc => by simp at hc
  | d, none, (d', n') :: xs, h, hc => by
    obtain ⟨ds, more, h1, h2, h3, h4, h5⟩ := commented_split hs he d' n' xs (fun y hy => h y (List.mem_cons_of_mem _ hy)) (by simpa using hc)
    refine ⟨d' :: ds, more, ?_, ?_, by simpa using h3, h4, h5⟩
    · show d.render ++ ([] ++ commentedTail sep ((d', n') :: xs) e) = _
      simp only [List.nil_append, commentedTail, defTail, List.append_assoc]
      rw [h1]
    · intro x hx
      rcases List.mem_cons.mp hx with rfl | hx
      · simp
      · simp only [List.map_cons, List.mem_cons]; exact Or.inr (h2 x hx)

/-- a table of which some definition has a comment is read as a table without a name -/
theorem commented_read {d : TableDecl} (h : d.Ok) {l : Layout} (hl : l.Ok) {notes : List (Option Str)} (hlen : notes.length = d.defs.length)
    (hq : ∀ c, some c ∈ notes → QuietComment c) (hsome : ∃ c, some c ∈ notes) :
    ∃ errors, readSource (d.commentedText l notes) = ({ tables := [([], {})], globalErrors := errors }, none) := by
  obtain ⟨n, ns, rfl⟩ : ∃ n ns, notes = n :: ns := by
    cases notes with
    | nil => simp [TableDecl.defs] at hlen
    | cons n ns => exact ⟨n, ns, rfl⟩
  have hlen' : ns.length = d.others.length := by simpa [TableDecl.defs] using hlen
  have hopts : ∀ (os : List TableOpt) (e : Str), os.flatMap (fun o => py" " ++ o.name ++ py"=" ++ o.value) ++ e = optTail os e := by
    intro os e
    induction os with
    | nil => rfl
    | cons o os ih => rw [List.flatMap_cons, List.append_assoc, ih]; simp [optTail]
  have hj := join_commented l.sep (l.trail ++ (py")" ++ optTail d.options [])) d.first n d.others ns hlen'
  have hte : Tame (l.trail ++ (py")" ++ optTail d.options [])) :=
    tame_dull (fun c hc => blank_dull (hl.trail c hc)) (tame_dull (by decide) (tame_optTail tame_nil h.options))
  have hall : ∀ x ∈ (d.first, n) :: d.others.zip ns, x.1.Plain ∧ x.1.Quiet ∧ ∀ c, x.2 = some c → QuietComment c := by
    intro x hx
    have hx' : x ∈ d.defs.zip (n :: ns) := hx
    obtain ⟨h1, h2⟩ := List.of_mem_zip (a := x.1) (b := x.2) hx'
    exact ⟨h.plain _ h1, h.quiet _ h1, fun c hc => hq c (hc ▸ h2)⟩
  have hex : ∃ x ∈ (d.first, n) :: d.others.zip ns, x.2 ≠ none := by
    obtain ⟨c, hc⟩ := hsome
    have hmap : (d.defs.zip (n :: ns)).map Prod.snd = n :: ns := List.map_snd_zip (by rw [hlen]; exact Nat.le_refl _)
    rw [← hmap] at hc
    obtain ⟨x, hx, hxc⟩ := List.mem_map.mp hc
    exact ⟨x, hx, by rw [hxc]; simp⟩
  obtain ⟨ds, more, h1, h2, h3, h4, z, h5⟩ := commented_split hl.sep hte d.first n (d.others.zip ns) hall hex
  have hds : ∀ x ∈ d.first :: ds, x ∈ d.defs := by
    intro x hx
    rcases List.mem_cons.mp hx with rfl | hx
    · exact List.mem_cons_self
    · obtain ⟨y, hy, rfl⟩ := List.mem_map.mp (h2 x hx)
      exact List.mem_cons_of_mem _ (List.of_mem_zip (a := y.1) (b := y.2) hy).1
  obtain ⟨b, y, hy, hb⟩ := opts_last [] ')' (by decide) h.options
  have htext : d.commentedText l (n :: ns) = brokenText d.name l.lead l.sep d.first ds more := by
    unfold TableDecl.commentedText brokenText TableDecl.defs
    rw [← h1, ← hj, ← hopts]
    simp [quoted]
  rw [htext]
  refine broken_read (z := z ++ l.trail ++ b) (y := y) h.name hl.lead hl.sep (fun x hx => h.plain x (hds x hx)) (fun x hx => h.quiet x (hds x hx)) h4 ?_ hy ?_
  · rw [h5]
    have : py")" ++ optTail d.options [] = b ++ [y] := hb
    rw [this]
    simp
  · have := h.few
    simp only [TableDecl.defs, List.length_cons] at this
    have h6 : (d.others.zip ns).length = d.others.length := by simp [hlen']
    omega

theorem commented_none {d : TableDecl} {l : Layout} {notes : List (Option Str)} (hlen : notes.length = d.defs.length) (h : ∀ n ∈ notes, n = none) :
    d.commentedText l notes = d.text l := by
  have : ∀ (ds : List Src) (ns : List (Option Str)), ns.length = ds.length → (∀ n ∈ ns, n = none) →
      List.zipWith (fun x n => Src.render x ++ commentText n) ds ns = ds.map Src.render := by
    intro ds
    induction ds with
    | nil => intro ns hl _; cases ns <;> simp at hl ⊢
    | cons d ds ih =>
      intro ns hl hn
      cases ns with
      | nil => simp at hl
      | cons n ns =>
        have h0 := hn n List.mem_cons_self
        subst h0
        rw [List.zipWith_cons_cons, ih ns (by simpa using hl) (fun x hx => hn x (List.mem_cons_of_mem _ hx))]
        simp [commentText]
  unfold TableDecl.commentedText TableDecl.text
  rw [this d.defs notes hlen h]

/-- the tables without comments are found, the others are not -/
theorem load_commented (notes : Str → List (Option Str)) : ∀ (ds : List TableDecl) (texts : List Str) (db : Database), (∀ d ∈ ds, d.Ok) →
    (∀ d ∈ ds, (notes d.name).length = d.defs.length) → (∀ d ∈ ds, ∀ c, some c ∈ notes d.name → QuietComment c) → (ds.map (·.name)).Nodup →
    Paired (fun (d : TableDecl) text => ∃ l : Layout, l.Ok ∧ text = d.commentedText l (notes d.name)) ds texts →
    ∃ db', LiveDatabase.loadTables db texts = .ok db' ∧ (∀ n, n ≠ [] → n ∉ ds.map (·.name) → db'.tables.get? n = db.tables.get? n) ∧
      (∀ d ∈ ds, (∀ c, some c ∉ notes d.name) ∧ (∃ t, db'.tables.get? d.name = some t ∧ SameTable d.table t) ∨
        (∃ c, some c ∈ notes d.name) ∧ db'.tables.get? d.name = db.tables.get? d.name) ∧
      (db.tables.get? [] = some {} ∨ (∃ d ∈ ds, ∃ c, some c ∈ notes d.name) → db'.tables.get? [] = some {})
  | [], [], db, _, _, _, _, .nil => ⟨db, rfl, by simp, by simp, by simp⟩
  | d :: ds, text :: texts, db, hok, hlen, hq, hnd, .cons hx hr => by
    obtain ⟨l, hl, rfl⟩ := hx
    have hd := hok d List.mem_cons_self
    have hne : d.name ≠ [] := hd.name.1
    rw [List.map_cons, List.nodup_cons] at hnd
    have rest := fun db1 => load_commented notes ds texts db1 (fun x hx => hok x (List.mem_cons_of_mem _ hx)) (fun x hx => hlen x (List.mem_cons_of_mem _ hx))
      (fun x hx => hq x (List.mem_cons_of_mem _ hx)) hnd.2 hr
    by_cases hsome : ∃ c, some c ∈ notes d.name
    · obtain ⟨errors, he⟩ := commented_read hd hl (hlen d List.mem_cons_self) (hq d List.mem_cons_self) hsome
      obtain ⟨db', h1, h2, h3, h4⟩ := rest (LiveDatabase.storeTables db [{}])
      have hget : ∀ n, n ≠ [] → (LiveDatabase.storeTables db [{}]).tables.get? n = db.tables.get? n := by
        intro n hn
        simp only [LiveDatabase.storeTables]
        rw [Dict.get?_set, if_neg (Ne.symm hn)]
        split <;> rfl
      refine ⟨db', ?_, ?_, ?_, fun _ => h4 (Or.inl (by simp only [LiveDatabase.storeTables]; rw [Dict.get?_set, if_pos rfl]))⟩
      · simp only [LiveDatabase.loadTables, he, Option.filter_none]
        exact h1
      · intro n hn hnot
        rw [h2 n hn (fun hm => hnot (List.mem_cons_of_mem _ hm)), hget n hn]
      · intro x hx
        rcases List.mem_cons.mp hx with rfl | hx
        · exact Or.inr ⟨hsome, by rw [h2 _ hne hnd.1, hget _ hne]⟩
        · rcases h3 x hx with h | ⟨h, h'⟩
          · exact Or.inl h
          · exact Or.inr ⟨h, by rw [h', hget _ (hok x (List.mem_cons_of_mem _ hx)).name.1]⟩
    · have hnone : ∀ c, some c ∉ notes d.name := fun c hc => hsome ⟨c, hc⟩
      have hnone' : ∀ n ∈ notes d.name, n = none := by
        intro n hn
        cases n with
        | none => rfl
        | some c => exact absurd hn (hnone c)
      obtain ⟨t, s1, s2, s3, s4, s5⟩ := answer_read hd hl
      have hname : t.name = d.name := s1.name
      obtain ⟨db', h1, h2, h3, h4⟩ := rest (LiveDatabase.storeTables db [t])
      have hget : ∀ n, n ≠ d.name → (LiveDatabase.storeTables db [t]).tables.get? n = db.tables.get? n := by
        intro n hn
        simp only [LiveDatabase.storeTables]
        rw [Dict.get?_set, hname, if_neg (Ne.symm hn)]
        split <;> rfl
      have hgot : (LiveDatabase.storeTables db [t]).tables.get? d.name = some t := by
        simp only [LiveDatabase.storeTables]
        rw [hname, Dict.get?_set, if_pos rfl]
      refine ⟨db', ?_, ?_, ?_, ?_⟩
      rotate_right
      · rintro (h | ⟨x, hx, h⟩)
        · exact h4 (Or.inl (by rw [hget _ (Ne.symm hne)]; exact h))
        · rcases List.mem_cons.mp hx with rfl | hx
          · exact absurd h hsome
          · exact h4 (Or.inr ⟨x, hx, h⟩)
      · rw [commented_none (hlen d List.mem_cons_self) hnone']
        simp only [LiveDatabase.loadTables, s5, Option.filter_none]
        exact h1
      · intro n hn hnot
        simp only [List.map_cons, List.mem_cons, not_or] at hnot
        rw [h2 n hn hnot.2, hget n hnot.1]
      · intro x hx
        rcases List.mem_cons.mp hx with rfl | hx
        · exact Or.inl ⟨hnone, t, by rw [h2 _ hne hnd.1, hgot], s1⟩
        · rcases h3 x hx with h | ⟨h, h'⟩
          · exact Or.inl h
          · refine Or.inr ⟨h, ?_⟩
            rw [h', hget]
            intro he
            exact hnd.1 (he ▸ List.mem_map_of_mem hx)

/-- the live database of a server of which tables have comments -/
theorem live_commented {srv : Server} {ds : List TableDecl} {notes : Str → List (Option Str)} (h : srv.HasCommented ds notes) :
    ∃ live, (LiveDatabase.new srv).result = .ok live ∧ (∀ d ∈ ds,
      (∀ c, some c ∉ notes d.name) ∧ (∃ t, live.tables.get? d.name = some t ∧ SameTable d.table t) ∨
        (∃ c, some c ∈ notes d.name) ∧ live.tables.get? d.name = none) ∧
      ((∃ d ∈ ds, ∃ c, some c ∈ notes d.name) → live.tables.get? [] = some {}) := by
  have hans : ∃ ts : Dict Str, Paired (fun (d : TableDecl) (e : Str × Str) => e.1 = d.name ∧
      (∃ l : Layout, l.Ok ∧ e.2 = d.commentedText l (notes d.name)) ∧ srv.createText e.1 = .ok (some e.2)) ds ts := by
    have h1 := h.answers
    clear h
    induction ds with
    | nil => exact ⟨[], .nil⟩
    | cons d ds ih =>
      obtain ⟨ts, hts⟩ := ih (fun x hx => h1 x (List.mem_cons_of_mem _ hx))
      obtain ⟨l, hl, ha⟩ := h1 d List.mem_cons_self
      exact ⟨(d.name, d.commentedText l (notes d.name)) :: ts, .cons ⟨rfl, ⟨l, hl, rfl⟩, ha⟩ hts⟩
  obtain ⟨ts, hts⟩ := hans
  have hkeys : Dict.keys ts = ds.map (·.name) := by
    clear h
    induction hts with
    | nil => rfl
    | cons hx _ ih => simp [hx.1, ih]
  have hmem : ∀ e ∈ ts, srv.createText e.1 = .ok (some e.2) := by
    clear h hkeys
    induction hts with
    | nil => intro e he; cases he
    | cons hx _ ih =>
      intro e he
      rcases List.mem_cons.mp he with rfl | he
      · exact hx.2.2
      · exact ih e he
  have hvals : Paired (fun (d : TableDecl) text => ∃ l : Layout, l.Ok ∧ text = d.commentedText l (notes d.name)) ds (Dict.values ts) := by
    clear h hkeys hmem
    induction hts with
    | nil => exact .nil
    | cons hx _ ih => exact .cons hx.2.1 ih
  have htab : (Driver.tables srv).result = .ok ts := by
    unfold Driver.tables
    rw [Run.bind_ok (a := ()) rfl]
    exact (Driver.showCreates_result srv _ ts).mpr ⟨by rw [hkeys, h.names], fun n text hm => hmem (n, text) hm⟩
  obtain ⟨db', h1, _, h3, h4⟩ := load_commented notes ds (Dict.values ts) {} h.ok h.each h.comments h.distinct hvals
  refine ⟨db', ?_, h3, fun h => h4 (Or.inr h)⟩
  unfold LiveDatabase.new
  rw [Run.bind_ok htab]
  exact h1

end Mygrations

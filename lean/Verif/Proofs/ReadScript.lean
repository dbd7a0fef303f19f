import Verif.Proofs.ReadInsertText

/-! # Files with tables, rows and comments -/

namespace Mygrations

/-! ## Blanks in texts -/

theorem collapse_split {d : Char} (hd : isSpace d = false) (r : Str) : ∀ (x : Str) (b : Bool), collapseAux b (x ++ d :: r) = collapseAux b x ++ d :: collapseAux false r
  | [], b => by cases b <;> simp [collapseAux, hd]
  | c :: x, b => by
    by_cases hc : isSpace c = true
    · cases b <;> simp [collapseAux, hc, collapse_split hd r x true]
    · cases b <;> simp [collapseAux, hc, collapse_split hd r x false]

theorem mem_collapse {c : Char} (hc : isSpace c = false) : ∀ {x : Str} {b : Bool}, c ∈ collapseAux b x → c ∈ x
  | [], b, h => by cases b <;> simp [collapseAux] at h
  | y :: x, b, h => by
    have hne : c ≠ ' ' := by rintro rfl; revert hc; decide
    by_cases hy : isSpace y = true
    · cases b <;> simp [collapseAux, hy, hne] at h <;> exact List.mem_cons_of_mem _ (mem_collapse hc h)
    · cases b <;> simp [collapseAux, hy] at h <;> rcases h with rfl | h
      · exact List.mem_cons_self
      · exact List.mem_cons_of_mem _ (mem_collapse hc h)
      · exact List.mem_cons_self
      · exact List.mem_cons_of_mem _ (mem_collapse hc h)

/-- the characters do not follow each other -/
def Apart (a b : Char) : Str → Prop
  | [] => True
  | c :: cs => ¬ (c = a ∧ cs.head? = some b) ∧ Apart a b cs

theorem apart_iff {a b : Char} : ∀ {s : Str}, (¬ [a, b] <:+: s) ↔ Apart a b s
  | [] => by simp [Apart]
  | c :: cs => by
    have ih := @apart_iff a b cs
    rw [List.infix_cons_iff, not_or, ih, Apart]
    apply and_congr_left'
    cases cs with
    | nil => simp
    | cons d ds => simp [List.cons_prefix_cons, eq_comm]

theorem head_collapse {c : Char} (hc : isSpace c = false) {x : Str} (h : (collapseAux false x).head? = some c) : x.head? = some c := by
  cases x with
  | nil => simp [collapseAux] at h
  | cons y x =>
    by_cases hy : isSpace y = true
    · simp [collapseAux, hy] at h
      subst h; exact absurd hc (by decide)
    · simpa [collapseAux, hy] using h

theorem apart_collapse {a b : Char} (ha : isSpace a = false) (hb : isSpace b = false) : ∀ {x : Str} (f : Bool), Apart a b x → Apart a b (collapseAux f x)
  | [], f, _ => by cases f <;> exact trivial
  | y :: x, f, h => by
    by_cases hy : isSpace y = true
    · have ih := apart_collapse ha hb true h.2
      cases f
      · simp only [collapseAux, hy, if_true]
        refine ⟨?_, ih⟩
        rintro ⟨rfl, _⟩
        revert ha; decide
      · simpa only [collapseAux, hy, if_true] using ih
    · have ih := apart_collapse ha hb false h.2
      have h1 : ¬ (y = a ∧ (collapseAux false x).head? = some b) := fun hh => h.1 ⟨hh.1, head_collapse hb hh.2⟩
      cases f <;> simp only [collapseAux, hy, Bool.false_eq_true, if_false] <;> exact ⟨h1, ih⟩

/-! ## Items -/

/-- a kind of statement, as far as the loop is concerned -/
structure Item where
  /-- is this the text of the statement? -/
  is : Str → Prop
  /-- what reading it does -/
  eff : ReaderState → ReaderState → Prop
  /-- it may follow the definition of a table -/
  quiet : Prop
  /-- it is the definition of a table -/
  fussy : Prop
  head : ∀ {a}, is a → ∃ c cs, a = c :: cs ∧ isSpace c = false
  last : ∀ {a}, is a → RTrim a
  tame : quiet → ∀ {a}, is a → ∀ {s}, Tame s → Tame (a ++ s)
  far : quiet → ∀ {a}, is a → ∀ {s}, EqFar 31 s → EqFar 31 (a ++ s)
  squeeze : ∀ {a}, is a → ∃ a', is a' ∧ ∀ s, trimmed (a ++ s) = a' ++ trimmed s
  read : ∀ {a}, is a → ∀ (more : Str) (n : Nat) (st : ReaderState), (fussy → Tame more ∧ EqFar 31 (trimmed more)) →
    ∃ st' rest, eff st st' ∧ (rest = strip (trimmed more) ∨ rest = strip more) ∧ readStep n st (a ++ more) = readLoop n st' rest

/-- a text which consists of items -/
inductive Text : Str → List Item → Prop
  | nil {g : Str} : Blanks g → Text g []
  | cons {g : Str} {i : Item} {a more : Str} {is : List Item} : Blanks g → i.is a → Text more is → Text (g ++ (a ++ more)) (i :: is)

theorem blanks_nil : Blanks [] := fun _ hc => by cases hc

theorem rtrim_append {a b : Str} (hb : RTrim b) (hne : b ≠ []) : RTrim (a ++ b) := by
  rw [rtrim_iff] at hb ⊢
  intro c hc
  apply hb
  rw [List.getLast?_append] at hc
  cases hb' : b.getLast? with
  | none => rw [List.getLast?_eq_none_iff] at hb'; exact absurd hb' hne
  | some x => rw [hb'] at hc; simpa using hc

theorem Text.rstrip {s : Str} {is : List Item} (h : Text s is) : Text (rstrip s) is := by
  induction h with
  | nil hg => rw [hg.rstrip]; exact .nil blanks_nil
  | @cons g i a more is hg ha _ ih =>
    obtain ⟨c, cs, hc, _⟩ := i.head ha
    have hr : RTrim (g ++ a) := rtrim_append (i.last ha) (by simp [hc])
    rw [← List.append_assoc, rstrip_append hr, List.append_assoc]
    exact .cons hg ha ih

theorem Text.trimmed {s : Str} {is : List Item} (h : Text s is) : Text (trimmed s) is := by
  induction h with
  | nil hg => rw [trimmed_all_blanks hg]; exact .nil blanks_nil
  | @cons g i a more is hg ha _ ih =>
    obtain ⟨c, cs, hc, hs⟩ := i.head ha
    obtain ⟨a', ha', ht⟩ := i.squeeze ha
    have hh : (a ++ more).head? = some c := by rw [hc]; rfl
    rw [trimmed_head hg hs hh, ht]
    exact .cons (squeeze_gap g).blanks ha' ih

theorem Text.strip {s : Str} {is : List Item} (h : Text s is) : Text (strip s) is := by
  cases h with
  | nil hg =>
    have := strip_blanks hg []
    rw [List.append_nil] at this
    rw [this]
    exact .nil blanks_nil
  | @cons g i a more is hg ha hm =>
    rw [strip_blanks hg]
    obtain ⟨c, cs, hc, hs⟩ := i.head ha
    rw [hc, List.cons_append, strip_cons_char hs, ← List.cons_append, ← hc, rstrip_append (i.last ha)]
    exact .cons (g := []) blanks_nil ha hm.rstrip

theorem Text.start {s : Str} {i : Item} {is : List Item} (h : Text s (i :: is)) : ∃ a more, i.is a ∧ Text more is ∧ Mygrations.strip s = a ++ more := by
  cases h with
  | @cons g i a more is hg ha hm =>
    refine ⟨a, Mygrations.rstrip more, ha, hm.rstrip, ?_⟩
    rw [strip_blanks hg]
    obtain ⟨c, cs, hc, hs⟩ := i.head ha
    rw [hc, List.cons_append, strip_cons_char hs, ← List.cons_append, ← hc, rstrip_append (i.last ha)]

theorem Text.nothing {s : Str} (h : Text s []) : Mygrations.strip s = [] := by
  cases h with
  | nil hg =>
    have := strip_blanks hg []
    rw [List.append_nil] at this
    rw [this]; rfl

theorem Text.tame {s : Str} {is : List Item} (h : Text s is) (hq : ∀ i ∈ is, i.quiet) : Tame s := by
  induction h with
  | @nil g hg =>
    have := tame_dull (s := []) (fun c hc => blank_dull (hg c hc)) tame_nil
    simpa using this
  | @cons g i a more is hg ha _ ih =>
    exact tame_dull (fun c hc => blank_dull (hg c hc)) (i.tame (hq i List.mem_cons_self) ha (ih (fun x hx => hq x (List.mem_cons_of_mem _ hx))))

theorem Text.far {s : Str} {is : List Item} (h : Text s is) (hq : ∀ i ∈ is, i.quiet) : EqFar 31 s := by
  induction h with
  | @nil g hg =>
    intro hm
    exact absurd (hg _ (List.mem_of_mem_take hm)) (by decide)
  | @cons g i a more is hg ha _ ih =>
    have := i.far (hq i List.mem_cons_self) ha (ih (fun x hx => hq x (List.mem_cons_of_mem _ hx)))
    exact eqFar_append (blanks_noEq hg) (eqFar_mono this (Nat.sub_le _ _))

/-- the effects of the items, one after the other -/
inductive Effects : List Item → ReaderState → ReaderState → Prop
  | nil {st : ReaderState} : Effects [] st st
  | cons {i : Item} {is : List Item} {st st' st'' : ReaderState} : i.eff st st' → Effects is st' st'' → Effects (i :: is) st st''

/-- the items are read one after the other -/
theorem Text.loop : ∀ (is : List Item) (s : Str) (n : Nat) (st : ReaderState), Text s is → (is = [] → s = []) →
    is.Pairwise (fun a b => a.fussy → b.quiet) → ∃ st', Effects is st st' ∧ readLoop (n + is.length) st s = (st', none)
  | [], s, n, st, _, hs, _ => ⟨st, .nil, by rw [hs rfl, readLoop_nil]⟩
  | i :: is, s, n, st, h, _, hp => by
    rw [List.pairwise_cons] at hp
    obtain ⟨a, more, ha, hm, hst⟩ := h.start
    obtain ⟨st', rest, he, hrest, hstep⟩ := i.read ha more (n + is.length) st (fun hf =>
      ⟨hm.tame (fun x hx => hp.1 x hx hf), hm.trimmed.far (fun x hx => hp.1 x hx hf)⟩)
    have ht : Text rest is ∧ Mygrations.strip rest = rest := by
      rcases hrest with rfl | rfl
      · exact ⟨hm.trimmed.strip, strip_strip _⟩
      · exact ⟨hm.strip, strip_strip _⟩
    obtain ⟨st'', h1, h2⟩ := Text.loop is rest n st' ht.1 (by rintro rfl; rw [← ht.2]; exact ht.1.nothing) hp.2
    refine ⟨st'', .cons he h1, ?_⟩
    have hne : s ≠ [] := by
      rintro rfl
      obtain ⟨c, cs, hc, _⟩ := i.head ha
      rw [hc] at hst
      cases hst
    rw [show n + (i :: is).length = (n + is.length) + 1 from rfl, readLoop_succ _ _ hne, hst, hstep, h2]

/-! ## Tables -/

theorem start_ne {x : Stmt} {l : Layout} {more : Str} : x.text l more ≠ [] := by
  obtain ⟨cs, hcs⟩ := x.text_head l more
  rw [hcs]; simp

/-- the definition of a table -/
def createItem (t : Table) (w : Dict (List Str)) (x : Stmt) (hx : x.Ok)
    (hp : ∀ xs, AllRead (x.d :: x.ds) xs → ∃ t', createProcess (createVals x.name xs x.os) = .ok t' ∧ SameTable t t' ∧ t'.JustRead ∧ t'.noted = w) : Item where
  is a := ∃ l : Layout, l.Ok ∧ a = x.text l []
  eff st st' := ∃ t', SameTable t t' ∧ (t'.JustRead ∧ t'.noted = w) ∧ st' = { st with tables := st.tables.set t.name t' }
  quiet := True
  fussy := True
  head := by
    rintro a ⟨l, _, rfl⟩
    obtain ⟨cs, hcs⟩ := x.text_head l []
    exact ⟨_, _, hcs, by decide⟩
  last := by
    rintro a ⟨l, _, rfl⟩
    exact x.rtrim l
  tame := by
    rintro _ a ⟨l, hl, rfl⟩ s hs
    rw [← x.text_split]
    exact tame_create hx.name hl.lead hl.sep hl.trail hx.plain hx.quiet hx.options hs
  far := by
    rintro _ a ⟨l, hl, rfl⟩ s hs
    rw [← x.text_split]
    exact Stmt.far hx hl hs
  squeeze := by
    rintro a ⟨l, hl, rfl⟩
    refine ⟨_, ⟨l.squeeze, l.squeeze_ok, rfl⟩, ?_⟩
    intro s
    rw [← x.text_split, Stmt.trimmed_text hx hl, ← x.text_split]
  read := by
    rintro a ⟨l, hl, rfl⟩ more n st hm
    obtain ⟨htame, hfar⟩ := hm trivial
    obtain ⟨xs, hxs, hparse⟩ := Stmt.read hx hl htame hfar
    obtain ⟨t', hproc, hsame, hfresh⟩ := hp xs hxs
    have hpc : parseCreate (x.text l more) = .ok (t', strip (trimmed more)) := by
      unfold parseCreate
      rw [hparse]
      simp only [if_true]
      rw [hproc]
    refine ⟨{ st with tables := st.tables.set t.name t' }, strip (trimmed more), ⟨t', hsame, hfresh, rfl⟩, Or.inl rfl, ?_⟩
    rw [← x.text_split]
    simp only [readStep, start_ne, if_false, x.comment l more, Bool.false_eq_true, x.create l more, if_true, hpc, hsame.name]

/-! ## Rows -/

theorem flat_trimmed_insert {l : InsertLayout} {t : Str} {cols : List Str} {r : Cell × List Cell} {rs : RowList} {more s : Str}
    (h : normalize s = insertText l t cols r rs (trimmed more)) : flat false (trimmed more) = true := by
  have h1 := normal_normalize s
  rw [h] at h1
  rcases h1 with h1 | h1
  · cases h1
  · obtain ⟨b, hb⟩ := insertText_end l t cols r rs
    rw [insertText_split, hb, List.append_assoc] at h1
    rcases flat_suffix h1 (List.suffix_append b ([';'] ++ trimmed more)) with h2 | ⟨b', h2⟩
    · cases h2
    · exact flat_tail h2

theorem groups_commas {k : Nat} : ∀ (r : Cell × List Cell) (rs : RowList), (∀ g ∈ groups r rs, g.values.length = k) → commaWarnings k true (groups r rs) = []
  | r, [], _ => by simp [groups, commaWarnings]
  | r, r' :: rs, h => by
    have h1 : ¬ (k ≠ 0 ∧ ((r.1 :: r.2).map Cell.value).length ≠ k) := fun hh => hh.2 (h _ List.mem_cons_self)
    simp only [groups, commaWarnings, if_neg h1, if_true, List.nil_append]
    exact groups_commas r' rs (fun g hg => h g (List.mem_cons_of_mem _ hg))

theorem insert_process {i : InsertStmt} {r : Cell × List Cell} {rs : RowList} (h : i.rows = (r :: rs).map (fun x => x.1 :: x.2)) (ht : Ident i.table)
    (hsq : ∀ r ∈ i.rows, r.length = i.columns.length) : insertProcess (insertVals i.table i.columns (groups r rs)) = i.meaning := by
  have hbad : ∀ g ∈ groups r rs, g.values.length = i.columns.length := by
    intro g hg
    have h1 : g.values ∈ (groups r rs).map ValueGroup.values := List.mem_map_of_mem hg
    rw [groups_values] at h1
    obtain ⟨x, hx, he⟩ := List.mem_map.mp h1
    have := hsq (x.1 :: x.2) (by rw [h]; exact List.mem_map_of_mem hx)
    rw [← he, List.length_map, this]
  have e1 : topList (insertVals i.table i.columns (groups r rs)) py"columns" = i.columns := rfl
  have e2 : topNodes (insertVals i.table i.columns (groups r rs)) py"inserts" = groups r rs := rfl
  have e3 : topText (insertVals i.table i.columns (groups r rs)) py"table" = quoted '`' i.table := rfl
  have hf1 : (groups r rs).filter (fun g => !(i.columns.length ≠ 0 && g.values.length ≠ i.columns.length)) = groups r rs := by
    rw [List.filter_eq_self]
    intro g hg
    simp [hbad g hg]
  have hf2 : (groups r rs).filter (fun g => (i.columns.length ≠ 0 && g.values.length ≠ i.columns.length)) = [] := by
    rw [List.filter_eq_nil_iff]
    intro g hg
    simp [hbad g hg]
  have hq : stripTicks (quoted '`' i.table) = i.table := by
    have := stripTicks_ident ht
    simpa [quoted] using this
  unfold insertProcess InsertStmt.meaning
  simp only [e1, e2, e3, hf1, hf2, hq, groups_values, List.map_nil, h, List.map_map, groups_commas r rs hbad]
  rfl

theorem rows_split {i : InsertStmt} (h : i.Ok) : ∃ (r : Cell × List Cell) (rs : RowList), i.rows = (r :: rs).map (fun x => x.1 :: x.2) := by
  have key : ∀ l : List (List Cell), (∀ r ∈ l, r ≠ []) → ∃ rs : RowList, l = rs.map (fun x => x.1 :: x.2) := by
    intro l
    induction l with
    | nil => intro _; exact ⟨[], rfl⟩
    | cons r l ih =>
      intro hl
      obtain ⟨rs, hrs⟩ := ih (fun x hx => hl x (List.mem_cons_of_mem _ hx))
      obtain ⟨c, cs, hc⟩ := List.exists_cons_of_ne_nil (hl r List.mem_cons_self)
      exact ⟨(c, cs) :: rs, by rw [List.map_cons, ← hrs, hc]⟩
  obtain ⟨rs, hrs⟩ := key i.rows (fun r hr he => by
    have := h.square r hr
    rw [he] at this
    exact h.columns.1 (List.eq_nil_of_length_eq_zero this.symm))
  cases rs with
  | nil => exact absurd hrs h.rows
  | cons r rs => exact ⟨r, rs, hrs⟩

theorem insert_cells {i : InsertStmt} {r : Cell × List Cell} {rs : RowList} (he : i.rows = (r :: rs).map (fun x => x.1 :: x.2)) {P : Cell → Prop}
    (h : ∀ r ∈ i.rows, ∀ c ∈ r, P c) : ∀ x ∈ r :: rs, ∀ c ∈ x.1 :: x.2, P c :=
  fun x hx c hc => h (x.1 :: x.2) (by rw [he]; exact List.mem_map_of_mem hx) c hc

theorem normalize_insert {l : InsertLayout} {t : Str} {cols : List Str} {r : Cell × List Cell} {rs : RowList} (hl : l.Ok) (ht : Ident t)
    (hc : cols ≠ [] ∧ ∀ c ∈ cols, Ident c) (h : ∀ x ∈ r :: rs, ∀ c ∈ x.1 :: x.2, c.Ok) (more : Str) :
    normalize (insertText l t cols r rs more) = insertText l.squeeze t cols r rs (trimmed more) := by
  rw [← trimmed_insert hl ht hc h]
  obtain ⟨cs, hcs⟩ : ∃ cs, insertText l t cols r rs more = 'I' :: cs := ⟨_, rfl⟩
  rw [hcs, normalize_lead (by decide)]
  exact (trimmed_append (a := ['I']) (by decide) cs).symm

/-- rows -/
def insertItem (i : InsertStmt) (h : i.Ok) (hlen : i.rows.length < 1000) (r : Cell × List Cell) (rs : RowList) (he : i.rows = (r :: rs).map (fun x => x.1 :: x.2)) : Item where
  is a := ∃ l : InsertLayout, l.Ok ∧ a = insertText l i.table i.columns r rs []
  eff st st' := st' = { st with rows := st.rows.set i.table ((st.rows.get? i.table).getD [] ++ [i.meaning]) }
  quiet := (∀ r ∈ i.rows, ∀ c ∈ r, c.Quiet) ∧ (7 ≤ i.table.length + (i.columns.headD []).length ∨ ∀ r ∈ i.rows, ∀ c ∈ r, '=' ∉ c.chars)
  fussy := False
  head := by
    rintro a ⟨l, _, rfl⟩
    exact ⟨_, _, rfl, by decide⟩
  last := by
    rintro a ⟨l, _, rfl⟩
    obtain ⟨b, hb⟩ := insertText_end l i.table i.columns r rs
    rw [hb]
    exact rtrim_append (by rfl) (by simp)
  tame := by
    rintro ⟨hq, _⟩ a ⟨l, hl, rfl⟩ s hs
    rw [← insertText_split]
    exact tame_insert hl h.table h.columns (insert_cells he hq) hs
  far := by
    rintro ⟨_, hq⟩ a ⟨l, hl, rfl⟩ s hs
    rw [← insertText_split]
    refine far_insert hl h.table h.columns ?_ hs
    rcases hq with hq | hq
    · exact Or.inl hq
    · exact Or.inr (insert_cells he hq)
  squeeze := by
    rintro a ⟨l, hl, rfl⟩
    refine ⟨_, ⟨l.squeeze, l.squeeze_gaps.ok, rfl⟩, ?_⟩
    intro s
    rw [← insertText_split, trimmed_insert hl h.table h.columns (insert_cells he h.cells), ← insertText_split]
  read := by
    rintro a ⟨l, hl, rfl⟩ more n st _
    refine ⟨_, strip (trimmed more), rfl, Or.inl rfl, ?_⟩
    rw [← insertText_split]
    have hnorm := normalize_insert hl h.table h.columns (insert_cells he h.cells) more
    have hparse := insert_read l.squeeze_gaps h.table h.columns (insert_cells he h.cells) (flat_trimmed_insert hnorm) (by
      have := congrArg List.length he
      simp at this
      omega) hnorm
    have hp : parseInsert (insertText l i.table i.columns r rs more) = .ok (i.meaning, strip (trimmed more)) := by
      unfold parseInsert
      rw [hparse]
      simp only [if_true]
      rw [insert_process he h.table h.square]
    have h1 : insertText l i.table i.columns r rs more ≠ [] := by simp [insertText]
    have h2 : startsComment (insertText l i.table i.columns r rs more) = false := rfl
    have h3 : lower ((insertText l i.table i.columns r rs more).take 6) = py"insert" := by
      show lower py"INSERT" = py"insert"
      decide
    have h4 : py"insert" ≠ py"create" := by decide
    simp only [readStep, h1, if_false, h2, Bool.false_eq_true, h3, h4, if_true, hp]
    rfl

/-! ## Comments -/

theorem afterClose_skip : ∀ {x : Str} (r : Str), Apart '*' '/' x → afterClose (x ++ py"*/" ++ r) = some r
  | [], r, _ => rfl
  | c :: x, r, h => by
    have ih := afterClose_skip r h.2
    rw [List.cons_append, List.cons_append, afterClose.eq_def]
    split
    · rename_i heq; cases heq
    · rename_i cs heq
      exfalso
      have hc : c = '*' := (List.cons.inj heq).1
      cases x with
      | nil => have := (List.cons.inj heq).2; simp at this
      | cons d x =>
        have hd : d = '/' := by have := (List.cons.inj heq).2; simp at this; exact this.1
        exact h.1 ⟨hc, by rw [hd]; rfl⟩
    · rename_i heq
      cases heq
      exact ih

theorem comment_close {body : Str} (h : ¬ py"*/" <:+: py"*" ++ body) (r : Str) : afterClose (py"/*" ++ body ++ py"*/" ++ r) = some r := by
  have h1 : Apart '*' '/' (py"/*" ++ body) := ⟨by simp, apart_iff.mp h⟩
  exact afterClose_skip r h1

/-- a block comment -/
def commentItem (q : Prop) : Item where
  is a := ∃ body, ¬ py"*/" <:+: py"*" ++ body ∧ (q → '(' ∉ body ∧ NoComment body ∧ '=' ∉ body) ∧ a = py"/*" ++ body ++ py"*/"
  eff st st' := st' = st
  quiet := q
  fussy := False
  head := by
    rintro a ⟨body, _, _, rfl⟩
    exact ⟨_, _, rfl, by decide⟩
  last := by
    rintro a ⟨body, _, _, rfl⟩
    exact rtrim_append (by rfl) (by simp)
  tame := by
    rintro hq a ⟨body, _, hb, rfl⟩ s hs
    obtain ⟨h1, h2, _⟩ := hb hq
    have h3 : Tame (py"*/" ++ s) := tame_dull (by decide) hs
    have hstop : Stop '*' := by unfold Stop; decide
    have h4 : NoPrefix (body ++ '*' :: ('/' :: s)) := noPrefix_text hstop h3.noPrefix h1
    have h5 : Dashless (body ++ (py"*/" ++ s)) := dashless_append (dashless_iff.mp h2) h3.noDashes h3.head
    rw [List.append_assoc, List.append_assoc]
    refine ⟨noPrefix_append (by decide) h4, dashless_pre h5 (by decide), ?_⟩
    intro c hc; simp at hc; subst hc; decide
  far := by
    rintro hq a ⟨body, _, hb, rfl⟩ s hs
    obtain ⟨_, _, h3⟩ := hb hq
    exact eqFar_append (by simp [h3]) (eqFar_mono hs (Nat.sub_le _ _))
  squeeze := by
    rintro a ⟨body, h1, hb, rfl⟩
    refine ⟨py"/*" ++ collapse body ++ py"*/", ⟨collapse body, ?_, ?_, rfl⟩, ?_⟩
    · rw [apart_iff] at h1 ⊢
      have := apart_collapse (by decide) (by decide) false h1
      simpa [collapseAux, show isSpace '*' = false by decide, collapse] using this
    · intro hq
      obtain ⟨h2, h3, h4⟩ := hb hq
      refine ⟨fun hm => h2 (mem_collapse (by decide) hm), ?_, fun hm => h4 (mem_collapse (by decide) hm)⟩
      have h5 : Apart '-' '-' body := apart_iff.mp h3
      exact apart_iff.mpr (apart_collapse (by decide) (by decide) false h5)
    · intro s
      have e1 : py"/*" ++ body ++ py"*/" ++ s = (py"/*" ++ body) ++ '*' :: ('/' :: s) := by simp
      have e2 : collapse (py"/*" ++ body ++ py"*/" ++ s) = (py"/*" ++ collapse body ++ py"*/") ++ collapse s := by
        rw [e1]
        unfold collapse
        rw [collapse_split (by decide)]
        simp [collapseAux, show isSpace '*' = false by decide, show isSpace '/' = false by decide]
      unfold trimmed
      rw [e2, rstrip_append (rtrim_append (by rfl) (by simp))]
  read := by
    rintro a ⟨body, h1, _, rfl⟩ more n st _
    refine ⟨st, strip more, rfl, Or.inr rfl, ?_⟩
    have hs : strip (py"/*" ++ body ++ py"*/" ++ more) = py"/*" ++ body ++ py"*/" ++ rstrip more := by
      have e1 : py"/*" ++ body ++ py"*/" ++ more = '/' :: (py"*" ++ body ++ py"*/" ++ more) := rfl
      rw [e1, strip_cons_char (by decide), ← e1, rstrip_append (rtrim_append (by rfl) (by simp))]
    have hp : parseComment (py"/*" ++ body ++ py"*/" ++ more) = strip more := by
      unfold parseComment
      simp only [hs]
      have h2 : ¬ ((py"/*" ++ body ++ py"*/" ++ rstrip more).head? = some '#' ∨ (py"/*" ++ body ++ py"*/" ++ rstrip more).take 2 = py"--") := by
        rintro (h | h)
        · cases h
        · cases h
      rw [if_neg h2, comment_close h1]
      exact strip_rstrip more
    have h2 : py"/*" ++ body ++ py"*/" ++ more ≠ [] := by simp
    have h3 : startsComment (py"/*" ++ body ++ py"*/" ++ more) = true := rfl
    simp only [readStep, h2, if_false, h3, if_true, hp]

end Mygrations

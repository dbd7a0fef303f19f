import Verif.Proofs.ReadInsert

/-! # The text of an `INSERT` is harmless for the statements before it -/

namespace Mygrations

/-! ## The text splits -/

theorem cellsTail_append (sep : Str) : ∀ (cs : List Cell) (e m : Str), cellsTail sep cs (e ++ m) = cellsTail sep cs e ++ m
  | [], _, _ => rfl
  | c :: cs, e, m => by simp [cellsTail, cellsTail_append sep cs e m]

theorem rowText_append (sep : Str) (c : Cell) (cs : List Cell) (e m : Str) : rowText sep c cs (e ++ m) = rowText sep c cs e ++ m := by
  unfold rowText
  rw [← List.append_assoc py")", cellsTail_append]
  simp

theorem rowsTail_append (sep rsep : Str) : ∀ (rs : RowList) (e m : Str), rowsTail sep rsep rs (e ++ m) = rowsTail sep rsep rs e ++ m
  | [], _, _ => rfl
  | r :: rs, e, m => by simp [rowsTail, rowsTail_append sep rsep rs e m, rowText_append]

theorem rowsText_append (sep rsep : Str) (r : Cell × List Cell) (rs : RowList) (e m : Str) : rowsText sep rsep r rs (e ++ m) = rowsText sep rsep r rs e ++ m := by
  unfold rowsText
  rw [rowsTail_append, rowText_append]

theorem insertText_split (l : InsertLayout) (t : Str) (cols : List Str) (r : Cell × List Cell) (rs : RowList) (more : Str) :
    insertText l t cols r rs more = insertText l t cols r rs [] ++ more := by
  unfold insertText
  have : l.beforeEnd ++ (py";" ++ more) = (l.beforeEnd ++ (py";" ++ [])) ++ more := by simp
  rw [this, rowsText_append]
  simp only [List.append_assoc]

theorem insertText_end (l : InsertLayout) (t : Str) (cols : List Str) (r : Cell × List Cell) (rs : RowList) :
    ∃ b, insertText l t cols r rs [] = b ++ [';'] := by
  have : l.beforeEnd ++ (py";" ++ []) = l.beforeEnd ++ py";" := by simp
  unfold insertText
  rw [this, rowsText_append]
  exact ⟨py"INSERT INTO" ++ (l.beforeName ++ (quoted '`' t ++ (l.afterName ++ (py"(" ++ (join (py"," ++ l.columnSep) (cols.map (quoted '`')) ++ (py")" ++
    (l.beforeValues ++ (py"VALUES" ++ (l.afterValues ++ rowsText l.cellSep l.rowSep r rs l.beforeEnd))))))))), by simp only [List.append_assoc]⟩

/-- the text of the statement, as it is specified -/
theorem insert_sql (i : InsertStmt) (l : InsertLayout) {r : Cell × List Cell} {rs : RowList} (h : i.rows = (r :: rs).map (fun x => x.1 :: x.2)) (more : Str) :
    i.sql l ++ more = insertText l i.table i.columns r rs more := by
  have hq : (fun c : Str => py"`" ++ c ++ py"`") = quoted '`' := by
    funext c; simp [quoted]
  have hrow : ∀ (x : Cell × List Cell) (e : Str), rowSql l (x.1 :: x.2) ++ e = rowText l.cellSep x.1 x.2 e := by
    intro x e
    unfold rowSql rowText
    rw [List.append_assoc, List.append_assoc, cells_join]
  have hrows : ∀ (rs : RowList) (r : Cell × List Cell) (e : Str), join (py"," ++ l.rowSep) (((r :: rs).map (fun x => x.1 :: x.2)).map (rowSql l)) ++ e = rowsText l.cellSep l.rowSep r rs e := by
    intro rs
    induction rs with
    | nil => intro r e; exact hrow r e
    | cons r' rs ih =>
      intro r e
      show rowSql l (r.1 :: r.2) ++ (py"," ++ l.rowSep) ++ join (py"," ++ l.rowSep) (((r' :: rs).map (fun x => x.1 :: x.2)).map (rowSql l)) ++ e = _
      rw [List.append_assoc, ih r' e, List.append_assoc, hrow]
      simp only [rowsText, rowsTail, List.append_assoc]
  unfold InsertStmt.sql insertText
  rw [h, hq]
  simp only [List.append_assoc]
  rw [hrows]
  simp [quoted]

/-! ## Nothing looks like a comment or a prefix -/

/-- a character which ends names -/
def Stop (d : Char) : Prop := isSpace d = false ∧ isWord d = false ∧ d ≠ '`' ∧ d ≠ '('

theorem stop_comma : Stop ',' := by unfold Stop; decide
theorem stop_close : Stop ')' := by unfold Stop; decide

theorem dropWhile_stop {p : Char → Bool} {d : Char} (hd : p d = false) : ∀ (u r : Str), ∃ u', u' <:+ u ∧ (u ++ d :: r).dropWhile p = u' ++ d :: r
  | [], r => ⟨[], List.suffix_refl _, by simp [hd]⟩
  | c :: u, r => by
    by_cases hc : p c = true
    · obtain ⟨u', h1, h2⟩ := dropWhile_stop hd u r
      exact ⟨u', h1.trans (List.suffix_cons _ _), by simp [hc, h2]⟩
    · exact ⟨c :: u, List.suffix_refl _, by simp [hc]⟩

theorem dropTick_stop {d : Char} (hd : d ≠ '`') (u r : Str) :
    ∃ u', u' <:+ u ∧ (u ++ d :: r).drop ((u ++ d :: r).take (if (u ++ d :: r).head? = some '`' then 1 else 0)).length = u' ++ d :: r := by
  cases u with
  | nil => exact ⟨[], List.suffix_refl _, by simp [hd]⟩
  | cons c u =>
    by_cases hc : c = '`'
    · exact ⟨u, List.suffix_cons _ _, by simp [hc]⟩
    · exact ⟨c :: u, List.suffix_refl _, by simp [hc]⟩

theorem noPrefix_stop {c d : Char} {u r : Str} (hu : '(' ∉ u) (hd : Stop d) : prefixMatch (c :: (u ++ d :: r)) = none := by
  obtain ⟨u1, s1, h1⟩ := dropWhile_stop (p := isSpace) hd.1 u r
  obtain ⟨u2, s2, h2⟩ := dropTick_stop hd.2.2.1 u1 r
  obtain ⟨u3, s3, h3⟩ := dropWhile_stop (p := isWord) hd.2.1 u2 r
  obtain ⟨u4, s4, h4⟩ := dropTick_stop hd.2.2.1 u3 r
  have hu4 : '(' ∉ u4 := fun h => hu (((s4.trans s3).trans (s2.trans s1)).subset h)
  have hne : ∀ x, u4 ++ d :: r ≠ '(' :: x := by
    intro x
    cases u4 with
    | nil => intro h; simp at h; exact hd.2.2.2 h.1
    | cons y ys => intro h; simp at h; exact hu4 (by simp [h.1])
  simp only [prefixMatch, h1, h2, h3, h4]
  split <;> rfl

/-- an opening parenthesis which follows blanks -/
theorem noPrefix_open {c : Char} {bs r : Str} (hbs : ∀ c ∈ bs, isSpace c = true) : prefixMatch (c :: (bs ++ '(' :: r)) = none := by
  have h1 := takeWhile_append_all (p := isSpace) (b := '(' :: r) hbs (by intro y hy; simp at hy; subst hy; decide)
  simp only [prefixMatch, h1.2, List.head?_cons, Option.some.injEq, show ('(' = '`') = False by decide, if_false, List.take_zero, List.length_nil, List.drop_zero,
    List.dropWhile_cons, show isWord '(' = false by decide, List.takeWhile_cons, Bool.false_eq_true, true_or, if_true]
  split
  · split <;> rfl
  · rfl

theorem noPrefix_text {d : Char} {r : Str} (hd : Stop d) (hr : NoPrefix (d :: r)) : ∀ {u : Str}, '(' ∉ u → NoPrefix (u ++ d :: r)
  | [], _ => hr
  | c :: u, hu => by
    have hu' : '(' ∉ u := fun h => hu (List.mem_cons_of_mem _ h)
    exact ⟨noPrefix_stop hu' hd, noPrefix_text hd hr hu'⟩

theorem dashless_pre {b : Str} (hb : Dashless b) : ∀ {a : Str}, '-' ∉ a → Dashless (a ++ b)
  | [], _ => hb
  | c :: a, h => ⟨fun hx => h (by simp [hx.1]), dashless_pre hb (fun hh => h (List.mem_cons_of_mem _ hh))⟩

theorem doubled_head (x : Str) : (doubled x).head? = x.head? := by
  cases x with
  | nil => rfl
  | cons c x =>
    rw [doubled_cons]
    by_cases hc : c = '\\' <;> simp [hc]

theorem doubled_dashless : ∀ {x : Str}, Dashless x → Dashless (doubled x)
  | [], _ => trivial
  | c :: x, h => by
    have ih := doubled_dashless h.2
    rw [doubled_cons]
    by_cases hc : c = '\\'
    · simp only [hc, if_true]
      exact dashless_pre ih (by decide)
    · simp only [hc, if_false]
      refine ⟨?_, ih⟩
      show ¬ (c = '-' ∧ (doubled x).head? = some '-')
      rw [doubled_head]
      exact h.1

/-- nothing in the value looks like a comment or a parenthesis -/
structure Cell.Quiet (c : Cell) : Prop where
  noOpen : '(' ∉ c.chars
  noComment : NoComment c.chars

theorem Cell.Quiet.sql {c : Cell} (h : c.Quiet) : '(' ∉ c.sql ∧ Dashless c.sql := by
  cases c with
  | null => exact ⟨by decide, dashless_of (by decide)⟩
  | bare w => exact ⟨h.noOpen, dashless_iff.mp h.noComment⟩
  | text x =>
    refine ⟨?_, ?_⟩
    · show '(' ∉ py"'" ++ doubled x ++ py"'"
      have : '(' ∉ doubled x := fun hh => h.noOpen (mem_doubled.mp hh)
      simp [this]
    · show Dashless (py"'" ++ doubled x ++ py"'")
      rw [List.append_assoc]
      refine dashless_pre (dashless_append (doubled_dashless (dashless_iff.mp h.noComment)) (dashless_of (by decide)) ?_) (by decide)
      intro c hc; simp at hc; subst hc; decide

theorem blanks_noOpen {g : Str} (h : Blanks g) : '(' ∉ g := fun hc => absurd (h _ hc) (by decide)
theorem blanks_noDash {g : Str} (h : Blanks g) : '-' ∉ g := fun hc => absurd (h _ hc) (by decide)

/-- a value after a comma or a parenthesis -/
theorem tame_cell {c0 : Char} (h0 : c0 = '(' ∨ c0 = ',') {bs : Str} (hb : Blanks bs) {c : Cell} (hc : c.Quiet) {d : Char} {r : Str} (hd : d = ',' ∨ d = ')')
    (hr : Tame (d :: r)) : Tame (c0 :: (bs ++ (c.sql ++ d :: r))) := by
  obtain ⟨h1, h2⟩ := hc.sql
  have hstop : Stop d := by rcases hd with rfl | rfl; exact stop_comma; exact stop_close
  have hu : '(' ∉ bs ++ c.sql := by have := blanks_noOpen hb; simp [this, h1]
  have hc0 : c0 ≠ '-' := by rcases h0 with rfl | rfl <;> decide
  have hp := noPrefix_text hstop hr.noPrefix hu
  have hm := noPrefix_stop (c := c0) (r := r) hu hstop
  rw [List.append_assoc] at hp hm
  refine ⟨⟨hm, hp⟩, ⟨fun hh => hc0 hh.1, ?_⟩, ?_⟩
  · exact dashless_pre (dashless_append h2 hr.noDashes hr.head) (blanks_noDash hb)
  · intro x hx
    simp at hx; subst hx; exact hc0

theorem cellsTail_shape (sep : Str) (cs : List Cell) (t : Str) : ∃ d r, (d = ',' ∨ d = ')') ∧ cellsTail sep cs (py")" ++ t) = d :: r := by
  cases cs with
  | nil => exact ⟨')', t, Or.inr rfl, rfl⟩
  | cons c cs => exact ⟨',', _, Or.inl rfl, rfl⟩

theorem tame_cellsTail {sep : Str} (hs : Blanks sep) {t : Str} (ht : Tame t) : ∀ {cs : List Cell}, (∀ x ∈ cs, x.Quiet) → Tame (cellsTail sep cs (py")" ++ t))
  | [], _ => tame_dull (by decide) ht
  | c :: cs, h => by
    have ih := tame_cellsTail hs ht (fun x hx => h x (List.mem_cons_of_mem _ hx))
    obtain ⟨d, r, hd, he⟩ := cellsTail_shape sep cs t
    have := tame_cell (c0 := ',') (Or.inr rfl) hs (h c List.mem_cons_self) hd (he ▸ ih)
    rw [← he] at this
    exact this

theorem tame_row {sep : Str} (hs : Blanks sep) {t : Str} (ht : Tame t) {c : Cell} {cs : List Cell} (h : ∀ x ∈ c :: cs, x.Quiet) : Tame (rowText sep c cs t) := by
  have ih := tame_cellsTail hs ht (fun x hx => h x (List.mem_cons_of_mem _ hx))
  obtain ⟨d, r, hd, he⟩ := cellsTail_shape sep cs t
  have := tame_cell (c0 := '(') (bs := []) (Or.inl rfl) (fun c hc => by cases hc) (h c List.mem_cons_self) hd (he ▸ ih)
  rw [← he] at this
  exact this

theorem tame_rowsTail {sep rsep : Str} (hs : Blanks sep) (hr : Blanks rsep) {e : Str} (he : Tame e) : ∀ {rs : RowList}, (∀ r ∈ rs, ∀ x ∈ r.1 :: r.2, x.Quiet) →
    Tame (rowsTail sep rsep rs e)
  | [], _ => he
  | r :: rs, h => by
    have ih := tame_rowsTail hs hr he (fun x hx => h x (List.mem_cons_of_mem _ hx))
    have h1 := tame_row hs ih (h r List.mem_cons_self)
    exact tame_open (c := ',') (s := rsep ++ rowText sep r.1 r.2 (rowsTail sep rsep rs e)) (Or.inr rfl) (noPrefix_open hr)
      (tame_dull (fun c hc => blank_dull (hr c hc)) h1)

theorem tame_cols {e : Str} (he : Tame e) {c : Char} (hc : c = '(' ∨ c = ',') {sep : Str} (hs : Blanks sep) : ∀ {cols : List Str} {bs : Str}, Blanks bs → cols ≠ [] →
    (∀ c ∈ cols, Ident c) → Tame (c :: (bs ++ (join (py"," ++ sep) (cols.map (quoted '`')) ++ (py")" ++ e))))
  | [], _, _, h, _ => absurd rfl h
  | [x], bs, hb, _, h => by
    have hx := h x List.mem_cons_self
    have h1 : Tame (quoted '`' x ++ ')' :: e) := tame_dull (quoted_dull hx) (tame_cons (by decide) he)
    refine tame_open hc (noPrefix_ticked hb hx ?_) (tame_dull (fun c hc => blank_dull (hb c hc)) h1)
    intro y hy; simp at hy; subst hy; decide
  | x :: y :: cols, bs, hb, _, h => by
    have hx := h x List.mem_cons_self
    have ih := tame_cols he (c := ',') (Or.inr rfl) hs (cols := y :: cols) hs (by simp) (fun z hz => h z (List.mem_cons_of_mem _ hz))
    have : join (py"," ++ sep) ((x :: y :: cols).map (quoted '`')) ++ (py")" ++ e) =
        quoted '`' x ++ (',' :: (sep ++ (join (py"," ++ sep) ((y :: cols).map (quoted '`')) ++ (py")" ++ e)))) := by
      simp [join]
    rw [this]
    have h1 : Tame (quoted '`' x ++ (',' :: (sep ++ (join (py"," ++ sep) ((y :: cols).map (quoted '`')) ++ (py")" ++ e))))) := tame_dull (quoted_dull hx) ih
    refine tame_open hc (noPrefix_ticked hb hx ?_) (tame_dull (fun c hc => blank_dull (hb c hc)) h1)
    intro y hy; simp at hy; subst hy; decide

section
variable {l : InsertLayout} {t : Str} {cols : List Str} {r : Cell × List Cell} {rs : RowList} {more : Str}

theorem tame_insert (hl : l.Ok) (ht : Ident t) (hc : cols ≠ [] ∧ ∀ c ∈ cols, Ident c) (h : ∀ x ∈ r :: rs, ∀ c ∈ x.1 :: x.2, c.Quiet) (hm : Tame more) :
    Tame (insertText l t cols r rs more) := by
  have bl : ∀ {g : Str}, Blanks g → ∀ c ∈ g, dull c = true := fun h c hc => blank_dull (h c hc)
  have h1 : Tame (l.beforeEnd ++ (py";" ++ more)) := tame_dull (bl hl.beforeEnd) (tame_dull (by decide) hm)
  have h2 := tame_rowsTail hl.cellSep hl.rowSep h1 (rs := rs) (fun x hx => h x (List.mem_cons_of_mem _ hx))
  have h3 : Tame (rowsText l.cellSep l.rowSep r rs (l.beforeEnd ++ (py";" ++ more))) := tame_row hl.cellSep h2 (h r List.mem_cons_self)
  have h4 : Tame (l.beforeValues ++ (py"VALUES" ++ (l.afterValues ++ rowsText l.cellSep l.rowSep r rs (l.beforeEnd ++ (py";" ++ more))))) :=
    tame_dull (bl hl.beforeValues) (tame_dull (by decide) (tame_dull (bl hl.afterValues) h3))
  have h5 := tame_cols h4 (c := '(') (Or.inl rfl) hl.columnSep (bs := []) (fun c hc => by cases hc) hc.1 hc.2
  exact tame_dull (by decide) (tame_dull (bl hl.beforeName) (tame_dull (quoted_dull ht) (tame_dull (bl hl.afterName) h5)))

end

/-! ## No `=` near the start -/

theorem cell_noEq {c : Cell} (h : '=' ∉ c.chars) : '=' ∉ c.sql := by
  cases c with
  | null => decide
  | bare w => exact h
  | text x =>
    show '=' ∉ py"'" ++ doubled x ++ py"'"
    have : '=' ∉ doubled x := fun hh => h (mem_doubled.mp hh)
    simp [this]

theorem cellsTail_noEq {sep : Str} (hs : Blanks sep) {e : Str} (he : '=' ∉ e) : ∀ {cs : List Cell}, (∀ x ∈ cs, '=' ∉ x.chars) → '=' ∉ cellsTail sep cs e
  | [], _ => he
  | c :: cs, h => by
    have ih := cellsTail_noEq hs he (fun x hx => h x (List.mem_cons_of_mem _ hx))
    have h1 := cell_noEq (h c List.mem_cons_self)
    have h2 := blanks_noEq hs
    simp [cellsTail, ih, h1, h2]

theorem row_noEq {sep : Str} (hs : Blanks sep) {e : Str} (he : '=' ∉ e) {c : Cell} {cs : List Cell} (h : ∀ x ∈ c :: cs, '=' ∉ x.chars) : '=' ∉ rowText sep c cs e := by
  have ih := cellsTail_noEq hs (e := py")" ++ e) (by simpa using he) (fun x hx => h x (List.mem_cons_of_mem _ hx))
  have h1 := cell_noEq (h c List.mem_cons_self)
  simp only [rowText, List.mem_append, not_or]
  exact ⟨by decide, h1, ih⟩

theorem rowsTail_noEq {sep rsep : Str} (hs : Blanks sep) (hr : Blanks rsep) {e : Str} (he : '=' ∉ e) : ∀ {rs : RowList}, (∀ r ∈ rs, ∀ x ∈ r.1 :: r.2, '=' ∉ x.chars) →
    '=' ∉ rowsTail sep rsep rs e
  | [], _ => he
  | r :: rs, h => by
    have ih := rowsTail_noEq hs hr he (fun x hx => h x (List.mem_cons_of_mem _ hx))
    have h1 := row_noEq hs ih (h r List.mem_cons_self)
    have h2 := blanks_noEq hr
    simp only [rowsTail, List.mem_append, not_or]
    exact ⟨by decide, h2, h1⟩

theorem cols_noEq {sep : Str} (hs : Blanks sep) : ∀ {cols : List Str}, (∀ c ∈ cols, Ident c) → '=' ∉ join (py"," ++ sep) (cols.map (quoted '`'))
  | [], _ => by simp [join]
  | [x], h => quoted_noEq (h x List.mem_cons_self)
  | x :: y :: cols, h => by
    have ih := cols_noEq hs (cols := y :: cols) (fun z hz => h z (List.mem_cons_of_mem _ hz))
    have h1 := quoted_noEq (h x List.mem_cons_self)
    have h2 := blanks_noEq hs
    show '=' ∉ quoted '`' x ++ (py"," ++ sep) ++ join (py"," ++ sep) ((y :: cols).map (quoted '`'))
    simp only [List.mem_append, not_or]
    exact ⟨⟨h1, by decide, h2⟩, ih⟩

section
variable {l : InsertLayout} {t : Str} {cols : List Str} {r : Cell × List Cell} {rs : RowList} {more : Str}

theorem far_insert (hl : l.Ok) (ht : Ident t) (hc : cols ≠ [] ∧ ∀ c ∈ cols, Ident c)
    (h : 7 ≤ t.length + (cols.headD []).length ∨ ∀ x ∈ r :: rs, ∀ c ∈ x.1 :: x.2, '=' ∉ c.chars) (hm : EqFar 31 more) :
    EqFar 31 (insertText l t cols r rs more) := by
  have hhead : '=' ∉ py"INSERT INTO" ++ (l.beforeName ++ (quoted '`' t ++ (l.afterName ++ (py"(" ++ (join (py"," ++ l.columnSep) (cols.map (quoted '`')) ++ (py")" ++
      (l.beforeValues ++ (py"VALUES" ++ l.afterValues)))))))) := by
    have h1 := blanks_noEq hl.beforeName
    have h2 := blanks_noEq hl.afterName
    have h3 := blanks_noEq hl.beforeValues
    have h4 := blanks_noEq hl.afterValues
    have h5 := quoted_noEq ht
    have h6 := cols_noEq hl.columnSep hc.2
    simp only [List.mem_append, not_or]
    exact ⟨by decide, h1, h5, h2, by decide, h6, by decide, h3, by decide, h4⟩
  rcases h with h | h
  · have := eqFar_long (n := 31) (a := (py"INSERT INTO" ++ (l.beforeName ++ (quoted '`' t ++ (l.afterName ++ (py"(" ++ (join (py"," ++ l.columnSep) (cols.map (quoted '`')) ++ (py")" ++
      (l.beforeValues ++ (py"VALUES" ++ l.afterValues))))))))) ++ py"(")
      (s := r.1.sql ++ cellsTail l.cellSep r.2 (py")" ++ rowsTail l.cellSep l.rowSep rs (l.beforeEnd ++ (py";" ++ more))))
      (by simp only [List.mem_append, not_or] at hhead ⊢; exact ⟨hhead, by decide⟩) (by
        have : (cols.headD []).length + 2 ≤ (join (py"," ++ l.columnSep) (cols.map (quoted '`'))).length := by
          obtain ⟨x, xs, rfl⟩ := List.exists_cons_of_ne_nil hc.1
          rw [List.map_cons, join_cons]
          simp [quoted]
        simp only [List.length_append, List.length_cons, List.length_nil, quoted] at this ⊢
        omega)
    unfold insertText rowsText rowText
    simp only [List.append_assoc] at this ⊢
    exact this
  · rw [insertText_split]
    refine eqFar_append ?_ (eqFar_mono hm (Nat.sub_le _ _))
    have h1 : '=' ∉ l.beforeEnd ++ (py";" ++ []) := by
      have := blanks_noEq hl.beforeEnd
      simp [this]
    have h2 : '=' ∉ rowsText l.cellSep l.rowSep r rs (l.beforeEnd ++ (py";" ++ [])) :=
      row_noEq hl.cellSep (rowsTail_noEq hl.cellSep hl.rowSep h1 (rs := rs) (fun x hx => h x (List.mem_cons_of_mem _ hx))) (h r List.mem_cons_self)
    unfold insertText
    simp only [List.mem_append, not_or] at hhead ⊢
    exact ⟨hhead.1, hhead.2.1, hhead.2.2.1, hhead.2.2.2.1, hhead.2.2.2.2.1, hhead.2.2.2.2.2.1, hhead.2.2.2.2.2.2.1, hhead.2.2.2.2.2.2.2.1, hhead.2.2.2.2.2.2.2.2.1,
      hhead.2.2.2.2.2.2.2.2.2, h2⟩

end

end Mygrations

import Verif.Proofs.ReadFks

/-!
# From normalised texts to texts

Every class of definitions normalises the white space of its input first, so what was proved for normalised texts holds for
all texts.
-/

namespace Mygrations

theorem normalize_idem (s : Str) : normalize (normalize s) = normalize s := normalize_normal (normal_normalize s)

theorem simpleParse_normalize (rs : List (Rule Kind)) (s : Str) : simpleParse rs (normalize s) = simpleParse rs s := by
  unfold simpleParse
  rw [normalize_idem]

theorem tryParse_normalize {α : Type} (c : ChildClass α) (s : Str) : c.tryParse (normalize s) = c.tryParse s := by
  unfold ChildClass.tryParse
  rw [simpleParse_normalize]

theorem bestChild_normalize {α : Type} (cs : List (ChildClass α)) (s : Str) (b : Option (α × Str)) :
    bestChild cs (normalize s) b = bestChild cs s b := by
  induction cs generalizing b with
  | nil => rfl
  | cons c cs ih =>
    simp only [bestChild, tryParse_normalize, ih]

theorem collapseAux_append {a : Str} : ∀ {b : Bool} (_ : flat b a = true) (c : Str), collapseAux b (a ++ c) = a ++ collapseAux false c := by
  induction a with
  | nil => intro b h c; simp only [flat, Bool.not_eq_true'] at h; subst h; rfl
  | cons x xs ih =>
    intro b h c
    simp only [flat] at h
    split at h
    · rename_i hx
      simp only [Bool.and_eq_true, Bool.not_eq_true', beq_iff_eq] at h
      obtain ⟨⟨rfl, rfl⟩, h⟩ := h
      simp only [List.cons_append, collapseAux, hx, if_true, ih h]
    · rename_i hx
      cases b <;> simp only [List.cons_append, collapseAux, hx, Bool.false_eq_true, if_false, ih h]

theorem rstrip_append {a : Str} (h : RTrim a) (c : Str) : rstrip (a ++ c) = a ++ rstrip c := by
  unfold RTrim rstrip at *
  rw [List.reverse_append, List.dropWhile_append]
  split
  · rename_i hc
    simp only [List.isEmpty_iff] at hc
    rw [hc, h]; simp
  · simp

theorem normalize_append {a : Str} (h : flat true a = true) (c : Str) : normalize (a ++ c) = a ++ rstrip (collapse c) := by
  unfold normalize collapse
  rw [collapseAux_append (flat_false_of_true h)]
  obtain ⟨x, xs, rfl, hx⟩ := flat_true_head h
  unfold strip
  rw [List.cons_append, lstrip_of_head hx, ← List.cons_append, rstrip_append (flat_rtrim h)]

theorem collapse_blanks : ∀ {bs : Str} (_ : ∀ c ∈ bs, isSpace c = true) (d : Char) (_ : isSpace d = false) (t : Str) (b : Bool),
    collapseAux b (bs ++ d :: t) = (if b || bs.isEmpty then [] else [' ']) ++ d :: collapseAux false t
  | [], _, d, hd, t, b => by cases b <;> simp [collapseAux, hd]
  | x :: xs, h, d, hd, t, b => by
    have hx := h x List.mem_cons_self
    have ih := collapse_blanks (fun c hc => h c (List.mem_cons_of_mem _ hc)) d hd t true
    cases b <;> simp [collapseAux, hx, ih]

theorem normalize_lead {d : Char} (hd : isSpace d = false) (t : Str) : normalize (d :: t) = d :: rstrip (collapse t) :=
  normalize_append (a := [d]) (by simp [flat, hd]) t

theorem normalize_ne {d : Char} (hd : isSpace d = false) (t : Str) : flat true (normalize (d :: t)) = true := by
  rcases normal_normalize (d :: t) with h | h
  · rw [normalize_lead hd] at h; cases h
  · exact h

theorem rstrip_cons (c : Char) (s : Str) : rstrip (c :: s) = if rstrip s = [] ∧ isSpace c = true then [] else c :: rstrip s := by
  unfold rstrip
  rw [List.reverse_cons, List.dropWhile_append]
  simp only [List.isEmpty_iff, List.reverse_eq_nil_iff]
  by_cases h : List.dropWhile isSpace s.reverse = []
  · by_cases hc : isSpace c = true <;> simp [h, hc]
  · simp [h]

theorem rstrip_rstrip (s : Str) : rstrip (rstrip s) = rstrip s := rtrim_rstrip s

theorem strip_cons_space {c : Char} (h : isSpace c = true) (s : Str) : strip (c :: s) = strip s := by
  unfold strip lstrip; simp [h]

theorem strip_cons_char {c : Char} (h : isSpace c = false) (s : Str) : strip (c :: s) = rstrip (c :: s) := by
  unfold strip; rw [lstrip_of_head h]

theorem strip_rstrip (s : Str) : strip (rstrip s) = strip s := by
  induction s with
  | nil => rfl
  | cons c s ih =>
    by_cases hc : isSpace c = true
    · rw [strip_cons_space hc, rstrip_cons]
      split
      · rename_i h; rw [← ih, h.1]
      · rw [strip_cons_space hc, ih]
    · simp only [Bool.not_eq_true] at hc
      rw [strip_cons_char hc, rstrip_cons, if_neg (by simp [hc]), strip_cons_char hc, rstrip_cons, if_neg (by simp [hc]), rstrip_rstrip]

theorem bestChild_follows {α : Type} {cs : List (ChildClass α)} {a e e' : Str} (ha : flat true a = true)
    (h : ∀ a : Str, flat true a = true → normalize (a ++ e) = a ++ e') : bestChild cs (a ++ e) none = bestChild cs (a ++ e') none := by
  rw [← bestChild_normalize, h a ha]

/-- the text after a definition, normalised together with the definition, closes it -/
theorem follows_closing {e rest : Str} (h : Follows e rest) : ∃ e', Closing e' ∧ (∀ r, e' ≠ '(' :: r) ∧ restOf [] e' = rest ∧
    ∀ a : Str, flat true a = true → normalize (a ++ e) = a ++ e' := by
  refine ⟨rstrip (collapse e), ?_⟩
  have hn : ∀ a : Str, flat true a = true → normalize (a ++ e) = a ++ rstrip (collapse e) := fun a ha => normalize_append ha e
  cases h with
  | nothing => exact ⟨Or.inl rfl, by simp [collapse, collapseAux, rstrip], rfl, hn⟩
  | comma more =>
    have hsp : isSpace ',' = false := by decide
    have h1 := normalize_lead hsp more
    have h2 : rstrip (collapse (py"," ++ more)) = ',' :: rstrip (collapse more) := by
      show rstrip (collapseAux false (',' :: more)) = _
      simp only [collapseAux, hsp]
      exact rstrip_append (a := [',']) rfl _
    rw [h2] at hn ⊢
    refine ⟨Or.inr ⟨⟨_, Or.inl rfl⟩, ?_⟩, by simp, strip_rstrip _, hn⟩
    rw [← h1]
    exact flat_false_of_true (normalize_ne hsp more)
  | close bs more hb =>
    have hsp : isSpace ')' = false := by decide
    have h1 := normalize_lead hsp more
    have hf := normalize_ne hsp more
    rw [h1] at hf
    have h2 : rstrip (collapse (bs ++ py")" ++ more)) = (if bs.isEmpty then [] else [' ']) ++ ')' :: rstrip (collapse more) := by
      rw [List.append_assoc]
      show rstrip (collapseAux false (bs ++ ')' :: more)) = _
      rw [collapse_blanks hb _ hsp]
      have := rstrip_append (a := (if bs.isEmpty then [] else [' ']) ++ [')']) (by split <;> rfl) (collapseAux false more)
      simpa [collapse] using this
    rw [h2] at hn ⊢
    show _ ∧ _ ∧ _ = normalize (')' :: more) ∧ _
    rw [h1]
    by_cases hbs : bs.isEmpty = true
    · simp only [hbs, if_true, List.nil_append] at hn ⊢
      exact ⟨Or.inr ⟨⟨_, Or.inr (Or.inl rfl)⟩, flat_false_of_true hf⟩, by simp, strip_flat hf, hn⟩
    · simp only [hbs, if_false, List.cons_append, List.nil_append, Bool.false_eq_true] at hn ⊢
      refine ⟨Or.inr ⟨⟨_, Or.inr (Or.inr (Or.inr (Or.inl rfl)))⟩, ?_⟩, by simp, strip_space hf, hn⟩
      exact flat_space (a := []) (b := false) rfl _ ▸ hf

theorem lenOf_ok {len : Len} {shown : Str} {l : LenText} (h : LenOf len shown l) : l.Ok := by
  cases h <;> simp_all [LenText.Ok]

theorem column_flat {c : Column} {s : Style} (h : c.Plain) (hs : s.Fits c) : flat true (c.written s) = true := by
  obtain ⟨shown, hlen, _, hdef⟩ := h.len
  obtain ⟨l, hl⟩ := lenOf_of_plain hlen
  obtain ⟨dw, hdw⟩ := written_of_plain hs (fun v hv => (hdef v hv).1)
  have hws := wordsOf_ok h hs hdw
  have := column_text (s := s) hl hdw []
  rw [List.append_nil] at this
  rw [this]
  exact colText_flat h.name (Spelled.ident (hs.spell _) (type_facts _ _ h.type).1) (lenOf_ok hl) (Or.inl rfl) hws

theorem constraint_flat {k : Constraint} (w : Actions) (h : k.Plain) : flat true (py"CONSTRAINT `" ++ k.name ++ py"` " ++ k.body w) = true := by
  have := constraint_text k w []
  rw [List.append_nil] at this
  rw [this]
  have hf := fkTail1_flat h.column h.ftable h.fcolumn (isAct_del w h.onDelete) (isAct_upd w h.onUpdate) (e := []) (Or.inl rfl)
  have hnf := pre_flat (pre := quoted '`' k.name) (by simp [quoted]) (quoted_noSpace h.name) hf
  exact pre_flat (pre := py"CONSTRAINT") (by simp) (by decide) hnf

theorem written_flat {i : Index} (h : i.Plain) {w : Str} (hw : i.Spelled w) : flat true (i.written w) = true := by
  obtain ⟨hne, hc⟩ := h.columns
  have hl := paren_flat (colList_flat hc (e := []) (Or.inl rfl))
  have hn : Ident i.rawName → flat true (quoted '`' i.rawName ++ ' ' :: '(' :: colList i.columns []) = true := fun hn =>
    named_flat hc (Or.inl rfl) hn
  rw [← List.append_nil (i.written w), written_split i w [] hne]
  have hword : ∀ {s : Str}, w ∈ keyWords → flat true s = true → flat true (w ++ ' ' :: s) = true := fun hw hs =>
    pre_flat (keyWords_facts w hw).1 (fun c hc => word_nameChar ((keyWords_facts w hw).2.1 c hc)) hs
  have huniq : ∀ {s : Str}, flat true s = true → flat true (py"UNIQUE" ++ ' ' :: s) = true := fun hs => pre_flat (by simp) (by decide) hs
  rcases h.type with ⟨h1, h2⟩ | ⟨h1, h2⟩ | ⟨h1, h2⟩
  · have := pre_flat (pre := py"PRIMARY") (by simp) (by decide) (pre_flat (pre := py"KEY") (by simp) (by decide) hl)
    rw [h1, h2]
    exact this
  · rcases hw with hw | ⟨rfl, _⟩
    · have hw0 := (keyWords_facts w hw).1
      rcases h2 with h2 | h2
      · have := huniq (hword hw hl)
        rw [h1, h2]
        simpa [hw0] using this
      · have := huniq (hword hw (hn h2))
        rw [h1]
        simpa [hw0, h2.1] using this
    · rcases h2 with h2 | h2
      · have := huniq hl
        rw [h1, h2]
        simpa using this
      · have := huniq (hn h2)
        rw [h1]
        simpa [h2.1] using this
  · rcases hw with hw | ⟨_, h3⟩
    · have hw0 := (keyWords_facts w hw).1
      have := hword hw (hn h2)
      rw [h1]
      simpa [hw0, h2.1] using this
    · rw [h1] at h3; exact absurd h3 (by decide)

theorem index_flat {i : Index} (h : i.Plain) : flat true i.render = true := by
  rw [render_written i h]
  exact written_flat h (.inl (by decide))

theorem sameColumn_render {a b : Column} (h : SameColumn a b) : b.render = a.render := by
  have htype : b.typeString = a.typeString := by
    unfold Column.typeString
    rw [h.type, h.enumValues]
    rcases h.len with hl | ⟨h1, h2⟩
    · rw [hl]
    · have : ∀ l : Len, l.absent = true → l = .none ∨ l = .str [] := by
        intro l hl; simpa [Len.absent] using hl
      simp [this _ h1, this _ h2]
  have hparts : b.parts = a.parts := by
    unfold Column.parts Column.defaultParts
    rw [htype, h.name, h.null, h.unsigned, h.default, h.autoInc]
  unfold Column.render
  rw [hparts, h.cls, h.charset, h.collate]

end Mygrations

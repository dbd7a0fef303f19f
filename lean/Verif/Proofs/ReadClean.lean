import Verif.Proofs.ReadProcess

/-! # The text of a schema has nothing which `CreateParser` removes before reading -/

namespace Mygrations

/-! ## Comments and prefixes -/

/-- no match of the pattern of prefixes anywhere -/
def NoPrefix : Str → Prop
  | [] => True
  | c :: cs => prefixMatch (c :: cs) = none ∧ NoPrefix cs

theorem stripPrefixes_id : ∀ {s : Str} (_ : NoPrefix s) (n : Nat), stripPrefixes n s = s
  | [], _, 0 => rfl
  | [], _, n + 1 => rfl
  | c :: cs, _, 0 => rfl
  | c :: cs, h, n + 1 => by
    simp only [stripPrefixes, h.1]
    rw [stripPrefixes_id h.2]

/-- no two dashes in a row -/
def Dashless : Str → Prop
  | [] => True
  | c :: cs => ¬ (c = '-' ∧ cs.head? = some '-') ∧ Dashless cs

theorem dashless_iff : ∀ {s : Str}, NoComment s ↔ Dashless s
  | [] => by simp [NoComment, Dashless]
  | c :: cs => by
    have ih := @dashless_iff cs
    unfold NoComment at *
    rw [List.infix_cons_iff, not_or, ih, Dashless]
    apply and_congr_left'
    cases cs with
    | nil => simp
    | cons d ds => simp [List.cons_prefix_cons, eq_comm]

theorem stripDashes_id : ∀ {s : Str} (_ : Dashless s), stripDashes false s = s
  | [], _ => rfl
  | [c], _ => by
    by_cases h : c = '-'
    · subst h; rfl
    · simp [stripDashes]
  | c :: d :: cs, h => by
    have ih := stripDashes_id h.2
    have h1 := h.1
    simp only [List.head?_cons, Option.some.injEq, not_and] at h1
    rw [stripDashes.eq_def]
    split
    · rename_i heq; cases heq
    · rename_i h0 _; cases h0
    · rename_i heq
      cases heq
      exact absurd rfl (h1 rfl)
    · rename_i heq
      cases heq
      rw [ih]

theorem dashless_append : ∀ {a b : Str}, Dashless a → Dashless b → (∀ c, b.head? = some c → c ≠ '-') → Dashless (a ++ b)
  | [], b, _, hb, _ => hb
  | [c], b, _, hb, hc => ⟨fun h => hc '-' h.2 rfl, hb⟩
  | c :: d :: a, b, ha, hb, hc => ⟨ha.1, dashless_append ha.2 hb hc⟩

theorem dashless_of : ∀ {a : Str}, (∀ c ∈ a, c ≠ '-') → Dashless a
  | [], _ => trivial
  | c :: a, h => ⟨fun hh => h c List.mem_cons_self hh.1, dashless_of (fun x hx => h x (List.mem_cons_of_mem _ hx))⟩

/-- nothing to remove, and no dash at the start -/
structure Tame (s : Str) : Prop where
  noPrefix : NoPrefix s
  noDashes : Dashless s
  head : ∀ c, s.head? = some c → c ≠ '-'

theorem Tame.clean {s : Str} (h : Tame s) : cleanCreate s = s := by
  unfold cleanCreate
  simp only [stripDashes_id h.noDashes, stripPrefixes_id h.noPrefix]

theorem tame_nil : Tame [] := ⟨trivial, trivial, by simp⟩

theorem noPrefix_append : ∀ {a s : Str}, (∀ c ∈ a, c ≠ '(' ∧ c ≠ ',') → NoPrefix s → NoPrefix (a ++ s)
  | [], _, _, h => h
  | c :: a, s, ha, h => by
    obtain ⟨h1, h2⟩ := ha c List.mem_cons_self
    exact ⟨by simp [prefixMatch, h1, h2], noPrefix_append (fun x hx => ha x (List.mem_cons_of_mem _ hx)) h⟩

/-- harmless characters -/
def dull (c : Char) : Bool := c != '(' && c != ',' && c != '-'

theorem dull_iff {c : Char} : dull c = true ↔ c ≠ '(' ∧ c ≠ ',' ∧ c ≠ '-' := by simp [dull, and_assoc]

theorem tame_dull {a s : Str} (ha : ∀ c ∈ a, dull c = true) (h : Tame s) : Tame (a ++ s) := by
  have ha' := fun c hc => dull_iff.mp (ha c hc)
  refine ⟨noPrefix_append (fun c hc => ⟨(ha' c hc).1, (ha' c hc).2.1⟩) h.noPrefix,
    dashless_append (dashless_of (fun c hc => (ha' c hc).2.2)) h.noDashes h.head, ?_⟩
  intro c hc
  cases a with
  | nil => exact h.head c hc
  | cons x a => simp at hc; subst hc; exact (ha' x List.mem_cons_self).2.2

theorem tame_cons {c : Char} {s : Str} (hc : dull c = true) (h : Tame s) : Tame (c :: s) :=
  tame_dull (a := [c]) (by simpa using hc) h

/-- a value after something -/
theorem tame_value {a v s : Str} (ha : ∀ c ∈ a, dull c = true) (hne : a ≠ []) (hv : ∀ c ∈ v, c ≠ '(' ∧ c ≠ ',') (hd : Dashless v) (h : Tame s) :
    Tame (a ++ (v ++ s)) := by
  have ha' := fun c hc => dull_iff.mp (ha c hc)
  have h2 : Dashless (v ++ s) := dashless_append hd h.noDashes h.head
  obtain ⟨x, xs, rfl⟩ := List.exists_cons_of_ne_nil hne
  refine ⟨noPrefix_append (fun c hc => ⟨(ha' c hc).1, (ha' c hc).2.1⟩) (noPrefix_append hv h.noPrefix), ?_, ?_⟩
  · have : ∀ (a : Str), (∀ c ∈ a, c ≠ '-') → Dashless (a ++ (v ++ s)) := by
      intro a
      induction a with
      | nil => intro _; exact h2
      | cons y ys ih =>
        intro hh
        exact ⟨fun hx => hh y List.mem_cons_self hx.1, ih (fun c hc => hh c (List.mem_cons_of_mem _ hc))⟩
    exact this _ (fun c hc => (ha' c hc).2.2)
  · intro c hc
    simp at hc; subst hc; exact (ha' x List.mem_cons_self).2.2

/-- a comma or an opening parenthesis which starts no prefix -/
theorem tame_open {c : Char} {s : Str} (hc : c = '(' ∨ c = ',') (hm : prefixMatch (c :: s) = none) (h : Tame s) : Tame (c :: s) := by
  have hd : c ≠ '-' := by rcases hc with rfl | rfl <;> decide
  refine ⟨⟨hm, h.noPrefix⟩, ⟨fun hh => hd hh.1, h.noDashes⟩, ?_⟩
  intro x hx
  simp at hx; subst hx; exact hd

theorem takeWhile_append_all {p : Char → Bool} : ∀ {a b : Str}, (∀ c ∈ a, p c = true) → (∀ c, b.head? = some c → p c = false) →
    (a ++ b).takeWhile p = a ∧ (a ++ b).dropWhile p = b
  | [], [], _, _ => ⟨rfl, rfl⟩
  | [], c :: b, _, h => by simp [h c rfl]
  | c :: a, b, ha, hb => by
    have := takeWhile_append_all (fun x hx => ha x (List.mem_cons_of_mem _ hx)) hb
    simp [ha c List.mem_cons_self, this.1, this.2]

theorem isWord_tick : isWord '`' = false := by decide

theorem noPrefix_word {c : Char} {bs w r : Str} (hbs : ∀ c ∈ bs, isSpace c = true) (hw : w ≠ [] ∧ ∀ c ∈ w, isWord c = true)
    (hr : ∀ x, r.head? = some x → x ≠ '(' ∧ x ≠ '`' ∧ isWord x = false) : prefixMatch (c :: (bs ++ (w ++ r))) = none := by
  obtain ⟨x, xs, rfl⟩ := List.exists_cons_of_ne_nil hw.1
  have hx : isWord x = true := hw.2 x List.mem_cons_self
  have hxt : x ≠ '`' := by rintro rfl; rw [isWord_tick] at hx; cases hx
  have h1 := takeWhile_append_all (p := isSpace) (b := x :: xs ++ r) hbs (by intro y hy; simp at hy; subst hy; exact word_noSpace hx)
  have h2 := takeWhile_append_all (p := isWord) (a := x :: xs) (b := r) hw.2 (fun y hy => (hr y hy).2.2)
  have hh : (x :: xs ++ r).head? = some x := rfl
  have hr1 : r.head? ≠ some '`' := fun h => (hr _ h).2.1 rfl
  have hr2 : ∀ u, r ≠ '(' :: u := by rintro u rfl; exact (hr _ rfl).1 rfl
  simp only [prefixMatch, h1.2, hh, h2.2, Option.some.injEq, hxt, if_false, List.take_zero, List.length_nil, List.drop_zero, hr1]
  split <;> rfl

theorem noPrefix_ticked {c : Char} {bs n r : Str} (hbs : ∀ c ∈ bs, isSpace c = true) (hn : Ident n)
    (hr : ∀ x, r.head? = some x → x ≠ '(') : prefixMatch (c :: (bs ++ (quoted '`' n ++ r))) = none := by
  have h1 := takeWhile_append_all (p := isSpace) (b := quoted '`' n ++ r) hbs (by intro y hy; simp [quoted] at hy; subst hy; decide)
  rw [show quoted '`' n ++ r = '`' :: (n ++ '`' :: r) by simp [quoted]] at h1 ⊢
  have h2 := takeWhile_append_all (p := isWord) (a := n) (b := '`' :: r) hn.2 (by intro y hy; simp at hy; subst hy; decide)
  have hr2 : ∀ u, r ≠ '(' :: u := by rintro u rfl; exact hr _ rfl rfl
  simp only [prefixMatch, h1.2, List.head?_cons, if_true, List.take_succ_cons, List.take_zero, List.length_cons, List.length_nil, List.drop_succ_cons,
    List.drop_zero, h2.2]
  split <;> rfl

/-! ## Columns -/

theorem word_dull {c : Char} (h : isWord c = true) : dull c = true := by
  rw [dull_iff]
  refine ⟨?_, ?_, ?_⟩ <;> rintro rfl <;> exact absurd h (by decide)

theorem blank_dull {c : Char} (h : isSpace c = true) : dull c = true := by
  rw [dull_iff]
  refine ⟨?_, ?_, ?_⟩ <;> rintro rfl <;> exact absurd h (by decide)

theorem quoted_dull {n : Str} (h : Ident n) : ∀ c ∈ quoted '`' n, dull c = true := by
  intro c hc
  simp only [quoted, List.mem_cons, List.mem_append, List.not_mem_nil, or_false] at hc
  rcases hc with rfl | hc | rfl
  · decide
  · exact word_dull (h.2 c hc)
  · decide

/-- the values of a word have no comments -/
def Word.Dashless : Word → Prop
  | .default _ _ v => Mygrations.Dashless v
  | .stamp _ a b => Mygrations.Dashless a ∧ Mygrations.Dashless b ∧ ∀ c ∈ b, c ≠ '(' ∧ c ≠ ','
  | .charset _ _ v => Mygrations.Dashless v
  | .collate _ _ v => Mygrations.Dashless v
  | .junk _ => False
  | _ => True

theorem Bare.noOpen {v : Str} (h : Bare v) : ∀ c ∈ v, c ≠ '(' ∧ c ≠ ',' := fun c hc => ⟨(h c hc).2.1, (h c hc).2.2.2.1⟩

theorem toLower_dash {c : Char} : c.toLower = '-' ↔ c = '-' := ⟨fun h => toLower_eq (by decide) h, fun h => by rw [h]; rfl⟩

theorem dashless_lower : ∀ {s : Str}, Dashless (lower s) ↔ Dashless s
  | [] => Iff.rfl
  | c :: cs => by
    have ih := @dashless_lower cs
    show ¬ (c.toLower = '-' ∧ (List.map Char.toLower cs).head? = some '-') ∧ Dashless (lower cs) ↔ _
    rw [ih, toLower_dash]
    show _ ↔ ¬ (c = '-' ∧ cs.head? = some '-') ∧ Dashless cs
    cases cs with
    | nil => simp
    | cons d ds => simp [toLower_dash]

theorem Spelled.dashless {a b : Str} (h : Spelled a b) (ha : Dashless a) : Dashless b := by
  rw [← dashless_lower, show lower b = lower a from h, dashless_lower]
  exact ha

theorem Spelled.dull {a b : Str} (h : Spelled a b) (ha : ∀ c ∈ a, dull c = true) : ∀ c ∈ b, dull c = true := by
  intro c hc
  rw [dull_iff]
  have key : ∀ d : Char, d.toNat < 65 → Mygrations.dull d = false → c ≠ d := by
    rintro d h1 h2 rfl
    refine h.not_mem (Or.inl h1) ?_ hc
    intro hm
    rw [ha c hm] at h2
    cases h2
  exact ⟨key _ (by decide) (by decide), key _ (by decide) (by decide), key _ (by decide) (by decide)⟩

theorem tame_quotes {k v s : Str} {q : Bool} (hk : ∀ c ∈ k, dull c = true) (hv : Bare v) (hd : Dashless v) (h : Tame s) :
    Tame (k ++ (py" " ++ inQuotesIf q v) ++ s) := by
  have : k ++ (py" " ++ inQuotesIf q v) ++ s = k ++ (py" " ++ (inQuotesIf q v ++ s)) := by simp
  rw [this]
  refine tame_dull hk ?_
  cases q with
  | true =>
    have : py" " ++ (inQuotesIf true v ++ s) = py" '" ++ (v ++ (py"'" ++ s)) := by simp [inQuotesIf]
    rw [this]
    exact tame_value (by decide) (by simp) (Bare.noOpen hv) hd (tame_dull (by decide) h)
  | false => exact tame_value (by decide) (by simp) (Bare.noOpen hv) hd h

theorem tame_word {w : Word} {s : Str} (hw : w.Ok) (hd : w.Dashless) (h : Tame s) : Tame (w.text ++ s) := by
  cases w with
  | unsigned k => exact tame_dull (Spelled.dull hw (by decide)) h
  | null k => exact tame_dull (Spelled.dull hw (by decide)) h
  | notNull k => exact tame_dull (Spelled.dull hw (by decide)) h
  | auto k => exact tame_dull (Spelled.dull hw (by decide)) h
  | default k q v => exact tame_quotes (Spelled.dull hw.1 (by decide)) hw.2.1 hd h
  | stamp k a b =>
    show Tame (k ++ (py" '" ++ a ++ py" " ++ b ++ py"'") ++ s)
    simp only [List.append_assoc]
    refine tame_dull (Spelled.dull hw.1 (by decide)) (tame_value (by decide) (by simp) (Bare.noOpen hw.2.1) hd.1 ?_)
    exact tame_value (by decide) (by simp) hd.2.2 hd.2.1 (tame_dull (by decide) h)
  | junk b => exact hd.elim
  | charset k q v => exact tame_quotes (Spelled.dull hw.1 (by decide)) hw.2.1 hd h
  | collate k q v => exact tame_quotes (Spelled.dull hw.1 (by decide)) hw.2.1 hd h

theorem tame_words {s : Str} (h : Tame s) : ∀ {ws : List Word}, (∀ w ∈ ws, w.Ok) → (∀ w ∈ ws, w.Dashless) → Tame (wordsTail ws s)
  | [], _, _ => h
  | w :: ws, hw, hd => by
    have ih := tame_words h (fun x hx => hw x (List.mem_cons_of_mem _ hx)) (fun x hx => hd x (List.mem_cons_of_mem _ hx))
    exact tame_cons (by decide) (tame_word (hw w List.mem_cons_self) (hd w List.mem_cons_self) ih)

theorem digits_word {d : Str} (h : Digits d) : d ≠ [] ∧ ∀ c ∈ d, isWord c = true :=
  ⟨h.1, fun c hc => by simp [isWord, h.2 c hc]⟩

theorem tame_len {l : LenText} {s : Str} (hl : l.Ok) (h : Tame s) : Tame (l.text ++ s) := by
  cases l with
  | none => exact h
  | one d =>
    show Tame (py"(" ++ d ++ py")" ++ s)
    have h1 : Tame (d ++ (py")" ++ s)) := tame_dull (fun c hc => word_dull ((digits_word hl).2 c hc)) (tame_dull (by decide) h)
    rw [List.append_assoc, List.append_assoc]
    refine tame_open (Or.inl rfl) ?_ h1
    exact noPrefix_word (bs := []) (by simp) (digits_word hl) (by intro x hx; simp at hx; subst hx; decide)
  | two a b =>
    show Tame (py"(" ++ a ++ py"," ++ b ++ py")" ++ s)
    have h1 : Tame (b ++ (py")" ++ s)) := tame_dull (fun c hc => word_dull ((digits_word hl.2).2 c hc)) (tame_dull (by decide) h)
    have h2 : Tame (',' :: (b ++ (py")" ++ s))) :=
      tame_open (Or.inr rfl) (noPrefix_word (bs := []) (by simp) (digits_word hl.2) (by intro x hx; simp at hx; subst hx; decide)) h1
    have h3 : Tame (a ++ ',' :: (b ++ (py")" ++ s))) := tame_dull (fun c hc => word_dull ((digits_word hl.1).2 c hc)) h2
    have h4 : Tame ('(' :: (a ++ ',' :: (b ++ (py")" ++ s)))) :=
      tame_open (Or.inl rfl) (noPrefix_word (bs := []) (by simp) (digits_word hl.1) (by intro x hx; simp at hx; subst hx; decide)) h3
    simpa using h4

/-- the values of a column have no comments -/
def Column.Quiet (c : Column) : Prop := ∀ v, c.default = some v ∨ c.characterSet = some v ∨ c.collate = some v → NoComment v

theorem dashless_split : ∀ {a b : Str}, Dashless (a ++ b) → Dashless a ∧ Dashless b
  | [], _, h => ⟨trivial, h⟩
  | [c], b, h => ⟨⟨by simp, trivial⟩, h.2⟩
  | c :: d :: a, b, h => by
    have := dashless_split h.2
    exact ⟨⟨h.1, this.1⟩, this.2⟩

theorem written_dashless {s : Style} {hasLen : Bool} {d : Option Str} {dw : List Word} (h : Written s hasLen d dw) (hs : ∀ w, lower (s.spell w) = lower w)
    (hq : ∀ v, d = some v → NoComment v) : ∀ w ∈ dw, w.Dashless := by
  cases h with
  | none => simp
  | null =>
    intro w hw; rw [List.mem_singleton] at hw; subst hw
    exact Spelled.dashless (hs _) (dashless_of (by decide))
  | quoted hb _ _ => intro w hw; rw [List.mem_singleton] at hw; subst hw; exact dashless_iff.mp (hq _ rfl)
  | bare hb _ _ => intro w hw; rw [List.mem_singleton] at hw; subst hw; exact dashless_iff.mp (hq _ rfl)
  | stamp _ ha hc hb =>
    intro w hw; rw [List.mem_singleton] at hw; subst hw
    have h1 := dashless_split (dashless_iff.mp (hq _ rfl))
    have h2 := dashless_split h1.1
    refine ⟨h2.1, h1.2, ?_⟩
    intro x hx
    rcases List.mem_cons.mp hx with rfl | hx
    · constructor <;> rintro rfl <;> exact absurd hc (by decide)
    · exact hb.noOpen x hx

/-- what holds of each word of a column -/
theorem words_all {P : Word → Prop} {s : WordStyle} {u nn a : Bool} {dw : List Word} {cs co : Option Str} (hd : ∀ w ∈ dw, P w)
    (h1 : ∀ k, P (.unsigned k)) (h2 : ∀ k, P (.null k)) (h3 : ∀ k, P (.notNull k)) (h4 : ∀ k, P (.auto k))
    (hcs : ∀ v, cs = some v → ∀ k q, P (.charset k q v)) (hco : ∀ v, co = some v → ∀ k q, P (.collate k q v)) : ∀ w ∈ words s u nn dw a cs co, P w := by
  have hch : ∀ w ∈ charWords s cs co, P w := by
    intro w hw
    simp only [charWords, List.mem_append] at hw
    rcases hw with hw | hw
    · cases cs <;> simp at hw
      subst hw; exact hcs _ rfl _ _
    · cases co <;> simp at hw
      subst hw; exact hco _ rfl _ _
  intro w hw
  simp only [words, List.mem_append] at hw
  rcases hw with ((((hw | hw) | hw) | hw) | hw) | hw
  · cases u <;> simp at hw
    subst hw; exact h1 _
  · split at hw
    · exact hch w hw
    · cases hw
  · unfold nullWords at hw
    split at hw
    · rw [List.mem_singleton] at hw; subst hw; exact h3 _
    · split at hw
      · rw [List.mem_singleton] at hw; subst hw; exact h2 _
      · cases hw
  · exact hd w hw
  · cases a <;> simp at hw
    subst hw; exact h4 _
  · split at hw
    · cases hw
    · exact hch w hw

/-- the shape of a column's text: the quoted name, a blank and the type -/
theorem column_shape {c : Column} {s : Style} (h : c.Plain) (hs : s.Fits c) (e : Str) :
    ∃ l ws, l.Ok ∧ (∀ w ∈ ws, w.Ok) ∧ (∀ w ∈ ws, ∀ b, w ≠ .junk b) ∧ (c.Quiet → ∀ w ∈ ws, w.Dashless) ∧
    c.written s ++ e = colText c.name (s.spell c.columnType) l ws e := by
  obtain ⟨shown, hlen, _, hdef⟩ := h.len
  obtain ⟨l, hl⟩ := lenOf_of_plain hlen
  obtain ⟨dw, hdw⟩ := written_of_plain hs (fun v hv => (hdef v hv).1)
  refine ⟨l, _, lenOf_ok hl, wordsOf_ok h hs hdw, ?_, ?_, column_text hl hdw e⟩
  · refine words_all (P := fun w => ∀ b, w ≠ .junk b) ?_ (by simp) (by simp) (by simp) (by simp) (by simp) (by simp)
    generalize c.default = d at hdw
    cases hdw <;> simp
  · intro hq
    refine words_all (written_dashless hdw hs.spell (fun v hv => hq v (Or.inl hv))) (fun _ => trivial) (fun _ => trivial) (fun _ => trivial) (fun _ => trivial) ?_ ?_
    · intro v hv k q
      obtain ⟨x, hx, rfl⟩ := Option.map_eq_some_iff.mp hv
      exact Spelled.dashless (hs.spell x) (dashless_iff.mp (hq x (Or.inr (Or.inl hx))))
    · intro v hv k q
      obtain ⟨x, hx, rfl⟩ := Option.map_eq_some_iff.mp hv
      exact Spelled.dashless (hs.spell x) (dashless_iff.mp (hq x (Or.inr (Or.inr hx))))

theorem tame_column {c : Column} {s : Style} (h : c.Plain) (hs : s.Fits c) (hq : c.Quiet) {e : Str} (he : Tame e) : Tame (c.written s ++ e) := by
  obtain ⟨l, ws, hl, hws, _, hd, htext⟩ := column_shape h hs e
  rw [htext]
  have ht := Spelled.ident (hs.spell c.columnType) (type_facts _ _ h.type).1
  show Tame (py"`" ++ c.name ++ py"`" ++ ' ' :: (s.spell c.columnType ++ (l.text ++ wordsTail ws e)))
  have h1 := tame_len hl (tame_words he hws (hd hq))
  have h2 : Tame (s.spell c.columnType ++ (l.text ++ wordsTail ws e)) := tame_dull (fun c hc => word_dull (ht.2 c hc)) h1
  have h3 := tame_cons (c := ' ') (by decide) h2
  have h4 := tame_dull (quoted_dull h.name) h3
  simpa [quoted] using h4

/-! ## Keys -/

theorem tame_colList {e : Str} (he : Tame e) {c : Char} (hc : c = '(' ∨ c = ',') : ∀ {cols : List Str}, cols ≠ [] → (∀ c ∈ cols, Ident c) → Tame (c :: colList cols e)
  | [], h, _ => absurd rfl h
  | [x], _, h => by
    have hx := h x List.mem_cons_self
    have h1 : Tame (quoted '`' x ++ ')' :: e) := tame_dull (quoted_dull hx) (tame_cons (by decide) he)
    have : colList [x] e = quoted '`' x ++ ')' :: e := rfl
    rw [this]
    refine tame_open hc (noPrefix_ticked (bs := []) (by simp) hx ?_) h1
    intro y hy; simp at hy; subst hy; decide
  | x :: y :: cols, _, h => by
    have hx := h x List.mem_cons_self
    have ih := tame_colList he (c := ',') (Or.inr rfl) (cols := y :: cols) (by simp) (fun z hz => h z (List.mem_cons_of_mem _ hz))
    have : colList (x :: y :: cols) e = quoted '`' x ++ (',' :: colList (y :: cols) e) := by
      simp only [colList, List.map_cons, join]
      simp
    rw [this]
    have h1 : Tame (quoted '`' x ++ (',' :: colList (y :: cols) e)) := tame_dull (quoted_dull hx) ih
    refine tame_open hc (noPrefix_ticked (bs := []) (by simp) hx ?_) h1
    intro y hy; simp at hy; subst hy; decide

/-- the shape of an index's text: a keyword, a blank, harmless characters and the columns -/
theorem index_shape {i : Index} (h : i.Plain) {w : Str} (hw : i.Spelled w) (e : Str) : ∃ v r, (v = py"PRIMARY" ∨ v = py"UNIQUE" ∨ v ∈ keyWords) ∧
    (∀ c ∈ r, (isWord c = true ∨ c = '`' ∨ c = ' ')) ∧ 6 ≤ v.length + r.length ∧ i.written w ++ e = v ++ ' ' :: (r ++ '(' :: colList i.columns e) := by
  obtain ⟨hne, hc⟩ := h.columns
  rw [written_split i w e hne]
  have hq : ∀ n, Ident n → ∀ c ∈ quoted '`' n ++ py" ", (isWord c = true ∨ c = '`' ∨ c = ' ') := by
    intro n hn c hc
    simp only [quoted, List.mem_cons, List.mem_append, List.not_mem_nil, or_false] at hc
    rcases hc with (rfl | hc | rfl) | rfl
    · simp
    · exact Or.inl (hn.2 c hc)
    · simp
    · simp
  have hkey : w ∈ keyWords → ∀ c ∈ w ++ py" ", (isWord c = true ∨ c = '`' ∨ c = ' ') := by
    intro hw c hc
    rcases List.mem_append.mp hc with hc | hc
    · exact Or.inl ((keyWords_facts w hw).2.1 c hc)
    · simp at hc; simp [hc]
  rcases h.type with ⟨h1, h2⟩ | ⟨h1, h2⟩ | ⟨h1, h2⟩
  · refine ⟨_, py"KEY ", Or.inl rfl, by decide, by decide, ?_⟩
    rw [h1, h2]
    rfl
  · rcases hw with hw | ⟨rfl, _⟩
    · have hw0 := (keyWords_facts w hw).1
      rcases h2 with h2 | h2
      · refine ⟨_, w ++ py" ", Or.inr (Or.inl rfl), hkey hw, by simp, ?_⟩
        rw [h1, h2]
        simp [hw0]
      · refine ⟨_, (w ++ py" ") ++ (quoted '`' i.rawName ++ py" "), Or.inr (Or.inl rfl), ?_, by simp, ?_⟩
        · intro c hcm
          rcases List.mem_append.mp hcm with hcm | hcm
          · exact hkey hw c hcm
          · exact hq _ h2 c hcm
        · rw [h1]
          simp [hw0, h2.1]
    · rcases h2 with h2 | h2
      · refine ⟨_, [], Or.inr (Or.inl rfl), by simp, by decide, ?_⟩
        rw [h1, h2]
        simp
      · refine ⟨_, quoted '`' i.rawName ++ py" ", Or.inr (Or.inl rfl), hq _ h2, by simp, ?_⟩
        rw [h1]
        simp [h2.1]
  · rcases hw with hw | ⟨_, h3⟩
    · have hw0 := (keyWords_facts w hw).1
      refine ⟨w, quoted '`' i.rawName ++ py" ", Or.inr (Or.inr hw), hq _ h2, ?_, ?_⟩
      · rcases (keyWords_facts w hw).2.2.2.1 with h | h <;> simp [quoted, h.1] <;> omega
      · rw [h1]
        simp [hw0, h2.1]
    · rw [h1] at h3; exact absurd h3 (by decide)

theorem tame_index {i : Index} (h : i.Plain) {w : Str} (hw : i.Spelled w) {e : Str} (he : Tame e) : Tame (i.written w ++ e) := by
  obtain ⟨v, r, hv, hr, _, htext⟩ := index_shape h hw e
  rw [htext]
  have h1 := tame_colList he (Or.inl rfl) h.columns.1 h.columns.2
  have h2 : Tame (r ++ '(' :: colList i.columns e) := by
    refine tame_dull ?_ h1
    intro c hc
    rcases hr c hc with h | rfl | rfl
    · exact word_dull h
    · decide
    · decide
  have h3 := tame_cons (c := ' ') (by decide) h2
  rcases hv with rfl | rfl | hv
  · exact tame_dull (by decide) h3
  · exact tame_dull (by decide) h3
  · exact tame_dull (fun c hc => word_dull ((keyWords_facts v hv).2.1 c hc)) h3

theorem tame_act {what : Str} {o : Option Str} {e : Str} (hw : ∀ c ∈ what, dull c = true) (ho : IsAct o) (he : Tame e) : Tame (actText what o e) := by
  have hact : ∀ x ∈ fkActions, ∀ c ∈ x, dull c = true := by decide
  cases o with
  | none => exact he
  | some a =>
    have h1 : Tame (a ++ e) := tame_dull (hact a (ho a rfl)) he
    have h2 : Tame (py" " ++ (a ++ e)) := tame_dull (by decide) h1
    have h3 : Tame (what ++ (py" " ++ (a ++ e))) := tame_dull hw h2
    have h4 : Tame (py" ON " ++ (what ++ (py" " ++ (a ++ e)))) := tame_dull (by decide) h3
    have : actText what (some a) e = py" ON " ++ (what ++ (py" " ++ (a ++ e))) := by simp [actText]
    rw [this]
    exact h4

theorem tame_foreign {k : Constraint} (h : k.Plain) (w : Actions) {e : Str} (he : Tame e) :
    Tame (fkTail1 k.column k.ftable k.fcolumn (w.del k) (w.upd k) e) := by
  have h4 : Tame (fkTail4 (w.del k) (w.upd k) e) :=
    tame_act (by decide) (isAct_del w h.onDelete) (tame_act (by decide) (isAct_upd w h.onUpdate) he)
  have h3 : Tame (fkTail3 k.ftable k.fcolumn (w.del k) (w.upd k) e) := by
    unfold fkTail3
    refine tame_dull (quoted_dull h.ftable) (tame_cons (by decide) ?_)
    have : Tame (quoted '`' k.fcolumn ++ ')' :: fkTail4 (w.del k) (w.upd k) e) :=
      tame_dull (quoted_dull h.fcolumn) (tame_cons (by decide) h4)
    exact tame_open (Or.inl rfl) (noPrefix_ticked (bs := []) (by simp) h.fcolumn (by intro y hy; simp at hy; subst hy; decide)) this
  have h2 : Tame ('(' :: fkTail2 k.column k.ftable k.fcolumn (w.del k) (w.upd k) e) := by
    unfold fkTail2
    have : Tame (quoted '`' k.column ++ (py") REFERENCES" ++ ' ' :: fkTail3 k.ftable k.fcolumn (w.del k) (w.upd k) e)) :=
      tame_dull (quoted_dull h.column) (tame_dull (by decide) (tame_cons (by decide) h3))
    exact tame_open (Or.inl rfl) (noPrefix_ticked (bs := []) (by simp) h.column (by intro y hy; simp at hy; subst hy; decide)) this
  exact tame_dull (a := py"FOREIGN KEY ") (by decide) h2

theorem tame_bare {k : Constraint} {w : Actions} (h : (Src.bare k w).Plain) {e : Str} (he : Tame e) : Tame ((Src.bare k w).render ++ e) := by
  rw [bare_text]
  have h : ({ k with name := py"name" } : Constraint).Plain := h.1
  exact tame_foreign h w he

theorem tame_constraint {k : Constraint} (h : k.Plain) (w : Actions) {e : Str} (he : Tame e) : Tame ((Src.constraint k w).render ++ e) := by
  show Tame ((py"CONSTRAINT `" ++ k.name ++ py"` " ++ k.body w) ++ e)
  rw [constraint_text]
  have h1 := tame_foreign h w he
  exact tame_dull (by decide) (tame_cons (by decide) (tame_dull (quoted_dull h.name) (tame_cons (by decide) h1)))

theorem tame_src {d : Src} (h : d.Plain) (hq : d.Quiet) {e : Str} (he : Tame e) : Tame (d.render ++ e) := by
  cases d with
  | column c s => exact tame_column h.1 h.2 hq he
  | index i w => exact tame_index h.1 h.2 he
  | constraint k w => exact tame_constraint h.1 w he
  | bare k w => exact tame_bare h he

/-- a definition after a comma or an opening parenthesis is no prefix -/
theorem src_noPrefix {d : Src} (h : d.Plain) {c : Char} {bs : Str} (hbs : ∀ c ∈ bs, isSpace c = true) (e : Str) :
    prefixMatch (c :: (bs ++ (d.render ++ e))) = none := by
  cases d with
  | column x s =>
    obtain ⟨l, ws, _, _, _, _, htext⟩ := column_shape (c := x) h.1 h.2 e
    show prefixMatch (c :: (bs ++ (x.written s ++ e))) = none
    rw [htext]
    have := noPrefix_ticked (c := c) (r := ' ' :: (s.spell x.columnType ++ (l.text ++ wordsTail ws e))) hbs (n := x.name) (Column.Plain.name h.1)
      (by intro y hy; simp at hy; subst hy; decide)
    simpa [quoted, colText] using this
  | index i w =>
    obtain ⟨v, r, hv, _, _, htext⟩ := index_shape (i := i) h.1 h.2 e
    show prefixMatch (c :: (bs ++ (i.written w ++ e))) = none
    rw [htext]
    refine noPrefix_word hbs ?_ (by intro y hy; simp at hy; subst hy; decide)
    rcases hv with rfl | rfl | hv
    · decide
    · decide
    · exact ⟨(keyWords_facts v hv).1, (keyWords_facts v hv).2.1⟩
  | constraint k w =>
    show prefixMatch (c :: (bs ++ ((py"CONSTRAINT `" ++ k.name ++ py"` " ++ k.body w) ++ e))) = none
    rw [constraint_text]
    exact noPrefix_word hbs (by decide) (by intro y hy; simp at hy; subst hy; decide)
  | bare k w =>
    rw [bare_text]
    exact noPrefix_word (w := py"FOREIGN") hbs (by decide) (by intro y hy; simp at hy; subst hy; decide)

theorem tame_sep {d : Src} (h : d.Plain) (hq : d.Quiet) {c : Char} (hc : c = '(' ∨ c = ',') {bs : Str} (hbs : ∀ c ∈ bs, isSpace c = true) {e : Str} (he : Tame e) :
    Tame (c :: (bs ++ (d.render ++ e))) :=
  tame_open hc (src_noPrefix h hbs e) (tame_dull (fun c hc => blank_dull (hbs c hc)) (tame_src h hq he))

theorem tame_defTail {sep : Str} (hs : ∀ c ∈ sep, isSpace c = true) {e : Str} (he : Tame e) : ∀ {ds : List Src}, (∀ d ∈ ds, d.Plain) → (∀ d ∈ ds, d.Quiet) →
    Tame (defTail sep ds e)
  | [], _, _ => he
  | d :: ds, h, hq => by
    have ih := tame_defTail hs he (fun x hx => h x (List.mem_cons_of_mem _ hx)) (fun x hx => hq x (List.mem_cons_of_mem _ hx))
    have := tame_sep (h d List.mem_cons_self) (hq d List.mem_cons_self) (c := ',') (Or.inr rfl) hs ih
    simpa [defTail] using this

theorem tame_optTail {e : Str} (he : Tame e) : ∀ {os : List TableOpt}, (∀ o ∈ os, o.Plain) → Tame (optTail os e)
  | [], _ => he
  | o :: os, h => by
    have ih := tame_optTail he (fun x hx => h x (List.mem_cons_of_mem _ hx))
    have ho := h o List.mem_cons_self
    show Tame (' ' :: (o.name ++ py"=" ++ o.value ++ optTail os e))
    have hv := tame_value (a := py"=") (v := o.value) (by decide) (by simp) (fun c hc => ⟨(ho.value.2 c hc).2.2.1, (ho.value.2 c hc).2.2.2.2⟩)
      (dashless_iff.mp ho.noComment) ih
    have hn : Tame (o.name ++ (py"=" ++ (o.value ++ optTail os e))) := by
      refine tame_dull ?_ hv
      intro c hc
      rcases ho.nameChars c hc with h | rfl
      · exact word_dull h
      · decide
    rw [List.append_assoc, List.append_assoc]
    exact tame_cons (by decide) hn

theorem tame_create {name lead sep trail : Str} {d : Src} {ds : List Src} {os : List TableOpt} {more : Str} (hn : Ident name) (hl : ∀ c ∈ lead, isSpace c = true)
    (hs : ∀ c ∈ sep, isSpace c = true) (ht : ∀ c ∈ trail, isSpace c = true) (hd : ∀ x ∈ d :: ds, x.Plain) (hq : ∀ x ∈ d :: ds, x.Quiet) (ho : ∀ o ∈ os, o.Plain)
    (hm : Tame more) : Tame (createText name lead sep trail d ds os more) := by
  have h1 : Tame (optTail os (py";" ++ more)) := tame_optTail (tame_dull (by decide) hm) ho
  have h2 : Tame (trail ++ (py")" ++ optTail os (py";" ++ more))) := tame_dull (fun c hc => blank_dull (ht c hc)) (tame_dull (by decide) h1)
  have h3 := tame_defTail hs h2 (fun x hx => hd x (List.mem_cons_of_mem _ hx)) (fun x hx => hq x (List.mem_cons_of_mem _ hx))
  have h4 := tame_sep (hd d List.mem_cons_self) (hq d List.mem_cons_self) (c := '(') (Or.inl rfl) hl h3
  exact tame_dull (by decide) (tame_cons (by decide) (tame_dull (quoted_dull hn) (tame_cons (by decide) h4)))

end Mygrations

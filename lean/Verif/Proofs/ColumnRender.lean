import Verif.Spec.Columns
import Verif.Proofs.Render
import Verif.Proofs.Chars

/-! # The text of a column determines the column -/

namespace Mygrations
namespace Column

/-- starts a new word, or is empty -/
def Seg (r : Str) : Prop := r = [] ∨ ∃ r', r = ' ' :: r'

/-- does not continue with a space and `c` -/
def NotSeg (c : Char) (r : Str) : Prop := ∀ r', r ≠ ' ' :: c :: r'

theorem split_word : ∀ {a b r r' : Str}, a ++ r = b ++ r' → ' ' ∉ a → ' ' ∉ b → Seg r → Seg r' → a = b ∧ r = r'
  | [], [], _, _, h, _, _, _, _ => by simpa using h
  | [], y :: b, r, r', h, _, hb, hr, _ => by
    rcases hr with rfl | ⟨r1, rfl⟩
    · simp at h
    · simp only [List.nil_append, List.cons_append, List.cons.injEq] at h
      exact absurd h.1 (fun e => hb (by simp [← e]))
  | x :: a, [], r, r', h, ha, _, _, hr => by
    rcases hr with rfl | ⟨r1, rfl⟩
    · simp at h
    · simp only [List.nil_append, List.cons_append, List.cons.injEq] at h
      exact absurd h.1 (fun e => ha (by simp [e]))
  | x :: a, y :: b, r, r', h, ha, hb, hr, hr' => by
    simp only [List.cons_append, List.cons.injEq] at h
    simp only [List.mem_cons, not_or] at ha hb
    obtain ⟨h1, h2⟩ := split_word h.2 ha.2 hb.2 hr hr'
    exact ⟨by rw [h.1, h1], h2⟩

/-- an optional segment with fixed text -/
def opt (b : Bool) (c : Char) (lit : Str) : Str := if b then ' ' :: c :: lit else []

theorem opt_inj {b b' : Bool} {c : Char} {lit r r' : Str} (h : opt b c lit ++ r = opt b' c lit ++ r')
    (hr : NotSeg c r) (hr' : NotSeg c r') : b = b' ∧ r = r' := by
  cases b <;> cases b' <;> simp [opt] at h ⊢
  · exact h
  · exact absurd h (hr _)
  · exact absurd h.symm (hr' _)
  · exact h

/-- the DEFAULT segment -/
def dflt (d : Option Str) : Str :=
  match d with
  | none => []
  | some d => if isNumeric d then py" DEFAULT " ++ d else py" DEFAULT '" ++ d ++ py"'"

theorem isNumeric_noSpace {d : Str} (h : isNumeric d = true) : ' ' ∉ d := by
  simp only [isNumeric, Bool.and_eq_true, List.all_eq_true] at h
  intro hs
  have := h.2 _ hs
  simp [isDigit] at this

theorem isNumeric_noQuote {d : Str} (h : isNumeric d = true) : ∀ r r', d ++ r ≠ '\'' :: r' := by
  intro r r' e
  cases d with
  | nil => simp [isNumeric] at h
  | cons x d =>
    simp only [List.cons_append, List.cons.injEq] at e
    simp only [isNumeric, Bool.and_eq_true, List.all_eq_true] at h
    have := h.2 x (by simp)
    rw [e.1] at this
    simp [isDigit] at this

theorem dflt_inj {d d' : Option Str} {r r' : Str} (h : dflt d ++ r = dflt d' ++ r')
    (hd : ∀ x, d = some x → '\'' ∉ x) (hd' : ∀ x, d' = some x → '\'' ∉ x)
    (hr : NotSeg 'D' r) (hr' : NotSeg 'D' r') (sr : Seg r) (sr' : Seg r') : d = d' ∧ r = r' := by
  cases d with
  | none =>
    cases d' with
    | none => simpa [dflt] using h
    | some y =>
      by_cases n : isNumeric y = true <;> simp [dflt, n] at h <;> exact absurd h (hr _)
  | some x =>
    cases d' with
    | none => by_cases n : isNumeric x = true <;> simp [dflt, n] at h <;> exact absurd h.symm (hr' _)
    | some y =>
      by_cases n : isNumeric x = true <;> by_cases m : isNumeric y = true <;> simp [dflt, n, m] at h
      · obtain ⟨h1, h2⟩ := split_word h (isNumeric_noSpace n) (isNumeric_noSpace m) sr sr'
        exact ⟨by rw [h1], h2⟩
      · exact absurd h (isNumeric_noQuote n _ _)
      · exact absurd h.symm (isNumeric_noQuote m _ _)
      · obtain ⟨h1, h2⟩ := split_at h (hd x rfl) (hd' y rfl)
        exact ⟨by rw [h1], h2⟩

/-- an attribute segment with a quoted value -/
def attr (c : Char) (lit : Str) (v : Option Str) : Str :=
  match v with
  | none => []
  | some v => ' ' :: 'C' :: c :: lit ++ '\'' :: (v ++ py"'")

/-- does not continue with a space, a `C` and `c` -/
def NotAttr (c : Char) (r : Str) : Prop := ∀ r', r ≠ ' ' :: 'C' :: c :: r'

theorem attr_inj {c : Char} {lit : Str} {v v' : Option Str} {r r' : Str} (h : attr c lit v ++ r = attr c lit v' ++ r')
    (hv : ∀ x, v = some x → '\'' ∉ x) (hv' : ∀ x, v' = some x → '\'' ∉ x)
    (hr : NotAttr c r) (hr' : NotAttr c r') : v = v' ∧ r = r' := by
  cases v with
  | none =>
    cases v' with
    | none => simpa [attr] using h
    | some y => simp [attr] at h; exact absurd h (hr _)
  | some x =>
    cases v' with
    | none => simp [attr] at h; exact absurd h.symm (hr' _)
    | some y =>
      simp [attr] at h
      obtain ⟨h1, h2⟩ := split_at h (hv x rfl) (hv' y rfl)
      exact ⟨by rw [h1], h2⟩

/-- the type and its length -/
def typePart (c : Column) : Str := c.columnType ++ (if c.shownLen = [] then [] else '(' :: (c.shownLen ++ py")"))

/-- the character set that is printed -/
def shownCharset (c : Column) : Option Str := if c.isStringClass then c.characterSet else none

/-- the collation that is printed -/
def shownCollate (c : Column) : Option Str := if c.isStringClass then c.collate else none

/-- everything after the type -/
def rest (c : Column) : Str :=
  opt c.isUnsigned 'U' py"NSIGNED" ++ (opt (!c.null) 'N' py"OT NULL" ++ (dflt c.default ++
    (opt c.isAutoInc 'A' py"UTO_INCREMENT" ++ (attr 'H' py"ARACTER SET " c.shownCharset ++ attr 'O' py"LLATE " c.shownCollate))))

theorem nonEmpty_upper {o : Option Str} (h : ∀ d, o = some d → d ≠ [] ∧ '\'' ∉ d) : nonEmpty (o.map upper) = o.map upper := by
  cases o with
  | none => rfl
  | some d =>
    cases d with
    | nil => exact absurd rfl (h [] rfl).1
    | cons x d => simp [nonEmpty, upper]

theorem render_eq {c : Column} (h : c.Tidy) : c.render = '`' :: (c.name ++ '`' :: ' ' :: (c.typePart ++ c.rest)) := by
  have hcs := nonEmpty_upper h.cset
  have hco := nonEmpty_upper h.coll
  have hen : c.typeString = c.typePart := by
    unfold typeString typePart
    rw [h.noEnum]
    simp only
    rcases h.len with hl | ⟨l, hl, _⟩
    · simp [hl, shownLen]
    · cases l with
      | nil => simp [hl, shownLen]
      | cons x l => simp [hl, shownLen, Len.format]
  have key : join py" " c.parts = '`' :: (c.name ++ '`' :: ' ' :: (c.typePart ++
      (opt c.isUnsigned 'U' py"NSIGNED" ++ (opt (!c.null) 'N' py"OT NULL" ++ (dflt c.default ++ opt c.isAutoInc 'A' py"UTO_INCREMENT"))))) := by
    unfold parts
    rw [hen]
    unfold defaultParts
    cases hu : c.isUnsigned <;> cases hn : c.null <;> cases ha : c.isAutoInc <;>
      (cases hd : c.default with
       | none => simp [opt, dflt, join]
       | some d =>
         cases d with
         | nil => simp [opt, dflt, join, isNumeric]
         | cons x d => by_cases hnum : isNumeric (x :: d) = true <;> simp [opt, dflt, join, hnum])
  unfold render rest
  simp only [key]
  cases hc : c.cls
  · simp [shownCharset, shownCollate, isStringClass, hc, attr]
  · simp [shownCharset, shownCollate, isStringClass, hc, attr]
  · simp only [shownCharset, shownCollate, isStringClass, hc, characterSet, collate, hcs, hco]
    cases c.charset <;> cases c.collation <;> simp [attr]
  · simp only [shownCharset, shownCollate, isStringClass, hc, characterSet, collate, hcs, hco]
    cases c.charset <;> cases c.collation <;> simp [attr]

theorem seg_opt {b : Bool} {c : Char} {lit r : Str} (h : Seg r) : Seg (opt b c lit ++ r) := by
  cases b
  · simpa [opt] using h
  · simp [opt, Seg]

theorem seg_dflt {d : Option Str} {r : Str} (h : Seg r) : Seg (dflt d ++ r) := by
  cases d with
  | none => simpa [dflt] using h
  | some x => by_cases n : isNumeric x = true <;> simp [dflt, n, Seg]

theorem seg_attr {c : Char} {lit : Str} {v : Option Str} {r : Str} (h : Seg r) : Seg (attr c lit v ++ r) := by
  cases v with
  | none => simpa [attr] using h
  | some x => simp [attr, Seg]

theorem seg_attrs {c d : Char} {l l' : Str} {v w : Option Str} : Seg (attr c l v ++ attr d l' w) := by
  apply seg_attr
  cases w <;> simp [attr, Seg]

theorem notSeg_attrs {x : Char} (hx : x ≠ 'C') {c d : Char} {l l' : Str} {v w : Option Str} : NotSeg x (attr c l v ++ attr d l' w) := by
  intro r'
  cases v <;> cases w <;> simp [attr] <;> intro h <;> exact absurd h.symm hx

theorem notSeg_opt {x c : Char} (hx : x ≠ c) {b : Bool} {lit r : Str} (h : NotSeg x r) : NotSeg x (opt b c lit ++ r) := by
  intro r'
  cases b
  · simpa [opt] using h r'
  · simp [opt]; intro e; exact absurd e.symm hx

theorem notSeg_dflt {x : Char} (hx : x ≠ 'D') {d : Option Str} {r : Str} (h : NotSeg x r) : NotSeg x (dflt d ++ r) := by
  intro r'
  cases d with
  | none => simpa [dflt] using h r'
  | some y => by_cases n : isNumeric y = true <;> simp [dflt, n] <;> intro e <;> exact absurd e.symm hx

theorem upper_noQuote {s : Str} (h : '\'' ∉ s) : '\'' ∉ upper s := by
  intro hm
  simp only [upper, List.mem_map] at hm
  obtain ⟨x, hx, e⟩ := hm
  have : x ≠ '\'' := fun e' => h (e' ▸ hx)
  exact this (toUpper_eq (.inl (by decide)) e)

theorem shown_noQuote {o : Option Str} {b : Bool} (h : ∀ d, o = some d → d ≠ [] ∧ '\'' ∉ d) :
    ∀ x, (if b = true then o.map upper else none) = some x → '\'' ∉ x := by
  intro x hx
  cases b
  · simp at hx
  · cases o with
    | none => simp at hx
    | some d =>
      simp at hx
      rw [← hx]
      exact upper_noQuote (h d rfl).2

theorem rest_seg (c : Column) : Seg c.rest :=
  seg_opt (seg_opt (seg_dflt (seg_opt seg_attrs)))

theorem rest_inj {a b : Column} (ha : a.Tidy) (hb : b.Tidy) (h : a.rest = b.rest) :
    a.isUnsigned = b.isUnsigned ∧ a.null = b.null ∧ a.default = b.default ∧ a.isAutoInc = b.isAutoInc ∧
    a.shownCharset = b.shownCharset ∧ a.shownCollate = b.shownCollate := by
  unfold rest at h
  have nA : ∀ c : Column, NotSeg 'A' (attr 'H' py"ARACTER SET " c.shownCharset ++ attr 'O' py"LLATE " c.shownCollate) :=
    fun c => notSeg_attrs (by decide)
  have nD : ∀ c : Column, NotSeg 'D' (opt c.isAutoInc 'A' py"UTO_INCREMENT" ++ (attr 'H' py"ARACTER SET " c.shownCharset ++ attr 'O' py"LLATE " c.shownCollate)) :=
    fun c => notSeg_opt (by decide) (notSeg_attrs (by decide))
  have nN : ∀ c : Column, NotSeg 'N' (dflt c.default ++ (opt c.isAutoInc 'A' py"UTO_INCREMENT" ++ (attr 'H' py"ARACTER SET " c.shownCharset ++ attr 'O' py"LLATE " c.shownCollate))) :=
    fun c => notSeg_dflt (by decide) (notSeg_opt (by decide) (notSeg_attrs (by decide)))
  have nU : ∀ c : Column, NotSeg 'U' (opt (!c.null) 'N' py"OT NULL" ++ (dflt c.default ++ (opt c.isAutoInc 'A' py"UTO_INCREMENT" ++ (attr 'H' py"ARACTER SET " c.shownCharset ++ attr 'O' py"LLATE " c.shownCollate)))) :=
    fun c => notSeg_opt (by decide) (notSeg_dflt (by decide) (notSeg_opt (by decide) (notSeg_attrs (by decide))))
  obtain ⟨h1, h⟩ := opt_inj h (nU a) (nU b)
  obtain ⟨h2, h⟩ := opt_inj h (nN a) (nN b)
  obtain ⟨h3, h⟩ := dflt_inj h ha.dflt hb.dflt (nD a) (nD b) (seg_opt seg_attrs) (seg_opt seg_attrs)
  obtain ⟨h4, h⟩ := opt_inj h (nA a) (nA b)
  have nH : ∀ v, NotAttr 'H' (attr 'O' py"LLATE " v) := by
    intro v r'; cases v <;> simp [attr]
  obtain ⟨h5, h⟩ := attr_inj h (shown_noQuote ha.cset) (shown_noQuote hb.cset) (nH _) (nH _)
  have h6 := (attr_inj (v := a.shownCollate) (v' := b.shownCollate) (r := []) (r' := []) (by simpa using h) (shown_noQuote ha.coll) (shown_noQuote hb.coll)
    (by intro r'; simp) (by intro r'; simp)).1
  exact ⟨h1, by simpa using h2, h3, h4, h5, h6⟩

theorem upper_word {s : Str} (h : ∀ x ∈ s, isWord x = true) : ∀ x ∈ upper s, x ≠ ' ' ∧ x ≠ '(' := by
  intro x hx
  simp only [upper, List.mem_map] at hx
  obtain ⟨y, hy, e⟩ := hx
  have hw := h y hy
  subst e
  constructor <;> intro e <;>
  · have := toUpper_eq (.inl (by decide)) e
    subst this
    simp [isWord, isDigit] at hw

theorem shownLen_chars {c : Column} (h : c.Tidy) : ∀ x ∈ c.shownLen, x ≠ ' ' := by
  intro x hx e
  subst e
  rcases h.len with hl | ⟨l, hl, hd⟩
  · simp [shownLen, hl] at hx
  · simp only [shownLen, hl] at hx
    have := hd _ hx
    simp [isDigit] at this

theorem typePart_noSpace {c : Column} (h : c.Tidy) : ' ' ∉ c.typePart := by
  unfold typePart
  intro hm
  rcases List.mem_append.mp hm with hm | hm
  · exact (upper_word h.ctype _ hm).1 rfl
  · by_cases hl : c.shownLen = []
    · simp [hl] at hm
    · simp [hl] at hm
      exact shownLen_chars h _ hm rfl

theorem typePart_inj {a b : Column} (ha : a.Tidy) (hb : b.Tidy) (h : a.typePart = b.typePart) :
    a.columnType = b.columnType ∧ a.shownLen = b.shownLen := by
  unfold typePart at h
  have na : '(' ∉ a.columnType := fun hm => (upper_word ha.ctype _ hm).2 rfl
  have nb : '(' ∉ b.columnType := fun hm => (upper_word hb.ctype _ hm).2 rfl
  by_cases la : a.shownLen = [] <;> by_cases lb : b.shownLen = [] <;> simp only [la, lb, if_true, if_false, List.append_nil] at h
  · exact ⟨h, by rw [la, lb]⟩
  · exact absurd (h ▸ List.mem_append_right _ (List.mem_cons_self)) na
  · exact absurd (h ▸ List.mem_append_right _ (List.mem_cons_self)) nb
  · obtain ⟨h1, h2⟩ := split_at h na nb
    exact ⟨h1, List.append_cancel_right h2⟩

/-- The text of a tidy column determines everything it shows. -/
theorem render_inj {a b : Column} (ha : a.Tidy) (hb : b.Tidy) (h : a.render = b.render) :
    a.name = b.name ∧ a.columnType = b.columnType ∧ a.shownLen = b.shownLen ∧
    a.isUnsigned = b.isUnsigned ∧ a.null = b.null ∧ a.default = b.default ∧ a.isAutoInc = b.isAutoInc ∧
    a.shownCharset = b.shownCharset ∧ a.shownCollate = b.shownCollate := by
  rw [render_eq ha, render_eq hb] at h
  simp only [List.cons.injEq, true_and] at h
  obtain ⟨h1, h⟩ := split_at h ha.name hb.name
  simp only [List.cons.injEq, true_and] at h
  obtain ⟨h2, h⟩ := split_word h (typePart_noSpace ha) (typePart_noSpace hb) (rest_seg a) (rest_seg b)
  obtain ⟨h3, h4⟩ := typePart_inj ha hb h2
  exact ⟨h1, h3, h4, rest_inj ha hb h⟩

end Column
end Mygrations

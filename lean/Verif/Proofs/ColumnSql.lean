import Verif.Proofs.Lexes
import Verif.Proofs.ReadDefs
import Verif.Spec.Meaning

/-!
# How MySQL reads a column, in whatever style it is written
-/

namespace Mygrations
open Sql

/-! ## Words -/

theorem wordChar_of_isWord {c : Char} (h : isWord c = true) : wordChar c = true := by simp [wordChar, h]

theorem lexes_ofWord {s : Str} (hne : s ≠ []) (h : ∀ c ∈ s, isWord c = true) : Lexes s [.word s] :=
  lexes_word hne (fun c hc => wordChar_of_isWord (h c hc))

theorem spelled_isWord {a b : Str} (h : Spelled a b) (ha : ∀ c ∈ a, isWord c = true) : ∀ c ∈ b, isWord c = true := by
  intro c hc
  obtain ⟨d, hd, e⟩ := h.mem hc
  rw [← toLower_word, ← e, toLower_word]
  exact ha d hd

theorem spelled_ne {a b : Str} (h : Spelled a b) (ha : a ≠ []) : b ≠ [] := by
  intro e
  subst e
  have := h.length
  exact ha (List.length_eq_zero_iff.mp this.symm)

theorem lexes_spelled {a b : Str} (h : Spelled a b) (hne : a ≠ []) (ha : ∀ c ∈ a, isWord c = true) : Lexes b [.word b] :=
  lexes_ofWord (spelled_ne h hne) (spelled_isWord h ha)

theorem ascii_blank : ∀ n : Fin 128, (Char.ofNat n).toLower = ' ' → Char.ofNat n = ' ' := by decide +kernel

theorem toLower_blank {c : Char} (h : c.toLower = ' ') : c = ' ' := by
  rcases toLower_range c with e | e
  · rw [← e, h]
  · rw [h] at e
    exact absurd e.1 (by decide)

/-- a keyword of two words -/
theorem spelled_two {a b x : Str} (h : Spelled (a ++ ' ' :: b) x) : ∃ a' b', x = a' ++ ' ' :: b' ∧ Spelled a a' ∧ Spelled b b' := by
  have h' : x.map Char.toLower = a.map Char.toLower ++ ' ' :: b.map Char.toLower := by
    have : lower x = lower (a ++ ' ' :: b) := h
    simpa [lower] using this
  obtain ⟨a', r, rfl, ha, hr⟩ := List.map_eq_append_iff.mp h'
  obtain ⟨c, b', rfl, hc, hb⟩ := List.map_eq_cons_iff.mp hr
  exact ⟨a', b', by rw [toLower_blank hc], ha, hb⟩

theorem goes_two {a b x : Str} (h : Spelled (a ++ ' ' :: b) x) (hane : a ≠ []) (hbne : b ≠ []) (ha : ∀ c ∈ a, isWord c = true)
    (hb : ∀ c ∈ b, isWord c = true) : ∃ a' b', Lexes x [.word a', .word b'] ∧ upper a' = upper a ∧ upper b' = upper b := by
  obtain ⟨a', b', rfl, h1, h2⟩ := spelled_two h
  exact ⟨a', b', (lexes_spelled h1 hane ha).append (goes_space (lexes_spelled h2 hbne hb)), h1.upper, h2.upper⟩

/-! ## Groups of attributes -/

/-- Words in upper case with which the tail of a type starts. -/
def typeWords : List Str := [py"UNSIGNED", py"CHARACTER"]

/-- The tokens start with a word which does not belong to the type, or there are none. -/
def Attr (ts : List Tok) : Prop := ts = [] ∨ ∃ w r, ts = .word w :: r ∧ upper w ∉ typeWords

theorem attr_nil : Attr [] := .inl rfl

theorem Attr.append {a b : List Tok} (ha : Attr a) (hb : Attr b) : Attr (a ++ b) := by
  rcases ha with rfl | ⟨w, r, rfl, h⟩
  · exact hb
  · exact .inr ⟨w, r ++ b, rfl, h⟩

theorem Attr.typeTail {ts : List Tok} (h : Attr ts) (x : ColumnSql) : typeTail x ts = some (x, ts) := by
  rcases h with rfl | ⟨w, r, rfl, h⟩
  · rfl
  · have h1 : upper w ≠ py"UNSIGNED" := fun e => h (by rw [e]; decide)
    have h2 : upper w ≠ py"CHARACTER" := fun e => h (by rw [e]; decide)
    simp only [Sql.typeTail, h1, h2, if_false]

/-- The default as it is written. -/
def Column.defaultIn (c : Column) (s : Style) : Option DefaultSql :=
  match c.default with
  | none => if s.nullDefault then some .null else none
  | some v => some (if s.bare v then (if isNumeric v then .number v else .keyword py"CURRENT_TIMESTAMP") else .text v)

/-- A word comes first, if anything. -/
def Words (ts : List Tok) : Prop := ts = [] ∨ ∃ w r, ts = .word w :: r

theorem Attr.word {ts : List Tok} (h : Attr ts) : Words ts := by
  rcases h with h | ⟨w, r, h, _⟩
  · exact .inl h
  · exact .inr ⟨w, r, h⟩

theorem Words.append {a b : List Tok} (ha : Words a) (hb : Words b) : Words (a ++ b) := by
  rcases ha with rfl | ⟨w, r, rfl⟩
  · exact hb
  · exact .inr ⟨w, r ++ b, rfl⟩

/-- No symbols. -/
def NoSym (ts : List Tok) : Prop := ∀ t ∈ ts, ∀ c, t ≠ .sym c

theorem NoSym.append {a b : List Tok} (ha : NoSym a) (hb : NoSym b) : NoSym (a ++ b) := by
  intro t ht
  rcases List.mem_append.mp ht with h | h
  · exact ha t h
  · exact hb t h

theorem noSym_nil : NoSym [] := nofun

theorem noSym_cons {t : Tok} {ts : List Tok} (h : ∀ c, t ≠ .sym c) (hs : NoSym ts) : NoSym (t :: ts) := by
  intro u hu
  rcases List.mem_cons.mp hu with rfl | hu
  · exact h
  · exact hs u hu

theorem noSym_value (q : Bool) (w : Str) : ∀ c, (if q then Tok.str w else .word w) ≠ .sym c := by
  intro c
  cases q <;> nofun

/-! ## Parts between commas -/

theorem parts_ne : ∀ (ts : List Tok) (d : Nat), (parts d ts).1 ≠ []
  | [], _ => by simp [parts]
  | t :: ts, d => by
    unfold parts
    repeat' split
    all_goals simp_all [push]

/-- Put tokens in front of the first part. -/
def pushAll (ts : List Tok) (x : List (List Tok) × List Tok) : List (List Tok) × List Tok := ((ts ++ x.1.headD []) :: x.1.tail, x.2)

/-- The tokens belong to one part. -/
def Flat (ts : List Tok) : Prop := ∀ r, parts 0 (ts ++ r) = pushAll ts (parts 0 r)

theorem pushAll_nil {x : List (List Tok) × List Tok} (h : x.1 ≠ []) : pushAll [] x = x := by
  obtain ⟨a, b⟩ := x
  cases a with
  | nil => exact absurd rfl h
  | cons y ys => rfl

theorem pushAll_append (a b : List Tok) (x : List (List Tok) × List Tok) : pushAll (a ++ b) x = pushAll a (pushAll b x) := by
  simp [pushAll]

theorem flat_nil : Flat [] := fun r => (pushAll_nil (parts_ne r 0)).symm

theorem Flat.append {a b : List Tok} (ha : Flat a) (hb : Flat b) : Flat (a ++ b) := by
  intro r
  rw [List.append_assoc, ha, hb, pushAll_append]

theorem parts_other (d : Nat) {t : Tok} (h : ∀ c, t ≠ .sym c) (r : List Tok) : parts d (t :: r) = push t (parts d r) := by
  cases t with
  | sym c => exact absurd rfl (h c)
  | _ => rfl

theorem flat_noSym : ∀ {ts : List Tok}, NoSym ts → Flat ts
  | [], _ => flat_nil
  | t :: ts, h => by
    intro r
    rw [List.cons_append, parts_other 0 (h t List.mem_cons_self), flat_noSym (fun u hu => h u (List.mem_cons_of_mem _ hu)) r]
    rfl

theorem parts_inner {d : Nat} : ∀ {i : List Tok}, (∀ t ∈ i, t ≠ .sym '(' ∧ t ≠ .sym ')') → ∀ r, parts (d + 1) (i ++ r) = pushAll i (parts (d + 1) r)
  | [], _, r => (pushAll_nil (parts_ne r (d + 1))).symm
  | t :: i, h, r => by
    have ih := parts_inner (d := d) (fun u hu => h u (List.mem_cons_of_mem _ hu)) r
    have ht := h t List.mem_cons_self
    cases t with
    | sym c =>
      have h1 : c ≠ '(' := fun e => ht.1 (by rw [e])
      have h2 : c ≠ ')' := fun e => ht.2 (by rw [e])
      rw [List.cons_append, parts]
      simp only [h1, h2, if_false, Nat.succ_ne_zero, false_and, ih]
      rfl
    | word s => rw [List.cons_append, parts_other _ (by simp), ih]; rfl
    | ident s => rw [List.cons_append, parts_other _ (by simp), ih]; rfl
    | str s => rw [List.cons_append, parts_other _ (by simp), ih]; rfl

theorem flat_paren {i : List Tok} (h : ∀ t ∈ i, t ≠ .sym '(' ∧ t ≠ .sym ')') : Flat (.sym '(' :: (i ++ [.sym ')'])) := by
  intro r
  rw [List.cons_append, List.append_assoc, parts]
  simp only [if_true, Nat.zero_add]
  rw [parts_inner (d := 0) h]
  simp only [List.cons_append, List.nil_append]
  rw [parts]
  simp [push, pushAll]

/-- A text which sets attributes. -/
def Sets (t : Str) (ok : ColumnSql → Prop) (f : ColumnSql → ColumnSql) : Prop :=
  ∃ tt, Goes t tt ∧ (Attr tt ∧ (tt = [] → t = []) ∧ NoSym tt) ∧ ∀ x r, Words r → ok x → attributes x (tt ++ r) = attributes (f x) r

theorem sets_nil {ok : ColumnSql → Prop} {f : ColumnSql → ColumnSql} (h : ∀ x, ok x → f x = x) : Sets [] ok f :=
  ⟨[], goes_nil, ⟨attr_nil, fun _ => rfl, noSym_nil⟩, fun x r _ hx => by rw [h x hx]; rfl⟩

theorem Sets.append {a b : Str} {oka okb : ColumnSql → Prop} {f g : ColumnSql → ColumnSql} (ha : Sets a oka f) (hb : Sets b okb g)
    (h : ∀ x, oka x → okb x → okb (f x)) : Sets (a ++ b) (fun x => oka x ∧ okb x) (fun x => g (f x)) := by
  obtain ⟨ta, h1, h2, h3⟩ := ha
  obtain ⟨tb, h4, h5, h6⟩ := hb
  refine ⟨ta ++ tb, h1.append h4, ⟨h2.1.append h5.1, ?_, h2.2.2.append h5.2.2⟩, ?_⟩
  · intro h
    rw [List.append_eq_nil_iff] at h
    rw [h2.2.1 h.1, h5.2.1 h.2]
    rfl
  intro x r hr hx
  rw [List.append_assoc, h3 x _ (h5.1.word.append hr) hx.1, h6 _ r hr (h x hx.1 hx.2)]

theorem word_NOT : ∀ c ∈ py"NOT", isWord c = true := by decide
theorem word_NULL : ∀ c ∈ py"NULL", isWord c = true := by decide

theorem attributes_null (x : ColumnSql) {w : Str} (h : upper w = py"NULL") (r : List Tok) :
    attributes x (.word w :: r) = attributes { x with notNull := false } r := by
  rw [attributes.eq_def]; simp [h]

theorem attributes_notNull (x : ColumnSql) {w v : Str} (h : upper w = py"NOT") (h' : upper v = py"NULL") (r : List Tok) :
    attributes x (.word w :: .word v :: r) = attributes { x with notNull := true } r := by
  rw [attributes.eq_def]; simp [h, h']

theorem attributes_autoInc (x : ColumnSql) {w : Str} (h : upper w = py"AUTO_INCREMENT") (r : List Tok) :
    attributes x (.word w :: r) = attributes { x with autoInc := true } r := by
  rw [attributes.eq_def]; simp [h]

theorem attributes_collate (x : ColumnSql) {w : Str} (h : upper w = py"COLLATE") (v : Str) (r : List Tok) :
    attributes x (.word w :: .word v :: r) = attributes { x with collate := some (upper v) } r ∧
    attributes x (.word w :: .str v :: r) = attributes { x with collate := some (upper v) } r := by
  constructor <;> (rw [attributes.eq_def]; simp [h])

theorem attributes_text (x : ColumnSql) {w : Str} (h : upper w = py"DEFAULT") (v : Str) (r : List Tok) :
    attributes x (.word w :: .str v :: r) = attributes { x with default := some (.text v) } r := by
  rw [attributes.eq_def]; simp [h]

theorem attributes_word (x : ColumnSql) {w v : Str} (h : upper w = py"DEFAULT") {d : DefaultSql} (hd : wordDefault v = some d) {r : List Tok}
    (hr : Words r) : attributes x (.word w :: .word v :: r) = attributes { x with default := some d } r := by
  rw [attributes.eq_def]
  rcases hr with rfl | ⟨u, t, rfl⟩ <;> simp [h, hd]

theorem sets_null (c : Column) {s : Style} (hs : ∀ w, lower (s.spell w) = lower w) :
    Sets (if !c.null then py" " ++ s.spell py"NOT NULL" else if s.null then py" " ++ s.spell py"NULL" else []) (fun x => x.notNull = false)
      (fun x => { x with notNull := !c.null }) := by
  cases hn : c.null with
  | false =>
    obtain ⟨a, b, h1, h2, h3⟩ := goes_two (a := py"NOT") (b := py"NULL") (hs py"NOT NULL") (by decide) (by decide) (by decide) (by decide)
    have ha : upper a = py"NOT" := h2
    refine ⟨[.word a, .word b], goes_space h1, ⟨.inr ⟨a, [.word b], rfl, by rw [ha]; decide⟩, nofun, noSym_cons (by simp) (noSym_cons (by simp) noSym_nil)⟩, ?_⟩
    intro x r _ _
    exact attributes_notNull x ha h3 r
  | true =>
    cases hsn : s.null with
    | false => exact sets_nil (fun x hx => by cases x; simp_all)
    | true =>
      have h1 : Spelled py"NULL" (s.spell py"NULL") := hs _
      have hu : upper (s.spell py"NULL") = py"NULL" := h1.upper
      refine ⟨[.word (s.spell py"NULL")], goes_space (lexes_spelled h1 (by decide) (by decide)), ⟨.inr ⟨_, [], rfl, by rw [hu]; decide⟩, nofun, noSym_cons (by simp) noSym_nil⟩, ?_⟩
      intro x r _ _
      exact attributes_null x hu r

theorem sets_autoInc (c : Column) {s : Style} (hs : ∀ w, lower (s.spell w) = lower w) :
    Sets (if c.isAutoInc then py" " ++ s.spell py"AUTO_INCREMENT" else []) (fun x => x.autoInc = false) (fun x => { x with autoInc := c.isAutoInc }) := by
  cases c.isAutoInc with
  | false => exact sets_nil (fun x hx => by cases x; simp_all)
  | true =>
    have h1 : Spelled py"AUTO_INCREMENT" (s.spell py"AUTO_INCREMENT") := hs _
    have hu : upper (s.spell py"AUTO_INCREMENT") = py"AUTO_INCREMENT" := h1.upper
    refine ⟨[.word (s.spell py"AUTO_INCREMENT")], goes_space (lexes_spelled h1 (by decide) (by decide)), ⟨.inr ⟨_, [], rfl, by rw [hu]; decide⟩, nofun, noSym_cons (by simp) noSym_nil⟩, ?_⟩
    intro x r _ _
    exact attributes_autoInc x hu r

theorem bare_noQuote {v : Str} (h : Bare v) : '\'' ∉ v := fun hm => (h _ hm).2.2.2.2.1 rfl

theorem plainDefault_noQuote {b : Bool} {v : Str} (h : PlainDefault b v) : '\'' ∉ v := by
  rcases h with ⟨h, _⟩ | ⟨_, a, c, b, rfl, ha, hc, hb⟩
  · exact bare_noQuote h
  · intro hm
    simp only [List.mem_append, List.mem_cons, List.not_mem_nil, or_false] at hm
    rcases hm with (h | h) | h | h
    · exact bare_noQuote ha h
    · exact absurd h (by decide)
    · subst h; exact absurd hc (by decide)
    · exact bare_noQuote hb h

theorem ident_noQuote {v : Str} (h : Ident v) : '\'' ∉ v ∧ '\\' ∉ v ∧ '`' ∉ v :=
  ⟨fun hm => absurd (h.2 _ hm) (by decide), fun hm => absurd (h.2 _ hm) (by decide), fun hm => absurd (h.2 _ hm) (by decide)⟩

theorem ascii_word_upper : ∀ n : Fin 128, isWord (Char.ofNat n).toUpper = isWord (Char.ofNat n) := by decide +kernel

theorem ascii_digit_upper : ∀ n : Fin 128, isDigit (Char.ofNat n) = true → (Char.ofNat n).toUpper ≠ 'C' := by decide +kernel

theorem toUpper_word (c : Char) : isWord c.toUpper = isWord c := by
  by_cases h : c.toNat < 128
  · have := ascii_word_upper ⟨c.toNat, h⟩
    simpa using this
  · have : c.toUpper = c := by
      unfold Char.toUpper
      apply dif_neg
      rintro ⟨_, h2⟩
      have h2 := UInt32.le_iff_toNat_le.mp h2
      have : c.toNat ≤ 122 := h2
      omega
    rw [this]

theorem digit_upper {c : Char} (h : isDigit c = true) : c.toUpper ≠ 'C' := by
  by_cases h' : c.toNat < 128
  · have := ascii_digit_upper ⟨c.toNat, h'⟩
    simpa [h] using this
  · exfalso
    simp only [isDigit, Bool.and_eq_true, decide_eq_true_eq] at h
    have h2 := UInt32.le_iff_toNat_le.mp h.2
    have : c.toNat ≤ 57 := h2
    omega

theorem upper_isWord {v : Str} (h : ∀ c ∈ upper v, isWord c = true) : ∀ c ∈ v, isWord c = true := by
  intro c hc
  have := h c.toUpper (List.mem_map.mpr ⟨c, hc, rfl⟩)
  rwa [toUpper_word] at this

/-- the way a default is written can be read -/
def DefaultFits (c : Column) (s : Style) : Prop := ∀ v, c.default = some v → s.bare v = true → isNumeric v = true ∨ upper v = py"CURRENT_TIMESTAMP"

theorem sets_default {c : Column} (hc : c.Sound) {s : Style} (hs : ∀ w, lower (s.spell w) = lower w) (hd : DefaultFits c s) :
    Sets (s.default c.default) (fun x => x.default = none) (fun x => { x with default := c.defaultIn s }) := by
  have h1 : Spelled py"DEFAULT" (s.spell py"DEFAULT") := hs _
  have hu : upper (s.spell py"DEFAULT") = py"DEFAULT" := h1.upper
  have hl := lexes_spelled h1 (by decide) (by decide)
  unfold Style.default Column.defaultIn
  cases hcd : c.default with
  | none =>
    cases hn : s.nullDefault with
    | false => exact ⟨[], goes_nil, ⟨attr_nil, fun _ => rfl, noSym_nil⟩, fun x r _ hx => by cases x; simp_all⟩
    | true =>
      have h2 : Spelled py"NULL" (s.spell py"NULL") := hs _
      have hu2 : upper (s.spell py"NULL") = py"NULL" := h2.upper
      refine ⟨[.word (s.spell py"DEFAULT"), .word (s.spell py"NULL")], ?_, ⟨.inr ⟨_, _, rfl, by rw [hu]; decide⟩, nofun, noSym_cons (by simp) (noSym_cons (by simp) noSym_nil)⟩, ?_⟩
      · simp only [if_true, List.append_assoc]
        exact goes_space (hl.append (goes_space (lexes_spelled h2 (by decide) (by decide))))
      · intro x r hr _
        have hnn : isNumeric (s.spell py"NULL") = false := by
          rw [Bool.eq_false_iff]
          intro h
          exact (numeric_not_null h).1 (hs py"NULL")
        exact attributes_word x hu (by simp [wordDefault, hnn, hu2]) hr
  | some v =>
    obtain ⟨shown, _, _, hpd⟩ := hc.plain.len
    cases hb : s.bare v with
    | false =>
      have hq := plainDefault_noQuote (hpd v hcd).1
      refine ⟨[.word (s.spell py"DEFAULT"), .str v], ?_, ⟨.inr ⟨_, _, rfl, by rw [hu]; decide⟩, nofun, noSym_cons (by simp) (noSym_cons (by simp) noSym_nil)⟩, ?_⟩
      · simp only [Style.value, hb, Bool.not_false, if_true, List.append_assoc]
        exact goes_space (hl.append (goes_space (lexes_text hq (hc.default v hcd))))
      · intro x r _ _
        simp only [List.cons_append, List.nil_append]
        rw [attributes_text x hu]
        simp [hb]
    | true =>
      have hw : (∀ c ∈ v, isWord c = true) ∧ v ≠ [] := by
        rcases hd v hcd hb with h | h
        · simp only [isNumeric, Bool.and_eq_true, List.all_eq_true] at h
          refine ⟨fun c hc => ?_, by intro e; subst e; simp at h⟩
          simp [isWord, h.2 c hc]
        · refine ⟨upper_isWord (by rw [h]; decide), by intro e; subst e; exact absurd h (by decide)⟩
      refine ⟨[.word (s.spell py"DEFAULT"), .word v], ?_, ⟨.inr ⟨_, _, rfl, by rw [hu]; decide⟩, nofun, noSym_cons (by simp) (noSym_cons (by simp) noSym_nil)⟩, ?_⟩
      · simp only [Style.value, hb, Bool.not_true, Bool.false_eq_true, if_false, List.append_assoc]
        exact goes_space (hl.append (goes_space (lexes_ofWord hw.2 hw.1)))
      · intro x r hr _
        simp only [List.cons_append, List.nil_append]
        refine attributes_word x hu ?_ hr
        rcases hd v hcd hb with h | h
        · simp [wordDefault, h, hb]
        · have hn : isNumeric v = false := by
            rw [Bool.eq_false_iff]
            intro hn
            obtain ⟨a, as, rfl, hd'⟩ := numeric_digits hn
            have : (upper (a :: as)).head? = some 'C' := by rw [h]; rfl
            simp only [upper, List.map_cons, List.head?_cons, Option.some.injEq] at this
            exact digit_upper hd' this
          simp [wordDefault, hn, h, hb]

/-- a name which may be in quotes -/
theorem lexes_value {v w : Str} (h : Spelled v w) (hi : Ident v) (q : Bool) : Lexes (Style.value q w) [if q then .str w else .word w] := by
  have hw : Ident w := h.ident hi
  cases q with
  | true => exact lexes_text (ident_noQuote hw).1 (ident_noQuote hw).2.1
  | false => exact lexes_ofWord hw.1 hw.2

theorem collate_upper {c : Column} {v : Str} (h : c.collate = some v) : upper v = v := by
  have : (c.collation.map upper) = some v := h
  obtain ⟨w, _, rfl⟩ := Option.map_eq_some_iff.mp this
  exact upper_upper w

theorem charset_upper {c : Column} {v : Str} (h : c.characterSet = some v) : upper v = v := by
  have : (c.charset.map upper) = some v := h
  obtain ⟨w, _, rfl⟩ := Option.map_eq_some_iff.mp this
  exact upper_upper w

theorem sets_collate {c : Column} (hc : c.Sound) {s : Style} (hs : ∀ w, lower (s.spell w) = lower w) :
    Sets (match c.collate with | some v => py" " ++ s.spell py"COLLATE" ++ py" " ++ Style.value s.quotes (s.spell v) | none => [])
      (fun x => x.collate = none) (fun x => { x with collate := c.collate }) := by
  cases h : c.collate with
  | none => exact sets_nil (fun x hx => by cases x; simp_all)
  | some v =>
    have h1 : Spelled py"COLLATE" (s.spell py"COLLATE") := hs _
    have hu : upper (s.spell py"COLLATE") = py"COLLATE" := h1.upper
    have h2 : Spelled v (s.spell v) := hs v
    have hv : upper (s.spell v) = v := h2.upper.trans (collate_upper h)
    refine ⟨[.word (s.spell py"COLLATE"), if s.quotes then .str (s.spell v) else .word (s.spell v)], ?_, ⟨.inr ⟨_, _, rfl, by rw [hu]; decide⟩, nofun, noSym_cons (by simp) (noSym_cons (noSym_value _ _) noSym_nil)⟩, ?_⟩
    · simp only [List.append_assoc]
      exact goes_space ((lexes_spelled h1 (by decide) (by decide)).append (goes_space (lexes_value h2 (hc.collate v h) _)))
    · intro x r _ _
      have := attributes_collate x hu (s.spell v) r
      rw [hv] at this
      cases s.quotes
      · exact this.1
      · exact this.2

/-- `[UNSIGNED] [CHARACTER SET name]` -/
theorem typeTail_text {c : Column} (hc : c.Sound) {s : Style} (hs : ∀ w, lower (s.spell w) = lower w) :
    ∃ tt, Goes ((if c.isUnsigned then py" " ++ s.spell py"UNSIGNED" else []) ++
        (match c.characterSet with | some v => py" " ++ s.spell py"CHARACTER SET" ++ py" " ++ Style.value s.quotes (s.spell v) | none => [])) tt ∧
      ((tt = [] ∨ ∃ w t, tt = .word w :: t) ∧ NoSym tt) ∧
      ∀ x r, Attr r → x.type = c.columnType → x.unsigned = false → x.charset = none →
        typeTail x (tt ++ r) = some ({ x with unsigned := c.isUnsigned, charset := c.characterSet }, r) := by
  cases hcs : c.characterSet with
  | none =>
    cases hu : c.isUnsigned with
    | false =>
      refine ⟨[], goes_nil, ⟨.inl rfl, noSym_nil⟩, ?_⟩
      intro x r hr _ h1 h2
      rw [List.nil_append, hr.typeTail]
      cases x; simp_all
    | true =>
      have h1 : Spelled py"UNSIGNED" (s.spell py"UNSIGNED") := hs _
      have hup : upper (s.spell py"UNSIGNED") = py"UNSIGNED" := h1.upper
      refine ⟨[.word (s.spell py"UNSIGNED")], ?_, ⟨.inr ⟨_, _, rfl⟩, noSym_cons (by simp) noSym_nil⟩, ?_⟩
      · simp only [if_true, List.append_nil]
        exact goes_space (lexes_spelled h1 (by decide) (by decide))
      · intro x r hr ht _ h2
        have := hc.unsigned hu
        simp only [List.cons_append, List.nil_append, Sql.typeTail, hup, if_true]
        rw [ht, if_pos (by simpa using this)]
        cases x; simp_all
  | some v =>
    have hu : c.isUnsigned = false := by
      have h := hc.plain.charset v hcs
      exact (hc.plain.number (by rw [h.1]; decide)).1
    obtain ⟨a, b, h1, h2, h3⟩ := goes_two (a := py"CHARACTER") (b := py"SET") (hs py"CHARACTER SET") (by decide) (by decide) (by decide) (by decide)
    have ha : upper a = py"CHARACTER" := h2
    have hb : upper b = py"SET" := h3
    have hsv : Spelled v (s.spell v) := hs v
    have hv : upper (s.spell v) = v := hsv.upper.trans (charset_upper hcs)
    refine ⟨[.word a, .word b, if s.quotes then .str (s.spell v) else .word (s.spell v)], ?_, ⟨.inr ⟨_, _, rfl⟩, noSym_cons (by simp) (noSym_cons (by simp) (noSym_cons (noSym_value _ _) noSym_nil))⟩, ?_⟩
    · simp only [hu, Bool.false_eq_true, if_false, List.nil_append, List.append_assoc]
      exact goes_space (h1.append (goes_space (lexes_value hsv (hc.charset v hcs).2 _)))
    · intro x r _ ht hux _
      have hm := (hc.charset v hcs).1
      have hne : ¬ py"CHARACTER" = py"UNSIGNED" := by decide
      have hif : charTypes.contains x.type = true := by rw [ht]; simpa using hm
      cases hq : s.quotes
      · simp only [Bool.false_eq_true, if_false, List.cons_append, List.nil_append, Sql.typeTail, ha, hne, if_true, hif, hb, hv, hu]
        cases x; dsimp only at hux; subst hux; rfl
      · simp only [if_true, List.cons_append, List.nil_append, Sql.typeTail, ha, hne, if_false, hif, hb, hv, hu]
        cases x; dsimp only at hux; subst hux; rfl

theorem digits_numeric {d : Str} (h : Digits d) : isNumeric d = true := by
  simp only [isNumeric, Bool.and_eq_true, List.all_eq_true]
  exact ⟨by simpa using h.1, h.2⟩

theorem lexes_digits {d : Str} (h : Digits d) : Lexes d [.word d] :=
  lexes_ofWord h.1 (fun c hc => by simp [isWord, h.2 c hc])

theorem splitOn_none {sep : Char} : ∀ {s : Str}, sep ∉ s → splitOn sep s = [s]
  | [], _ => rfl
  | c :: s, h => by
    have hc : c ≠ sep := fun e => h (by simp [e])
    simp [splitOn, hc, splitOn_none (fun hm => h (List.mem_cons_of_mem _ hm))]

theorem splitOn_two {sep : Char} {b : Str} (hb : sep ∉ b) : ∀ {a : Str}, sep ∉ a → splitOn sep (a ++ sep :: b) = [a, b]
  | [], _ => by simp [splitOn, splitOn_none hb]
  | c :: a, h => by
    have hc : c ≠ sep := fun e => h (by simp [e])
    simp [splitOn, hc, splitOn_two hb (fun hm => h (List.mem_cons_of_mem _ hm))]

theorem digits_noComma {d : Str} (h : Digits d) : ',' ∉ d := fun hm => absurd (h.2 _ hm) (by decide)

/-- what is in parentheses after the type -/
theorem typeArgs_text {c : Column} (hc : c.Sound) :
    ∃ tt, Goes (if c.len = .none ∨ c.len = .str [] then [] else py"(" ++ c.len.format ++ py")") tt ∧
      Flat tt ∧ ∀ r, (r = [] ∨ ∃ w t, r = .word w :: t) → typeArgs c.columnType (tt ++ r) = some (c.len.numbers, [], r) := by
  obtain ⟨counts, h1, h2⟩ := hc.numbers
  have hvt : valueTypes.contains c.columnType = false := by
    have := hc.plain.type
    rw [Bool.eq_false_iff]
    intro h
    have h' : c.columnType = py"ENUM" ∨ c.columnType = py"SET" := by simpa [valueTypes] using h
    cases hcls : c.cls <;> rw [hcls] at this <;> rcases h' with h' | h' <;> rw [h'] at this <;> exact absurd this (by decide)
  have hcount : counts.contains c.len.numbers.length = true := by simpa using h2
  obtain ⟨shown, hl, _, _⟩ := hc.plain.len
  have absent : c.len = .none ∨ c.len = .str [] → ∃ tt, Goes (if c.len = .none ∨ c.len = .str [] then [] else py"(" ++ c.len.format ++ py")") tt ∧
      Flat tt ∧ ∀ r, (r = [] ∨ ∃ w t, r = .word w :: t) → typeArgs c.columnType (tt ++ r) = some (c.len.numbers, [], r) := by
    intro h
    refine ⟨[], by rw [if_pos h]; exact goes_nil, flat_nil, ?_⟩
    intro r hr
    have hn : c.len.numbers = [] := by rcases h with h | h <;> rw [h] <;> rfl
    rw [hn] at hcount ⊢
    simp only [List.nil_append]
    unfold typeArgs
    rw [hvt, h1]
    rcases hr with rfl | ⟨w, t, rfl⟩ <;> simp <;> simpa using hcount
  cases hlen : c.len with
  | none => exact hlen ▸ absent (.inl hlen)
  | list l => rw [hlen] at hl; cases hl
  | str d =>
    by_cases hd : d = []
    · subst hd; exact hlen ▸ absent (.inr hlen)
    · have hif : ¬ (Len.str d = .none ∨ Len.str d = .str []) := by simp [hd]
      rw [hlen] at hl hcount
      cases hl with
      | empty => exact absurd rfl hd
      | one h =>
        have hn : (Len.str shown).numbers = [shown] := by
          cases shown with
          | nil => exact absurd rfl hd
          | cons x xs => simp only [Len.numbers]; exact splitOn_none (digits_noComma h)
        refine ⟨[.sym '(', .word shown, .sym ')'], ?_, flat_paren (i := [.word shown]) (by simp), ?_⟩
        · rw [if_neg hif]
          exact goes_open ((lexes_digits h).append (goes_close lexes_nil))
        · intro r _
          rw [hn] at hcount ⊢
          unfold typeArgs
          rw [hvt, h1]
          simp only [Bool.false_eq_true, if_false, List.cons_append, List.nil_append, numbers, digits_numeric h, if_true, hcount]
      | @two a b ha hb =>
        have hn : (Len.str (a ++ py"," ++ b)).numbers = [a, b] := by
          have : splitOn ',' (a ++ py"," ++ b) = [a, b] := by
            simp only [List.append_assoc, List.singleton_append]
            exact splitOn_two (digits_noComma hb) (digits_noComma ha)
          cases hx : a ++ py"," ++ b with
          | nil => simp at hx
          | cons x xs => rw [hx] at this; simpa only [Len.numbers] using this
        refine ⟨[.sym '(', .word a, .sym ',', .word b, .sym ')'], ?_, flat_paren (i := [.word a, .sym ',', .word b]) (by simp), ?_⟩
        · rw [if_neg hif]
          simp only [Len.format, List.append_assoc]
          exact goes_open ((lexes_digits ha).append (goes_comma ((lexes_digits hb).append (goes_close lexes_nil))))
        · intro r _
          rw [hn] at hcount ⊢
          unfold typeArgs
          rw [hvt, h1]
          simp only [Bool.false_eq_true, if_false, List.cons_append, List.nil_append, numbers, digits_numeric ha, digits_numeric hb, if_true, hcount, Option.map_some]

/-- The character set comes right after the type. -/
def CharsetFits (c : Column) (s : Style) : Prop :=
  s.early = true ∨ (c.characterSet ≠ none → c.null = true ∧ c.default = none ∧ s.null = false ∧ s.nullDefault = false)

/-- What may follow a column. -/
structure Ends (r : List Tok) : Prop where
  attr : Attr r
  ends : ∀ x, attributes x r = some (x, r)

theorem ends_nil : Ends [] := ⟨attr_nil, fun _ => rfl⟩

theorem ends_word {w : Str} (h : upper w = py"FIRST" ∨ upper w = py"AFTER") (r : List Tok) : Ends (.word w :: r) := by
  refine ⟨.inr ⟨w, r, rfl, by rcases h with h | h <;> rw [h] <;> decide⟩, ?_⟩
  intro x
  rw [attributes.eq_def]
  rcases h with h | h <;> simp [h]

/-- the column as it is written -/
def Column.sqlIn (c : Column) (s : Style) : ColumnSql := { c.sql with default := c.defaultIn s }

theorem nameTok_ident {n : Str} (h : n ≠ []) : nameTok (.ident n) = some n := by simp [nameTok, h]

theorem column_sqlText {c : Column} (hc : c.Sound) {s : Style} (hs : ∀ w, lower (s.spell w) = lower w) {mid : Str} {ok : ColumnSql → Prop}
    {f : ColumnSql → ColumnSql} (hm : Sets mid ok f)
    (hok : ok { name := c.name, type := c.columnType, numbers := c.len.numbers, unsigned := c.isUnsigned, charset := c.characterSet })
    (hf : f { name := c.name, type := c.columnType, numbers := c.len.numbers, unsigned := c.isUnsigned, charset := c.characterSet } = c.sqlIn s) :
    ∃ tt, Lexes (py"`" ++ c.name ++ py"` " ++ s.spell c.columnType ++ (if c.len = .none ∨ c.len = .str [] then [] else py"(" ++ c.len.format ++ py")") ++
        ((if c.isUnsigned then py" " ++ s.spell py"UNSIGNED" else []) ++
          (match c.characterSet with | some v => py" " ++ s.spell py"CHARACTER SET" ++ py" " ++ Style.value s.quotes (s.spell v) | none => [])) ++ mid) tt ∧
      ((∃ t, tt = .ident c.name :: t) ∧ Flat tt) ∧ ∀ rest, Words rest → (mid = [] → Attr rest) → column (tt ++ rest) = attributes (c.sqlIn s) rest := by
  obtain ⟨ht, _, _, hut, _⟩ := type_facts c.cls c.columnType hc.plain.type
  obtain ⟨t1, g1, f1, p1⟩ := typeArgs_text hc
  obtain ⟨t2, g2, w2, p2⟩ := typeTail_text hc hs
  obtain ⟨t3, g3, a3, p3⟩ := hm
  have hsp : Spelled c.columnType (s.spell c.columnType) := hs _
  have hus : upper (s.spell c.columnType) = c.columnType := hsp.upper.trans hut
  refine ⟨[.ident c.name, .word (s.spell c.columnType)] ++ t1 ++ t2 ++ t3, ?_, ⟨⟨_, rfl⟩, ?_⟩, ?_⟩
  · refine Lexes.append (Lexes.append (Lexes.append ?_ g1) g2) g3
    have := (lexes_ident (ident_noQuote hc.plain.name).2.2).append (goes_space (lexes_spelled hsp ht.1 ht.2))
    simpa using this
  · exact ((Flat.append (flat_noSym (noSym_cons (by simp) (noSym_cons (by simp) noSym_nil))) f1).append (flat_noSym w2.2)).append (flat_noSym a3.2.2)
  · intro rest hr hmid
    have ha : Attr (t3 ++ rest) := by
      rcases a3.1 with rfl | ⟨w, r, rfl, hw⟩
      · exact hmid (a3.2.1 rfl)
      · exact .inr ⟨w, r ++ rest, rfl, hw⟩
    simp only [List.append_assoc, List.cons_append, List.nil_append, column, nameTok_ident hc.plain.name.1, hus]
    have hw : (t2 ++ (t3 ++ rest)) = [] ∨ ∃ w t, t2 ++ (t3 ++ rest) = .word w :: t := by
      rcases w2.1 with rfl | ⟨w, t, rfl⟩
      · exact ha.word
      · exact .inr ⟨w, t ++ (t3 ++ rest), rfl⟩
    rw [p1 _ hw]
    simp only
    rw [p2 _ _ ha rfl rfl rfl]
    simp only
    rw [p3 _ _ hr hok, hf]

/-- a column in any style -/
theorem column_written {c : Column} (hc : c.Sound) {s : Style} (hs : ∀ w, lower (s.spell w) = lower w) (hd : DefaultFits c s) (hch : CharsetFits c s) :
    ∃ tt, Lexes (c.written s) tt ∧ ((∃ t, tt = .ident c.name :: t) ∧ Flat tt) ∧ ∀ rest, Ends rest → column (tt ++ rest) = some (c.sqlIn s, rest) := by
  have early : ∃ tt, Lexes (c.written { s with early := true }) tt ∧ ((∃ t, tt = .ident c.name :: t) ∧ Flat tt) ∧
      ∀ rest, Ends rest → column (tt ++ rest) = some (c.sqlIn s, rest) := by
    have hm := ((sets_collate hc hs).append (sets_null c hs) (fun x _ h => h)).append
      ((sets_default hc hs hd).append (sets_autoInc c hs) (fun x _ h => h)) (fun x _ h => h)
    obtain ⟨tt, hl, h, h'⟩ := column_sqlText hc hs hm ⟨⟨rfl, rfl⟩, rfl, rfl⟩ rfl
    refine ⟨tt, ?_, h, fun rest hr => by rw [h' rest hr.attr.word (fun _ => hr.attr), hr.ends]⟩
    refine Eq.mp ?_ hl
    congr 1
    have hsd : ∀ d, Style.default { s with early := true } d = s.default d := fun d => by cases d <;> rfl
    simp only [Column.written, Style.characters, hsd]
    cases c.characterSet <;> cases c.collate <;> simp
  cases he : s.early with
  | true =>
    have hse : { s with early := true } = s := by cases s; simp_all
    rwa [hse] at early
  | false =>
    rcases hch with h | h
    · rw [he] at h; cases h
    · by_cases hcs : c.characterSet = none
      · have hm := ((sets_null c hs).append (sets_default hc hs hd) (fun x _ h => h)).append
          ((sets_autoInc c hs).append (sets_collate hc hs) (fun x _ h => h)) (fun x _ h => h)
        obtain ⟨tt, hl, h, h'⟩ := column_sqlText hc hs hm ⟨⟨rfl, rfl⟩, rfl, rfl⟩ rfl
        refine ⟨tt, ?_, h, fun rest hr => by rw [h' rest hr.attr.word (fun _ => hr.attr), hr.ends]⟩
        refine Eq.mp ?_ hl
        congr 1
        simp only [Column.written, Style.characters, hcs, he]
        cases c.collate <;> simp
      · obtain ⟨h1, h2, h3, h4⟩ := h hcs
        have hna : c.isAutoInc = false := by
          obtain ⟨v, hv⟩ := Option.ne_none_iff_exists'.mp hcs
          exact (hc.plain.number (by rw [(hc.plain.charset v hv).1]; decide)).2
        have : c.written { s with early := true } = c.written s := by
          simp [Column.written, Style.characters, Style.default, he, h1, h2, h3, h4, hna]
        rwa [this] at early

end Mygrations

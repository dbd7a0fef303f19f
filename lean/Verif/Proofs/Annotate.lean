import Verif.Proofs.ReadRows
import Verif.Model.Commands
import Verif.Spec.Annotate

/-! # Reading annotated files -/

namespace Mygrations

/-! ## The pattern of prefixes -/

/-- the parts of a match -/
structure PrefixParts (c : Char) (s kept rest : Str) : Prop where
  start : c = '(' ∨ c = ','
  parts : ∃ blanks t₁ name t₂ digits : Str, (∀ x ∈ blanks, isSpace x = true) ∧ (t₁ = [] ∨ t₁ = py"`") ∧ name ≠ [] ∧ (∀ x ∈ name, isWord x = true) ∧
    (t₂ = [] ∨ t₂ = py"`") ∧ digits ≠ [] ∧ (∀ x ∈ digits, isDigit x = true) ∧ kept = c :: (blanks ++ t₁ ++ name ++ t₂) ∧
    s = c :: (blanks ++ t₁ ++ name ++ t₂ ++ (py"(" ++ digits ++ py")" ++ rest))

theorem word_not_space : ∀ {c : Char}, isWord c = true → isSpace c = false ∧ c ≠ '`' ∧ c ≠ '(' ∧ c ≠ ',' ∧ c ≠ '-' ∧ c ≠ '\n' := by
  intro c h
  have hc : c.toNat < 128 := by
    unfold isWord isDigit at h
    simp only [Bool.or_eq_true, Bool.and_eq_true, decide_eq_true_eq, beq_iff_eq] at h
    rcases h with ((⟨_, h⟩ | ⟨_, h⟩) | ⟨_, h⟩) | rfl
    · have : c.toNat ≤ 'z'.toNat := h
      exact Nat.lt_of_le_of_lt this (by decide)
    · have : c.toNat ≤ 'Z'.toNat := h
      exact Nat.lt_of_le_of_lt this (by decide)
    · have : c.toNat ≤ '9'.toNat := h
      exact Nat.lt_of_le_of_lt this (by decide)
    · decide
  have key : ∀ n : Fin 128, isWord (Char.ofNat n.val) = true → isSpace (Char.ofNat n.val) = false ∧ Char.ofNat n.val ≠ '`' ∧ Char.ofNat n.val ≠ '(' ∧
      Char.ofNat n.val ≠ ',' ∧ Char.ofNat n.val ≠ '-' ∧ Char.ofNat n.val ≠ '\n' := by decide
  have := key ⟨c.toNat, hc⟩
  rw [Char.ofNat_toNat] at this
  exact this h

theorem takeTick (r : Str) : ∃ t : Str, (t = [] ∨ t = py"`") ∧ r.take (if r.head? = some '`' then 1 else 0) = t ∧ r = t ++ r.drop t.length ∧ (t = [] → r.head? ≠ some '`') := by
  cases r with
  | nil => exact ⟨[], .inl rfl, by simp, rfl, by simp⟩
  | cons c cs =>
    by_cases h : c = '`'
    · subst h
      exact ⟨py"`", .inr rfl, by simp, by simp, by simp⟩
    · exact ⟨[], .inl rfl, by simp [h], by simp, by simp [h]⟩

theorem mem_takeWhile_imp {p : Char → Bool} {x : Char} : ∀ {l : Str}, x ∈ l.takeWhile p → p x = true
  | [], h => by cases h
  | c :: cs, h => by
    rw [List.takeWhile_cons] at h
    split at h
    · rename_i hc
      rcases List.mem_cons.mp h with rfl | h
      · exact hc
      · exact mem_takeWhile_imp h
    · cases h

theorem prefixMatch_parts {c : Char} {s kept rest : Str} (h : prefixMatch (c :: s) = some (kept, rest)) : PrefixParts c (c :: s) kept rest := by
  unfold prefixMatch at h
  dsimp only at h
  split at h
  · rename_i hc
    obtain ⟨t₁, h1, h1t, h1s, _⟩ := takeTick (s.dropWhile isSpace)
    simp only [h1t] at h
    obtain ⟨t₂, h2, h2t, h2s, _⟩ := takeTick (((s.dropWhile isSpace).drop t₁.length).dropWhile isWord)
    simp only [h2t] at h
    split at h
    · rename_i r₅ hr₅
      split at h
      · rename_i rest' hrest
        split at h
        · cases h
        · rename_i hne
          rw [not_or] at hne
          simp only [Option.some.injEq, Prod.mk.injEq] at h
          obtain ⟨hk, rfl⟩ := h
          refine ⟨hc, s.takeWhile isSpace, t₁, _, t₂, r₅.takeWhile isDigit, fun x hx => mem_takeWhile_imp hx, h1, hne.1, fun x hx => mem_takeWhile_imp hx, h2,
            hne.2, fun x hx => mem_takeWhile_imp hx, ?_, ?_⟩
          · rw [← hk]; simp
          · have e1 : s = s.takeWhile isSpace ++ s.dropWhile isSpace := (List.takeWhile_append_dropWhile).symm
            have e2 := (List.takeWhile_append_dropWhile (p := isWord) (l := (s.dropWhile isSpace).drop t₁.length)).symm
            have e3 := (List.takeWhile_append_dropWhile (p := isDigit) (l := r₅)).symm
            rw [hrest] at e3
            rw [hr₅] at h2s
            conv => lhs; rw [e1, h1s, e2, h2s, e3]
            simp
      · cases h
    · cases h
  · cases h

theorem prefixMatch_of {c : Char} {s kept rest : Str} (h : PrefixParts c (c :: s) kept rest) : prefixMatch (c :: s) = some (kept, rest) := by
  obtain ⟨hc, bs, t₁, w, t₂, ds, hb, h1, hw, hw', h2, hd, hd', rfl, hs⟩ := h
  rw [List.cons.injEq] at hs
  obtain ⟨_, rfl⟩ := hs
  have e : bs ++ t₁ ++ w ++ t₂ ++ (py"(" ++ ds ++ py")" ++ rest) = bs ++ (t₁ ++ (w ++ (t₂ ++ '(' :: (ds ++ ')' :: rest)))) := by simp
  rw [e]
  obtain ⟨x, w', rfl⟩ := List.exists_cons_of_ne_nil hw
  have hx := word_not_space (hw' x List.mem_cons_self)
  have a1 := takeWhile_append_all (p := isSpace) (a := bs) (b := t₁ ++ (x :: w' ++ (t₂ ++ '(' :: (ds ++ ')' :: rest)))) hb (by
    intro y hy
    rcases h1 with rfl | rfl
    · simp at hy; subst hy; exact hx.1
    · simp at hy; subst hy; decide)
  have a2 := takeWhile_append_all (p := isWord) (a := x :: w') (b := t₂ ++ '(' :: (ds ++ ')' :: rest)) hw' (by
    intro y hy
    rcases h2 with rfl | rfl
    · simp at hy; subst hy; decide
    · simp at hy; subst hy; decide)
  have a3 := takeWhile_append_all (p := isDigit) (a := ds) (b := ')' :: rest) hd' (by
    intro y hy
    simp at hy; subst hy; decide)
  unfold prefixMatch
  dsimp only
  rw [if_pos hc]
  simp only [a1.1, a1.2]
  have b1 : (t₁ ++ (x :: w' ++ (t₂ ++ '(' :: (ds ++ ')' :: rest)))).take (if (t₁ ++ (x :: w' ++ (t₂ ++ '(' :: (ds ++ ')' :: rest)))).head? = some '`' then 1 else 0) = t₁ := by
    rcases h1 with rfl | rfl
    · simp [hx.2.1]
    · simp
  simp only [b1, List.drop_left, a2.1, a2.2]
  have b2 : (t₂ ++ '(' :: (ds ++ ')' :: rest)).take (if (t₂ ++ '(' :: (ds ++ ')' :: rest)).head? = some '`' then 1 else 0) = t₂ := by
    rcases h2 with rfl | rfl
    · simp
    · simp
  simp only [b2, List.drop_left, a3.1, a3.2]
  simp [hd]

/-! ## Lengths alone -/

/-- the additions which are left without comments -/
inductive Lengths : Str → Str → Prop
  | nil : Lengths [] []
  | char {c : Char} {r s : Str} : Lengths r s → Lengths (c :: r) (c :: s)
  | length {c : Char} {mid kept r s : Str} : PrefixParts c (c :: mid) kept r → Lengths r s → Lengths (c :: mid) (kept ++ s)

theorem lengths_chars {s : Str} : ∀ {a r : Str}, (∀ c ∈ a, c ≠ '(' ∧ c ≠ ',') → Lengths (a ++ r) s → ∃ s', s = a ++ s' ∧ Lengths r s' := by
  intro a
  induction a generalizing s with
  | nil => intro r _ h; exact ⟨s, rfl, h⟩
  | cons c a ih =>
    intro r ha h
    have hc := ha c List.mem_cons_self
    cases h with
    | char h =>
      obtain ⟨s', rfl, hs'⟩ := ih (fun x hx => ha x (List.mem_cons_of_mem _ hx)) h
      exact ⟨s', rfl, hs'⟩
    | length hp _ =>
      rcases hp.start with h | h
      · exact absurd h hc.1
      · exact absurd h hc.2

theorem space_plain {c : Char} (h : isSpace c = true) : c ≠ '(' ∧ c ≠ ',' ∧ c ≠ '-' ∧ c ≠ ')' := by
  refine ⟨?_, ?_, ?_, ?_⟩ <;> (rintro rfl; revert h; decide)

theorem head_plain {bs t₁ w t₂ : Str} (hb : ∀ x ∈ bs, isSpace x = true) (h1 : t₁ = [] ∨ t₁ = py"`") (hw : ∀ x ∈ w, isWord x = true) (h2 : t₂ = [] ∨ t₂ = py"`") :
    ∀ c ∈ bs ++ t₁ ++ w ++ t₂, c ≠ '(' ∧ c ≠ ',' ∧ c ≠ '-' ∧ c ≠ ')' := by
  intro c hc
  simp only [List.mem_append] at hc
  rcases hc with ((hc | hc) | hc) | hc
  · exact space_plain (hb c hc)
  · rcases h1 with rfl | rfl
    · cases hc
    · simp at hc; subst hc; decide
  · have h := word_not_space (hw c hc)
    refine ⟨h.2.2.1, h.2.2.2.1, h.2.2.2.2.1, ?_⟩
    rintro rfl
    exact absurd (hw _ hc) (by decide)
  · rcases h2 with rfl | rfl
    · cases hc
    · simp at hc; subst hc; decide

theorem digit_plain {c : Char} (h : isDigit c = true) : c ≠ '(' ∧ c ≠ ',' ∧ c ≠ '-' ∧ c ≠ ')' := by
  refine ⟨?_, ?_, ?_, ?_⟩ <;> (rintro rfl; revert h; decide)

theorem parens_differ {a u ds v : Str} (ha : ')' ∉ a) (hd : '(' ∉ ds) : a ++ '(' :: u ≠ ds ++ ')' :: v := by
  intro h
  rcases List.append_eq_append_iff.mp h with ⟨x, rfl, hx⟩ | ⟨x, rfl, hx⟩
  · cases x with
    | nil => simp at hx
    | cons y ys =>
      simp at hx
      exact hd (by simp [← hx.1])
  · cases x with
    | nil => simp at hx
    | cons y ys =>
      simp at hx
      exact ha (by simp [← hx.1])

/-- no match appears which was not there without the lengths -/
theorem lengths_noMatch {c : Char} {r s : Str} (h : Lengths r s) (hs : prefixMatch (c :: s) = none) : prefixMatch (c :: r) = none := by
  cases hm : prefixMatch (c :: r) with
  | none => rfl
  | some p =>
    exfalso
    obtain ⟨kept, rest⟩ := p
    obtain ⟨hc, bs, t₁, w, t₂, ds, hb, h1, hw, hw', h2, hd, hd', _, hr⟩ := prefixMatch_parts hm
    rw [List.cons.injEq] at hr
    obtain ⟨_, rfl⟩ := hr
    obtain ⟨s', rfl, hs'⟩ := lengths_chars (fun c hc => ⟨(head_plain hb h1 hw' h2 c hc).1, (head_plain hb h1 hw' h2 c hc).2.1⟩) h
    have e : py"(" ++ ds ++ py")" ++ rest = '(' :: (ds ++ ')' :: rest) := by simp
    rw [e] at hs'
    cases hs' with
    | @char _ _ s'' hs'' =>
      have e' : ds ++ ')' :: rest = (ds ++ py")") ++ rest := by simp
      rw [e'] at hs''
      obtain ⟨s₃, rfl, _⟩ := lengths_chars (by
        intro x hx
        rcases List.mem_append.mp hx with hx | hx
        · exact ⟨(digit_plain (hd' x hx)).1, (digit_plain (hd' x hx)).2.1⟩
        · simp at hx; subst hx; decide) hs''
      have : prefixMatch (c :: (bs ++ t₁ ++ w ++ t₂ ++ '(' :: (ds ++ py")" ++ s₃))) = some _ :=
        prefixMatch_of (rest := s₃) ⟨hc, bs, t₁, w, t₂, ds, hb, h1, hw, hw', h2, hd, hd', rfl, by simp⟩
      rw [this] at hs
      cases hs
    | length hp _ =>
      obtain ⟨_, bs', t₁', w', t₂', ds', hb', h1', _, hw'', h2', _, _, _, hr'⟩ := hp
      rw [List.cons.injEq] at hr'
      have e2 : ∀ x, bs' ++ t₁' ++ w' ++ t₂' ++ (py"(" ++ ds' ++ py")" ++ x) = (bs' ++ t₁' ++ w' ++ t₂') ++ '(' :: (ds' ++ ')' :: x) := by simp
      rw [e2] at hr'
      exact parens_differ (fun hx => (head_plain hb' h1' hw'' h2' _ hx).2.2.2 rfl) (fun hx => (digit_plain (hd' _ hx)).1 rfl) hr'.2.symm

theorem noPrefix_suffix : ∀ {a s : Str}, NoPrefix (a ++ s) → NoPrefix s
  | [], _, h => h
  | _ :: _, _, h => noPrefix_suffix h.2

/-- all lengths are removed, and nothing else -/
theorem stripPrefixes_lengths {r s : Str} (h : Lengths r s) : NoPrefix s → ∀ n, r.length ≤ n → stripPrefixes n r = s := by
  induction h with
  | nil =>
    intro _ n _
    cases n <;> rfl
  | @char c r s h ih =>
    intro hs n hn
    obtain ⟨m, rfl⟩ : ∃ m, n = m + 1 := ⟨n - 1, by simp at hn; omega⟩
    simp only [stripPrefixes, lengths_noMatch h hs.1]
    rw [ih hs.2 m (by simpa using hn)]
  | @length c mid kept r s hp h ih =>
    intro hs n hn
    obtain ⟨m, rfl⟩ : ∃ m, n = m + 1 := ⟨n - 1, by simp at hn; omega⟩
    have hm := prefixMatch_of hp
    simp only [stripPrefixes, hm]
    have hl := prefixMatch_length hm
    have hk : 0 < kept.length := by
      obtain ⟨_, bs, t₁, w, t₂, ds, _, _, _, _, _, _, _, rfl, _⟩ := hp
      simp
    rw [ih (noPrefix_suffix hs) m (by simp at hn hl; omega)]

/-! ## Comments -/

theorem stripDashes_line {text : Str} (h : '\n' ∉ text) (r : Str) : stripDashes true (text ++ '\n' :: r) = '\n' :: stripDashes false r := by
  induction text with
  | nil => simp [stripDashes]
  | cons c cs ih =>
    rw [List.mem_cons, not_or] at h
    have : c ≠ '\n' := fun e => h.1 e.symm
    simp [stripDashes, this, ih h.2]

theorem stripDashes_last {text : Str} (h : '\n' ∉ text) : stripDashes true text = [] := by
  induction text with
  | nil => simp [stripDashes]
  | cons c cs ih =>
    rw [List.mem_cons, not_or] at h
    have : c ≠ '\n' := fun e => h.1 e.symm
    simp [stripDashes, this, ih h.2]

theorem stripDashes_char {c : Char} {r : Str} (h : ¬ (c = '-' ∧ r.head? = some '-')) : stripDashes false (c :: r) = c :: stripDashes false r := by
  rw [stripDashes.eq_def]
  split
  · rename_i heq; cases heq
  · rename_i h0 _; cases h0
  · rename_i heq
    cases heq
    exact absurd ⟨rfl, rfl⟩ h
  · rename_i heq
    cases heq
    rfl

theorem stripDashes_plain {r : Str} : ∀ {a : Str}, '-' ∉ a → stripDashes false (a ++ r) = a ++ stripDashes false r
  | [], _ => rfl
  | c :: a, h => by
    rw [List.mem_cons, not_or] at h
    rw [List.cons_append, stripDashes_char (fun hh => h.1 hh.1.symm), stripDashes_plain h.2, List.cons_append]

theorem annotated_lengths {raw clean : Str} (h : Annotated raw clean) : Lengths (stripDashes false raw) clean := by
  induction h with
  | nil => exact .nil
  | @last text ht =>
    show Lengths (stripDashes true text) []
    rw [stripDashes_last ht]
    exact .nil
  | char hc _ ih =>
    rw [stripDashes_char hc]
    exact .char ih
  | @comment text raw clean ht _ ih =>
    have : stripDashes false (py"--" ++ text ++ '\n' :: raw) = stripDashes true (text ++ '\n' :: raw) := rfl
    rw [this, stripDashes_line ht]
    exact .char ih
  | @length c bs t₁ w t₂ ds raw clean hc hb h1 hw hw' h2 hd hd' _ ih =>
    have e : c :: (bs ++ t₁ ++ w ++ t₂ ++ (py"(" ++ ds ++ py")" ++ raw)) = (c :: (bs ++ t₁ ++ w ++ t₂) ++ (py"(" ++ ds ++ py")")) ++ raw := by simp
    have hno : '-' ∉ c :: (bs ++ t₁ ++ w ++ t₂) ++ (py"(" ++ ds ++ py")") := by
      intro hx
      rcases List.mem_append.mp hx with hx | hx
      · rcases List.mem_cons.mp hx with rfl | hx
        · rcases hc with hc | hc <;> cases hc
        · exact (head_plain hb h1 hw' h2 _ hx).2.2.1 rfl
      · simp only [List.mem_append] at hx
        rcases hx with (hx | hx) | hx
        · simp at hx
        · exact (digit_plain (hd' _ hx)).2.2.1 rfl
        · simp at hx
    rw [e, stripDashes_plain hno]
    have := Lengths.length (c := c) (mid := bs ++ t₁ ++ w ++ t₂ ++ (py"(" ++ ds ++ py")" ++ stripDashes false raw))
      (kept := c :: (bs ++ t₁ ++ w ++ t₂)) (r := stripDashes false raw) ⟨hc, bs, t₁, w, t₂, ds, hb, h1, hw, hw', h2, hd, hd', rfl, rfl⟩ ih
    simpa using this

/-- what the reader leaves of an annotated text -/
theorem annotated_clean {raw clean : Str} (h : Annotated raw clean) (hs : NoPrefix clean) : cleanCreate raw = clean := by
  unfold cleanCreate
  exact stripPrefixes_lengths (annotated_lengths h) hs _ (Nat.le_refl _)

/-! ## White space at the end -/

theorem annotated_nil {clean : Str} (h : Annotated [] clean) : clean = [] := by
  generalize hr : ([] : Str) = raw at h
  cases h with
  | nil => rfl
  | last => cases hr
  | char => cases hr
  | comment => cases hr
  | length => cases hr

theorem rstrip_congr {a x y : Str} (h : rstrip x = rstrip y) : rstrip (a ++ x) = rstrip (a ++ y) := by
  induction a with
  | nil => exact h
  | cons c a ih => rw [List.cons_append, List.cons_append, rstrip_cons, rstrip_cons, ih]

theorem rtrim_snoc {a : Str} {c : Char} (h : isSpace c = false) : RTrim (a ++ [c]) := by
  rw [rtrim_iff]
  intro d hd
  simp at hd
  subst hd
  exact h

/-- without the white space at its end it is still annotated -/
theorem annotated_rstrip {raw clean : Str} (h : Annotated raw clean) : ∃ x, Annotated (rstrip raw) x ∧ x <+: clean ∧ rstrip x = rstrip clean := by
  induction h with
  | nil => exact ⟨[], .nil, List.nil_prefix, rfl⟩
  | @last text ht =>
    refine ⟨[], ?_, List.nil_prefix, rfl⟩
    rw [rstrip_append (a := py"--") (by rfl)]
    exact .last (fun hx => ht (mem_rstrip hx))
  | @char c raw clean hc h ih =>
    obtain ⟨x, h1, h2, h3⟩ := ih
    rw [rstrip_cons]
    split
    · rename_i hh
      rw [hh.1] at h1
      have := annotated_nil h1
      subst this
      refine ⟨[], .nil, List.nil_prefix, ?_⟩
      rw [rstrip_cons, ← h3]
      simp [hh.2, rstrip]
    · refine ⟨c :: x, .char ?_ h1, List.cons_prefix_cons.mpr ⟨rfl, h2⟩, rstrip_congr (a := [c]) h3⟩
      rintro ⟨rfl, hd⟩
      apply hc
      refine ⟨rfl, ?_⟩
      cases raw with
      | nil => simp [rstrip] at hd
      | cons d raw =>
        rw [rstrip_cons] at hd
        split at hd
        · cases hd
        · exact hd
  | @comment text raw clean ht h ih =>
    obtain ⟨x, h1, h2, h3⟩ := ih
    have e : py"--" ++ text ++ '\n' :: raw = py"--" ++ (text ++ ('\n' :: raw)) := by simp
    rw [e, rstrip_append (a := py"--") (by rfl)]
    by_cases hz : rstrip raw = []
    · rw [hz] at h1
      have := annotated_nil h1
      subst this
      have e2 : rstrip ('\n' :: raw) = rstrip [] := by rw [rstrip_cons, if_pos ⟨hz, by decide⟩]; rfl
      have e3 : rstrip (text ++ '\n' :: raw) = rstrip text := by
        have := rstrip_congr (a := text) e2
        simpa using this
      rw [e3]
      refine ⟨[], .last (fun hx => ht (mem_rstrip hx)), List.nil_prefix, ?_⟩
      rw [rstrip_cons, ← h3, if_pos ⟨rfl, by decide⟩]
      rfl
    · have e2 : rstrip (text ++ '\n' :: raw) = text ++ '\n' :: rstrip raw := by
        clear ht e
        induction text with
        | nil =>
          rw [List.nil_append, rstrip_cons, if_neg (fun hh => hz hh.1)]
          rfl
        | cons d text ih' =>
          rw [List.cons_append, rstrip_cons, ih', if_neg (by simp)]
          rfl
      rw [e2]
      refine ⟨'\n' :: x, ?_, List.cons_prefix_cons.mpr ⟨rfl, h2⟩, rstrip_congr (a := ['\n']) h3⟩
      have := Annotated.comment ht h1
      simpa using this
  | @length c bs t₁ w t₂ ds raw clean hc hb h1 hw hw' h2 hd hd' _ ih =>
    obtain ⟨x, g1, g2, g3⟩ := ih
    have e : ∀ y, c :: (bs ++ t₁ ++ w ++ t₂ ++ (py"(" ++ ds ++ py")" ++ y)) = (c :: (bs ++ t₁ ++ w ++ t₂ ++ (py"(" ++ ds))) ++ [')'] ++ y := by simp
    rw [e, rstrip_append (rtrim_snoc (by decide)), ← e]
    refine ⟨_, .length hc hb h1 hw hw' h2 hd hd' g1, ?_, ?_⟩
    · obtain ⟨z, hz⟩ := g2
      exact ⟨z, by rw [← hz]; simp⟩
    · exact rstrip_congr (a := c :: (bs ++ t₁ ++ w ++ t₂)) g3

theorem noPrefix_prefix : ∀ {a s : Str}, NoPrefix (a ++ s) → NoPrefix a
  | [], _, _ => trivial
  | c :: a, s, h => by
    refine ⟨?_, noPrefix_prefix h.2⟩
    cases hm : prefixMatch (c :: a) with
    | none => rfl
    | some p =>
      exfalso
      obtain ⟨kept, rest⟩ := p
      obtain ⟨hc, bs, t₁, w, t₂, ds, hb, h1, hw, hw', h2, hd, hd', hk, hr⟩ := prefixMatch_parts hm
      have : PrefixParts c (c :: (a ++ s)) kept (rest ++ s) := ⟨hc, bs, t₁, w, t₂, ds, hb, h1, hw, hw', h2, hd, hd', hk, by
        rw [← List.cons_append, hr]; simp⟩
      have h1 : prefixMatch (c :: (a ++ s)) = none := h.1
      rw [prefixMatch_of this] at h1
      cases h1

theorem rstrip_collapse (b : Bool) (s : Str) : rstrip (collapseAux b (rstrip s)) = rstrip (collapseAux b s) := by
  induction s generalizing b with
  | nil => rfl
  | cons c s ih =>
    rw [rstrip_cons]
    split
    · rename_i hh
      have h1 := ih true
      rw [hh.1] at h1
      have h1' : rstrip (collapseAux true s) = [] := by rw [← h1]; rfl
      cases b with
      | true => simp only [collapseAux, hh.2, if_true]; rw [h1']; rfl
      | false =>
        simp only [collapseAux, hh.2, if_true]
        rw [rstrip_cons, h1', if_pos ⟨rfl, by decide⟩]
        rfl
    · cases b with
      | true =>
        simp only [collapseAux]
        split
        · exact ih true
        · exact rstrip_congr (a := [c]) (ih false)
      | false =>
        simp only [collapseAux]
        split
        · exact rstrip_congr (a := [' ']) (ih true)
        · exact rstrip_congr (a := [c]) (ih false)

theorem normalize_rstrip (s : Str) : normalize (rstrip s) = normalize s := by
  unfold normalize collapse
  rw [← strip_rstrip, rstrip_collapse, strip_rstrip]

theorem topParse_congr {α : Type} (rules : List (Rule (TopKind α))) {x y : Str} (h : rstrip x = rstrip y) : topParse rules x = topParse rules y := by
  unfold topParse
  rw [← normalize_rstrip x, h, normalize_rstrip]

/-! ## Files -/

theorem annotated_chars {a : Str} : ∀ {raw s : Str}, (∀ c ∈ a, c ≠ '(' ∧ c ≠ ',' ∧ c ≠ '\n') → Annotated raw (a ++ s) → ∃ r, raw = a ++ r := by
  induction a with
  | nil => intro raw s _ _; exact ⟨raw, rfl⟩
  | cons c a ih =>
    intro raw s ha h
    have hc := ha c List.mem_cons_self
    generalize hx : c :: a ++ s = x at h
    cases h with
    | nil => cases hx
    | last => cases hx
    | char _ h =>
      rw [List.cons_append, List.cons.injEq] at hx
      obtain ⟨rfl, rfl⟩ := hx
      obtain ⟨r, rfl⟩ := ih (fun y hy => ha y (List.mem_cons_of_mem _ hy)) h
      exact ⟨r, rfl⟩
    | comment _ _ =>
      rw [List.cons_append, List.cons.injEq] at hx
      exact absurd hx.1 hc.2.2
    | length h0 =>
      rw [List.cons_append, List.cons.injEq] at hx
      rw [← hx.1] at h0
      rcases h0 with h0 | h0
      · exact absurd h0 hc.1
      · exact absurd h0 hc.2.1

theorem annotated_parse {raw clean : Str} (h : Annotated raw clean) (hn : NoPrefix clean) (hd : Dashless clean) : parseCreate (rstrip raw) = parseCreate clean := by
  obtain ⟨x, h1, ⟨z, rfl⟩, h3⟩ := annotated_rstrip h
  have e1 : cleanCreate (rstrip raw) = x := annotated_clean h1 (noPrefix_prefix hn)
  have e2 : cleanCreate (x ++ z) = x ++ z := by
    unfold cleanCreate
    simp only [stripDashes_id hd, stripPrefixes_id hn]
  unfold parseCreate
  rw [e1, e2, topParse_congr createRules h3]

theorem annotated_refl {s : Str} : Dashless s → Annotated s s := by
  induction s with
  | nil => intro _; exact .nil
  | cons c s ih => intro h; exact .char h.1 (ih h.2)

/-- an annotated text which starts with a table is read like the text without the additions -/
theorem annotated_loop {raw s : Str} (h : Annotated raw (py"CREATE" ++ s)) (hn : NoPrefix (py"CREATE" ++ s)) (hd : Dashless (py"CREATE" ++ s)) (n : Nat) (st : ReaderState) :
    readLoop n st raw = readLoop n st (py"CREATE" ++ s) := by
  have key : ∀ {raw : Str}, Annotated raw (py"CREATE" ++ s) → ∀ m, readLoop (m + 1) st raw =
      (match parseCreate (py"CREATE" ++ s) with
      | .error e => (st, some e)
      | .ok (t, rest) => readLoop m { st with tables := st.tables.set t.name t } rest) := by
    intro raw h m
    obtain ⟨r, rfl⟩ := annotated_chars (a := py"CREATE") (by decide) h
    have hs : strip (py"CREATE" ++ r) = py"CREATE" ++ rstrip r := by
      have e : py"CREATE" ++ r = 'C' :: (py"REATE" ++ r) := rfl
      rw [e, strip_cons_char (by decide), ← e, rstrip_append (a := py"CREATE") (by rfl)]
    rw [readLoop_succ _ _ (by simp), hs]
    have hp := annotated_parse h hn hd
    rw [rstrip_append (a := py"CREATE") (by rfl)] at hp
    unfold readStep
    have h1 : ¬ py"CREATE" ++ rstrip r = [] := by simp
    have h2 : ¬ startsComment (py"CREATE" ++ rstrip r) = true := by
      show ¬ false = true
      simp
    have h3 : lower ((py"CREATE" ++ rstrip r).take 6) = py"create" := by
      show lower (py"CREATE") = py"create"
      decide
    rw [if_neg h1, if_neg h2, if_pos h3, hp]
    rfl
  cases n with
  | zero =>
    obtain ⟨r, rfl⟩ := annotated_chars (a := py"CREATE") (by decide) h
    rw [readLoop_zero st (by simp), readLoop_zero st (by simp)]
  | succ m => rw [key h m, key (annotated_refl hd) m]

theorem unannotated_noPrefix : ∀ {s : Str}, Dashless s → (∀ x, Annotated s x → x = s) → NoPrefix s
  | [], _, _ => trivial
  | c :: s, hd, h => by
    refine ⟨?_, unannotated_noPrefix hd.2 (fun x hx => (List.cons.inj (h (c :: x) (.char hd.1 hx))).2)⟩
    cases hm : prefixMatch (c :: s) with
    | none => rfl
    | some p =>
      exfalso
      obtain ⟨kept, rest⟩ := p
      obtain ⟨hc, bs, t₁, w, t₂, ds, hb, h1, hw, hw', h2, hds, hd', hk, hr⟩ := prefixMatch_parts hm
      have hsuf : Dashless rest := by
        have : ∀ {a b : Str}, Dashless (a ++ b) → Dashless b := by
          intro a
          induction a with
          | nil => intro b h; exact h
          | cons y a ih => intro b h; exact ih h.2
        apply this (a := c :: (bs ++ t₁ ++ w ++ t₂ ++ (py"(" ++ ds ++ py")")))
        rw [hr] at hd
        simpa using hd
      have h3 := Annotated.length hc hb h1 hw hw' h2 hds hd' (annotated_refl hsuf)
      rw [← hr] at h3
      have h4 := congrArg List.length (h _ h3)
      rw [hr] at h4
      simp at h4
      omega

theorem unannotated_of {s : Str} (h : Unannotated s) : NoPrefix s ∧ Dashless s :=
  ⟨unannotated_noPrefix (dashless_iff.mp h.1) h.2, dashless_iff.mp h.1⟩

theorem of_unannotated {s : Str} (hn : NoPrefix s) (hd : Dashless s) : Unannotated s := by
  refine ⟨dashless_iff.mpr hd, ?_⟩
  suffices key : ∀ {r x : Str}, Annotated r x → NoPrefix r → Dashless r → x = r from fun x hx => key hx hn hd
  intro r x h
  induction h with
  | nil => intro _ _; rfl
  | last _ =>
    intro _ hd
    exact absurd ⟨rfl, rfl⟩ hd.1
  | char _ _ ih =>
    intro hn hd
    rw [ih hn.2 hd.2]
  | comment _ _ _ =>
    intro _ hd
    exact absurd ⟨rfl, rfl⟩ hd.1
  | @length _ _ _ _ _ _ raw _ hc hb h1 hw hw' h2 hds hd' _ _ =>
    intro hn _
    have := prefixMatch_of (rest := raw) ⟨hc, _, _, _, _, _, hb, h1, hw, hw', h2, hds, hd', rfl, rfl⟩
    have h5 := hn.1
    rw [this] at h5
    cases h5

theorem Statement.sql_create {s : Statement} (h : s.isCreate = true) : ∃ cs, s.sql = py"CREATE" ++ cs := by
  cases s with
  | create t nice => exact ⟨_, rfl⟩
  | declare d l => exact ⟨_, rfl⟩
  | insert => cases h
  | comment => cases h

theorem readable_tame {s : Statement} {more : Str} {rest : List Statement} (hs : s.isCreate = true) (hm : Script more rest) (hr : Readable (s :: rest)) :
    Tame (s.sql ++ more) := by
  obtain ⟨is, h1, h2⟩ := Script.text (Script.cons (blanks := []) (s := s) (by simp) hm) hr.ok
  rw [List.nil_append] at h2
  refine h2.tame ?_
  have hq : ∀ x ∈ s :: rest, x.Quiet := by
    intro x hx
    rcases List.mem_cons.mp hx with rfl | hx
    · cases x with
      | create => trivial
      | declare => trivial
      | insert => cases hs
      | comment => cases hs
    · exact (List.pairwise_cons.mp hr.quiet).1 x hx hs
  clear h2 hr hs
  generalize s :: rest = ss at h1 hq
  induction h1 with
  | nil => intro i hi; cases hi
  | cons hx _ ih =>
    intro i hi
    rcases List.mem_cons.mp hi with rfl | hi
    · exact hx.quiet (hq _ List.mem_cons_self)
    · exact ih (fun y hy => hq y (List.mem_cons_of_mem _ hy)) i hi

theorem readLoop_blanks {g s : Str} (hg : Blanks g) (hs : strip s ≠ []) (n : Nat) (st : ReaderState) : readLoop n st (g ++ s) = readLoop n st s := by
  rw [← readLoop_strip n st (s := g ++ s) (by rw [strip_blanks hg]; exact hs), strip_blanks hg, readLoop_strip n st hs]

/-- an annotated file is read like the file without the additions -/
theorem annotatedFile_read {file : Str} {ss : List Statement} (h : AnnotatedFile file ss) (hr : Readable ss) : ∃ plain, SourceFile plain ss ∧ readSource file = readSource plain := by
  obtain ⟨n, header, blanks, body, s, more, rest, rfl, rfl, hh, hb, hs, ha, hm, hn⟩ := h
  refine ⟨header ++ (blanks ++ (s.sql ++ more)), ⟨n, header, _, rfl, hh, ?_, hn, by simp⟩, ?_⟩
  · have := Script.cons (s := s) hb hm
    rwa [List.append_assoc] at this
  · have ht := readable_tame hs hm hr
    obtain ⟨cs, hcs⟩ := s.sql_create hs
    have e : s.sql ++ more = py"CREATE" ++ (cs ++ more) := by rw [hcs, List.append_assoc]
    rw [e] at ha ht ⊢
    have hne : ∀ r : Str, strip (py"CREATE" ++ r) ≠ [] := by
      intro r
      have e : py"CREATE" ++ r = 'C' :: (py"REATE" ++ r) := rfl
      rw [e, strip_cons_char (by decide), ← e, rstrip_append (a := py"CREATE") (by rfl)]
      simp
    obtain ⟨r, hbody⟩ := annotated_chars (a := py"CREATE") (by decide) ha
    have hloop := annotated_loop ha ht.noPrefix ht.noDashes
    have both : ∀ m st, readLoop m st (blanks ++ body) = readLoop m st (blanks ++ (py"CREATE" ++ (cs ++ more))) := by
      intro m st
      rw [readLoop_blanks hb (by rw [hbody]; exact hne r), readLoop_blanks hb (hne _), hloop]
    unfold readSource
    have hf : 10000 = (10000 - n) + n := by simp at hn; omega
    rw [hf, header_read hh, header_read hh]
    split
    · exact both _ _
    · rw [readLoop_strip _ _ (by rw [strip_blanks hb, hbody]; exact hne r), readLoop_strip _ _ (by rw [strip_blanks hb]; exact hne _), both]

theorem readAll_congr [PyNum] {files files' : List Str} (h : Paired (fun a b => readSource a = readSource b) files files') :
    ∀ d, FileDatabase.readAll d files = FileDatabase.readAll d files' := by
  induction h with
  | nil => intro d; rfl
  | cons hx _ ih =>
    intro d
    unfold FileDatabase.readAll FileDatabase.read
    rw [hx]
    split
    · rfl
    · exact ih _

theorem fileNew_congr [PyNum] {files files' : List Str} (h : Paired (fun a b => readSource a = readSource b) files files') :
    FileDatabase.new files = FileDatabase.new files' := by
  unfold FileDatabase.new
  rw [readAll_congr h]

theorem liveNew_congr {texts texts' : List Str} (h : Paired (fun a b => readSource a = readSource b) texts texts') :
    ∀ d, LiveDatabase.loadTables d texts = LiveDatabase.loadTables d texts' := by
  induction h with
  | nil => intro d; rfl
  | cons hx _ ih =>
    intro d
    unfold LiveDatabase.loadTables
    rw [hx]
    split
    split
    · rfl
    · exact ih _

end Mygrations

import Verif.Model.Parse
import Verif.Proofs.Chars

/-! # Facts about stripping and normalising text -/

namespace Mygrations

/-! ## Suffixes and stripping -/

theorem lstrip_suffix (s : Str) : lstrip s <:+ s := List.dropWhile_suffix _

/-- the text does not end with white space -/
def RTrim (s : Str) : Prop := rstrip s = s

theorem dropWhile_eq_self {α : Type} {p : α → Bool} {l : List α} (h : ∀ x, l.head? = some x → p x = false) :
    l.dropWhile p = l := by
  cases l with
  | nil => rfl
  | cons a l => simp [h a rfl]

theorem head?_dropWhile_not {α : Type} {p : α → Bool} {l : List α} {x : α} (h : (l.dropWhile p).head? = some x) :
    p x = false := by
  induction l with
  | nil => simp at h
  | cons a l ih =>
    rw [List.dropWhile_cons] at h
    split at h
    · exact ih h
    · simp only [List.head?_cons, Option.some.injEq] at h; subst h; simp_all

theorem rtrim_iff {s : Str} : RTrim s ↔ ∀ c, s.getLast? = some c → isSpace c = false := by
  unfold RTrim rstrip
  constructor
  · intro h c hc
    rw [← h, List.getLast?_reverse] at hc
    exact head?_dropWhile_not hc
  · intro h
    rw [dropWhile_eq_self, List.reverse_reverse]
    intro c hc
    rw [List.head?_reverse] at hc
    exact h c hc

theorem RTrim.suffix {s t : Str} (h : RTrim s) (hs : t <:+ s) : RTrim t := by
  rw [rtrim_iff] at h ⊢
  intro c hc
  obtain ⟨a, rfl⟩ := hs
  apply h c
  cases t with
  | nil => simp at hc
  | cons x t => rw [List.getLast?_append, hc]; rfl

theorem rtrim_rstrip (s : Str) : RTrim (rstrip s) := by
  rw [rtrim_iff]
  intro c hc
  unfold rstrip at hc
  rw [List.getLast?_reverse] at hc
  exact head?_dropWhile_not hc

theorem rtrim_strip (s : Str) : RTrim (strip s) := rtrim_rstrip _

theorem strip_of_rtrim {s : Str} (h : RTrim s) : strip s = lstrip s := by
  unfold strip
  exact h.suffix (lstrip_suffix s)

theorem strip_suffix {s : Str} (h : RTrim s) : strip s <:+ s := by
  rw [strip_of_rtrim h]; exact lstrip_suffix s

theorem rstrip_length (s : Str) : (rstrip s).length ≤ s.length := by
  unfold rstrip
  rw [List.length_reverse]
  have := (List.dropWhile_suffix (p := isSpace) (l := s.reverse)).length_le
  simpa using this

theorem strip_length (s : Str) : (strip s).length ≤ s.length :=
  Nat.le_trans (rstrip_length _) (lstrip_suffix s).length_le

theorem strip_strip (s : Str) : strip (strip s) = strip s := by
  rw [strip_of_rtrim (rtrim_strip s)]
  unfold lstrip
  apply dropWhile_eq_self
  intro c hc
  unfold strip rstrip at hc
  -- the first character of the stripped text is the first character of `lstrip s`
  have : ∀ t : Str, (∀ x, t.head? = some x → isSpace x = false) → ∀ c, (rstrip t).head? = some c → isSpace c = false := by
    intro t ht c hc
    unfold rstrip at hc
    rw [List.head?_reverse] at hc
    have hsuf : t.reverse.dropWhile isSpace <:+ t.reverse := List.dropWhile_suffix _
    obtain ⟨a, ha⟩ := hsuf
    apply ht c
    have hne : t.reverse.dropWhile isSpace ≠ [] := by
      intro h; rw [h] at hc; simp at hc
    rw [← List.getLast?_reverse, ← ha, List.getLast?_append, hc]
    rfl
  exact this (lstrip s) (fun x hx => head?_dropWhile_not hx) c hc

theorem head?_strip {s : Str} {c : Char} (h : (strip s).head? = some c) : isSpace c = false := by
  have := strip_strip s
  rw [strip_of_rtrim (rtrim_strip s)] at this
  rw [← this] at h
  exact head?_dropWhile_not h

theorem collapse_length : ∀ (b : Bool) (s : Str), (collapseAux b s).length ≤ s.length
  | _, [] => by simp [collapseAux]
  | true, c :: cs => by
    simp only [collapseAux]
    split
    · exact Nat.le_succ_of_le (collapse_length _ cs)
    · simp only [List.length_cons]; exact Nat.succ_le_succ (collapse_length _ cs)
  | false, c :: cs => by
    simp only [collapseAux]
    split
    · simp only [List.length_cons]; exact Nat.succ_le_succ (collapse_length _ cs)
    · simp only [List.length_cons]; exact Nat.succ_le_succ (collapse_length _ cs)

theorem normalize_length (s : Str) : (normalize s).length ≤ s.length :=
  Nat.le_trans (strip_length _) (collapse_length _ _)

/-! ## Flat text

`flat b s`: the only white space in `s` is single blanks, none at the end, and none at the start if `b`. -/

/-- see above -/
def flat : Bool → Str → Bool
  | b, [] => !b
  | b, c :: cs => if isSpace c then c == ' ' && !b && flat true cs else flat false cs

/-- text which normalisation leaves alone -/
def Normal (s : Str) : Prop := s = [] ∨ flat true s = true

theorem flat_append {a : Str} : ∀ {b : Bool} (_ : flat b a = true) (c : Str), flat b (a ++ c) = flat false c := by
  induction a with
  | nil => intro b h c; simp only [flat, Bool.not_eq_true'] at h; subst h; rfl
  | cons x xs ih =>
    intro b h c
    simp only [flat, List.cons_append] at h ⊢
    split at h
    · rename_i hx
      simp only [Bool.and_eq_true] at h
      rw [if_pos hx, ih h.2]
      simp [h.1]
    · rename_i hx
      rw [if_neg hx, ih h]

theorem flat_space {a : Str} {b : Bool} (h : flat b a = true) (c : Str) : flat b (a ++ ' ' :: c) = flat true c := by
  rw [flat_append h]
  simp only [flat]
  have : isSpace ' ' = true := by decide
  simp [this]

theorem flat_false_of_true {s : Str} (h : flat true s = true) : flat false s = true := by
  cases s with
  | nil => rfl
  | cons c cs =>
    simp only [flat] at h ⊢
    split at h
    · simp at h
    · rename_i hc; rw [if_neg hc]; exact h

theorem flat_noSpace {s : Str} (h : ∀ c ∈ s, isSpace c = false) : ∀ b, (b = true → s ≠ []) → flat b s = true := by
  induction s with
  | nil => intro b hb; cases b <;> simp_all [flat]
  | cons c cs ih =>
    intro b _
    simp only [flat, h c List.mem_cons_self, Bool.false_eq_true, if_false]
    exact ih (fun x hx => h x (List.mem_cons_of_mem _ hx)) false (by simp)

theorem flat_tail {c : Char} {cs : Str} {b : Bool} (h : flat b (c :: cs) = true) : flat (isSpace c) cs = true := by
  simp only [flat] at h
  split at h
  · rename_i hc; simp only [Bool.and_eq_true] at h; rw [hc]; exact h.2
  · rename_i hc; simp only [Bool.not_eq_true] at hc; rw [hc]; exact h

theorem collapseAux_flat {s : Str} : ∀ {b : Bool}, flat b s = true → collapseAux b s = s := by
  induction s with
  | nil => intro b _; cases b <;> rfl
  | cons c cs ih =>
    intro b h
    simp only [flat] at h
    split at h
    · rename_i hc
      simp only [Bool.and_eq_true, Bool.not_eq_true', beq_iff_eq] at h
      obtain ⟨⟨rfl, rfl⟩, h⟩ := h
      simp only [collapseAux, hc, if_true, ih h]
    · rename_i hc
      cases b <;> simp only [collapseAux, hc, Bool.false_eq_true, if_false, ih h]

theorem flat_rtrim {s : Str} : ∀ {b : Bool}, flat b s = true → RTrim s := by
  induction s with
  | nil => intro b _; rfl
  | cons c cs ih =>
    intro b h
    rw [rtrim_iff]
    intro x hx
    have ht := flat_tail h
    cases cs with
    | nil =>
      simp only [List.getLast?_singleton, Option.some.injEq] at hx
      subst hx
      simpa [flat] using ht
    | cons y ys =>
      rw [List.getLast?_cons_cons] at hx
      exact (rtrim_iff.mp (ih ht)) x hx

theorem flat_true_head {s : Str} (h : flat true s = true) : ∃ c cs, s = c :: cs ∧ isSpace c = false := by
  cases s with
  | nil => simp [flat] at h
  | cons c cs =>
    refine ⟨c, cs, rfl, ?_⟩
    simp only [flat] at h
    split at h
    · simp at h
    · simp_all

theorem lstrip_of_head {c : Char} {cs : Str} (h : isSpace c = false) : lstrip (c :: cs) = c :: cs := by
  simp [lstrip, h]

/-- flat text which does not start with white space is already normalised -/
theorem strip_flat {s : Str} (h : flat true s = true) : strip s = s := by
  rw [strip_of_rtrim (flat_rtrim h)]
  obtain ⟨c, cs, rfl, hc⟩ := flat_true_head h
  exact lstrip_of_head hc

theorem strip_normal {s : Str} (h : Normal s) : strip s = s := by
  rcases h with rfl | h
  · rfl
  · exact strip_flat h

theorem collapse_flat {s : Str} (h : flat true s = true) : collapse s = s := collapseAux_flat (flat_false_of_true h)

theorem normalize_normal {s : Str} (h : Normal s) : normalize s = s := by
  rcases h with rfl | h
  · rfl
  · unfold normalize
    rw [collapse_flat h, strip_flat h]

/-- a blank is dropped by the next rule -/
theorem strip_space {s : Str} (h : flat true s = true) : strip (' ' :: s) = s := by
  have h' : flat false (' ' :: s) = true := flat_space (a := []) (b := false) rfl s ▸ h
  rw [strip_of_rtrim (flat_rtrim h')]
  obtain ⟨c, cs, rfl, hc⟩ := flat_true_head h
  have : isSpace ' ' = true := by decide
  simp [lstrip, this, hc]

theorem flat_suffix {s t : Str} {b : Bool} (h : flat b s = true) (ht : t <:+ s) : t = [] ∨ ∃ b', flat b' t = true := by
  obtain ⟨a, rfl⟩ := ht
  induction a generalizing b with
  | nil => exact Or.inr ⟨b, h⟩
  | cons x xs ih => exact ih (flat_tail h)

theorem flat_lstrip {s : Str} {b : Bool} (h : flat b s = true) : Normal (lstrip s) := by
  cases s with
  | nil => exact Or.inl rfl
  | cons c cs =>
    simp only [lstrip, List.dropWhile_cons]
    by_cases hc : isSpace c = true
    · simp only [hc, if_true]
      have ht := flat_tail h
      rw [hc] at ht
      obtain ⟨d, ds, rfl, hd⟩ := flat_true_head ht
      simp only [List.dropWhile_cons, hd]
      exact Or.inr ht
    · simp only [Bool.not_eq_true] at hc
      simp only [hc]
      right
      simp only [flat, hc, Bool.false_eq_true, if_false] at h ⊢
      exact h

theorem normal_suffix_strip {s t : Str} (h : Normal s) (ht : t <:+ s) : Normal (strip t) ∧ strip t <:+ s := by
  have hr : RTrim s := by
    rcases h with rfl | h
    · rfl
    · exact flat_rtrim h
  refine ⟨?_, (strip_suffix (hr.suffix ht)).trans ht⟩
  rw [strip_of_rtrim (hr.suffix ht)]
  rcases h with rfl | h
  · have : t = [] := List.suffix_nil.mp ht
    subst this
    exact Or.inl rfl
  · rcases flat_suffix h ht with rfl | ⟨b, hb⟩
    · exact Or.inl rfl
    · exact flat_lstrip hb

theorem collapse_shape : ∀ (b : Bool) (s : Str), flat b (collapseAux b s) = true ∨ (collapseAux b s = [] ∧ b = true) ∨
    ∃ u, collapseAux b s = u ++ [' '] ∧ flat b u = true
  | true, [] => Or.inr (Or.inl ⟨rfl, rfl⟩)
  | false, [] => Or.inl rfl
  | true, c :: cs => by
    simp only [collapseAux]
    split
    · simpa using collapse_shape true cs
    · rename_i hc
      rcases collapse_shape false cs with h | h | ⟨u, hu, h⟩
      · left; simp only [flat, hc]; exact h
      · simp at h
      · right; right; refine ⟨c :: u, by rw [hu]; rfl, ?_⟩; simp only [flat, hc]; exact h
  | false, c :: cs => by
    have hsp : isSpace ' ' = true := by decide
    simp only [collapseAux]
    split
    · rcases collapse_shape true cs with h | h | ⟨u, hu, h⟩
      · left; simp [flat, hsp, h]
      · right; right; exact ⟨[], by rw [h.1]; rfl, rfl⟩
      · right; right; refine ⟨' ' :: u, by rw [hu]; rfl, ?_⟩; simp [flat, hsp, h]
    · rename_i hc
      rcases collapse_shape false cs with h | h | ⟨u, hu, h⟩
      · left; simp only [flat, hc]; exact h
      · simp at h
      · right; right; refine ⟨c :: u, by rw [hu]; rfl, ?_⟩; simp only [flat, hc]; exact h

theorem strip_trailing {u : Str} : strip (u ++ [' ']) = strip u := by
  have hsp : isSpace ' ' = true := by decide
  by_cases h : lstrip u = []
  · have h' : lstrip (u ++ [' ']) = [] := by
      unfold lstrip at h ⊢
      rw [List.dropWhile_append, h]
      simp [hsp]
    simp [strip, h, h']
  · have : lstrip (u ++ [' ']) = lstrip u ++ [' '] := by
      unfold lstrip at h ⊢
      rw [List.dropWhile_append]
      simp [h]
    simp only [strip, this, rstrip]
    simp [hsp]

/-- normalisation leaves single blanks only, and none at the ends -/
theorem normal_normalize (s : Str) : Normal (normalize s) := by
  unfold normalize collapse
  rcases collapse_shape false s with h | h | ⟨u, hu, h⟩
  · rw [strip_of_rtrim (flat_rtrim h)]; exact flat_lstrip h
  · simp at h
  · rw [hu, strip_trailing, strip_of_rtrim (flat_rtrim h)]; exact flat_lstrip h

theorem normalize_suffix {s t : Str} (h : Normal s) (ht : t <:+ s) : normalize t <:+ s := by
  rcases h with rfl | h
  · have : t = [] := List.suffix_nil.mp ht
    subst this; exact List.suffix_refl _
  · rcases flat_suffix h ht with rfl | ⟨b, hb⟩
    · exact List.nil_suffix
    · have hc : normalize t = strip t := by
        unfold normalize collapse
        cases b with
        | true => rw [collapseAux_flat (flat_false_of_true hb)]
        | false => rw [collapseAux_flat hb]
      rw [hc]
      exact (strip_suffix (flat_rtrim hb)).trans ht

end Mygrations

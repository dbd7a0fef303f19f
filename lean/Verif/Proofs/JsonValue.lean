import Verif.Spec.JsonValue
import Verif.Proofs.JsonRead

/-! # The reader of JSON reads what is written -/

namespace Mygrations
namespace Json

/-- what can follow a value: the end, white space, a comma or a closing bracket -/
def Ends (r : Str) : Prop := ∀ c r', r = c :: r' → c = ' ' ∨ c = '\t' ∨ c = '\n' ∨ c = '\r' ∨ c = ',' ∨ c = ']' ∨ c = '}'

theorem ends_nil : Ends [] := by intro c r' h; cases h

theorem ends_space {w : Str} (h : JsonSpace w) {r : Str} (hr : Ends r) : Ends (w ++ r) := by
  cases w with
  | nil => exact hr
  | cons x w =>
    intro c r' e
    cases e
    rcases h x List.mem_cons_self with h | h | h | h <;> simp [h]

theorem ends_at {c : Char} (h : c = ',' ∨ c = ']' ∨ c = '}') (r : Str) : Ends (c :: r) := by
  intro c' r' e
  cases e
  rcases h with h | h | h <;> simp [h]

theorem digit_of {c : Char} (h : c ∈ py"0123456789") : isDigit c = true := by
  simp only [List.mem_cons, List.not_mem_nil, or_false] at h
  rcases h with rfl | rfl | rfl | rfl | rfl | rfl | rfl | rfl | rfl | rfl <;> decide

/-- what follows digits is no digit -/
def NoDigit (r : Str) : Prop := ∀ c r', r = c :: r' → isDigit c = false

theorem digits_read {ds r : Str} (h : JsonDigits ds) (hr : NoDigit r) : digits (ds ++ r) = some (ds, r) := by
  have h1 : (ds ++ r).takeWhile isDigit = ds := by
    rw [List.takeWhile_append_of_pos (fun c hc => digit_of (h.2 c hc))]
    cases r with
    | nil => simp
    | cons c r' => rw [List.takeWhile_cons, hr c r' rfl]; simp
  have h2 : (ds ++ r).dropWhile isDigit = r := by
    rw [List.dropWhile_append_of_pos (fun c hc => digit_of (h.2 c hc))]
    cases r with
    | nil => simp
    | cons c r' => rw [List.dropWhile_cons, hr c r' rfl]; simp
  unfold digits
  rw [h1, h2]
  cases ds with
  | nil => exact absurd rfl h.1
  | cons c ds => rfl

theorem ends_noDigit {r : Str} (h : Ends r) : NoDigit r := by
  intro c r' e
  rcases h c r' e with rfl | rfl | rfl | rfl | rfl | rfl | rfl <;> decide

theorem whole_read {ds r : Str} (h : JsonDigits ds) (hz : ds = py"0" ∨ ds.head? ≠ some '0') (hr : NoDigit r) : whole (ds ++ r) = some (ds, r) := by
  rcases hz with rfl | hz
  · rfl
  · cases ds with
    | nil => exact absurd rfl h.1
    | cons c ds =>
      have hc : c ≠ '0' := by intro e; subst e; exact hz rfl
      rw [List.cons_append, whole, if_neg hc]
      exact digits_read h hr

/-- a fraction -/
def FractionText (frac : Str) : Prop := frac = [] ∨ ∃ f, JsonDigits f ∧ frac = '.' :: f
/-- an exponent -/
def ExponentText (exp : Str) : Prop :=
  exp = [] ∨ ∃ e sign f, e ∈ ['e', 'E'] ∧ sign ∈ [py"", py"+", py"-"] ∧ JsonDigits f ∧ exp = e :: (sign ++ f)

theorem exponent_read {exp r : Str} (h : ExponentText exp) (hr : Ends r) : exponent (exp ++ r) = (exp, r) := by
  rcases h with rfl | ⟨e, sg, f, he, hs, hf, rfl⟩
  · cases r with
    | nil => rfl
    | cons c r' =>
      have : ¬ (c = 'e' ∨ c = 'E') := by
        rcases hr c r' rfl with rfl | rfl | rfl | rfl | rfl | rfl | rfl <;> decide
      rw [List.nil_append, exponent, if_neg this]
  · have he' : e = 'e' ∨ e = 'E' := by simpa using he
    have hsign : sign (sg ++ f ++ r) = (sg, f ++ r) := by
      simp only [List.mem_cons, List.not_mem_nil, or_false] at hs
      rcases hs with rfl | rfl | rfl
      · cases f with
        | nil => exact absurd rfl hf.1
        | cons d f =>
          have hd := digit_of (hf.2 d List.mem_cons_self)
          have : ¬ (d = '+' ∨ d = '-') := by
            rintro (rfl | rfl) <;> exact absurd hd (by decide)
          show sign (d :: (f ++ r)) = _
          rw [sign, if_neg this]
          rfl
      · rfl
      · rfl
    rw [List.cons_append, exponent, if_pos he', hsign]
    simp only [digits_read hf (ends_noDigit hr)]
    simp

theorem exponent_noDigit {exp r : Str} (h : ExponentText exp) (hr : Ends r) : NoDigit (exp ++ r) := by
  rcases h with rfl | ⟨e, sg, f, he, hs, hf, rfl⟩
  · exact ends_noDigit hr
  · intro c r' hc
    have hc' : e = c := by simpa using congrArg List.head? hc
    subst hc'
    have he' : e = 'e' ∨ e = 'E' := by simpa using he
    rcases he' with rfl | rfl <;> decide

theorem fraction_read {frac exp r : Str} (h : FractionText frac) (hx : ExponentText exp) (hr : Ends r) :
    fraction (frac ++ (exp ++ r)) = (frac, exp ++ r) := by
  rcases h with rfl | ⟨f, hf, rfl⟩
  · rw [List.nil_append]
    unfold fraction
    split
    · rename_i s he
      exfalso
      rcases hx with rfl | ⟨e, sg, f, he', hs, hf, rfl⟩
      · rcases hr _ _ he with h | h | h | h | h | h | h <;> exact absurd h (by decide)
      · cases he
        exact absurd he' (by decide)
    · rfl
  · rw [List.cons_append, fraction, digits_read hf (exponent_noDigit hx hr)]

theorem fraction_noDigit {frac exp r : Str} (h : FractionText frac) (hx : ExponentText exp) (hr : Ends r) : NoDigit (frac ++ (exp ++ r)) := by
  rcases h with rfl | ⟨f, hf, rfl⟩
  · rw [List.nil_append]
    exact exponent_noDigit hx hr
  · intro c r' hc
    cases hc
    decide

/-- a number begins with a digit, or with a minus and a digit -/
theorem number_head {t : Str} (h : JsonNumber t) : (∃ c s, t = c :: s ∧ isDigit c = true) ∨ ∃ c s, t = '-' :: c :: s ∧ isDigit c = true := by
  cases h with
  | mk neg ds frac exp hn hd hz hf hx =>
    cases ds with
    | nil => exact absurd rfl hd.1
    | cons c ds =>
      have hc := digit_of (hd.2 c List.mem_cons_self)
      simp only [List.mem_cons, List.not_mem_nil, or_false] at hn
      rcases hn with rfl | rfl
      · exact .inl ⟨c, _, rfl, hc⟩
      · exact .inr ⟨c, _, rfl, hc⟩

theorem number_read {t r : Str} (h : JsonNumber t) (hr : Ends r) : number (t ++ r) = some (.num t, r) := by
  cases h with
  | mk neg ds frac exp hn hd hz hf hx =>
    have hm : minus (neg ++ (ds ++ (frac ++ exp)) ++ r) = (neg, ds ++ (frac ++ (exp ++ r))) := by
      simp only [List.mem_cons, List.not_mem_nil, or_false] at hn
      rcases hn with rfl | rfl
      · cases ds with
        | nil => exact absurd rfl hd.1
        | cons c ds =>
          have hc := digit_of (hd.2 c List.mem_cons_self)
          have : c ≠ '-' := by rintro rfl; exact absurd hc (by decide)
          show minus (c :: (ds ++ (frac ++ exp) ++ r)) = _
          rw [minus, if_neg this]
          simp
      · show minus ('-' :: (ds ++ (frac ++ exp) ++ r)) = _
        rw [minus, if_pos rfl]
        simp
    unfold number
    rw [hm]
    simp only [whole_read hd hz (fraction_noDigit hf hx hr), fraction_read hf hx hr, exponent_read hx hr]
    simp

theorem scalar_number {t r : Str} (h : JsonNumber t) (hr : Ends r) : scalar (t ++ r) = some (.num t, r) := by
  have hno : literals.findSome? (fun l => (dropPrefix l.1 (t ++ r)).map (fun r => (l.2, r))) = none := by
    rcases number_head h with ⟨c, s, rfl, hc⟩ | ⟨c, s, rfl, hc⟩
    · have hx : ∀ x : Char, isDigit x = false → x ≠ c := by rintro x hx rfl; rw [hc] at hx; cases hx
      simp [literals, List.findSome?, dropPrefix, hx 'n' (by decide), hx 't' (by decide), hx 'f' (by decide), hx 'N' (by decide), hx 'I' (by decide), hx '-' (by decide)]
    · have hx : ∀ x : Char, isDigit x = false → x ≠ c := by rintro x hx rfl; rw [hc] at hx; cases hx
      simp [literals, List.findSome?, dropPrefix, hx 'I' (by decide)]
  unfold scalar
  rw [hno]
  exact number_read h hr

/-- a value begins with a character which is no white space and closes nothing -/
theorem text_head {v : Json} {t : Str} (h : JsonText v t) : ∃ c s, t = c :: s ∧ isBlank c = false ∧ c ≠ ']' ∧ c ≠ '}' := by
  cases h with
  | null => exact ⟨_, _, rfl, by decide, by decide, by decide⟩
  | yes => exact ⟨_, _, rfl, by decide, by decide, by decide⟩
  | no => exact ⟨_, _, rfl, by decide, by decide, by decide⟩
  | num h =>
    rcases number_head h with ⟨c, s, rfl, hc⟩ | ⟨c, s, rfl, hc⟩
    · have hx : ∀ x : Char, isDigit x = false → c ≠ x := by rintro x hx rfl; rw [hc] at hx; cases hx
      refine ⟨c, s, rfl, ?_, hx _ (by decide), hx _ (by decide)⟩
      cases hb : isBlank c with
      | false => rfl
      | true => rcases isBlank_iff.mp hb with h | h | h | h <;> exact absurd h (hx _ (by decide))
    · exact ⟨_, _, rfl, by decide, by decide, by decide⟩
  | str _ => exact ⟨_, _, rfl, by decide, by decide, by decide⟩
  | noItems _ => exact ⟨_, _, rfl, by decide, by decide, by decide⟩
  | arr _ => exact ⟨_, _, rfl, by decide, by decide, by decide⟩
  | noMembers _ => exact ⟨_, _, rfl, by decide, by decide, by decide⟩
  | obj _ => exact ⟨_, _, rfl, by decide, by decide, by decide⟩

/-- white space before a value is skipped -/
theorem skip_text {w : Str} (hw : JsonSpace w) {v : Json} {t : Str} (h : JsonText v t) (r : Str) : skip (w ++ (t ++ r)) = t ++ r := by
  obtain ⟨c, s, rfl, hc, _⟩ := text_head h
  exact skip_at hw hc (s ++ r)

theorem items_head {vs : List Json} {t : Str} (h : JsonItems vs t) (r : Str) : ∃ c s, skip (t ++ r) = c :: s ∧ c ≠ ']' := by
  cases h with
  | one hw hv hw' =>
    obtain ⟨c, s, rfl, hc, h1, _⟩ := text_head hv
    exact ⟨c, _, by rw [List.append_assoc, List.cons_append, List.cons_append, skip_at hw hc], h1⟩
  | more hw hv hw' hvs =>
    obtain ⟨c, s, rfl, hc, h1, _⟩ := text_head hv
    exact ⟨c, _, by rw [List.append_assoc, List.cons_append, List.cons_append, skip_at hw hc], h1⟩

theorem members_head {ms : List (Str × Json)} {t : Str} (h : JsonMembers ms t) (r : Str) : ∃ s, skip (t ++ r) = '"' :: s := by
  cases h with
  | one hw hk hw2 hw3 hv hw4 => exact ⟨_, by rw [List.append_assoc, List.cons_append, skip_at hw (by decide)]⟩
  | more hw hk hw2 hw3 hv hw4 hms => exact ⟨_, by rw [List.append_assoc, List.cons_append, skip_at hw (by decide)]⟩

mutual
theorem value_read : ∀ {v : Json} {t : Str}, JsonText v t → ∀ (fuel : Nat) (r : Str), 2 * t.length ≤ fuel → Ends r → value fuel (t ++ r) = some (v, r)
  | _, _, .null, fuel, r, hf, hr => by
    obtain ⟨f, rfl⟩ : ∃ f, fuel = f + 1 := ⟨fuel - 1, by simp at hf; omega⟩
    show value (f + 1) ('n' :: 'u' :: 'l' :: 'l' :: r) = _
    rw [value, if_neg (by decide), if_neg (by decide), if_neg (by decide)]
    simp [scalar, literals, dropPrefix]
  | _, _, .yes, fuel, r, hf, hr => by
    obtain ⟨f, rfl⟩ : ∃ f, fuel = f + 1 := ⟨fuel - 1, by simp at hf; omega⟩
    show value (f + 1) ('t' :: 'r' :: 'u' :: 'e' :: r) = _
    rw [value, if_neg (by decide), if_neg (by decide), if_neg (by decide)]
    simp [scalar, literals, List.findSome?, dropPrefix]
  | _, _, .no, fuel, r, hf, hr => by
    obtain ⟨f, rfl⟩ : ∃ f, fuel = f + 1 := ⟨fuel - 1, by simp at hf; omega⟩
    show value (f + 1) ('f' :: 'a' :: 'l' :: 's' :: 'e' :: r) = _
    rw [value, if_neg (by decide), if_neg (by decide), if_neg (by decide)]
    simp [scalar, literals, List.findSome?, dropPrefix]
  | _, _, .num (t := t) h, fuel, r, hf, hr => by
    obtain ⟨c, s, rfl, h1⟩ : ∃ c s, t = c :: s ∧ (c ≠ '"' ∧ c ≠ '{' ∧ c ≠ '[') := by
      rcases number_head h with ⟨c, s, rfl, hc⟩ | ⟨c, s, rfl, hc⟩
      · have hx : ∀ x : Char, isDigit x = false → c ≠ x := by rintro x hx rfl; rw [hc] at hx; cases hx
        exact ⟨c, s, rfl, hx _ (by decide), hx _ (by decide), hx _ (by decide)⟩
      · exact ⟨_, _, rfl, by decide, by decide, by decide⟩
    obtain ⟨f, rfl⟩ : ∃ f, fuel = f + 1 := ⟨fuel - 1, by simp at hf; omega⟩
    rw [List.cons_append, value, if_neg h1.1, if_neg h1.2.1, if_neg h1.2.2]
    exact scalar_number h hr
  | _, _, .str (t := t) h, fuel, r, hf, hr => by
    obtain ⟨f, rfl⟩ : ∃ f, fuel = f + 1 := ⟨fuel - 1, by simp at hf; omega⟩
    have e : ('"' :: (t ++ ['"'])) ++ r = '"' :: (t ++ '"' :: r) := by simp
    rw [e, value, if_pos rfl, strBody_read h _ _ (by simp)]
    rfl
  | _, _, .noItems (w := w) h, fuel, r, hf, hr => by
    obtain ⟨f, rfl⟩ : ∃ f, fuel = f + 1 := ⟨fuel - 1, by simp at hf; omega⟩
    have e : ('[' :: (w ++ [']'])) ++ r = '[' :: (w ++ ']' :: r) := by simp
    rw [e, value, if_neg (by decide), if_neg (by decide), if_pos rfl, skip_at h (by decide)]
    rfl
  | _, _, .arr (t := t) h, fuel, r, hf, hr => by
    obtain ⟨f, rfl⟩ : ∃ f, fuel = f + 1 := ⟨fuel - 1, by simp at hf; omega⟩
    have e : ('[' :: (t ++ [']'])) ++ r = '[' :: (t ++ ']' :: r) := by simp
    have hi := elements_read h f r (by simp at hf; omega)
    obtain ⟨c, s, hs, hc⟩ := items_head h (']' :: r)
    rw [e, value, if_neg (by decide), if_neg (by decide), if_pos rfl]
    rw [hs] at hi ⊢
    split
    · rename_i r' he
      cases he
      exact absurd rfl hc
    · rw [hi]; rfl
  | _, _, .noMembers (w := w) h, fuel, r, hf, hr => by
    obtain ⟨f, rfl⟩ : ∃ f, fuel = f + 1 := ⟨fuel - 1, by simp at hf; omega⟩
    have e : ('{' :: (w ++ ['}'])) ++ r = '{' :: (w ++ '}' :: r) := by simp
    rw [e, value, if_neg (by decide), if_pos rfl, skip_at h (by decide)]
    rfl
  | _, _, .obj (t := t) h, fuel, r, hf, hr => by
    obtain ⟨f, rfl⟩ : ∃ f, fuel = f + 1 := ⟨fuel - 1, by simp at hf; omega⟩
    have e : ('{' :: (t ++ ['}'])) ++ r = '{' :: (t ++ '}' :: r) := by simp
    have hi := object_read h f r (by simp at hf; omega)
    obtain ⟨s, hs⟩ := members_head h ('}' :: r)
    rw [e, value, if_neg (by decide), if_pos rfl]
    rw [hs] at hi ⊢
    show (members f ('"' :: s)).map (fun p => (Json.obj p.1, p.2)) = _
    rw [hi]; rfl
theorem elements_read : ∀ {vs : List Json} {t : Str}, JsonItems vs t → ∀ (fuel : Nat) (r : Str), 2 * t.length + 1 ≤ fuel →
    elements fuel (skip (t ++ ']' :: r)) = some (vs, r)
  | _, _, .one (t := t) (w := w) (w' := w') hw hv hw', fuel, r, hf => by
    obtain ⟨f, rfl⟩ : ∃ f, fuel = f + 1 := ⟨fuel - 1, by omega⟩
    have e : w ++ (t ++ w') ++ ']' :: r = w ++ (t ++ (w' ++ ']' :: r)) := by simp
    rw [e, skip_text hw hv, elements, value_read hv f _ (by simp at hf; omega) (ends_space hw' (ends_at (by simp) _))]
    simp only [skip_at hw' (show isBlank ']' = false by decide)]
  | _, _, .more (t := t) (ts := ts) (w := w) (w' := w') hw hv hw' hvs, fuel, r, hf => by
    obtain ⟨f, rfl⟩ : ∃ f, fuel = f + 1 := ⟨fuel - 1, by omega⟩
    have e : w ++ (t ++ (w' ++ ',' :: ts)) ++ ']' :: r = w ++ (t ++ (w' ++ ',' :: (ts ++ ']' :: r))) := by simp
    rw [e, skip_text hw hv, elements, value_read hv f _ (by simp at hf; omega) (ends_space hw' (ends_at (by simp) _))]
    simp only [skip_at hw' (show isBlank ',' = false by decide)]
    rw [elements_read hvs f r (by simp at hf; omega)]
    rfl
theorem object_read : ∀ {ms : List (Str × Json)} {t : Str}, JsonMembers ms t → ∀ (fuel : Nat) (r : Str), 2 * t.length + 1 ≤ fuel →
    members fuel (skip (t ++ '}' :: r)) = some (ms, r)
  | _, _, .one (kt := kt) (t := t) (w₁ := w₁) (w₂ := w₂) (w₃ := w₃) (w₄ := w₄) h1 hk h2 h3 hv h4, fuel, r, hf => by
    obtain ⟨f, rfl⟩ : ∃ f, fuel = f + 1 := ⟨fuel - 1, by omega⟩
    have e : w₁ ++ '"' :: (kt ++ '"' :: (w₂ ++ ':' :: (w₃ ++ (t ++ w₄)))) ++ '}' :: r =
        w₁ ++ '"' :: (kt ++ '"' :: (w₂ ++ ':' :: (w₃ ++ (t ++ (w₄ ++ '}' :: r))))) := by simp
    rw [e, skip_at h1 (by decide), members, if_neg (by decide), strBody_read hk _ _ (by simp)]
    simp only [skip_at h2 (show isBlank ':' = false by decide), skip_text h3 hv]
    rw [value_read hv f _ (by simp at hf; omega) (ends_space h4 (ends_at (by simp) _))]
    simp only [skip_at h4 (show isBlank '}' = false by decide)]
  | _, _, .more (kt := kt) (t := t) (ts := ts) (w₁ := w₁) (w₂ := w₂) (w₃ := w₃) (w₄ := w₄) h1 hk h2 h3 hv h4 hms, fuel, r, hf => by
    obtain ⟨f, rfl⟩ : ∃ f, fuel = f + 1 := ⟨fuel - 1, by omega⟩
    have e : w₁ ++ '"' :: (kt ++ '"' :: (w₂ ++ ':' :: (w₃ ++ (t ++ (w₄ ++ ',' :: ts))))) ++ '}' :: r =
        w₁ ++ '"' :: (kt ++ '"' :: (w₂ ++ ':' :: (w₃ ++ (t ++ (w₄ ++ ',' :: (ts ++ '}' :: r)))))) := by simp
    rw [e, skip_at h1 (by decide), members, if_neg (by decide), strBody_read hk _ _ (by simp)]
    simp only [skip_at h2 (show isBlank ':' = false by decide), skip_text h3 hv]
    rw [value_read hv f _ (by simp at hf; omega) (ends_space h4 (ends_at (by simp) _))]
    simp only [skip_at h4 (show isBlank ',' = false by decide)]
    rw [object_read hms f r (by simp at hf; omega)]
    rfl
end

/-- `json.loads` reads every value as it is meant. -/
theorem loads_text {lead trail t : Str} {v : Json} (hl : JsonSpace lead) (ht : JsonSpace trail) (h : JsonText v t) :
    loads (lead ++ t ++ trail) = some v := by
  have he : Ends trail := by
    have := ends_space ht ends_nil
    rwa [List.append_nil] at this
  unfold loads
  rw [List.append_assoc, skip_text hl h, value_read h _ _ (by simp; omega) he]
  have : skip trail = [] := by
    have := skip_space ht []
    rw [List.append_nil] at this
    rw [this]; rfl
  simp only [this, if_true]

end Json
end Mygrations

import Verif.Model.Dotenv

/-!
# Which texts are no JSON
-/

namespace Mygrations
namespace Json

/-- the characters of words and numbers -/
def scalarChar (c : Char) : Bool :=
  isDigit c || ('a' ≤ c && c ≤ 'z') || ('A' ≤ c && c ≤ 'Z') || c == '+' || c == '-' || c == '.'

theorem dropPrefix_eq : ∀ {p s r : Str}, dropPrefix p s = some r → s = p ++ r
  | [], _, _, h => by cases h; rfl
  | _ :: _, [], _, h => by cases h
  | a :: p, b :: s, r, h => by
    rw [dropPrefix] at h
    split at h
    · rename_i e
      rw [e, dropPrefix_eq h]; rfl
    · cases h

theorem scalarChar_digit {c : Char} (h : isDigit c = true) : scalarChar c = true := by
  unfold scalarChar; simp [h]

theorem digits_eq {s ds r : Str} (h : digits s = some (ds, r)) : s = ds ++ r ∧ ds ≠ [] ∧ ∀ c ∈ ds, scalarChar c = true := by
  unfold digits at h
  split at h
  · cases h
  · rename_i hne
    cases h
    refine ⟨(List.takeWhile_append_dropWhile).symm, fun e => hne e, fun c hc => scalarChar_digit ?_⟩
    exact (List.all_eq_true.mp (List.all_takeWhile (p := isDigit) (l := s)) c hc)

theorem whole_eq {s ds r : Str} (h : whole s = some (ds, r)) : s = ds ++ r ∧ ds ≠ [] ∧ ∀ c ∈ ds, scalarChar c = true := by
  cases s with
  | nil => cases h
  | cons c s =>
    rw [whole] at h
    split at h
    · rename_i e
      cases h
      rw [e]
      exact ⟨rfl, by simp, by simp; decide⟩
    · exact digits_eq h

theorem fraction_eq (s : Str) : s = (fraction s).1 ++ (fraction s).2 ∧ ∀ c ∈ (fraction s).1, scalarChar c = true := by
  unfold fraction
  split
  · split
    · rename_i r _ ds r' h
      obtain ⟨e, _, hd⟩ := digits_eq h
      refine ⟨by rw [e]; rfl, fun c hc => ?_⟩
      rcases List.mem_cons.mp hc with rfl | hc
      · decide
      · exact hd c hc
    · exact ⟨rfl, fun c hc => by cases hc⟩
  · exact ⟨rfl, fun c hc => by cases hc⟩

theorem sign_eq (s : Str) : s = (sign s).1 ++ (sign s).2 ∧ ∀ c ∈ (sign s).1, scalarChar c = true := by
  unfold sign
  split
  · exact ⟨rfl, fun c hc => by cases hc⟩
  · split
    · rename_i h
      refine ⟨rfl, fun c hc => ?_⟩
      rw [List.mem_singleton] at hc
      rw [hc]
      rcases h with e | e <;> rw [e] <;> decide
    · exact ⟨rfl, fun c hc => by cases hc⟩

theorem exponent_eq (s : Str) : s = (exponent s).1 ++ (exponent s).2 ∧ ∀ c ∈ (exponent s).1, scalarChar c = true := by
  unfold exponent
  split
  · exact ⟨rfl, fun c hc => by cases hc⟩
  · split
    · rename_i c r h
      split
      · rename_i ds r' hd
        obtain ⟨e, _, hds⟩ := digits_eq hd
        obtain ⟨e2, hs⟩ := sign_eq r
        refine ⟨?_, fun x hx => ?_⟩
        · show c :: r = c :: ((sign r).1 ++ ds) ++ r'
          rw [List.cons_append, List.append_assoc, ← e, ← e2]
        · replace hx : x ∈ c :: ((sign r).1 ++ ds) := hx
          rcases List.mem_cons.mp hx with rfl | hx
          · rcases h with e | e <;> rw [e] <;> decide
          · rcases List.mem_append.mp hx with hx | hx
            · exact hs x hx
            · exact hds x hx
      · exact ⟨rfl, fun c hc => by cases hc⟩
    · exact ⟨rfl, fun c hc => by cases hc⟩

theorem minus_eq (s : Str) : s = (minus s).1 ++ (minus s).2 ∧ ∀ c ∈ (minus s).1, scalarChar c = true := by
  unfold minus
  split
  · exact ⟨rfl, fun c hc => by cases hc⟩
  · split
    · rename_i h
      rw [h]
      exact ⟨rfl, by simp; decide⟩
    · exact ⟨rfl, fun c hc => by cases hc⟩

theorem scalar_used {s r : Str} {j : Json} (h : scalar s = some (j, r)) :
    ∃ used, s = used ++ r ∧ used ≠ [] ∧ ∀ c ∈ used, scalarChar c = true := by
  unfold scalar at h
  split at h
  · rename_i x hx
    cases h
    obtain ⟨l, hl, he⟩ := List.exists_of_findSome?_eq_some hx
    cases hd : dropPrefix l.1 s with
    | none => rw [hd] at he; cases he
    | some r' =>
      rw [hd] at he
      cases he
      have hall : ∀ l ∈ literals, l.1 ≠ [] ∧ ∀ c ∈ l.1, scalarChar c = true := by
        intro l hl
        simp only [literals, List.mem_cons, List.not_mem_nil, or_false] at hl
        rcases hl with rfl | rfl | rfl | rfl | rfl | rfl <;> exact ⟨by decide, by decide⟩
      exact ⟨l.1, dropPrefix_eq hd, hall l hl⟩
  · unfold number at h
    split at h
    · cases h
    · rename_i ds r' hw
      cases h
      obtain ⟨e1, h1⟩ := minus_eq s
      obtain ⟨e2, hne, h2⟩ := whole_eq hw
      obtain ⟨e3, h3⟩ := fraction_eq r'
      obtain ⟨e4, h4⟩ := exponent_eq (fraction r').2
      refine ⟨(minus s).1 ++ ds ++ (fraction r').1 ++ (exponent (fraction r').2).1, ?_, by simp [hne], ?_⟩
      · rw [List.append_assoc, ← e4, List.append_assoc, ← e3, List.append_assoc, ← e2, ← e1]
      · intro c hc
        simp only [List.mem_append] at hc
        rcases hc with ((hc | hc) | hc) | hc
        · exact h1 c hc
        · exact h2 c hc
        · exact h3 c hc
        · exact h4 c hc

theorem skip_nil {s : Str} (h : skip s = []) : ∀ c ∈ s, isBlank c = true := by
  induction s with
  | nil => intro c hc; cases hc
  | cons x s ih =>
    unfold skip at h
    rw [List.dropWhile_cons] at h
    split at h
    · rename_i hx
      intro c hc
      rcases List.mem_cons.mp hc with rfl | hc
      · exact hx
      · exact ih h c hc
    · cases h

/-- A text which does not begin like a string, an array or an object, and with a character which stands in no word and no
number. -/
theorem loads_none {text : Str} {x y : Char} {r : Str} (hs : skip text = x :: r) (hx : x ≠ '"' ∧ x ≠ '{' ∧ x ≠ '[')
    (hy : y ∈ x :: r) (hy1 : scalarChar y = false) (hy2 : isBlank y = false) : loads text = none := by
  unfold loads
  rw [hs]
  unfold value
  rw [if_neg hx.1, if_neg hx.2.1, if_neg hx.2.2]
  split
  · rfl
  · rename_i j r' h
    obtain ⟨used, e, _, hu⟩ := scalar_used h
    rw [if_neg]
    intro hr
    rw [e] at hy
    rcases List.mem_append.mp hy with hy | hy
    · rw [hu y hy] at hy1; cases hy1
    · rw [skip_nil hr y hy] at hy2; cases hy2

theorem isBlank_space {c : Char} (h : isBlank c = true) : isSpace c = true := by
  unfold isBlank at h
  simp only [Bool.or_eq_true, decide_eq_true_eq] at h
  rcases h with ((rfl | rfl) | rfl) | rfl <;> decide

theorem skip_blanks {c : Char} (hc : isBlank c = false) {s : Str} :
    ∀ (w : Str), ∃ w', skip (w ++ c :: s) = w' ++ c :: s ∧ ∀ x ∈ w', x ∈ w
  | [] => ⟨[], by unfold skip; rw [List.nil_append, List.dropWhile_cons, hc]; rfl, fun _ h => h⟩
  | x :: w => by
    unfold skip
    rw [List.cons_append, List.dropWhile_cons]
    split
    · obtain ⟨w', h, hw⟩ := skip_blanks hc (s := s) w
      exact ⟨w', h, fun y hy => List.mem_cons_of_mem _ (hw y hy)⟩
    · exact ⟨x :: w, rfl, fun _ h => h⟩

theorem isSpace_plain {x : Char} (h : isSpace x = true) : (x ≠ '"' ∧ x ≠ '{' ∧ x ≠ '[') :=
  ⟨fun e => absurd h (by rw [e]; decide), fun e => absurd h (by rw [e]; decide), fun e => absurd h (by rw [e]; decide)⟩

theorem loads_line {w : Str} {c y : Char} {s : Str} (hw : ∀ x ∈ w, isSpace x = true) (hc : isSpace c = false)
    (hh : c ≠ '"' ∧ c ≠ '{' ∧ c ≠ '[') (hy : y ∈ c :: s) (hy1 : scalarChar y = false) (hy2 : isBlank y = false) :
    loads (w ++ c :: s) = none := by
  have hb : isBlank c = false := by
    cases h : isBlank c with
    | false => rfl
    | true => rw [isBlank_space h] at hc; cases hc
  obtain ⟨w', hs, hw'⟩ := skip_blanks hb (s := s) w
  cases w' with
  | nil => exact loads_none hs hh hy hy1 hy2
  | cons x w' =>
    exact loads_none hs (isSpace_plain (hw x (hw' x List.mem_cons_self))) (List.mem_append_right (x :: w') hy) hy1 hy2

theorem mem_skip {x : Char} {s : Str} (h : x ∈ skip s) : x ∈ s := (List.dropWhile_sublist _).subset h

theorem isSpace_scalar {x : Char} (h : isSpace x = true) : scalarChar x = false := by
  cases hs : scalarChar x with
  | false => rfl
  | true =>
    exfalso
    unfold scalarChar isDigit at hs
    simp only [Bool.or_eq_true, Bool.and_eq_true, decide_eq_true_eq, beq_iff_eq, Char.le_def, UInt32.le_iff_toNat_le] at hs
    unfold isSpace at h
    simp only [Bool.or_eq_true, Bool.and_eq_true, decide_eq_true_eq, beq_iff_eq] at h
    have e : x.val.toNat = x.toNat := rfl
    rw [e] at hs
    have k1 : '0'.val.toNat = 48 := rfl
    have k2 : '9'.val.toNat = 57 := rfl
    have k3 : 'a'.val.toNat = 97 := rfl
    have k4 : 'z'.val.toNat = 122 := rfl
    have k5 : 'A'.val.toNat = 65 := rfl
    have k6 : 'Z'.val.toNat = 90 := rfl
    rw [k1, k2, k3, k4, k5, k6] at hs
    rcases hs with ((((hs | hs) | hs) | rfl) | rfl) | rfl
    · omega
    · omega
    · omega
    · revert h; decide
    · revert h; decide
    · revert h; decide

theorem loads_blank {w : Str} (hw : ∀ x ∈ w, isSpace x = true) : loads w = none := by
  cases hs : skip w with
  | nil => unfold loads; rw [hs]; rfl
  | cons x r =>
    have hx : x ∈ w := mem_skip (hs ▸ List.mem_cons_self)
    have hsp := hw x hx
    refine loads_none hs (isSpace_plain hsp) List.mem_cons_self (isSpace_scalar hsp) ?_
    have := List.head?_dropWhile_not (p := isBlank) w
    rw [show List.dropWhile isBlank w = x :: r from hs] at this
    simpa using this

end Json

/-- Nothing but white space, or something which is seen to be no JSON. -/
def NoJson (l : Str) : Prop :=
  (∀ x ∈ l, isSpace x = true) ∨
  ∃ w c s y, l = w ++ c :: s ∧ (∀ x ∈ w, isSpace x = true) ∧ isSpace c = false ∧ (c ≠ '"' ∧ c ≠ '{' ∧ c ≠ '[') ∧ y ∈ c :: s ∧
    Json.scalarChar y = false ∧ Json.isBlank y = false

theorem NoJson.loads {l : Str} (h : NoJson l) : Json.loads l = none := by
  rcases h with h | ⟨w, c, s, y, rfl, h1, h2, h3, h4, h5, h6⟩
  · exact Json.loads_blank h
  · exact Json.loads_line h1 h2 h3 h4 h5 h6

theorem NoJson.append {a b : Str} (ha : NoJson a) (hb : NoJson b) : NoJson (a ++ b) := by
  rcases ha with ha | ⟨w, c, s, y, rfl, h1, h2, h3, h4, h5, h6⟩
  · rcases hb with hb | ⟨w, c, s, y, rfl, h1, h2, h3, h4, h5, h6⟩
    · exact Or.inl (fun x hx => (List.mem_append.mp hx).elim (ha x) (hb x))
    · exact Or.inr ⟨a ++ w, c, s, y, by simp, fun x hx => (List.mem_append.mp hx).elim (ha x) (h1 x), h2, h3, h4, h5, h6⟩
  · refine Or.inr ⟨w, c, s ++ b, y, by simp, h1, h2, h3, ?_, h5, h6⟩
    rw [← List.cons_append]
    exact List.mem_append_left _ h4

theorem NoJson.join : ∀ {ls : List Str}, (∀ l ∈ ls, NoJson l) → NoJson (Mygrations.join ['\n'] ls)
  | [], _ => Or.inl (fun _ h => by cases h)
  | [a], h => h a List.mem_cons_self
  | a :: b :: ls, h => by
    have e : Mygrations.join ['\n'] (a :: b :: ls) = a ++ (['\n'] ++ Mygrations.join ['\n'] (b :: ls)) := by simp [Mygrations.join]
    rw [e]
    refine (h a List.mem_cons_self).append (NoJson.append (Or.inl ?_) (NoJson.join (fun l hl => h l (List.mem_cons_of_mem _ hl))))
    intro x hx
    rw [List.mem_singleton.mp hx]
    decide

theorem Dotenv.parse_lines {text : Str} (h : Json.loads text = none) (comment : Char) :
    Dotenv.parse text comment = Dotenv.parseLines comment [] (splitOn '\n' text) := by
  unfold Dotenv.parse; rw [h]

end Mygrations

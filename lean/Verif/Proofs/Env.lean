import Verif.Spec.Env
import Verif.Proofs.Json
import Verif.Proofs.Dict
import Verif.Proofs.ReadDoc

/-! # Reading configuration files -/

namespace Mygrations
namespace Dotenv

/-! ## Positions of characters -/

theorem indexFrom_hit (c : Char) : ∀ (a b : Str) (i : Nat), c ∉ a → indexFrom c i (a ++ c :: b) = some (i + a.length)
  | [], b, i, _ => by simp [indexFrom]
  | x :: a, b, i, h => by
    have hx : x ≠ c := fun e => h (e ▸ List.mem_cons_self)
    rw [List.cons_append, indexFrom, if_neg hx, indexFrom_hit c a b (i + 1) (fun m => h (List.mem_cons_of_mem _ m))]
    simp; omega

theorem indexFrom_miss (c : Char) : ∀ (a : Str) (i : Nat), c ∉ a → indexFrom c i a = none
  | [], _, _ => rfl
  | x :: a, i, h => by
    have hx : x ≠ c := fun e => h (e ▸ List.mem_cons_self)
    rw [indexFrom, if_neg hx, indexFrom_miss c a (i + 1) (fun m => h (List.mem_cons_of_mem _ m))]

theorem index_hit {c : Char} {a b : Str} {i : Nat} (hi : i ≤ a.length) (h : c ∉ a.drop i) : index c (a ++ c :: b) i = some a.length := by
  unfold index
  rw [List.drop_append_of_le_length hi, indexFrom_hit c _ b i h]
  simp; omega

theorem index_some {c : Char} : ∀ {a : Str} {i : Nat}, c ∈ a.drop i → index c a i ≠ none := by
  intro a i h e
  unfold index at e
  have : ∀ (l : Str) (i : Nat), c ∈ l → indexFrom c i l ≠ none := by
    intro l
    induction l with
    | nil => intro i h; cases h
    | cons x l ih =>
      intro i h
      unfold indexFrom
      split
      · simp
      · rename_i hx
        rcases List.mem_cons.mp h with rfl | h
        · exact absurd rfl hx
        · exact ih _ h
  exact this _ _ h e

/-! ## Escaped quotes -/

theorem escapeQuote_cons (q c : Char) (v : Str) : escapeQuote q (c :: v) = (if c = q then ['\\', q] else [c]) ++ escapeQuote q v := rfl

theorem head_escape {q : Char} (hq : q ≠ '\\') : ∀ {v : Str} {c : Char}, (escapeQuote q v).head? = some c → c ≠ q
  | [], _, h => by cases h
  | x :: v, c, h => by
    rw [escapeQuote_cons] at h
    by_cases hx : x = q
    · simp only [if_pos hx, List.cons_append, List.head?_cons, Option.some.injEq] at h
      exact fun e => hq (e ▸ h.symm)
    · simp only [if_neg hx, List.cons_append, List.head?_cons, Option.some.injEq] at h
      exact h ▸ hx

theorem unescape {q : Char} (hq : q ≠ '\\') : ∀ v : Str, replacePair '\\' q [q] (escapeQuote q v) = v
  | [] => rfl
  | c :: v => by
    rw [escapeQuote_cons]
    by_cases hc : c = q
    · subst hc
      simp only [if_true, List.cons_append, List.nil_append]
      rw [replacePair]
      simp [unescape hq v]
    · simp only [if_neg hc, List.cons_append, List.nil_append]
      have ih := unescape hq v
      cases he : escapeQuote q v with
      | nil => rw [he] at ih; rw [← ih]; rfl
      | cons y ys =>
        have hy : y ≠ q := head_escape hq (by rw [he]; rfl)
        rw [replacePair]
        simp only [hy, and_false, if_false]
        rw [← he, ih]

theorem unescape_end {q : Char} (hq : q ≠ '\\') : ∀ v : Str, v.getLast? ≠ some '\\' → replacePair '\\' q [q] (escapeQuote q v ++ [q]) = v ++ [q]
  | [], _ => rfl
  | c :: v, hl => by
    have hl' : v.getLast? ≠ some '\\' := by
      cases v with
      | nil => simp
      | cons x xs => simpa using hl
    have ih := unescape_end hq v hl'
    rw [escapeQuote_cons]
    by_cases hc : c = q
    · subst hc
      simp only [if_true, List.cons_append, List.nil_append]
      rw [replacePair]
      simp [ih]
    · simp only [if_neg hc, List.cons_append, List.nil_append]
      cases he : escapeQuote q v with
      | nil =>
        have hv : v = [] := by
          cases v with
          | nil => rfl
          | cons x xs => rw [escapeQuote_cons] at he; split at he <;> simp at he
        subst hv
        have : c ≠ '\\' := by simpa using hl
        rw [List.nil_append, replacePair, if_neg (fun e => this e.1)]
        rfl
      | cons y ys =>
        have hy : y ≠ q := head_escape hq (by rw [he]; rfl)
        rw [List.cons_append, replacePair]
        simp only [hy, and_false, if_false]
        rw [← List.cons_append, ← he, ih]

theorem last_escape {q : Char} (hq : q ≠ '\\') : ∀ {v : Str} (_ : v ≠ []), v.getLast? ≠ some '\\' → (escapeQuote q v).getLast? ≠ some '\\' := by
  intro v hv h
  obtain ⟨w, c, rfl⟩ : ∃ w c, v = w ++ [c] := ⟨v.dropLast, v.getLast hv, (List.dropLast_concat_getLast hv).symm⟩
  have : escapeQuote q (w ++ [c]) = escapeQuote q w ++ (if c = q then ['\\', q] else [c]) := by
    simp [escapeQuote]
  rw [this]
  by_cases hc : c = q
  · rw [if_pos hc]; simp [hq]
  · rw [if_neg hc]
    simp only [List.getLast?_append, List.getLast?_singleton, Option.some_or] at h ⊢
    exact h

/-! ## The closing quote -/

/-- what is done at the closing quote -/
def atClose (comment quote : Char) (line key value : Str) (j : Nat) : Except Err (Str × Str) :=
  let value := match index comment value j with
    | some k => strip (value.take k)
    | none => value
  if value.length > j + 1 ∧ strip (value.drop (j + 1)) ≠ py";" then .error (.syntaxError line)
  else .ok (key, replacePair '\\' quote [quote] (value.take j))

theorem closing_find {comment q : Char} {line key tail : Str} (hq : q ≠ '\\') : ∀ (r pre : Str) (i fuel : Nat), i ≤ pre.length →
    i < (pre ++ escapeQuote q r).length → q ∉ pre.drop (i + 1) → r.length < fuel → (pre ++ escapeQuote q r).getLast? ≠ some '\\' →
    closing comment q line key (pre ++ escapeQuote q r ++ q :: tail) fuel i =
      atClose comment q line key (pre ++ escapeQuote q r ++ q :: tail) (pre ++ escapeQuote q r).length
  | r, pre, i, 0, _, _, _, hf, _ => by omega
  | [], pre, i, fuel + 1, _, hi, hn, _, hl => by
    have e : escapeQuote q [] = [] := rfl
    rw [e, List.append_nil] at hl hi ⊢
    have h1 : index q (pre ++ q :: tail) i ≠ none := index_some (by
      rw [List.drop_append_of_le_length (by omega)]; simp)
    have h2 : index q (pre ++ q :: tail) (i + 1) = some pre.length := index_hit (by omega) hn
    have h3 : (pre ++ q :: tail)[pre.length - 1]? ≠ some '\\' := by
      rw [List.getElem?_append_left (by omega), ← List.getLast?_eq_getElem?]; exact hl
    rw [closing, if_neg h1]
    simp only [h2, if_neg h3]
    rfl
  | c :: r, pre, i, fuel + 1, hi, hi', hn, hf, hl => by
    rw [escapeQuote_cons] at hl hi' ⊢
    by_cases hc : c = q
    · subst hc
      rw [if_pos rfl] at hl hi' ⊢
      have e : pre ++ (['\\', c] ++ escapeQuote c r) ++ c :: tail = (pre ++ ['\\']) ++ c :: (escapeQuote c r ++ c :: tail) := by simp
      have h1 : index c (pre ++ (['\\', c] ++ escapeQuote c r) ++ c :: tail) i ≠ none := index_some (by
        rw [e, List.drop_append_of_le_length (by simp; omega)]; simp)
      have h2 : index c (pre ++ (['\\', c] ++ escapeQuote c r) ++ c :: tail) (i + 1) = some (pre.length + 1) := by
        rw [e, index_hit (by simp; omega)]
        · simp
        · rw [List.drop_append, List.mem_append]
          rintro (h | h)
          · exact hn h
          · have := List.mem_of_mem_drop h
            simp at this
            exact hq this
      have h3 : (pre ++ (['\\', c] ++ escapeQuote c r) ++ c :: tail)[pre.length + 1 - 1]? = some '\\' := by simp
      rw [closing, if_neg h1]
      simp only [h2, if_pos h3]
      have ih := closing_find (comment := comment) (line := line) (key := key) (tail := tail) hq r (pre ++ ['\\', c]) (pre.length + 1) fuel
        (by simp) (by simp) (by rw [List.drop_eq_nil_of_le (by simp)]; simp) (by simp at hf; omega) (by rw [List.append_assoc]; exact hl)
      rw [List.append_assoc pre ['\\', c]] at ih
      exact ih
    · rw [if_neg hc] at hl hi' ⊢
      have ih := closing_find (comment := comment) (line := line) (key := key) (tail := tail) hq r (pre ++ [c]) i (fuel + 1)
        (by simp; omega) (by rw [List.append_assoc]; exact hi') (by
          rw [List.drop_append, List.mem_append]
          rintro (h | h)
          · exact hn h
          · have := List.mem_of_mem_drop h
            simp at this
            exact hc this.symm) (by simp at hf; omega)
        (by rw [List.append_assoc]; exact hl)
      rw [List.append_assoc pre [c]] at ih
      exact ih
termination_by r => r.length

/-! ## Blanks -/

theorem rtrim_of_last {s : Str} (h : ∀ c, s.getLast? = some c → isSpace c = false) : RTrim s := by
  unfold RTrim rstrip
  rw [dropWhile_eq_self (by rw [List.head?_reverse]; exact h), List.reverse_reverse]

theorem strip_around {g s g' : Str} (hg : Blanks g) (hs : Trimmed s) (hne : s ≠ []) (hg' : Blanks g') : strip (g ++ s ++ g') = s := by
  rw [List.append_assoc, strip_blanks hg]
  obtain ⟨c, cs, rfl⟩ : ∃ c cs, s = c :: cs := by
    cases s with
    | nil => exact absurd rfl hne
    | cons c cs => exact ⟨c, cs, rfl⟩
  unfold strip
  rw [List.cons_append, lstrip_of_head (hs.1 c rfl), ← List.cons_append, rstrip_append (rtrim_of_last hs.2), hg'.rstrip, List.append_nil]

theorem space_blanks {g : Str} (h : Space g) : Blanks g := fun c hc => (h c hc).1

theorem space_not {g : Str} (h : Space g) {c : Char} (hc : isSpace c = false) : c ∉ g := fun m => by
  rw [(h c m).1] at hc; cases hc

theorem blanks_nil : Blanks [] := fun _ h => by cases h

theorem trimmed_join {a b : Str} (ha : a ≠ []) (hb : b ≠ []) (h1 : ∀ c, a.head? = some c → isSpace c = false)
    (h2 : ∀ c, b.getLast? = some c → isSpace c = false) (m : Str) : Trimmed (a ++ m ++ b) := by
  constructor
  · intro c hc
    cases a with
    | nil => exact absurd rfl ha
    | cons x xs => exact h1 c (by simpa using hc)
  · intro c hc
    rw [List.getLast?_append] at hc
    cases hl : b.getLast? with
    | none => rw [List.getLast?_eq_none_iff] at hl; exact absurd hl hb
    | some x => rw [hl, Option.some_or] at hc; exact h2 c (hl.trans hc)

theorem hasChar_iff {c : Char} {s : Str} : hasChar c s = true ↔ c ∈ s := by
  simp [hasChar]

theorem hasChar_not {c : Char} {s : Str} (h : c ∉ s) : hasChar c s = false := by
  cases hh : hasChar c s
  · rfl
  · exact absurd (hasChar_iff.mp hh) h

theorem splitLine_hit {k v : Str} {sep : Char} (hs : sep = '=' ∨ sep = ':') (hne : k ≠ []) (h1 : '=' ∉ k) (h2 : ':' ∉ k) :
    splitLine (k ++ sep :: v) = some (k, v) := by
  have hk : ∀ c ∈ k, (decide (c ≠ '=' ∧ c ≠ ':')) = true := by
    intro c hc
    rw [decide_eq_true_iff]
    exact ⟨fun e => h1 (e ▸ hc), fun e => h2 (e ▸ hc)⟩
  have hsep : (decide (sep ≠ '=' ∧ sep ≠ ':')) = false := by rcases hs with rfl | rfl <;> rfl
  unfold splitLine
  rw [List.takeWhile_append_of_pos hk, List.dropWhile_append_of_pos hk]
  rw [List.takeWhile_cons, List.dropWhile_cons, hsep]
  cases k with
  | nil => exact absurd rfl hne
  | cons x xs => simp

end Dotenv

namespace EnvLine
open Dotenv

variable {l : EnvLine}

theorem escape_ne {q : Char} : ∀ {v : Str}, v ≠ [] → escapeQuote q v ≠ []
  | [], h => absurd rfl h
  | c :: v, _ => by
    rw [escapeQuote_cons]
    split <;> simp

theorem quote_solid {q : Char} (h : q = '\'' ∨ q = '"') : isSpace q = false ∧ q ≠ '\\' ∧ q ≠ '#' := by
  rcases h with rfl | rfl <;> decide

theorem Ok.valueText_ne (h : l.Ok) : l.valueText ≠ [] := by
  unfold valueText
  split
  · exact h.value_nonempty
  · simp

theorem Ok.valueText_trimmed (h : l.Ok) : Trimmed l.valueText := by
  unfold valueText
  split
  · rename_i e; exact (h.bare e).1
  · rename_i q s e
    have hq := quote_solid (h.quoted q s e).1
    constructor
    · intro c hc
      simp at hc
      exact hc ▸ hq.1
    · intro c hc
      cases s
      · rw [if_neg (by decide), List.append_nil, List.getLast?_concat] at hc
        exact Option.some.inj hc ▸ hq.1
      · rw [if_pos rfl, show py";" = [';'] from rfl, List.getLast?_concat] at hc
        exact Option.some.inj hc ▸ (by decide)

/-- the value with its comment -/
def body (l : EnvLine) : Str := l.valueText ++ l.commentText

theorem Ok.body_ne (h : l.Ok) : l.body ≠ [] := by
  unfold body
  intro e
  exact h.valueText_ne (List.append_eq_nil_iff.mp e).1

theorem Ok.body_trimmed (h : l.Ok) : Trimmed l.body := by
  have hv := h.valueText_trimmed
  unfold body commentText
  split
  · rw [List.append_nil]; exact hv
  · rename_i c hc
    rw [← List.append_assoc, ← List.append_assoc, List.append_assoc _ py"#" c]
    refine trimmed_join h.valueText_ne (by simp) hv.1 ?_ l.beforeComment
    intro x hx
    cases hcl : c.getLast? with
    | none =>
      rw [List.getLast?_eq_none_iff] at hcl
      subst hcl
      simp at hx
      exact hx ▸ (by decide)
    | some y =>
      rw [List.getLast?_append, hcl, Option.some_or] at hx
      exact h.comment_end c hc x (hcl.trans hx)

theorem Ok.strip_text (h : l.Ok) : strip l.text = l.key ++ l.afterKey ++ l.separator :: (l.beforeValue ++ l.body) := by
  obtain ⟨b1, _, _, _, b5⟩ := h.blanks
  have e : l.text = l.indent ++ (l.key ++ (l.afterKey ++ [l.separator] ++ l.beforeValue) ++ l.body) ++ l.trailing := by
    simp [text, body]
  rw [e, strip_around (space_blanks b1) (trimmed_join h.key_nonempty h.body_ne h.key_trimmed.1 h.body_trimmed.2 _) (by
    intro e; exact h.key_nonempty (List.append_eq_nil_iff.mp (List.append_eq_nil_iff.mp e).1).1) (space_blanks b5)]
  simp

theorem Ok.key_chars (h : l.Ok) : '=' ∉ l.key ++ l.afterKey ∧ ':' ∉ l.key ++ l.afterKey := by
  obtain ⟨h1, h2, _⟩ := h.key_plain
  obtain ⟨_, b2, _⟩ := h.blanks
  constructor <;> rw [List.mem_append] <;> rintro (e | e)
  · exact h1 e
  · exact space_not b2 (by decide) e
  · exact h2 e
  · exact space_not b2 (by decide) e

/-- what is left to do once key and value are apart -/
def finish (line key : Str) : Str → Except Err (Str × Str)
  | [] => .ok (key, [])
  | q :: value =>
    if q ≠ '\'' ∧ q ≠ '"' then
      let value := if hasChar '#' (q :: value) then strip (cutAt '#' (q :: value)) else q :: value
      if hasChar '"' value ∨ hasChar '\'' value then .error (.syntaxError line)
      else .ok (key, value)
    else if !hasChar q value then .error (.syntaxError line)
    else if value.head? = some q then .ok (key, [])
    else closing '#' q line key value value.length 0

theorem Ok.parse (h : l.Ok) : parseLine l.text '#' = finish l.text l.key l.body := by
  obtain ⟨_, b2, b3, _⟩ := h.blanks
  have hne : l.key ++ l.afterKey ≠ [] := fun e => h.key_nonempty (List.append_eq_nil_iff.mp e).1
  have hk : strip (l.key ++ l.afterKey) = l.key := by
    have := strip_around blanks_nil h.key_trimmed h.key_nonempty (space_blanks b2)
    rwa [List.nil_append] at this
  have hb : strip (l.beforeValue ++ l.body) = l.body := by
    have := strip_around (space_blanks b3) h.body_trimmed h.body_ne blanks_nil
    rwa [List.append_nil] at this
  have hh : ¬ (strip l.text).head? = some '#' := by
    rw [h.strip_text]
    intro e
    apply h.key_comment
    cases hkk : l.key with
    | nil => exact absurd hkk h.key_nonempty
    | cons x xs => rw [hkk] at e; simpa using e
  have hn : ¬ strip l.text = [] := by
    rw [h.strip_text]; simp
  unfold parseLine
  simp only
  rw [if_neg hh, if_neg hn, h.strip_text, splitLine_hit h.separator hne h.key_chars.1 h.key_chars.2]
  simp only [hk, hb]
  cases l.body <;> rfl

theorem cutAt_hit {c : Char} {a b : Str} (h : c ∉ a) : cutAt c (a ++ c :: b) = a := by
  unfold cutAt
  rw [List.takeWhile_append_of_pos (fun x hx => by simp; exact fun e => h (e ▸ hx))]
  simp

theorem Ok.read_bare (h : l.Ok) (hw : l.written = .bare) : parseLine l.text '#' = .ok (l.key, l.value) := by
  obtain ⟨ht, h1, h2, h3⟩ := h.bare hw
  obtain ⟨_, _, _, b4, _⟩ := h.blanks
  have hv : l.valueText = l.value := by unfold valueText; rw [hw]
  rw [h.parse]
  obtain ⟨c, cs, hc⟩ : ∃ c cs, l.value = c :: cs := by
    cases hl : l.value with
    | nil => exact absurd hl h.value_nonempty
    | cons c cs => exact ⟨c, cs, rfl⟩
  have hq : c ≠ '\'' ∧ c ≠ '"' := ⟨fun e => h1 (by rw [hc, e]; simp), fun e => h2 (by rw [hc, e]; simp)⟩
  have hval : (if hasChar '#' l.body then strip (cutAt '#' l.body) else l.body) = l.value := by
    unfold body commentText
    rw [hv]
    split
    · rw [List.append_nil, hasChar_not h3]; rfl
    · rename_i com _
      have e : l.value ++ (l.beforeComment ++ py"#" ++ com) = (l.value ++ l.beforeComment) ++ '#' :: com := by simp
      rw [e, if_pos (hasChar_iff.mpr (by simp)), cutAt_hit (by
        rw [List.mem_append]
        rintro (m | m)
        · exact h3 m
        · exact space_not b4 (by decide) m)]
      have := strip_around blanks_nil ht h.value_nonempty (space_blanks b4)
      rwa [List.nil_append] at this
  obtain ⟨x, xs, hb⟩ : ∃ xs x, l.body = x :: xs := ⟨cs ++ l.commentText, c, by unfold body; rw [hv, hc]; rfl⟩
  have hx : xs = c := by
    unfold body at hb
    rw [hv, hc] at hb
    exact (List.cons.inj hb).1.symm
  subst hx
  rw [hb] at hval ⊢
  unfold finish
  simp only [if_pos hq, hval]
  rw [if_neg]
  intro e
  rcases e with e | e
  · exact h2 (hasChar_iff.mp e)
  · exact h1 (hasChar_iff.mp e)

theorem Ok.read_quoted (h : l.Ok) {q : Char} {s : Bool} (hw : l.written = .quoted q s)
    (hc : l.comment ≠ none → ∀ c, l.value.head? = some c → isSpace c = false) : parseLine l.text '#' = .ok (l.key, l.value) := by
  obtain ⟨hq0, hlast⟩ := h.quoted q s hw
  obtain ⟨hq1, hq2, hq3⟩ := quote_solid hq0
  obtain ⟨_, _, _, b4, _⟩ := h.blanks
  have hE : escapeQuote q l.value ≠ [] := escape_ne h.value_nonempty
  obtain ⟨T, hT⟩ : ∃ T, T = (if s then py";" else []) ++ l.commentText := ⟨_, rfl⟩
  have hb : l.body = q :: (escapeQuote q l.value ++ q :: T) := by
    unfold body valueText
    rw [hw, hT]
    simp
  rw [h.parse, hb]
  have hh : ¬ (escapeQuote q l.value ++ q :: T).head? = some q := by
    intro e
    cases he : escapeQuote q l.value with
    | nil => exact hE he
    | cons x xs =>
      rw [he] at e
      exact head_escape hq2 (by rw [he]; rfl) (Option.some.inj e)
  rw [finish]
  rw [if_neg (by rcases hq0 with rfl | rfl <;> simp)]
  rw [if_neg (by rw [hasChar_iff.mpr (by simp)]; simp), if_neg hh]
  have hpos : 0 < (escapeQuote q l.value).length := List.length_pos_iff.mpr hE
  have hlen : l.value.length ≤ (escapeQuote q l.value).length := by
    have : ∀ v : Str, v.length ≤ (escapeQuote q v).length := by
      intro v
      induction v with
      | nil => exact Nat.le_refl 0
      | cons c v ih => rw [escapeQuote_cons]; split <;> simp <;> omega
    exact this _
  have hfind := closing_find (comment := '#') (line := l.text) (key := l.key) (tail := T) hq2 l.value [] 0
    (escapeQuote q l.value ++ q :: T).length (Nat.le_refl 0) (by simpa using hpos) (by simp) (by simp; omega)
    (by rw [List.nil_append]; exact last_escape hq2 h.value_nonempty hlast)
  simp only [List.nil_append] at hfind
  rw [hfind]
  unfold atClose
  have hsemi : '#' ∉ q :: (if s then py";" else []) := by
    cases s
    · simpa using Ne.symm hq3
    · simpa using Ne.symm hq3
  cases hcom : l.comment with
  | none =>
    have hT' : T = if s then py";" else [] := by rw [hT]; unfold commentText; rw [hcom]; simp
    have hi : index '#' (escapeQuote q l.value ++ q :: T) (escapeQuote q l.value).length = none := by
      unfold index
      rw [List.drop_left]
      exact indexFrom_miss _ _ _ (hT' ▸ hsemi)
    simp only [hi]
    rw [if_neg, List.take_left, unescape hq2]
    intro e
    rw [show (escapeQuote q l.value ++ q :: T) = (escapeQuote q l.value ++ [q]) ++ T by simp,
      show (escapeQuote q l.value).length + 1 = (escapeQuote q l.value ++ [q]).length by simp, List.drop_left, hT'] at e
    cases s
    · simp at e
    · exact e.2 rfl
  | some com =>
    have hT' : T = (if s then py";" else []) ++ (l.beforeComment ++ '#' :: com) := by rw [hT]; unfold commentText; rw [hcom]; simp
    obtain ⟨W, hW⟩ : ∃ W, W = escapeQuote q l.value ++ q :: (if s then py";" else []) := ⟨_, rfl⟩
    have e : escapeQuote q l.value ++ q :: T = (W ++ l.beforeComment) ++ '#' :: com := by rw [hT', hW]; simp
    have hi : index '#' (escapeQuote q l.value ++ q :: T) (escapeQuote q l.value).length = some (W ++ l.beforeComment).length := by
      rw [e]
      apply index_hit
      · rw [hW]; simp
      · rw [hW, List.append_assoc, List.drop_left, List.mem_append]
        rintro (m | m)
        · exact hsemi m
        · exact space_not b4 (by decide) m
    have hWt : Trimmed W := by
      constructor
      · intro c hcc
        rw [hW] at hcc
        cases hv : l.value with
        | nil => exact absurd hv h.value_nonempty
        | cons x xs =>
          rw [hv, escapeQuote_cons] at hcc
          by_cases hx : x = q
          · rw [if_pos hx] at hcc
            simp at hcc
            exact hcc ▸ (by decide)
          · rw [if_neg hx] at hcc
            simp at hcc
            exact hcc ▸ hc (by rw [hcom]; simp) x (by rw [hv]; rfl)
      · intro c hcc
        rw [hW] at hcc
        cases s
        · rw [if_neg (by decide), List.getLast?_concat] at hcc
          exact Option.some.inj hcc ▸ hq1
        · rw [if_pos rfl, show q :: py";" = [q] ++ [';'] from rfl, ← List.append_assoc, List.getLast?_concat] at hcc
          exact Option.some.inj hcc ▸ (by decide)
    have hst : strip (W ++ l.beforeComment) = W := by
      have := strip_around blanks_nil hWt (by rw [hW]; simp) (space_blanks b4)
      rwa [List.nil_append] at this
    simp only [hi]
    rw [e, List.take_left, hst, if_neg]
    · rw [hW, List.take_left, unescape hq2]
    · intro e
      rw [show W = (escapeQuote q l.value ++ [q]) ++ (if s then py";" else []) by rw [hW]; simp,
        show (escapeQuote q l.value).length + 1 = (escapeQuote q l.value ++ [q]).length by simp, List.drop_left] at e
      cases s
      · simp at e
      · exact e.2 rfl

end EnvLine

namespace Dotenv
open EnvLine

/-- a line of a key, a separator and anything -/
theorem parse_split {k : Str} (hk : EnvKey k) (x : Str) : parseLine (k ++ '=' :: x) '#' = finish (k ++ '=' :: x) k (strip x) := by
  obtain ⟨hne, ht, h1, h2, h3⟩ := hk
  have hs : strip (k ++ '=' :: x) = k ++ '=' :: rstrip x := by
    have e : k ++ '=' :: x = (k ++ ['=']) ++ x := by simp
    obtain ⟨c, cs, rfl⟩ : ∃ c cs, k = c :: cs := by
      cases k with
      | nil => exact absurd rfl hne
      | cons c cs => exact ⟨c, cs, rfl⟩
    unfold strip
    rw [e, List.cons_append, List.cons_append, lstrip_of_head (ht.1 c rfl), ← List.cons_append, ← List.cons_append,
      rstrip_append (rtrim_of_last (fun d hd => by rw [List.getLast?_concat] at hd; exact Option.some.inj hd ▸ (by decide)))]
    simp
  have hh : ¬ (strip (k ++ '=' :: x)).head? = some '#' := by
    rw [hs]
    intro e
    apply h3
    cases hkk : k with
    | nil => exact absurd hkk hne
    | cons x xs => rw [hkk] at e; simpa using e
  have hn : ¬ strip (k ++ '=' :: x) = [] := by rw [hs]; simp
  have hkk : strip k = k := by
    have := strip_around blanks_nil ht hne blanks_nil
    rwa [List.nil_append, List.append_nil] at this
  unfold parseLine
  simp only
  rw [if_neg hh, if_neg hn, hs, splitLine_hit (Or.inl rfl) hne h1 h2]
  simp only [hkk, strip_rstrip]
  cases strip x <;> rfl

theorem mem_of_rstrip {c : Char} {s : Str} (h : c ∈ rstrip s) : c ∈ s := by
  unfold rstrip at h
  rw [List.mem_reverse] at h
  exact List.mem_reverse.mp ((List.dropWhile_suffix _).mem h)

theorem escape_length (q : Char) : ∀ v : Str, v.length ≤ (escapeQuote q v).length
  | [] => Nat.le_refl 0
  | c :: v => by
    have := escape_length q v
    rw [escapeQuote_cons]; split <;> simp <;> omega

/-- an escaped blank is a blank -/
theorem escape_blanks {q : Char} (hq : isSpace q = false) : ∀ {b : Str} (_ : Blanks b) (v : Str), escapeQuote q (b ++ v) = b ++ escapeQuote q v
  | [], _, _ => rfl
  | c :: b, h, v => by
    have hc : ¬ c = q := fun e => by have := h c List.mem_cons_self; rw [e, hq] at this; cases this
    rw [List.cons_append, escapeQuote_cons, if_neg hc, escape_blanks hq (fun x hx => h x (List.mem_cons_of_mem _ hx)) v]
    rfl

/-- blanks at the start of a value in quotes, with a comment behind it: the blanks are lost, and the closing quote is kept -/
theorem _root_.Mygrations.EnvLine.Ok.read_blank {l : EnvLine} (h : l.Ok) {q : Char} (hw : l.written = .quoted q false) {com : Str} (hcom : l.comment = some com)
    {b v : Str} (hv : l.value = b ++ v) (hb : Blanks b) (hb0 : b ≠ []) (hv0 : v ≠ []) (hv1 : ∀ c, v.head? = some c → isSpace c = false) :
    parseLine l.text '#' = .ok (l.key, v ++ [q]) := by
  obtain ⟨hq0, hlast⟩ := h.quoted q false hw
  obtain ⟨hq1, hq2, hq3⟩ := quote_solid hq0
  obtain ⟨_, _, _, b4, _⟩ := h.blanks
  have hE : escapeQuote q l.value ≠ [] := escape_ne h.value_nonempty
  obtain ⟨T, hT⟩ : ∃ T, T = l.beforeComment ++ '#' :: com := ⟨_, rfl⟩
  have hbody : l.body = q :: (escapeQuote q l.value ++ q :: T) := by
    unfold body valueText commentText
    rw [hw, hcom, hT]
    simp
  rw [h.parse, hbody]
  have hh : ¬ (escapeQuote q l.value ++ q :: T).head? = some q := by
    intro e
    cases he : escapeQuote q l.value with
    | nil => exact hE he
    | cons x xs =>
      rw [he] at e
      exact head_escape hq2 (by rw [he]; rfl) (Option.some.inj e)
  rw [finish]
  rw [if_neg (by rcases hq0 with rfl | rfl <;> simp)]
  rw [if_neg (by rw [hasChar_iff.mpr (by simp)]; simp), if_neg hh]
  have hpos : 0 < (escapeQuote q l.value).length := List.length_pos_iff.mpr hE
  have hlen := escape_length q l.value
  have hfind := closing_find (comment := '#') (line := l.text) (key := l.key) (tail := T) hq2 l.value [] 0
    (escapeQuote q l.value ++ q :: T).length (Nat.le_refl 0) (by simpa using hpos) (by simp) (by simp; omega)
    (by rw [List.nil_append]; exact last_escape hq2 h.value_nonempty hlast)
  simp only [List.nil_append] at hfind
  rw [hfind]
  unfold atClose
  obtain ⟨W, hW⟩ : ∃ W, W = escapeQuote q v ++ [q] := ⟨_, rfl⟩
  have hesc : escapeQuote q l.value = b ++ escapeQuote q v := by rw [hv, escape_blanks hq1 hb]
  have e : escapeQuote q l.value ++ q :: T = (b ++ W ++ l.beforeComment) ++ '#' :: com := by rw [hT, hW, hesc]; simp
  have hi : index '#' (escapeQuote q l.value ++ q :: T) (escapeQuote q l.value).length = some (b ++ W ++ l.beforeComment).length := by
    rw [e]
    apply index_hit
    · rw [hW, hesc]; simp
    · rw [hW, ← List.append_assoc b, ← hesc, List.append_assoc, List.drop_left, List.mem_append]
      rintro (m | m)
      · exact hq3 (List.mem_singleton.mp m).symm
      · exact space_not b4 (by decide) m
  have hWt : Trimmed W := by
    constructor
    · intro c hcc
      rw [hW] at hcc
      cases hv' : v with
      | nil => exact absurd hv' hv0
      | cons x xs =>
        rw [hv', escapeQuote_cons] at hcc
        by_cases hx : x = q
        · rw [if_pos hx] at hcc
          simp at hcc
          exact hcc ▸ (by decide)
        · rw [if_neg hx] at hcc
          simp at hcc
          exact hcc ▸ hv1 x (by rw [hv']; rfl)
    · intro c hcc
      rw [hW, List.getLast?_concat] at hcc
      exact Option.some.inj hcc ▸ hq1
  have hst : strip (b ++ W ++ l.beforeComment) = W := strip_around hb hWt (by rw [hW]; simp) (space_blanks b4)
  have hblen : 0 < b.length := List.length_pos_iff.mpr hb0
  have hvl : v.getLast? ≠ some '\\' := by
    rw [hv, List.getLast?_append] at hlast
    cases hvv : v.getLast? with
    | none => simp
    | some x => rw [hvv] at hlast; simpa using hlast
  have hWl : W.length ≤ (escapeQuote q l.value).length := by rw [hW, hesc]; simp; omega
  simp only [hi]
  rw [e, List.take_left, hst, if_neg (fun c => by have := c.1; omega), List.take_of_length_le hWl, hW, unescape_end hq2 v hvl]

/-- empty quotes, whatever follows them -/
theorem parse_empty {k : Str} (hk : EnvKey k) {q : Char} (hq : q = '\'' ∨ q = '"') (w : Str) :
    parseLine (k ++ '=' :: q :: q :: w) '#' = .ok (k, []) := by
  obtain ⟨hq1, hq2, hq3⟩ := EnvLine.quote_solid hq
  have hs : strip (q :: q :: w) = q :: q :: rstrip w := by
    rw [strip_cons_char hq1, rstrip_cons, if_neg (fun h => by have := h.2; rw [hq1] at this; cases this),
      rstrip_cons, if_neg (fun h => by have := h.2; rw [hq1] at this; cases this)]
  rw [parse_split hk, hs, EnvLine.finish, if_neg (by rcases hq with rfl | rfl <;> simp),
    if_neg (by rw [hasChar_iff.mpr (by simp)]; simp), if_pos (by simp)]

theorem parse_nothing {k : Str} (hk : EnvKey k) : parseLine (k ++ ['=']) '#' = .ok (k, []) := by
  rw [parse_split hk]; rfl

/-- a line without a value leaves no trace -/
theorem parseLines_without {line k : Str} (h : parseLine line '#' = .ok (k, [])) (after : List Str) : ∀ (before : List Str) (d : Dict Str),
    parseLines '#' d (before ++ line :: after) = parseLines '#' d (before ++ after)
  | [], d => by
    rw [List.nil_append, parseLines, h]
    simp
  | b :: before, d => by
    rw [List.cons_append, parseLines, List.cons_append, parseLines]
    cases parseLine b '#' with
    | error e => rfl
    | ok p => exact parseLines_without h after before _

/-! ## Whole files -/

theorem splitOn_line {sep : Char} : ∀ {a : Str}, sep ∉ a → splitOn sep a = [a]
  | [], _ => rfl
  | c :: a, h => by
    have hc : ¬ c = sep := fun e => h (e ▸ List.mem_cons_self)
    rw [splitOn, if_neg hc, splitOn_line (fun m => h (List.mem_cons_of_mem _ m))]

theorem splitOn_more {sep : Char} : ∀ {a : Str} (_ : sep ∉ a) (b : Str), splitOn sep (a ++ sep :: b) = a :: splitOn sep b
  | [], _, b => by simp [splitOn]
  | c :: a, h, b => by
    have hc : ¬ c = sep := fun e => h (e ▸ List.mem_cons_self)
    rw [List.cons_append, splitOn, if_neg hc, splitOn_more (fun m => h (List.mem_cons_of_mem _ m)) b]

theorem splitOn_join {sep : Char} : ∀ (a : Str) (as : List Str), (∀ x ∈ a :: as, sep ∉ x) → splitOn sep (join [sep] (a :: as)) = a :: as
  | a, [], h => splitOn_line (h a List.mem_cons_self)
  | a, b :: as, h => by
    have e : join [sep] (a :: b :: as) = a ++ sep :: join [sep] (b :: as) := by simp [join]
    rw [e, splitOn_more (h a List.mem_cons_self), splitOn_join b as (fun x hx => h x (List.mem_cons_of_mem _ hx))]

theorem parse_join {ls : List Str} (hj : ∀ l ∈ ls, NoJson l) (hl : ∀ x ∈ ls, '\n' ∉ x) :
    parse (join ['\n'] ls) = parseLines '#' [] ls := by
  rw [parse_lines (NoJson.join hj).loads]
  cases ls with
  | nil => rfl
  | cons a as => rw [splitOn_join a as hl]

theorem parse_without {line k : Str} (h : parseLine line '#' = .ok (k, [])) {before after : List Str}
    (hj : ∀ x ∈ before ++ line :: after, NoJson x) (hl : ∀ x ∈ before ++ line :: after, '\n' ∉ x) :
    parse (join ['\n'] (before ++ line :: after)) = parse (join ['\n'] (before ++ after)) := by
  have sub : ∀ x ∈ before ++ after, x ∈ before ++ line :: after := by
    intro x hx
    rcases List.mem_append.mp hx with hx | hx
    · exact List.mem_append_left _ hx
    · exact List.mem_append_right _ (List.mem_cons_of_mem _ hx)
  rw [parse_join hj hl, parse_join (fun x hx => hj x (sub x hx)) (fun x hx => hl x (sub x hx)), parseLines_without h]

theorem space_line {g : Str} (h : Space g) : '\n' ∉ g := fun m => (h _ m).2 rfl

theorem escape_line {q : Char} (hq : q ≠ '\n') {v : Str} (h : '\n' ∉ v) : '\n' ∉ escapeQuote q v := by
  intro m
  obtain ⟨c, hc, hm⟩ := List.mem_flatMap.mp m
  split at hm
  · simp at hm; exact hq hm.symm
  · simp at hm; exact h (hm ▸ hc)

theorem item_line {i : EnvItem} (h : i.Ok) : '\n' ∉ i.text := by
  cases i with
  | blank s => exact space_line h
  | remark i s =>
    intro m
    simp only [EnvItem.text, List.mem_append, List.mem_singleton] at m
    rcases m with (m | m) | m
    · exact space_line h.1 m
    · exact absurd m (by decide)
    · exact h.2 m
  | entry l =>
    obtain ⟨hl, _⟩ := h
    obtain ⟨b1, b2, b3, b4, b5⟩ := hl.blanks
    intro m
    simp only [EnvItem.text, EnvLine.text, List.mem_append, List.mem_singleton] at m
    rcases m with ((((((m | m) | m) | m) | m) | m) | m) | m
    · exact space_line b1 m
    · exact hl.key_plain.2.2 m
    · exact space_line b2 m
    · rcases hl.separator with e | e <;> rw [e] at m <;> exact absurd m (by decide)
    · exact space_line b3 m
    · unfold valueText at m
      split at m
      · exact hl.one_line.1 m
      · rename_i q s hw
        have hq := (hl.quoted q s hw).1
        have hqn : q ≠ '\n' := by rcases hq with rfl | rfl <;> decide
        simp only [List.mem_append, List.mem_singleton] at m
        rcases m with ((m | m) | m) | m
        · exact hqn m.symm
        · exact escape_line hqn hl.one_line.1 m
        · exact hqn m.symm
        · cases s
          · cases m
          · exact absurd m (by decide)
    · unfold commentText at m
      split at m
      · cases m
      · rename_i c hc
        simp only [List.mem_append, List.mem_singleton] at m
        rcases m with (m | m) | m
        · exact space_line b4 m
        · exact absurd m (by decide)
        · exact hl.one_line.2 c hc m
    · exact space_line b5 m

/-- a line which begins with a key, and has a separator in it -/
theorem noJson_key {w k r : Str} {y : Char} (hw : Space w) (hk0 : k ≠ []) (hk1 : Trimmed k)
    (hk2 : k.head? ≠ some '"' ∧ k.head? ≠ some '{' ∧ k.head? ≠ some '[') (hy : y = '=' ∨ y = ':') : NoJson (w ++ (k ++ y :: r)) := by
  cases k with
  | nil => exact absurd rfl hk0
  | cons c k =>
    refine Or.inr ⟨w, c, k ++ y :: r, y, by simp, fun x hx => (hw x hx).1, hk1.1 c rfl,
      ⟨fun e => hk2.1 (by rw [e]; rfl), fun e => hk2.2.1 (by rw [e]; rfl), fun e => hk2.2.2 (by rw [e]; rfl)⟩, by simp, ?_, ?_⟩ <;>
    rcases hy with rfl | rfl <;> decide

theorem item_noJson {i : EnvItem} (h : i.Ok) : NoJson i.text := by
  cases i with
  | blank s => exact Or.inl (fun x hx => (h x hx).1)
  | remark i s =>
    exact Or.inr ⟨i, '#', s, '#', by simp [EnvItem.text], fun x hx => (h.1 x hx).1, by decide, by decide, List.mem_cons_self, by decide, by decide⟩
  | entry l =>
    obtain ⟨hl, _, hk⟩ := h
    have e : EnvItem.text (.entry l) = l.indent ++ (l.key ++ (l.afterKey ++ l.separator :: (l.beforeValue ++ l.valueText ++ l.commentText ++ l.trailing))) := by
      simp [EnvItem.text, EnvLine.text]
    rw [e]
    cases ha : l.afterKey with
    | nil => exact noJson_key hl.blanks.1 hl.key_nonempty hl.key_trimmed hk hl.separator
    | cons a as =>
      cases hkk : l.key with
      | nil => exact absurd hkk hl.key_nonempty
      | cons c k =>
        rw [hkk] at hk
        refine Or.inr ⟨l.indent, c, k ++ (a :: as ++ l.separator :: (l.beforeValue ++ l.valueText ++ l.commentText ++ l.trailing)), l.separator,
          by simp, fun x hx => (hl.blanks.1 x hx).1, hl.key_trimmed.1 c (by rw [hkk]; rfl),
          ⟨fun e => hk.1 (by rw [e]; rfl), fun e => hk.2.1 (by rw [e]; rfl), fun e => hk.2.2 (by rw [e]; rfl)⟩, by simp, ?_, ?_⟩ <;>
        rcases hl.separator with e | e <;> rw [e] <;> decide

/-- what an item adds -/
def add (d : Dict Str) : EnvItem → Dict Str
  | .entry l => d.set l.key l.value
  | _ => d

theorem strip_space {g : Str} (h : Space g) : strip g = [] := by
  have := strip_blanks (space_blanks h) []
  rw [List.append_nil] at this
  rw [this]; rfl

theorem parseLines_items : ∀ (is : List EnvItem) (d : Dict Str), (∀ i ∈ is, i.Ok) →
    parseLines '#' d (is.map EnvItem.text) = .ok (is.foldl add d)
  | [], _, _ => rfl
  | i :: is, d, h => by
    have ih := fun d => parseLines_items is d (fun j hj => h j (List.mem_cons_of_mem _ hj))
    have hi := h i List.mem_cons_self
    rw [List.map_cons, parseLines, List.foldl_cons]
    cases i with
    | blank s =>
      have : parseLine s '#' = .ok ([], []) := by
        unfold parseLine
        simp [strip_space hi]
      simp only [EnvItem.text, this, true_or, if_true]
      exact ih d
    | remark i s =>
      have : parseLine (i ++ py"#" ++ s) '#' = .ok ([], []) := by
        unfold parseLine
        have hs : (strip (i ++ py"#" ++ s)).head? = some '#' := by
          rw [List.append_assoc, strip_blanks (space_blanks hi.1)]
          rw [show py"#" ++ s = '#' :: s from rfl, strip_cons_char (by decide), rstrip_cons, if_neg (fun e => absurd e.2 (by decide))]
          rfl
        simp only [if_pos hs]
      simp only [EnvItem.text, this, true_or, if_true]
      exact ih d
    | entry l =>
      have : parseLine l.text '#' = .ok (l.key, l.value) := by
        cases hw : l.written with
        | bare => exact hi.1.read_bare hw
        | quoted q s => exact hi.1.read_quoted hw (hi.2.1 (by rw [hw]; simp))
      simp only [EnvItem.text, this]
      rw [if_neg (fun e => e.elim hi.1.key_nonempty hi.1.value_nonempty)]
      exact ih _

theorem parse_items (is : List EnvItem) (h : ∀ i ∈ is, i.Ok) : parse (envText is) = .ok (is.foldl add []) := by
  unfold envText
  rw [show py"\n" = ['\n'] from rfl, parse_join, parseLines_items _ _ h]
  · intro l hl
    obtain ⟨i, hi, rfl⟩ := List.mem_map.mp hl
    exact item_noJson (h i hi)
  · intro l hl
    obtain ⟨i, hi, rfl⟩ := List.mem_map.mp hl
    exact item_line (h i hi)

theorem foldl_add : ∀ (is : List EnvItem) (d : Dict Str) (k : Str),
    Dict.get? (is.foldl add d) k = ((lastValue (EnvItem.entries is) k).or (Dict.get? d k))
  | [], d, k => rfl
  | i :: is, d, k => by
    rw [List.foldl_cons, foldl_add is]
    cases i with
    | blank s => rfl
    | remark i s => rfl
    | entry l =>
      have e : EnvItem.entries (.entry l :: is) = (l.key, l.value) :: EnvItem.entries is := rfl
      rw [e]
      unfold lastValue
      rw [List.reverse_cons, List.find?_append]
      cases hf : List.find? (fun e => decide (e.1 = k)) (EnvItem.entries is).reverse with
      | some v => simp
      | none =>
        simp only [Option.map_none, Option.none_or, add]
        rw [Dict.get?_set]
        by_cases hk : l.key = k
        · subst hk; simp
        · simp [hk, Ne.symm hk]

end Dotenv
end Mygrations

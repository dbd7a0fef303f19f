import Verif.Model.Reader
import Verif.Proofs.Text

/-! # What the rule engine leaves over -/

namespace Mygrations

/-- a suffix of normalised text -/
def Tail (s : Str) : Prop := ∃ s₀, Normal s₀ ∧ s <:+ s₀

theorem Normal.rtrim {s : Str} (h : Normal s) : RTrim s := by
  rcases h with rfl | h
  · rfl
  · exact flat_rtrim h

theorem Normal.tail {s : Str} (h : Normal s) : Tail s := ⟨s, h, List.suffix_refl s⟩

theorem Tail.suffix {s t : Str} (h : Tail s) (ht : t <:+ s) : Tail t := by
  obtain ⟨s₀, h₀, hs⟩ := h
  exact ⟨s₀, h₀, ht.trans hs⟩

theorem Tail.rtrim {s : Str} (h : Tail s) : RTrim s := by
  obtain ⟨s₀, h₀, hs⟩ := h
  exact h₀.rtrim.suffix hs

theorem Tail.strip_suffix {s : Str} (h : Tail s) : strip s <:+ s := Mygrations.strip_suffix h.rtrim

theorem Tail.normalize_eq {s : Str} (h : Tail s) : normalize s = strip s := by
  obtain ⟨s₀, h₀, hs⟩ := h
  unfold normalize collapse
  rcases h₀ with rfl | h₀
  · have : s = [] := List.suffix_nil.mp hs
    subst this; rfl
  · rcases flat_suffix h₀ hs with rfl | ⟨b, hb⟩
    · rfl
    · cases b with
      | true => rw [collapseAux_flat (flat_false_of_true hb)]
      | false => rw [collapseAux_flat hb]

theorem Tail.normalize_suffix {s : Str} (h : Tail s) : normalize s <:+ s := by
  rw [h.normalize_eq]; exact h.strip_suffix

/-! ## Single rules -/

theorem literal_suffix {lit s rest : Str} {v : PVal} (hs : Tail s) (h : literalParse lit s = some (v, rest)) :
    rest <:+ s.drop lit.length := by
  unfold literalParse at h
  split at h
  · cases h
    exact (hs.suffix (List.drop_suffix _ _)).strip_suffix
  · cases h

theorem takeRun_prefix (p : Char → Bool) : ∀ (m : Option Nat) (s : Str), takeRun p m s <+: s
  | _, [] => by simp [takeRun]
  | some 0, _ :: _ => by simp [takeRun]
  | some (n + 1), c :: cs => by
    simp only [takeRun]; split
    · exact List.cons_prefix_cons.mpr ⟨rfl, takeRun_prefix p _ cs⟩
    · exact List.nil_prefix
  | none, c :: cs => by
    simp only [takeRun]; split
    · exact List.cons_prefix_cons.mpr ⟨rfl, takeRun_prefix p _ cs⟩
    · exact List.nil_prefix

/-- does the expression consume something whenever it matches? -/
def Regex.consumes : Regex → Bool
  | .cls .. => true
  | .alt a b => !a.isEmpty && !b.isEmpty

theorem regex_suffix {r : Regex} {s rest : Str} {v : PVal} (hs : Tail s) (h : regexParse r s = some (v, rest)) :
    ∃ n, (r.consumes = true → 0 < n) ∧ rest <:+ s.drop n := by
  have key : ∀ n, strip (s.drop n) <:+ s.drop n := fun n => (hs.suffix (List.drop_suffix n s)).strip_suffix
  unfold regexParse at h
  split at h
  · rename_i pre p max post
    split at h
    · simp only at h
      split at h
      · cases h
      · rename_i hrun
        split at h
        · cases h
          rw [List.drop_drop]
          refine ⟨_, ?_, key _⟩
          intro _
          have : 0 < (takeRun p max (s.drop pre.length)).length := List.length_pos_iff.mpr hrun
          omega
        · cases h
    · cases h
  · rename_i a b
    split at h
    · cases h
      refine ⟨_, ?_, key _⟩
      intro hc
      simp only [Regex.consumes, Bool.and_eq_true, Bool.not_eq_true', List.isEmpty_eq_false_iff] at hc
      exact List.length_pos_iff.mpr hc.1
    · split at h
      · cases h
        refine ⟨_, ?_, key _⟩
        intro hc
        simp only [Regex.consumes, Bool.and_eq_true, Bool.not_eq_true', List.isEmpty_eq_false_iff] at hc
        exact List.length_pos_iff.mpr hc.2
      · cases h

theorem delimLoop_suffix (endLit : Str) (sep quote : Char) : ∀ (s : Str) (st st' : DelimState) (r : Str),
    delimLoop endLit sep quote s st = (st', some r) → r <:+ s ∧ (∃ c cs, r = c :: cs ∧ startsWithCI endLit r = true)
  | [], st, st', r => by simp [delimLoop]
  | c :: cs, st, st', r => by
    intro h
    have hk : ∀ st₁, delimLoop endLit sep quote cs st₁ = (st', some r) → r <:+ c :: cs ∧
        (∃ c cs, r = c :: cs ∧ startsWithCI endLit r = true) := fun st₁ h₁ =>
      ⟨(delimLoop_suffix endLit sep quote cs _ _ _ h₁).1.trans (List.suffix_cons c cs),
       (delimLoop_suffix endLit sep quote cs _ _ _ h₁).2⟩
    simp only [delimLoop] at h
    split at h
    · split at h <;> exact hk _ h
    · split at h
      · exact hk _ h
      · split at h
        · rename_i he
          cases h
          exact ⟨List.suffix_refl _, c, cs, rfl, he⟩
        · split at h
          · exact hk _ h
          · split at h <;> exact hk _ h

theorem delim_suffix {endLit s rest : Str} {sep quote : Char} {v : PVal} (h : delimParse endLit sep quote s = .ok (some (v, rest))) :
    rest <:+ s := by
  unfold delimParse at h
  simp only at h
  split at h
  · cases h
  · split at h
    · cases h
    · cases h
      cases hb : (delimLoop endLit sep quote s {}).2 with
      | none => simp only [Option.getD]; exact List.drop_suffix _ _
      | some r =>
        simp only [Option.getD]
        exact (delimLoop_suffix endLit sep quote s {} _ r (Prod.ext rfl hb)).1

theorem kind_suffix {k : Kind} {s rest : Str} {v : PVal} (hs : Tail s) (h : k.parse s = .ok (some (v, rest))) : rest <:+ s := by
  cases k with
  | literal l =>
    simp only [Kind.parse, Except.ok.injEq] at h
    exact (literal_suffix hs h).trans (List.drop_suffix _ _)
  | regexp r =>
    simp only [Kind.parse, Except.ok.injEq] at h
    obtain ⟨n, _, hn⟩ := regex_suffix hs h
    exact hn.trans (List.drop_suffix _ _)
  | delimited sep quote e => exact delim_suffix h

/-- does the rule consume something whenever it matches? -/
def Kind.consumes : Kind → Bool
  | .literal l => !l.isEmpty
  | .regexp r => r.consumes
  | .delimited .. => false

theorem kind_consumes {k : Kind} {s rest : Str} {v : PVal} (hs : Tail s) (h : k.parse s = .ok (some (v, rest)))
    (hc : k.consumes = true) (hne : s ≠ []) : rest.length < s.length := by
  have hl : 0 < s.length := List.length_pos_iff.mpr hne
  cases k with
  | literal l =>
    simp only [Kind.parse, Except.ok.injEq] at h
    have := (literal_suffix hs h).length_le
    simp only [Kind.consumes, Bool.not_eq_true', List.isEmpty_eq_false_iff] at hc
    have : 0 < l.length := List.length_pos_iff.mpr hc
    simp only [List.length_drop] at *
    omega
  | regexp r =>
    simp only [Kind.parse, Except.ok.injEq] at h
    obtain ⟨n, hn, hr⟩ := regex_suffix hs h
    have := hn hc
    have := hr.length_le
    simp only [List.length_drop] at *
    omega
  | delimited sep quote e => simp [Kind.consumes] at hc

theorem kind_empty {k : Kind} (hc : k.consumes = true) : k.parse [] = .ok none := by
  cases k with
  | literal l =>
    simp only [Kind.consumes, Bool.not_eq_true', List.isEmpty_eq_false_iff] at hc
    cases l with
    | nil => simp at hc
    | cons c cs => simp [Kind.parse, literalParse, startsWithCI, lower]
  | regexp r =>
    cases r with
    | cls pre p max post => simp [Kind.parse, regexParse, takeRun]
    | alt a b =>
      simp only [Kind.consumes, Regex.consumes, Bool.and_eq_true, Bool.not_eq_true', List.isEmpty_eq_false_iff] at hc
      obtain ⟨ha, hb⟩ := hc
      cases a with
      | nil => simp at ha
      | cons x xs =>
        cases b with
        | nil => simp at hb
        | cons y ys => simp [Kind.parse, regexParse, startsWithCI, lower]
  | delimited sep quote e => simp [Kind.consumes] at hc

/-! ## Lists of rules -/

theorem runRules_suffix {K V : Type} {P : K → Str → Except PyErr (Option (V × Str))} :
    ∀ (rules : List (Rule K)) (_ : ∀ r ∈ rules, ∀ s v rest, Tail s → P r.kind s = .ok (some (v, rest)) → rest <:+ s)
      (vals : Dict V) (s : Str) (r : ParseResult V), Tail s → runRules P rules vals s = .ok r → r.rest <:+ s
  | [], _, vals, s, r, _, h => by
    simp only [runRules, Except.ok.injEq] at h
    subst h
    exact List.suffix_refl _
  | rule :: rules, hP, vals, s, r, hs, h => by
    have hP' : ∀ r ∈ rules, ∀ s v rest, Tail s → P r.kind s = .ok (some (v, rest)) → rest <:+ s :=
      fun r hr => hP r (List.mem_cons_of_mem _ hr)
    simp only [runRules] at h
    split at h
    · cases h
    · split at h
      · exact runRules_suffix rules hP' vals s r hs h
      · cases h
        exact List.suffix_refl _
    · rename_i v s' hk
      have h₁ := hP rule List.mem_cons_self _ _ _ hs hk
      split at h
      · cases h
        exact h₁
      · exact (runRules_suffix rules hP' _ s' r (hs.suffix h₁) h).trans h₁

theorem simpleParse_suffix {rules : List (Rule Kind)} {s : Str} {r : ParseResult PVal} (h : simpleParse rules s = .ok r) :
    r.rest <:+ normalize s :=
  runRules_suffix rules (fun _ _ _ _ _ hs h => kind_suffix hs h) [] _ r (normal_normalize s).tail h

/-- if the first rule is required and consumes, a match strictly consumes -/
theorem runRules_strict {rule : Rule Kind} {rules : List (Rule Kind)} {vals : Dict PVal} {s : Str} {r : ParseResult PVal} (hs : Tail s)
    (hreq : rule.optional = false) (hc : rule.kind.consumes = true)
    (h : runRules Kind.parse (rule :: rules) vals s = .ok r) (hm : r.matched = true) : r.rest.length < s.length := by
  have hne : s ≠ [] := by
    intro e
    subst e
    simp only [runRules, kind_empty hc, hreq, Bool.false_eq_true, if_false, Except.ok.injEq] at h
    subst h
    simp at hm
  simp only [runRules] at h
  split at h
  · cases h
  · rw [hreq] at h
    simp only [Bool.false_eq_true, if_false, Except.ok.injEq] at h
    subst h
    simp at hm
  · rename_i v s' hk
    have hlt := kind_consumes hs hk hc hne
    split at h
    · cases h
      exact hlt
    · have := (runRules_suffix rules (fun _ _ _ _ _ hs h => kind_suffix hs h) _ s' r (hs.suffix (kind_suffix hs hk)) h).length_le
      omega

/-- a class whose first rule is required and consumes -/
def ChildClass.Eats {α : Type} (c : ChildClass α) : Prop :=
  ∃ rule rules, c.rules = rule :: rules ∧ rule.optional = false ∧ rule.kind.consumes = true

theorem tryParse_suffix {α : Type} {c : ChildClass α} {s rest : Str} {m : α} (h : c.tryParse s = .ok (some (m, rest))) :
    rest <:+ normalize s := by
  unfold ChildClass.tryParse at h
  split at h
  · cases h
  · rename_i r hr
    split at h
    · cases h
      exact simpleParse_suffix hr
    · cases h

theorem tryParse_strict {α : Type} {c : ChildClass α} {s rest : Str} {m : α} (hc : c.Eats)
    (h : c.tryParse s = .ok (some (m, rest))) : rest.length < s.length := by
  obtain ⟨rule, rules, hr, ho, hk⟩ := hc
  unfold ChildClass.tryParse at h
  split at h
  · cases h
  · rename_i r hp
    split at h
    · rename_i hm
      cases h
      unfold simpleParse at hp
      rw [hr] at hp
      exact Nat.lt_of_lt_of_le (runRules_strict (normal_normalize s).tail ho hk hp hm) (normalize_length s)
    · cases h

/-! ## Alternatives -/

/-- a choice among the classes: `c` matches, everything tried before leaves more, everything after leaves no less -/
structure Chosen {α : Type} (classes : List (ChildClass α)) (s : Str) (m : α) (rest : Str) : Prop where
  total : ∀ d ∈ classes, ∃ o, d.tryParse s = .ok o
  split : ∃ pre c post, classes = pre ++ c :: post ∧ c.tryParse s = .ok (some (m, rest)) ∧
    (∀ d ∈ pre, ∀ m' r', d.tryParse s = .ok (some (m', r')) → rest.length < r'.length) ∧
    (∀ d ∈ post, ∀ m' r', d.tryParse s = .ok (some (m', r')) → rest.length ≤ r'.length)

theorem bestChild_some_keep {α : Type} : ∀ (cs : List (ChildClass α)) (s : Str) (m : α) (rest : Str),
    (∀ d ∈ cs, ∃ o, d.tryParse s = .ok o) → (∀ d ∈ cs, ∀ m' r', d.tryParse s = .ok (some (m', r')) → rest.length ≤ r'.length) →
    bestChild cs s (some (m, rest)) = .ok (some (m, rest))
  | [], _, _, _, _, _ => rfl
  | c :: cs, s, m, rest, ht, hl => by
    obtain ⟨o, ho⟩ := ht c List.mem_cons_self
    have ih := bestChild_some_keep cs s m rest (fun d hd => ht d (List.mem_cons_of_mem _ hd)) (fun d hd => hl d (List.mem_cons_of_mem _ hd))
    simp only [bestChild, ho]
    cases o with
    | none => exact ih
    | some x =>
      obtain ⟨m', r'⟩ := x
      have := hl c List.mem_cons_self m' r' ho
      simp only
      rw [if_neg (by omega)]
      exact ih

/-- what the loop over the alternatives returns, given the best alternative so far -/
theorem bestChild_spec {α : Type} : ∀ (cs : List (ChildClass α)) (s : Str) (best : Option (α × Str)),
    (∀ d ∈ cs, ∃ o, d.tryParse s = .ok o) →
    ∃ o, bestChild cs s best = .ok o ∧
      ((o = best ∧ ∀ d ∈ cs, ∀ m' r', d.tryParse s = .ok (some (m', r')) → ∃ b, best = some b ∧ b.2.length ≤ r'.length) ∨
       ∃ m rest, o = some (m, rest) ∧ (∀ b, best = some b → rest.length < b.2.length) ∧ Chosen cs s m rest)
  | [], s, best, _ => ⟨best, rfl, Or.inl ⟨rfl, by simp⟩⟩
  | c :: cs, s, best, ht => by
    have ht' : ∀ d ∈ cs, ∃ o, d.tryParse s = .ok o := fun d hd => ht d (List.mem_cons_of_mem _ hd)
    obtain ⟨o, ho⟩ := ht c List.mem_cons_self
    simp only [bestChild, ho]
    -- extending a choice among the later classes
    have ext : ∀ m rest, Chosen cs s m rest → (∀ m' r', o = some (m', r') → rest.length < r'.length) → Chosen (c :: cs) s m rest := by
      rintro m rest ⟨htot, pre, d, post, rfl, hd, hpre, hpost⟩ hlt
      refine ⟨ht, c :: pre, d, post, rfl, hd, ?_, hpost⟩
      intro e he m' r' h
      rcases List.mem_cons.mp he with rfl | he
      · rw [ho] at h; cases h; exact hlt m' r' rfl
      · exact hpre e he m' r' h
    -- the class itself is the choice
    have self : ∀ m rest, o = some (m, rest) → (∀ d ∈ cs, ∀ m' r', d.tryParse s = .ok (some (m', r')) → rest.length ≤ r'.length) →
        Chosen (c :: cs) s m rest := by
      rintro m rest rfl hl
      exact ⟨ht, [], c, cs, rfl, ho, by simp, hl⟩
    cases o with
    | none =>
      obtain ⟨o', ho', h⟩ := bestChild_spec cs s best ht'
      refine ⟨o', ho', ?_⟩
      rcases h with ⟨rfl, h⟩ | ⟨m, rest, rfl, hb, hc⟩
      · left
        refine ⟨rfl, ?_⟩
        intro d hd m' r' hm
        rcases List.mem_cons.mp hd with rfl | hd
        · rw [ho] at hm; cases hm
        · exact h d hd m' r' hm
      · right
        exact ⟨m, rest, rfl, hb, ext m rest hc (by simp)⟩
    | some x =>
      obtain ⟨m₀, r₀⟩ := x
      -- the case where the class becomes the best so far
      have take : (∀ b, best = some b → r₀.length < b.2.length) →
          ∃ o, bestChild cs s (some (m₀, r₀)) = .ok o ∧
            ((o = best ∧ ∀ d ∈ c :: cs, ∀ m' r', d.tryParse s = .ok (some (m', r')) → ∃ b, best = some b ∧ b.2.length ≤ r'.length) ∨
             ∃ m rest, o = some (m, rest) ∧ (∀ b, best = some b → rest.length < b.2.length) ∧ Chosen (c :: cs) s m rest) := by
        intro hlt
        obtain ⟨o', ho', h⟩ := bestChild_spec cs s (some (m₀, r₀)) ht'
        refine ⟨o', ho', Or.inr ?_⟩
        rcases h with ⟨rfl, h⟩ | ⟨m, rest, rfl, hb, hc⟩
        · refine ⟨m₀, r₀, rfl, hlt, self m₀ r₀ rfl ?_⟩
          intro d hd m' r' hm
          obtain ⟨b, hb, hbl⟩ := h d hd m' r' hm
          cases hb
          exact hbl
        · refine ⟨m, rest, rfl, ?_, ext m rest hc ?_⟩
          · intro b hb'
            have h1 := hlt b hb'
            have h2 := hb _ rfl
            simp only at h2
            omega
          · intro m' r' e
            cases e
            exact hb _ rfl
      cases best with
      | none => exact take (by simp)
      | some b =>
        obtain ⟨bm, br⟩ := b
        simp only
        split
        · rename_i hlt
          apply take
          intro b hb
          cases hb
          exact hlt
        · rename_i hge
          obtain ⟨o', ho', h⟩ := bestChild_spec cs s (some (bm, br)) ht'
          refine ⟨o', ho', ?_⟩
          rcases h with ⟨rfl, h⟩ | ⟨m, rest, rfl, hb, hc⟩
          · left
            refine ⟨rfl, ?_⟩
            intro d hd m' r' hm
            rcases List.mem_cons.mp hd with rfl | hd
            · rw [ho] at hm
              cases hm
              exact ⟨_, rfl, by simp only; omega⟩
            · exact h d hd m' r' hm
          · right
            refine ⟨m, rest, rfl, hb, ext m rest hc ?_⟩
            intro m' r' e
            cases e
            have := hb _ rfl
            simp only at this
            omega

theorem bestChild_error {α : Type} : ∀ (cs : List (ChildClass α)) (s : Str) (best : Option (α × Str)) (o : Option (α × Str)),
    bestChild cs s best = .ok o → ∀ d ∈ cs, ∃ o', d.tryParse s = .ok o'
  | [], _, _, _, _ => by simp
  | c :: cs, s, best, o, h => by
    simp only [bestChild] at h
    split at h
    · cases h
    · rename_i hc
      intro d hd
      rcases List.mem_cons.mp hd with rfl | hd
      · exact ⟨_, hc⟩
      · exact bestChild_error cs s best o h d hd
    · rename_i m rest hc
      intro d hd
      rcases List.mem_cons.mp hd with rfl | hd
      · exact ⟨_, hc⟩
      · split at h
        · exact bestChild_error cs s _ o h d hd
        · split at h
          · exact bestChild_error cs s _ o h d hd
          · exact bestChild_error cs s _ o h d hd

/-- the alternative which is taken is the chosen one -/
theorem bestChild_chosen {α : Type} {cs : List (ChildClass α)} {s : Str} {m : α} {rest : Str} :
    bestChild cs s none = .ok (some (m, rest)) ↔ Chosen cs s m rest := by
  constructor
  · intro h
    obtain ⟨o, ho, hc⟩ := bestChild_spec cs s none (bestChild_error cs s none _ h)
    rw [h] at ho
    cases ho
    rcases hc with ⟨h, _⟩ | ⟨m', rest', e, _, hc⟩
    · cases h
    · cases e
      exact hc
  · intro hc
    obtain ⟨o, ho, h⟩ := bestChild_spec cs s none hc.total
    obtain ⟨pre, c, post, he, hm, hpre, hpost⟩ := hc.split
    rcases h with ⟨rfl, h⟩ | ⟨m', rest', rfl, _, h⟩
    · obtain ⟨b, hb, _⟩ := h c (by rw [he]; simp) m rest hm
      cases hb
    · rw [ho]
      obtain ⟨pre', c', post', he', hm', hpre', hpost'⟩ := h.split
      -- the two splittings coincide
      rw [he] at he'
      rcases List.append_eq_append_iff.mp he' with ⟨a, ha, hb⟩ | ⟨a, ha, hb⟩
      · cases a with
        | nil =>
          simp only [List.nil_append, List.cons.injEq] at hb
          obtain ⟨rfl, _⟩ := hb
          rw [hm] at hm'
          cases hm'
          rfl
        | cons x a =>
          simp only [List.cons_append, List.cons.injEq] at hb
          obtain ⟨rfl, hb⟩ := hb
          have h1 := hpre' c (by rw [ha]; simp) _ _ hm
          have h2 := hpost c' (by rw [hb]; simp) _ _ hm'
          omega
      · cases a with
        | nil =>
          simp only [List.nil_append, List.cons.injEq] at hb
          obtain ⟨rfl, _⟩ := hb
          rw [hm] at hm'
          cases hm'
          rfl
        | cons x a =>
          simp only [List.cons_append, List.cons.injEq] at hb
          obtain ⟨rfl, hb⟩ := hb
          have h1 := hpre c' (by rw [ha]; simp) _ _ hm'
          have h2 := hpost' c (by rw [hb]; simp) _ _ hm
          omega

theorem bestChild_none {α : Type} {cs : List (ChildClass α)} {s : Str} :
    bestChild cs s none = .ok none ↔ ∀ c ∈ cs, c.tryParse s = .ok none := by
  constructor
  · intro h c hc
    have ht := bestChild_error cs s none _ h
    obtain ⟨o, ho, hs⟩ := bestChild_spec cs s none ht
    rw [h] at ho
    cases ho
    rcases hs with ⟨_, hs⟩ | ⟨m, rest, e, _⟩
    · obtain ⟨o', ho'⟩ := ht c hc
      cases o' with
      | none => exact ho'
      | some x =>
        obtain ⟨b, hb, _⟩ := hs c hc x.1 x.2 ho'
        cases hb
    · cases e
  · intro h
    obtain ⟨o, ho, hs⟩ := bestChild_spec cs s none (fun d hd => ⟨none, h d hd⟩)
    rcases hs with ⟨rfl, _⟩ | ⟨m, rest, rfl, _, hc⟩
    · exact ho
    · obtain ⟨pre, c, post, he, hm, _⟩ := hc.split
      rw [h c (by rw [he]; simp)] at hm
      cases hm

/-! ## Repetition -/

theorem bestChild_mem {α : Type} {cs : List (ChildClass α)} {s : Str} {m : α} {rest : Str}
    (h : bestChild cs s none = .ok (some (m, rest))) : ∃ c ∈ cs, c.tryParse s = .ok (some (m, rest)) := by
  obtain ⟨_, pre, c, post, he, hm, _⟩ := bestChild_chosen.mp h
  exact ⟨c, by rw [he]; simp, hm⟩

theorem childrenLoop_count {α : Type} {classes : List (ChildClass α)} (hc : ∀ c ∈ classes, c.Eats) :
    ∀ (n : Nat) (s : Str) (done l : List α) (rest : Str), Tail s → childrenLoop classes n s done = .ok (some (l, rest)) →
      rest <:+ s ∧ ∃ new, l = done ++ new ∧ new.length + rest.length ≤ s.length
  | 0, s, done, l, rest, hs, h => by
    simp only [childrenLoop] at h
    split at h
    · cases h
      exact ⟨List.nil_suffix, [], by simp, by simp⟩
    · cases h
  | n + 1, s, done, l, rest, hs, h => by
    simp only [childrenLoop] at h
    split at h
    · cases h
      exact ⟨List.nil_suffix, [], by simp, by simp⟩
    · split at h
      · cases h
      · rename_i m r hb
        obtain ⟨c, hcm, hm⟩ := bestChild_mem hb
        have h1 := (tryParse_suffix hm).trans hs.normalize_suffix
        have h2 := tryParse_strict (hc c hcm) hm
        obtain ⟨h3, new, rfl, h4⟩ := childrenLoop_count hc n r _ l rest (hs.suffix h1) h
        refine ⟨h3.trans h1, m :: new, by simp, ?_⟩
        simp only [List.length_cons]
        omega
      · split at h
        · cases h
        · cases h
          exact ⟨List.suffix_refl _, [], by simp, by simp⟩

theorem top_suffix {α : Type} {k : TopKind α} {s rest : Str} {v : TVal α} (hk : ∀ cs, k = .children cs → ∀ c ∈ cs, c.Eats) (hs : Tail s)
    (h : k.parse s = .ok (some (v, rest))) : rest <:+ s := by
  cases k with
  | simple k =>
    simp only [TopKind.parse] at h
    split at h
    · cases h
    · cases h
    · rename_i hp
      cases h
      exact kind_suffix hs hp
  | children cs =>
    simp only [TopKind.parse] at h
    split at h
    · cases h
    · cases h
    · rename_i hp
      cases h
      exact (childrenLoop_count (hk cs rfl) 1000 s [] _ _ hs hp).1

theorem topParse_suffix {α : Type} {rules : List (Rule (TopKind α))} {s : Str} {r : ParseResult (TVal α)}
    (hr : ∀ rule ∈ rules, ∀ cs, rule.kind = .children cs → ∀ c ∈ cs, c.Eats) (h : topParse rules s = .ok r) : r.rest <:+ normalize s :=
  runRules_suffix rules (fun rule hm _ _ _ hs h => top_suffix (hr rule hm) hs h) [] _ r (normal_normalize s).tail h

/-- a statement which starts with a keyword consumes it -/
theorem topParse_strict {α : Type} {l : Str} {rules : List (Rule (TopKind α))} {s : Str} {r : ParseResult (TVal α)}
    (hr : ∀ rule ∈ rules, ∀ cs, rule.kind = .children cs → ∀ c ∈ cs, c.Eats) (hl : l ≠ [])
    (h : topParse ((lit l).top :: rules) s = .ok r) (hm : r.matched = true) : r.rest.length < (normalize s).length := by
  have hs := (normal_normalize s).tail
  unfold topParse at h
  have hc : (Kind.literal l).consumes = true := by simpa [Kind.consumes] using hl
  have hne : normalize s ≠ [] := by
    intro e
    rw [e] at h
    simp only [runRules, lit, Rule.top, TopKind.parse, kind_empty hc, Bool.false_eq_true, if_false, Except.ok.injEq] at h
    subst h
    simp at hm
  simp only [runRules, lit, Rule.top, TopKind.parse] at h
  cases hk : (Kind.literal l).parse (normalize s) with
  | error e => rw [hk] at h; simp at h
  | ok o =>
    rw [hk] at h
    cases o with
    | none =>
      simp only [Bool.false_eq_true, if_false, Except.ok.injEq] at h
      subst h
      simp at hm
    | some x =>
      obtain ⟨v, s'⟩ := x
      have hlt := kind_consumes hs hk hc hne
      simp only at h
      split at h
      · cases h
        exact hlt
      · have := (runRules_suffix rules (fun rule hm _ _ _ hs h => top_suffix (hr rule hm) hs h) _ s' r (hs.suffix (kind_suffix hs hk)) h).length_le
        omega

/-! ## The preprocessing of `CREATE TABLE` -/

theorem stripDashes_length : ∀ (b : Bool) (s : Str), (stripDashes b s).length ≤ s.length := by
  intro b s
  fun_induction stripDashes b s <;> simp_all <;> omega

theorem takeWhile_dropWhile_length (p : Char → Bool) (l : Str) : (l.takeWhile p).length + (l.dropWhile p).length = l.length := by
  rw [← List.length_append, List.takeWhile_append_dropWhile]

theorem prefixMatch_length {s kept rest : Str} (h : prefixMatch s = some (kept, rest)) : kept.length + rest.length ≤ s.length := by
  cases s with
  | nil => simp [prefixMatch] at h
  | cons c cs =>
    simp only [prefixMatch] at h
    split at h
    · split at h
      · rename_i r₅ hr₄
        split at h
        · rename_i r₆ hr₆
          have h1 := takeWhile_dropWhile_length isSpace cs
          generalize cs.dropWhile isSpace = r₁ at *
          generalize (if r₁.head? = some '`' then 1 else 0) = a at *
          have h2 : (r₁.take a).length + (r₁.drop (r₁.take a).length).length = r₁.length := by
            simp only [List.length_take, List.length_drop]; omega
          generalize hr₂ : r₁.drop (r₁.take a).length = r₂ at *
          have h3 := takeWhile_dropWhile_length isWord r₂
          generalize r₂.dropWhile isWord = r₃ at *
          generalize (if r₃.head? = some '`' then 1 else 0) = b at *
          have h4 : (r₃.take b).length + (r₃.drop (r₃.take b).length).length = r₃.length := by
            simp only [List.length_take, List.length_drop]; omega
          rw [hr₄] at h4
          have h5 := takeWhile_dropWhile_length isDigit r₅
          rw [hr₆] at h5
          split at h
          · cases h
          · cases h
            simp only [List.length_append, List.length_cons] at *
            omega
        · cases h
      · cases h
    · cases h

theorem stripPrefixes_length : ∀ (n : Nat) (s : Str), (stripPrefixes n s).length ≤ s.length
  | 0, s => by simp [stripPrefixes]
  | n + 1, [] => by simp [stripPrefixes]
  | n + 1, c :: cs => by
    simp only [stripPrefixes]
    split
    · rename_i kept rest h
      have h1 := prefixMatch_length h
      have h2 := stripPrefixes_length n rest
      simp only [List.length_append] at *
      omega
    · have := stripPrefixes_length n cs
      simp only [List.length_cons]
      omega

theorem cleanCreate_length (s : Str) : (cleanCreate s).length ≤ s.length :=
  Nat.le_trans (stripPrefixes_length _ _) (stripDashes_length _ _)

/-! ## The classes of the file reader -/

theorem definitionClasses_eat : ∀ c ∈ definitionClasses, c.Eats := by
  intro c hc
  simp only [definitionClasses, List.mem_cons, List.not_mem_nil, or_false] at hc
  rcases hc with rfl | rfl | rfl | rfl | rfl | rfl | rfl | rfl | rfl | rfl | rfl | rfl <;> exact ⟨_, _, rfl, rfl, rfl⟩

theorem tableOption_eats : tableOption.Eats := ⟨_, _, rfl, rfl, rfl⟩

theorem insertValues_eats : insertValues.Eats := ⟨_, _, rfl, rfl, rfl⟩

theorem ChildClass.Eats.map {α β : Type} {c : ChildClass α} (h : c.Eats) (f : α → β) : (c.map f).Eats := h

theorem createRules_eat : ∀ rule ∈ createRules, ∀ cs, rule.kind = .children cs → ∀ c ∈ cs, c.Eats := by
  intro rule hr cs hk c hc
  simp only [createRules, List.mem_cons, List.not_mem_nil, or_false] at hr
  rcases hr with rfl | rfl | rfl | rfl | rfl | rfl | rfl | rfl <;> simp only [Rule.top, TopKind.children.injEq, reduceCtorEq] at hk
  · subst hk
    obtain ⟨d, hd, rfl⟩ := List.mem_map.mp hc
    exact (definitionClasses_eat d hd).map _
  · subst hk
    rw [List.mem_singleton] at hc
    subst hc
    exact tableOption_eats.map _

theorem insertRules_eat : ∀ rule ∈ insertRules, ∀ cs, rule.kind = .children cs → ∀ c ∈ cs, c.Eats := by
  intro rule hr cs hk c hc
  simp only [insertRules, List.mem_cons, List.not_mem_nil, or_false] at hr
  rcases hr with rfl | rfl | rfl | rfl | rfl | rfl | rfl | rfl <;> simp only [Rule.top, TopKind.children.injEq, reduceCtorEq] at hk
  · subst hk
    rw [List.mem_singleton] at hc
    subst hc
    exact insertValues_eats

end Mygrations

import Verif.Model.Reader
import Verif.Proofs.ReadBare
import Verif.Proofs.Dict
import Verif.Spec.Declare

/-! # The definitions and the options of a `CREATE TABLE` read back -/

namespace Mygrations

/-! ## Mapped classes -/

section
variable {α β : Type} (f : α → β)

theorem tryParse_map (c : ChildClass α) (s : Str) :
    (c.map f).tryParse s = match c.tryParse s with | .error e => .error e | .ok o => .ok (o.map (fun m => (f m.1, m.2))) := by
  unfold ChildClass.tryParse ChildClass.map
  simp only
  cases simpleParse c.rules s with
  | error e => rfl
  | ok r => by_cases h : r.matched = true <;> simp [h]

theorem bestChild_map (cs : List (ChildClass α)) (s : Str) (b : Option (α × Str)) :
    bestChild (cs.map (ChildClass.map f)) s (b.map (fun m => (f m.1, m.2))) =
      match bestChild cs s b with | .error e => .error e | .ok o => .ok (o.map (fun m => (f m.1, m.2))) := by
  induction cs generalizing b with
  | nil => rfl
  | cons c cs ih =>
    simp only [List.map_cons, bestChild, tryParse_map]
    cases h : c.tryParse s with
    | error e => rfl
    | ok o =>
      cases o with
      | none => exact ih b
      | some m =>
        cases b with
        | none => exact ih (some m)
        | some b =>
          simp only [Option.map_some]
          split
          · exact ih (some m)
          · exact ih (some b)

theorem best_map_some {cs : List (ChildClass α)} {s : Str} {m : α} {rest : Str} (h : bestChild cs s none = .ok (some (m, rest))) :
    bestChild (cs.map (ChildClass.map f)) s none = .ok (some (f m, rest)) := by
  have := bestChild_map f cs s none
  rw [h] at this
  exact this

theorem best_map_none {cs : List (ChildClass α)} {s : Str} (h : bestChild cs s none = .ok none) :
    bestChild (cs.map (ChildClass.map f)) s none = .ok none := by
  have := bestChild_map f cs s none
  rw [h] at this
  exact this
end

/-! ## The definitions -/

namespace Src

/-- the definition is read as `d` -/
def Read : Src → Definition → Prop
  | column c s, d => ∃ pc c', d = .column pc ∧ pc.asDefinition = .ok c' ∧ SameColumn c c' ∧ (c'.parsingErrors = [] ∧ c'.UsualLength) ∧ pc.isPrimaryKey = false ∧ pc.name = c.name ∧
      c'.parsingWarnings = c.remarks s
  | index i _, d => d = .index { rawName := i.rawName, columns := i.columns, itype := lower i.indexType }
  | constraint k _, d => d = .constraint { k with parsingErrors := [] } false
  | bare k _, d => ∃ n, d = .constraint { k with name := n, parsingErrors := [] } true

theorem flat {d : Src} (h : d.Plain) : flat true d.render = true := by
  cases d with
  | column c s => exact column_flat h.1 h.2
  | index i w => exact written_flat h.1 h.2
  | constraint k w => exact constraint_flat w h.1
  | bare k w => exact bare_flat h

theorem read {d : Src} (h : d.Plain) {e : Str} (he : Closing e) (hp : ∀ r, e ≠ '(' :: r) :
    ∃ x, d.Read x ∧ bestChild definitionClasses (d.render ++ e) none = .ok (some (x, restOf [] e)) := by
  cases d with
  | column c s =>
    obtain ⟨pc, c', hb, hd, hs, _, hpe, ⟨_, hln⟩, hk, hn, hw⟩ := column_read h.1 h.2 he hp
    exact ⟨_, ⟨pc, c', rfl, hd, hs, ⟨hpe, hln⟩, hk, hn, hw⟩, hb⟩
  | index i w => exact ⟨_, rfl, written_read h.1 h.2 he⟩
  | constraint k w => exact ⟨_, rfl, constraint_read h.1 h.2 he⟩
  | bare k w => exact ⟨_, ⟨_, rfl⟩, bare_read h he⟩

end Src

/-- the definitions are read as these -/
inductive AllRead : List Src → List Definition → Prop
  | nil : AllRead [] []
  | cons {d : Src} {x : Definition} {ds : List Src} {xs : List Definition} : d.Read x → AllRead ds xs → AllRead (d :: ds) (x :: xs)

theorem AllRead.length {ds : List Src} {xs : List Definition} (h : AllRead ds xs) : xs.length = ds.length := by
  induction h with
  | nil => rfl
  | cons _ _ ih => simp [ih]

/-- the definitions after the first, separated by a comma and a blank (or not), and what follows -/
def defTail (sep : Str) : List Src → Str → Str
  | [], e => e
  | d :: ds, e => py"," ++ sep ++ d.render ++ defTail sep ds e

theorem defTail_closing {sep : Str} (hs : sep = [] ∨ sep = py" ") {e : Str} (he : Closing e) : ∀ {ds : List Src}, (∀ d ∈ ds, d.Plain) →
    flat false (defTail sep ds e) = true
  | [], _ => closing_flat he
  | d :: ds, h => by
    have ih := defTail_closing hs he (fun x hx => h x (List.mem_cons_of_mem _ hx))
    have hd := Src.flat (h d List.mem_cons_self)
    unfold defTail
    rw [flat_append (b := false) ?_]
    · exact ih
    · rcases hs with rfl | rfl
      · show flat false (',' :: d.render) = true
        have : flat false (py"," ++ d.render) = true := by rw [flat_append (by decide)]; exact flat_false_of_true hd
        exact this
      · show flat false (py"," ++ ' ' :: d.render) = true
        rw [flat_space (by decide)]; exact hd

/-- the classes of the definitions, as the rule of `CREATE TABLE` uses them -/
abbrev nodeClasses : List (ChildClass CreateNode) := definitionClasses.map (ChildClass.map .definition)

theorem loop_step {α : Type} {classes : List (ChildClass α)} {n : Nat} {s rest : Str} {m : α} {done : List α} (hs : s ≠ [])
    (h : bestChild classes s none = .ok (some (m, rest))) :
    childrenLoop classes (n + 1) s done = childrenLoop classes n rest (done ++ [m]) := by
  simp [childrenLoop, hs, h]

/-- the definitions are read one after the other -/
theorem definitions_loop {sep : Str} (hs : sep = [] ∨ sep = py" ") {e : Str} (he : Closing e) (hp : ∀ r, e ≠ '(' :: r) (hc : ∀ r, e ≠ ',' :: r) :
    ∀ (d : Src) (ds : List Src) (n : Nat) (done : List CreateNode), (∀ x ∈ d :: ds, x.Plain) →
    ∃ xs, AllRead (d :: ds) xs ∧ childrenLoop nodeClasses (n + (ds.length + 1)) (d.render ++ defTail sep ds e) done =
      childrenLoop nodeClasses n (strip e) (done ++ xs.map .definition)
  | d, [], n, done, h => by
    obtain ⟨x, hx, hb⟩ := Src.read (h d List.mem_cons_self) he hp
    have hr : restOf [] e = strip e := by
      unfold restOf
      split
      · rename_i more _; exact absurd rfl (hc more)
      · rfl
      · rename_i h; cases h
    have hne : d.render ++ defTail sep [] e ≠ [] := by
      obtain ⟨c, cs, hh, _⟩ := flat_true_head (Src.flat (h d List.mem_cons_self))
      simp [hh]
    refine ⟨[x], .cons hx .nil, ?_⟩
    have := best_map_some CreateNode.definition hb
    rw [hr] at this
    exact loop_step hne this
  | d, d' :: ds, n, done, h => by
    have hcl : Closing (defTail sep (d' :: ds) e) := by
      refine Or.inr ⟨⟨sep ++ d'.render ++ defTail sep ds e, Or.inl (by simp [defTail])⟩, ?_⟩
      exact defTail_closing hs he (fun x hx => h x (List.mem_cons_of_mem _ hx))
    have hd' := Src.flat (h d' (by simp))
    obtain ⟨x, hx, hb⟩ := Src.read (h d List.mem_cons_self) hcl (by simp [defTail])
    have hft : flat true (d'.render ++ defTail sep ds e) = true := by
      rw [flat_append hd']
      exact defTail_closing hs he (fun x hx => h x (by simp [hx]))
    have hr : restOf [] (defTail sep (d' :: ds) e) = d'.render ++ defTail sep ds e := by
      show strip (sep ++ d'.render ++ defTail sep ds e) = _
      rcases hs with rfl | rfl
      · exact strip_flat hft
      · exact strip_space hft
    have hne : d.render ++ defTail sep (d' :: ds) e ≠ [] := by simp [defTail]
    obtain ⟨xs, hxs, ih⟩ := definitions_loop hs he hp hc d' ds n (done ++ [.definition x]) (fun x hx => h x (List.mem_cons_of_mem _ hx))
    refine ⟨x :: xs, .cons hx hxs, ?_⟩
    rw [hr] at hb
    rw [show n + ((d' :: ds).length + 1) = (n + (ds.length + 1)) + 1 by simp; omega, loop_step hne (best_map_some CreateNode.definition hb), ih]
    simp

/-- nothing starts with a closing parenthesis -/
theorem definitions_stop {r : Str} (hf : flat true (')' :: r) = true) : bestChild definitionClasses (')' :: r) none = .ok none := by
  rw [bestChild_none]
  intro c hc
  simp only [definitionClasses, List.mem_cons, List.not_mem_nil, or_false] at hc
  have hname : ∀ n, (nameRule n).kind.parse (')' :: r) = .ok none := fun n => by
    show Except.ok (regexParse (.cls [] nameChar none []) ([] ++ (')' :: r))) = _
    rw [regex_none]
    intro c hc
    simp at hc; subst hc; decide
  have hlit : ∀ a as, a.toLower ≠ ')' → (lit (a :: as)).kind.parse (')' :: r) = .ok none := fun a as ha => by
    show Except.ok (literalParse (a :: as) (')' :: r)) = _
    rw [literal_miss]
    simp only [startsWithCI_cons, Bool.and_eq_false_imp, beq_iff_eq]
    intro h
    exact absurd (h.symm.trans (by decide)) ha
  have key : ∀ (c : ChildClass Definition) (x : Rule Kind) (xs : List (Rule Kind)), c.rules = x :: xs → x.optional = false → x.kind.parse (')' :: r) = .ok none →
      c.tryParse (')' :: r) = .ok none := by
    intro c x xs h1 h2 h3
    refine try_none (vals := []) (rest := ')' :: r) ?_
    unfold simpleParse
    rw [h1, normalize_normal (Or.inr hf), run_fail h3 h2]
  have hkey : keyOrIndex.parse (')' :: r) = .ok none := by
    show Except.ok (regexParse (.alt py"KEY" py"INDEX") (')' :: r)) = _
    simp [regexParse, startsWithCI_cons]
  rcases hc with rfl | rfl | rfl | rfl | rfl | rfl | rfl | rfl | rfl | rfl | rfl | rfl
  · exact key _ _ _ rfl rfl (hlit _ _ (by decide))
  · exact key _ _ _ rfl rfl hkey
  · exact key _ _ _ rfl rfl (hlit _ _ (by decide))
  · exact key _ _ _ rfl rfl (hlit _ _ (by decide))
  · exact key _ _ _ rfl rfl (hlit _ _ (by decide))
  all_goals exact key _ _ _ rfl rfl (hname _)

end Mygrations

import Verif.Spec.Tables
import Verif.Proofs.Dict

/-! # The rendered SQL text determines the definition -/

namespace Mygrations

/-- cutting two strings at the first occurrence of a character -/
theorem split_at {c : Char} : ∀ {a b r r' : Str}, a ++ c :: r = b ++ c :: r' → c ∉ a → c ∉ b → a = b ∧ r = r'
  | [], [], _, _, h, _, _ => by simpa using h
  | [], y :: b, _, _, h, _, hb => by
    simp only [List.nil_append, List.cons_append, List.cons.injEq] at h
    exact absurd h.1 (fun e => hb (by simp [e]))
  | x :: a, [], _, _, h, ha, _ => by
    simp only [List.nil_append, List.cons_append, List.cons.injEq] at h
    exact absurd h.1 (fun e => ha (by simp [e]))
  | x :: a, y :: b, r, r', h, ha, hb => by
    simp only [List.cons_append, List.cons.injEq] at h
    have := split_at (a := a) (b := b) h.2 (fun e => ha (List.mem_cons_of_mem _ e)) (fun e => hb (List.mem_cons_of_mem _ e))
    exact ⟨by rw [h.1, this.1], this.2⟩

theorem join_cons_cons (sep p q : Str) (ps : List Str) : join sep (p :: q :: ps) = p ++ sep ++ join sep (q :: ps) := rfl
theorem join_singleton (sep p : Str) : join sep [p] = p := rfl
theorem join_nil (sep : Str) : join sep [] = [] := rfl

theorem join_cols_inj : ∀ {l l' : List Str} {r r' : Str}, (∀ c ∈ l, PlainName c) → (∀ c ∈ l', PlainName c) → l ≠ [] → l' ≠ [] →
    join py"`,`" l ++ '`' :: ')' :: r = join py"`,`" l' ++ '`' :: ')' :: r' → l = l' ∧ r = r'
  | [], _, _, _, _, _, h, _, _ => absurd rfl h
  | _, [], _, _, _, _, _, h, _ => absurd rfl h
  | [p], [p'], _, _, hp, hp', _, _, h => by
    rw [join_singleton, join_singleton] at h
    have := split_at h (hp _ (by simp)) (hp' _ (by simp))
    simp at this
    simp [this]
  | [p], p' :: q' :: ps', _, _, hp, hp', _, _, h => by
    rw [join_singleton, join_cons_cons] at h
    simp only [List.append_assoc, List.cons_append] at h
    have := split_at h (hp _ (by simp)) (hp' _ (by simp))
    simp at this
  | p :: q :: ps, [p'], _, _, hp, hp', _, _, h => by
    rw [join_singleton, join_cons_cons] at h
    simp only [List.append_assoc, List.cons_append] at h
    have := split_at h (hp _ (by simp)) (hp' _ (by simp))
    simp at this
  | p :: q :: ps, p' :: q' :: ps', r, r', hp, hp', _, _, h => by
    rw [join_cons_cons, join_cons_cons] at h
    simp only [List.append_assoc, List.cons_append] at h
    have := split_at h (hp _ (by simp)) (hp' _ (by simp))
    simp only [List.cons.injEq, true_and, List.nil_append] at this
    have ih := join_cols_inj (l := q :: ps) (l' := q' :: ps') (r := r) (r' := r')
      (fun c hc => hp c (List.mem_cons_of_mem _ hc)) (fun c hc => hp' c (List.mem_cons_of_mem _ hc)) (by simp) (by simp) this.2
    rw [this.1, ih.1]
    exact ⟨rfl, ih.2⟩

/-- the part of an index text after `KEY ` -/
def Index.tail (i : Index) : Str :=
  (if i.rawName ≠ [] then py"`" ++ i.name ++ py"` " else []) ++ py"(`" ++ join py"`,`" i.columns ++ py"`)"

theorem Index.render_eq (i : Index) : i.render =
    (if i.indexType = py"PRIMARY" then py"PRIMARY " else if i.indexType = py"UNIQUE" then py"UNIQUE " else []) ++
    py"KEY " ++ i.tail := by
  unfold Index.render Index.tail
  by_cases h1 : i.indexType = py"PRIMARY" <;> by_cases h2 : i.indexType = py"UNIQUE" <;> by_cases h3 : i.rawName = [] <;>
    simp [h1, h2, h3, join]

theorem Index.tail_inj {i j : Index} (hi : PlainName i.name ∧ ∀ c ∈ i.columns, PlainName c)
    (hj : PlainName j.name ∧ ∀ c ∈ j.columns, PlainName c) (ni : i.columns ≠ []) (nj : j.columns ≠ [])
    (h : i.tail = j.tail) : i.columns = j.columns := by
  unfold Index.tail at h
  by_cases h1 : i.rawName = [] <;> by_cases h2 : j.rawName = [] <;> simp [h1, h2] at h
  · have := join_cols_inj (r := []) (r' := []) hi.2 hj.2 ni nj (by rw [h])
    exact this.1
  · have := split_at h hi.1 hj.1
    simp at this
    exact (join_cols_inj (r := []) (r' := []) hi.2 hj.2 ni nj (by rw [this.2])).1

/-- Equal index texts mean equal keys. -/
theorem Index.render_inj {i j : Index} (hi : PlainName i.name ∧ ∀ c ∈ i.columns, PlainName c)
    (hj : PlainName j.name ∧ ∀ c ∈ j.columns, PlainName c) (ni : i.columns ≠ []) (nj : j.columns ≠ [])
    (h : i.render = j.render) : i.SameKey j := by
  rw [Index.render_eq, Index.render_eq] at h
  unfold Index.SameKey Index.isPrimary Index.isUnique
  by_cases h1 : i.indexType = py"PRIMARY" <;> by_cases h2 : i.indexType = py"UNIQUE" <;>
    by_cases h3 : j.indexType = py"PRIMARY" <;> by_cases h4 : j.indexType = py"UNIQUE" <;>
    simp [h1, h2, h3, h4] at h ⊢ <;> exact Index.tail_inj hi hj ni nj h

theorem Constraint.render_eq (k : Constraint) : k.render =
    py"CONSTRAINT `" ++ (k.name ++ '`' :: (py" FOREIGN KEY (`" ++ (k.column ++ '`' :: (py") REFERENCES `" ++
      (k.ftable ++ '`' :: (py" (`" ++ (k.fcolumn ++ '`' :: (py") ON DELETE " ++ (k.onDelete ++ (py" ON UPDATE " ++ k.onUpdate)))))))))) := by
  simp [Constraint.render, join]

theorem actions_inj {a b c d : Str} (ha : GoodAction a) (hb : GoodAction b)
    (h : a ++ (py" ON UPDATE " ++ c) = b ++ (py" ON UPDATE " ++ d)) : a = b ∧ c = d := by
  simp only [GoodAction, List.mem_cons, List.not_mem_nil, or_false] at ha hb
  rcases ha with rfl | rfl | rfl | rfl | rfl <;> rcases hb with rfl | rfl | rfl | rfl | rfl <;> simp at h ⊢ <;> exact h

/-- Equal texts of foreign keys: everything but the split between the two actions is determined. -/
theorem Constraint.render_inj' {k l : Constraint}
    (hk : PlainName k.name ∧ PlainName k.column ∧ PlainName k.ftable ∧ PlainName k.fcolumn)
    (hl : PlainName l.name ∧ PlainName l.column ∧ PlainName l.ftable ∧ PlainName l.fcolumn)
    (h : k.render = l.render) : k.name = l.name ∧ k.column = l.column ∧ k.ftable = l.ftable ∧ k.fcolumn = l.fcolumn ∧
      k.onDelete ++ (py" ON UPDATE " ++ k.onUpdate) = l.onDelete ++ (py" ON UPDATE " ++ l.onUpdate) := by
  rw [Constraint.render_eq, Constraint.render_eq] at h
  replace h := List.append_cancel_left h
  obtain ⟨h1, h⟩ := split_at h hk.1 hl.1
  replace h := List.append_cancel_left h
  obtain ⟨h2, h⟩ := split_at h hk.2.1 hl.2.1
  replace h := List.append_cancel_left h
  obtain ⟨h3, h⟩ := split_at h hk.2.2.1 hl.2.2.1
  replace h := List.append_cancel_left h
  obtain ⟨h4, h⟩ := split_at h hk.2.2.2 hl.2.2.2
  replace h := List.append_cancel_left h
  exact ⟨h1, h2, h3, h4, h⟩

/-- Equal texts of foreign keys with known actions mean equal foreign keys. -/
theorem Constraint.render_inj {k l : Constraint}
    (hk : PlainName k.name ∧ PlainName k.column ∧ PlainName k.ftable ∧ PlainName k.fcolumn)
    (hl : PlainName l.name ∧ PlainName l.column ∧ PlainName l.ftable ∧ PlainName l.fcolumn)
    (ak : GoodAction k.onDelete) (al : GoodAction l.onDelete)
    (h : k.render = l.render) : k.SameFk l := by
  obtain ⟨h1, h2, h3, h4, h⟩ := Constraint.render_inj' hk hl h
  obtain ⟨h5, h6⟩ := actions_inj ak al h
  exact ⟨h1, h2, h3, h4, h5, h6⟩

end Mygrations

import Verif.Proofs.Check
import Verif.Proofs.PlanFks
import Verif.Proofs.FkSets

/-! # Checking that concrete databases meet the hypotheses of C14 -/

namespace Mygrations
open MySQL Mygration Table

/-- a checker for `Column.Tidy` -/
def tidyB (c : Column) : Bool :=
  !c.name.contains '`' && c.ctype.all isWord &&
  (match c.len with | .none => true | .str l => l.all (fun x => isDigit x || x == ',') | _ => false) &&
  c.enumValues.isNone && (match c.default with | some d => !d.contains '\'' | none => true) &&
  (match c.charset with | some d => d ≠ [] && !d.contains '\'' | none => true) &&
  (match c.collation with | some d => d ≠ [] && !d.contains '\'' | none => true)

theorem tidy_of_check {c : Column} (h : tidyB c = true) : c.Tidy := by
  simp only [tidyB, Bool.and_eq_true, Bool.not_eq_true', List.all_eq_true, List.contains_eq_mem, decide_eq_false_iff_not] at h
  obtain ⟨⟨⟨⟨⟨⟨h1, h2⟩, h3⟩, h4⟩, h5⟩, h6⟩, h7⟩ := h
  refine ⟨h1, h2, ?_, by simpa using h4, ?_, ?_, ?_⟩
  · split at h3
    · rename_i e; exact .inl e
    · rename_i l e; exact .inr ⟨l, e, by simpa using h3⟩
    · cases h3
  · intro d hd
    rw [hd] at h5
    simpa using h5
  · intro d hd
    rw [hd] at h6
    simpa using h6
  · intro d hd
    rw [hd] at h7
    simpa using h7

/-- a checker for `Accepted` -/
def acceptedB (checks : Bool) (d : Dict Table) : Bool :=
  decide d.keys.Nodup &&
  d.all (fun e => e.2.name == e.1 && e.2.validB && e.2.plainB && e.2.columns.all (fun c => tidyB c.2) &&
    e.2.constraints.values.all (fun k => k.name ≠ [] && [py"CASCADE", py"NO ACTION", py"RESTRICT", py"SET DEFAULT", py"SET NULL"].contains k.onDelete)) &&
  SDb.consistent ⟨checks, ofTables d⟩

theorem accepted_of_check {checks : Bool} {d : Dict Table} (h : acceptedB checks d = true) : Accepted checks d := by
  simp only [acceptedB, Bool.and_eq_true, decide_eq_true_eq, List.all_eq_true, beq_iff_eq] at h
  obtain ⟨⟨h1, h2⟩, h3⟩ := h
  refine ⟨⟨h1, fun k t hk => (h2 _ hk).1.1.1.1, fun k t hk => (Table.valid_of_check (h2 _ hk).1.1.1.2).toKeyed⟩, ?_, ?_, ?_, h3⟩
  · intro n t hn
    have := h2 _ (Dict.mem_of_get? hn)
    exact ⟨Table.valid_of_check this.1.1.1.2, Table.plain_of_check this.1.1.2⟩
  · intro n t hn k c hk
    exact tidy_of_check ((h2 _ (Dict.mem_of_get? hn)).1.2 _ (Dict.mem_of_get? hk))
  · intro n t hn k hk
    have := (h2 _ (Dict.mem_of_get? hn)).2 k hk
    simp only [ne_eq, List.contains_eq_mem, decide_eq_true_eq] at this
    exact ⟨this.1, this.2⟩

/-- columns whose types change -/
def typesB (f t : Dict Table) (n c : Str) : Bool := (changingColumns f t (overlap f t)).contains (n, c)

theorem typesB_iff {f t : Dict Table} (hf : KeyedTables f) {n c : Str} : typesB f t n c = true ↔ TypeChanges f t n c := by
  rw [typesB, List.contains_iff_mem, mem_changingColumns hf]

/-- foreign keys on such columns -/
def touchedB (f t : Dict Table) (n : Str) (k : Constraint) : Bool := involves (changingColumns f t (overlap f t)) n k

theorem touchedB_iff {f t : Dict Table} (hf : KeyedTables f) {n : Str} {k : Constraint} : touchedB f t n k = true ↔ Touched f t n k :=
  involves_iff hf

/-- a checker for `HasCounterpart` -/
def counterpartB (t : Dict Table) (n : Str) (k : Constraint) : Bool :=
  match t.get? n with
  | none => true
  | some d => d.constraints.values.any (fun k' => k'.name = k.name || (k'.column = k.column && k'.ftable = k.ftable && k'.fcolumn = k.fcolumn))

theorem counterpart_of_check {t : Dict Table} {n : Str} {k : Constraint} (h : counterpartB t n k = true) : HasCounterpart t n k := by
  unfold counterpartB at h
  split at h
  · rename_i e; exact .inl e
  · rename_i d e
    simp only [List.any_eq_true, Bool.or_eq_true, Bool.and_eq_true, decide_eq_true_eq] at h
    obtain ⟨k', h1, h2⟩ := h
    exact .inr ⟨d, e, k', h1, h2.imp id (fun h => ⟨h.1.1, h.1.2, h.2⟩)⟩

/-- a checker for `Stays` -/
def staysB (t : Dict Table) (n : Str) (k : Constraint) : Bool :=
  match t.get? n with
  | none => false
  | some d =>
    match d.constraints.get? k.name with
    | none => false
    | some l => k.name = l.name && k.column = l.column && k.ftable = l.ftable && k.fcolumn = l.fcolumn && k.onDelete = l.onDelete && k.onUpdate = l.onUpdate

theorem stays_of_check {t : Dict Table} {n : Str} {k : Constraint} (h : staysB t n k = true) : Stays t n k := by
  unfold staysB at h
  split at h
  · cases h
  · rename_i d e
    split at h
    · cases h
    · rename_i l e'
      simp only [Bool.and_eq_true, decide_eq_true_eq] at h
      exact ⟨d, l, e, e', h.1.1.1.1.1, h.1.1.1.1.2, h.1.1.1.2, h.1.1.2, h.1.2, h.2⟩

/-- a checker for `Before` -/
def beforeB (l : List Str) (x y : Str) : Bool :=
  match l with
  | [] => false
  | z :: l => (z = x && l.contains y) || beforeB l x y

theorem before_of_check {x y : Str} : ∀ {l : List Str}, beforeB l x y = true → Before l x y
  | [], h => by simp [beforeB] at h
  | z :: l, h => by
    simp only [beforeB, Bool.or_eq_true, Bool.and_eq_true, decide_eq_true_eq, List.contains_iff_mem] at h
    rcases h with ⟨rfl, h⟩ | h
    · obtain ⟨a, b, rfl⟩ := List.append_of_mem h
      exact ⟨[], a, b, rfl⟩
    · obtain ⟨a, b, c, rfl⟩ := before_of_check h
      exact ⟨z :: a, b, c, rfl⟩

/-- a checker for `Linked` -/
def linkedB (child : Table) (k : Constraint) (parent : Table) : Bool :=
  (ofTable parent).leads k.fcolumn && (match child.columns.get? k.column, parent.columns.get? k.fcolumn with
    | some c, some d => linkable c d
    | _, _ => false)

theorem linked_of_check {a b : Table} {k : Constraint} (h : linkedB a k b = true) : Linked a k b := by
  simp only [linkedB, Bool.and_eq_true] at h
  refine ⟨h.1, ?_⟩
  have h2 := h.2
  split at h2
  · rename_i c d e1 e2
    exact ⟨c, d, e1, e2, h2⟩
  · cases h2

/-- conditions which two databases meet, enough for those of `Untroubled`, in the order in which they are listed there -/
def untroubledB (f t : Dict Table) : List Bool :=
  [ f.all (fun e => match t.get? e.1 with | none => true | some b => primaryKeptB e.2 b),
    f.all (fun e => match t.get? e.1 with
      | none => true
      | some b => e.2.constraints.values.all (fun k => !touchedB f t e.1 k || b.constraints.has k.name ||
          b.constraints.values.all (fun k' => !(k'.column = k.column && k'.ftable = k.ftable && k'.fcolumn = k.fcolumn) ||
            (match e.2.constraints.get? k'.name with | none => true | some l => touchedB f t e.1 l)))),
    f.all (fun e => t.has e.1 || t.all (fun e' => e.2.constraints.values.all (fun k => !e'.2.constraints.has k.name || touchedB f t e.1 k))),
    t.all (fun e => f.has e.1 || f.all (fun e' => e.2.constraints.keys.all (fun x => !e'.2.constraints.has x))),
    t.all (fun e => f.has e.1 || e.2.constraints.values.all (fun k => match f.get? k.ftable with
      | none => true
      | some a => linkedB e.2 k a && !typesB f t k.ftable k.fcolumn)),
    f.all (fun e => e.2.constraints.values.all (fun k => staysB t e.1 k || k.ftable = e.1 || !f.has k.ftable ||
      (match t.get? k.ftable with
       | none => true
       | some b => (linkedB e.2 k b && !typesB f t k.ftable k.fcolumn) ||
          (touchedB f t e.1 k && counterpartB t e.1 k) || beforeB (overlap f t) e.1 k.ftable))),
    f.all (fun e => e.2.constraints.values.all (fun k => f.has k.ftable ||
      (match t.get? k.ftable with
       | none => true
       | some b => linkedB e.2 k b))) ]

theorem untroubled_of_check [PyNum] {f t : Dict Table} (hf : KeyedTables f) (h : untroubledB f t = [true, true, true, true, true, true, true]) :
    Untroubled f t := by
  simp only [untroubledB, List.cons.injEq, and_true, List.all_eq_true, Bool.or_eq_true, Bool.not_eq_true', decide_eq_true_eq] at h
  obtain ⟨h1, h2, h3, h4, h5, h6, h7⟩ := h
  constructor
  · intro n a b ha hb
    have := h1 _ (Dict.mem_of_get? ha)
    simp only [hb] at this
    exact primaryKept_of_check this
  · intro n a b k k' l ha hb hk htouch hkn hlike hl
    obtain ⟨l₁, l₂, hv, hcols, _⟩ := hlike
    have hk' : k' ∈ b.constraints.values := by rw [hv]; simp
    have := h2 _ (Dict.mem_of_get? ha)
    simp only [hb, List.all_eq_true, Bool.or_eq_true, Bool.not_eq_true'] at this
    rcases this k hk with (h | h) | h
    · rw [(touchedB_iff hf).mpr htouch] at h; cases h
    · exact absurd (Dict.has_iff.mp h) hkn
    · rcases h k' hk' with h | h
      · obtain ⟨e1, e2, e3⟩ := hcols
        simp [e1, e2, e3] at h
      · simp only [hl] at h
        exact (touchedB_iff hf).mp h
  · intro n a k m b ha hn hk hb hx
    rcases h3 _ (Dict.mem_of_get? ha) with h | h
    · exact absurd (Dict.has_iff.mp h) (Dict.get?_eq_none.mp hn)
    · rcases h _ (Dict.mem_of_get? hb) k hk with h | h
      · rw [Dict.has_iff.mpr hx] at h
        cases h
      · exact (touchedB_iff hf).mp h
  · intro m b hb hm n a ha x hx hx'
    rcases h4 _ (Dict.mem_of_get? hb) with h | h
    · exact Dict.get?_eq_none.mp hm (Dict.has_iff.mp h)
    · have := h _ (Dict.mem_of_get? ha) x hx
      rw [Dict.has_iff.mpr hx'] at this
      cases this
  · intro m b k a hb hm hk ha
    rcases h5 _ (Dict.mem_of_get? hb) with h | h
    · exact absurd (Dict.has_iff.mp h) (Dict.get?_eq_none.mp hm)
    · have := h k hk
      simp only [ha, Bool.and_eq_true, Bool.not_eq_true'] at this
      refine ⟨linked_of_check this.1, fun hc => ?_⟩
      rw [(typesB_iff hf).mpr hc.types] at this
      cases this.2
  · intro n a k b ha hk hs hne hfk hb
    rcases h6 _ (Dict.mem_of_get? ha) k hk with ((h | h) | h) | h
    · exact absurd (stays_of_check h) hs
    · exact absurd h hne
    · exact absurd (Dict.get?_eq_none.mpr (Dict.has_eq_false.mp h)) hfk
    · simp only [hb, Bool.or_eq_true, Bool.and_eq_true, Bool.not_eq_true'] at h
      rcases h with (h | h) | h
      · refine .inl ⟨linked_of_check h.1, fun hc => ?_⟩
        rw [(typesB_iff hf).mpr hc.types] at h
        cases h.2
      · exact .inr (.inl ⟨(touchedB_iff hf).mp h.1, counterpart_of_check h.2⟩)
      · exact .inr (.inr (before_of_check h))
  · intro n a k b ha hk hfk hb
    rcases h7 _ (Dict.mem_of_get? ha) k hk with h | h
    · exact absurd (Dict.has_iff.mp h) (Dict.get?_eq_none.mp hfk)
    · simp only [hb] at h
      exact linked_of_check h

end Mygrations

import Verif.Proofs.Checks
import Verif.Proofs.Chars
import Verif.Props.C09

/-! # C27, C28: checking of foreign keys -/

namespace Mygrations
open Table Database

/-- no attribute differs -/
theorem attributeError_eq_none {k : Constraint} {t ft : Table} {col fcol : Column} :
    attributeError k t ft col fcol = none ↔ col.columnType = fcol.columnType ∧ col.len = fcol.len ∧
      col.characterSet = fcol.characterSet ∧ col.collate = fcol.collate ∧ col.isUnsigned = fcol.isUnsigned := by
  unfold attributeError
  by_cases h1 : col.columnType = fcol.columnType <;> by_cases h2 : col.len = fcol.len <;>
    by_cases h3 : col.characterSet = fcol.characterSet <;> by_cases h4 : col.collate = fcol.collate <;>
    cases h5 : col.isUnsigned <;> cases h6 : fcol.isUnsigned <;> simp [h1, h2, h3, h4]

theorem setNullError_eq_none {k : Constraint} {t : Table} {col : Column} :
    setNullError k t col = none ↔ (k.onDelete = py"SET NULL" → col.null = true) ∧ (k.onUpdate = py"SET NULL" → col.null = true) := by
  unfold setNullError
  cases hn : col.null <;> by_cases h1 : k.onDelete = py"SET NULL" <;> by_cases h2 : k.onUpdate = py"SET NULL" <;> simp [h1, h2]

/-- **C27**.  `find_constraint_errors` answers for every foreign key of every database, and it reports no error
exactly if the foreign key is one that MySQL can create. -/
theorem C27 (tables : Dict Table) (ht : ∀ n t, tables.get? n = some t → t.Keyed ∧ t.IndexesHaveColumns ∧ t.CacheRight)
    (t : Table) (h : t.Keyed ∧ t.IndexesHaveColumns ∧ t.CacheRight) (k : Constraint) :
    ∃ r, findConstraintErrors tables t k = .ok r ∧ (r = none ↔ FkValid tables t k) := by
  unfold findConstraintErrors FkValid
  cases h1 : tables.get? k.ftable with
  | none => exact ⟨_, rfl, by simp⟩
  | some ft =>
    simp only
    obtain ⟨g1, g2, g3⟩ := ht _ _ h1
    cases h2 : ft.columns.get? k.fcolumn with
    | none => refine ⟨_, rfl, ?_⟩; simp [h2]
    | some fcol =>
      simp only
      have hfn : fcol.name = k.fcolumn := g1.colName _ _ (Dict.mem_of_get? h2)
      cases h3 : t.columns.get? k.column with
      | none => refine ⟨_, rfl, ?_⟩; simp
      | some col =>
        simp only
        have hcn : col.name = k.column := h.1.colName _ _ (Dict.mem_of_get? h3)
        obtain ⟨b, t', hb, hbi, -⟩ := columnIsIndexed_spec h.2.1 h.2.2 col.name
        obtain ⟨fb, ft', hfb, hfbi, -⟩ := columnIsIndexed_spec g2 g3 fcol.name
        rw [hcn] at hbi
        rw [hfn] at hfbi
        have hiff : (∃ ft_1 fcol_1 col_1, some ft = some ft_1 ∧ ft_1.columns.get? k.fcolumn = some fcol_1 ∧
            some col = some col_1 ∧ t.Indexed k.column ∧ ft_1.Indexed k.fcolumn ∧
            col_1.columnType = fcol_1.columnType ∧ col_1.len = fcol_1.len ∧ col_1.characterSet = fcol_1.characterSet ∧
            col_1.collate = fcol_1.collate ∧ col_1.isUnsigned = fcol_1.isUnsigned ∧
            (k.onDelete = py"SET NULL" → col_1.null = true) ∧ (k.onUpdate = py"SET NULL" → col_1.null = true)) ↔
            (b = true ∧ fb = true ∧ attributeError k t ft col fcol = none ∧ setNullError k t col = none) := by
          rw [attributeError_eq_none, setNullError_eq_none, hbi, hfbi]
          constructor
          · rintro ⟨ft₁, fcol₁, col₁, e1, e2, e3, r⟩
            simp only [Option.some.injEq] at e1 e3
            subst e1; subst e3
            rw [h2] at e2
            simp only [Option.some.injEq] at e2
            subst e2
            obtain ⟨r1, r2, r3, r4, r5, r6, r7, r8⟩ := r
            exact ⟨r1, r2, ⟨r3, r4, r5, r6, r7⟩, r8⟩
          · rintro ⟨r1, r2, ⟨r3, r4, r5, r6, r7⟩, r8⟩
            exact ⟨ft, fcol, col, rfl, h2, rfl, r1, r2, r3, r4, r5, r6, r7, r8⟩
        rw [hiff]
        simp only [hb]
        cases b with
        | false => exact ⟨_, rfl, by simp⟩
        | true =>
          simp only
          cases h4 : attributeError k t ft col fcol with
          | some e => exact ⟨_, rfl, by simp⟩
          | none =>
            simp only
            cases h5 : setNullError k t col with
            | some e => exact ⟨_, rfl, by simp⟩
            | none =>
              simp only [hfb]
              cases fb with
              | false => exact ⟨_, rfl, by simp⟩
              | true => exact ⟨_, rfl, by simp⟩

section
open Examples

theorem fresh_right {t : Table} (h : t.indexedCache = none) : t.CacheRight := by
  intro s hs; rw [h] at hs; simp at hs

/-- the hypotheses of C27 can be met; both answers occur: the foreign key of `comments` is fine if the types agree,
not if they differ, and not if the parent is missing -/
example :
    (∀ n t, Dict.get? [(py"users", users py"INT"), (py"comments", comments py"INT")] n = some t →
      t.Keyed ∧ t.IndexesHaveColumns ∧ t.CacheRight) ∧
    findConstraintErrors [(py"users", users py"INT"), (py"comments", comments py"INT")] (comments py"INT")
      (fk py"comments_user_fk" py"user_id" py"users" py"id") = .ok none ∧
    findConstraintErrors [(py"users", users py"BIGINT"), (py"comments", comments py"INT")] (comments py"INT")
      (fk py"comments_user_fk" py"user_id" py"users" py"id") =
      .ok (some py"Constraint error for foreign key `comments_user_fk`: column type mismatch. `comments`.`user_id` is 'INT' but `users`.`id` is 'BIGINT'") ∧
    (∃ e, findConstraintErrors [(py"comments", comments py"INT")] (comments py"INT")
      (fk py"comments_user_fk" py"user_id" py"users" py"id") = .ok (some e)) := by
  refine ⟨?_, by decide, by decide, ⟨_, rfl⟩⟩
  intro n t h
  rw [Dict.get?_cons, Dict.get?_cons] at h
  split at h
  · simp only [Option.some.injEq] at h; subst h
    exact ⟨(Table.valid_of_check (by decide)).toKeyed, by unfold Table.IndexesHaveColumns; decide, fresh_right rfl⟩
  · split at h
    · simp only [Option.some.injEq] at h; subst h
      exact ⟨(Table.valid_of_check (by decide)).toKeyed, by unfold Table.IndexesHaveColumns; decide, fresh_right rfl⟩
    · simp at h
end

/-- **C27, for all foreign keys of a table.**  `database.unfulfilled_fks(table)` never raises, and names exactly the foreign keys of the table which
are not valid in the database. -/
theorem C27_unfulfilled (tables : Dict Table) (ht : ∀ n t, tables.get? n = some t → t.Keyed ∧ t.IndexesHaveColumns ∧ t.CacheRight)
    (t : Table) (h : t.Keyed ∧ t.IndexesHaveColumns ∧ t.CacheRight) :
    ∃ d, unfulfilledFks tables t t.constraints = .ok d ∧ ∀ n, n ∈ Dict.keys d ↔ ∃ k, t.constraints.get? n = some k ∧ ¬ FkValid tables t k := by
  have key : ∀ l : List (Str × Constraint), ∃ d, unfulfilledFks tables t l = .ok d ∧ ∀ n, n ∈ Dict.keys d ↔ ∃ k, (n, k) ∈ l ∧ ¬ FkValid tables t k := by
    intro l
    induction l with
    | nil => exact ⟨[], rfl, fun n => by simp [Dict.keys]⟩
    | cons e l ih =>
      obtain ⟨m, k⟩ := e
      obtain ⟨d, hd, hk⟩ := ih
      obtain ⟨r, h1, h2⟩ := C27 tables ht t h k
      cases r with
      | none =>
        refine ⟨d, by unfold unfulfilledFks; rw [h1]; exact hd, fun n => ?_⟩
        rw [hk n]
        constructor
        · rintro ⟨k', hm, hv⟩
          exact ⟨k', List.mem_cons_of_mem _ hm, hv⟩
        · rintro ⟨k', hm, hv⟩
          rcases List.mem_cons.mp hm with e | hm
          · cases e
            exact absurd (h2.mp rfl) hv
          · exact ⟨k', hm, hv⟩
      | some msg =>
        have hv : ¬ FkValid tables t k := fun hv => by cases h2.mpr hv
        refine ⟨(m, msg) :: d, by unfold unfulfilledFks; rw [h1]; simp only [hd, Except.map], fun n => ?_⟩
        rw [Dict.keys_cons, List.mem_cons, hk n]
        constructor
        · rintro (rfl | ⟨k', hm, hv⟩)
          · exact ⟨k, List.mem_cons_self, hv⟩
          · exact ⟨k', List.mem_cons_of_mem _ hm, hv⟩
        · rintro ⟨k', hm, hv⟩
          rcases List.mem_cons.mp hm with e | hm
          · cases e
            exact Or.inl rfl
          · exact Or.inr ⟨k', hm, hv⟩
  obtain ⟨d, hd, hk⟩ := key t.constraints
  refine ⟨d, hd, fun n => ?_⟩
  rw [hk n]
  constructor
  · rintro ⟨k, hm, hv⟩
    exact ⟨k, Dict.get?_of_mem h.1.fkNodup hm, hv⟩
  · rintro ⟨k, hm, hv⟩
    exact ⟨k, Dict.mem_of_get? hm, hv⟩

/-- of two foreign keys, the one to a table which is missing -/
example : (unfulfilledFks [(py"users", Examples.mk py"users" [Examples.idCol] [Examples.pk] [])]
    (Examples.mk py"comments" [Examples.idCol] [Examples.pk] [Examples.fk py"b" py"id" py"teams" py"id", Examples.fk py"a" py"id" py"users" py"id"])
    [(py"b", Examples.fk py"b" py"id" py"teams" py"id"), (py"a", Examples.fk py"a" py"id" py"users" py"id")]).map Dict.keys = .ok [py"b"] := by decide

/-! ## C28 -/

/-- messages about single constraints and about duplicate names start differently -/
theorem findConstraintErrors_label {tables : Dict Table} {t : Table} {k : Constraint} {e : Str}
    (h : findConstraintErrors tables t k = .ok (some e)) : e.head? = some 'C' := by
  have hl : ∀ rest, (fkLabel k ++ rest).head? = some 'C' := fun rest => rfl
  have hA : ∀ {ft col fcol m}, attributeError k t ft col fcol = some m → m.head? = some 'C' := by
    intro ft col fcol m hm
    unfold attributeError at hm
    repeat' split at hm
    all_goals first
      | (simp only [Option.some.injEq] at hm; subst hm; rfl)
      | simp at hm
  have hN : ∀ {col m}, setNullError k t col = some m → m.head? = some 'C' := by
    intro col m hm
    unfold setNullError at hm
    split at hm
    · simp only [Option.some.injEq] at hm; subst hm; rfl
    · simp at hm
  unfold findConstraintErrors at h
  split at h
  · simp only [Except.ok.injEq, Option.some.injEq] at h; subst h; rfl
  split at h
  · simp only [Except.ok.injEq, Option.some.injEq] at h; subst h; rfl
  split at h
  · simp only [Except.ok.injEq, Option.some.injEq] at h; subst h; rfl
  split at h
  · simp at h
  · simp only [Except.ok.injEq, Option.some.injEq] at h; subst h; rfl
  split at h
  · rename_i hm
    simp only [Except.ok.injEq, Option.some.injEq] at h; subst h; exact hA hm
  split at h
  · rename_i hm
    simp only [Except.ok.injEq, Option.some.injEq] at h; subst h; exact hN hm
  split at h
  · simp at h
  · simp only [Except.ok.injEq, Option.some.injEq] at h; subst h; rfl
  · simp at h

theorem duplicateFk_head (n a b : Str) : (duplicateFk n a b).head? = some 'D' := rfl

theorem constraintStep_dup {tables : Dict Table} {t : Table} {seen seen' : Dict Str} {k : Constraint} {errs : List Str}
    (h : constraintStep tables t seen k = .ok (errs, seen')) :
    (∀ e ∈ errs, e.head? = some 'D' → ∃ first, seen.get? k.name = some first ∧ e = duplicateFk k.name first t.name) ∧
    (∀ first, seen.get? k.name = some first → duplicateFk k.name first t.name ∈ errs ∧ seen' = seen) ∧
    (seen.get? k.name = none → seen' = Dict.set seen k.name t.name) := by
  unfold constraintStep at h
  cases hf : findConstraintErrors tables t k with
  | error e => simp [hf] at h
  | ok err =>
    have hlab : ∀ e ∈ err.toList, e.head? = some 'C' := by
      intro e he
      cases err with
      | none => simp at he
      | some x => simp at he; subst he; exact findConstraintErrors_label hf
    cases hs : seen.get? k.name with
    | none =>
      simp only [hf, hs, Except.ok.injEq, Prod.mk.injEq] at h
      obtain ⟨rfl, rfl⟩ := h
      refine ⟨?_, by simp, fun _ => rfl⟩
      intro e he hD
      rw [hlab e he] at hD
      simp at hD
    | some first =>
      simp only [hf, hs, Except.ok.injEq, Prod.mk.injEq] at h
      obtain ⟨rfl, rfl⟩ := h
      refine ⟨?_, ?_, by simp⟩
      · intro e he hD
        rcases List.mem_append.mp he with he | he
        · rw [hlab e he] at hD; simp at hD
        · simp at he; exact ⟨first, rfl, he⟩
      · intro f hf'
        simp only [Option.some.injEq] at hf'
        subst hf'
        simp

/-- the loop, started with the constraints `seen` -/
theorem constraintLoop_dup {tables : Dict Table} : ∀ (l : List (Table × Constraint)) (seen : Dict Str) (errs : List Str),
    constraintLoop tables l seen = .ok errs →
    (∀ e ∈ errs, e.head? = some 'D' → ∃ pre t k post first, l = pre ++ (t, k) :: post ∧ e = duplicateFk k.name first t.name ∧
      (seen.get? k.name = some first ∨ ∃ t' k', (t', k') ∈ pre ∧ k'.name = k.name ∧ first = t'.name)) ∧
    (∀ pre t k post, l = pre ++ (t, k) :: post → (k.name ∈ seen.keys ∨ ∃ x ∈ pre, x.2.name = k.name) →
      ∃ first, duplicateFk k.name first t.name ∈ errs ∧
        (seen.get? k.name = some first ∨ ∃ x ∈ pre, x.2.name = k.name ∧ first = x.1.name))
  | [], seen, errs, h => by
    simp [constraintLoop] at h
    subst h
    exact ⟨by simp, by intro pre t k post h; simp at h⟩
  | (t, k) :: rest, seen, errs, h => by
    simp only [constraintLoop] at h
    cases hs : constraintStep tables t seen k with
    | error e => simp [hs] at h
    | ok p =>
      obtain ⟨errs₀, seen'⟩ := p
      simp only [hs] at h
      cases hr : constraintLoop tables rest seen' with
      | error e => simp [hr, Except.map] at h
      | ok more =>
        simp only [hr, Except.map, Except.ok.injEq] at h
        subst h
        obtain ⟨s1, s2, s3⟩ := constraintStep_dup hs
        obtain ⟨r1, r2⟩ := constraintLoop_dup rest seen' more hr
        have hseen' : ∀ n first, seen'.get? n = some first → seen.get? n = some first ∨ (n = k.name ∧ first = t.name) := by
          intro n first hn
          cases hg : seen.get? k.name with
          | some f => rw [(s2 f hg).2] at hn; exact .inl hn
          | none =>
            rw [s3 hg, Dict.get?_set] at hn
            by_cases hnk : k.name = n
            · simp only [hnk, if_true, Option.some.injEq] at hn
              exact .inr ⟨hnk.symm, hn.symm⟩
            · simp only [hnk, if_false] at hn
              exact .inl hn
        refine ⟨?_, ?_⟩
        · intro e he hD
          rcases List.mem_append.mp he with he | he
          · obtain ⟨first, h1, h2⟩ := s1 e he hD
            exact ⟨[], t, k, rest, first, rfl, h2, .inl h1⟩
          · obtain ⟨pre, t', k', post, first, h1, h2, h3⟩ := r1 e he hD
            refine ⟨(t, k) :: pre, t', k', post, first, by simp [h1], h2, ?_⟩
            rcases h3 with h3 | ⟨t'', k'', h4, h5⟩
            · rcases hseen' _ _ h3 with h3 | ⟨h3, h4⟩
              · exact .inl h3
              · exact .inr ⟨t, k, by simp, h3.symm, h4⟩
            · exact .inr ⟨t'', k'', List.mem_cons_of_mem _ h4, h5⟩
        · intro pre t' k' post hl hor
          cases pre with
          | nil =>
            simp only [List.nil_append, List.cons.injEq, Prod.mk.injEq] at hl
            obtain ⟨⟨rfl, rfl⟩, rfl⟩ := hl
            have hin : k.name ∈ seen.keys := by
              rcases hor with h | ⟨x, hx, _⟩
              · exact h
              · simp at hx
            obtain ⟨first, hf⟩ := Dict.exists_get? hin
            exact ⟨first, List.mem_append_left _ (s2 first hf).1, .inl hf⟩
          | cons x pre =>
            simp only [List.cons_append, List.cons.injEq] at hl
            obtain ⟨rfl, hl⟩ := hl
            have hin : k'.name ∈ seen'.keys ∨ ∃ x ∈ pre, x.2.name = k'.name := by
              rcases hor with h | ⟨x, hx, hn⟩
              · left
                cases hg : seen.get? k.name with
                | some f => rw [(s2 f hg).2]; exact h
                | none => rw [s3 hg, Dict.mem_keys_set]; exact .inr h
              · rcases List.mem_cons.mp hx with rfl | hx
                · left
                  cases hg : seen.get? k.name with
                  | some f => rw [(s2 f hg).2, ← hn]; exact Dict.mem_keys_of_get? hg
                  | none => rw [s3 hg, Dict.mem_keys_set]; exact .inl hn.symm
                · exact .inr ⟨x, hx, hn⟩
            obtain ⟨first, h1, h2⟩ := r2 pre t' k' post hl hin
            refine ⟨first, List.mem_append_right _ h1, ?_⟩
            rcases h2 with h2 | ⟨x, hx, hn⟩
            · rcases hseen' _ _ h2 with h3 | ⟨h3, h4⟩
              · exact .inl h3
              · exact .inr ⟨(t, k), by simp, h3.symm, h4⟩
            · exact .inr ⟨x, List.mem_cons_of_mem _ hx, hn⟩

/-- All foreign keys of a database with their tables, in order. -/
def foreignKeys (tables : Dict Table) : List (Table × Constraint) :=
  tables.values.flatMap (fun t => t.constraints.values.map (fun k => (t, k)))

/-- Is this the message about two foreign keys of one name? -/
def SaysDuplicate (e : Str) : Prop := py"Duplicate foreign key" <+: e

/-- **C28**.  Whenever the foreign keys of a database are checked: a later foreign key with the name of an earlier
one (in the same or another table) is reported with both table names; and every report of a duplicate is true:
it names a foreign key, its table, and the table of an earlier foreign key of that name. -/
theorem C28 (tables : Dict Table) (errs : List Str) (h : fkErrors tables = .ok errs) :
    (∀ pre t k post, foreignKeys tables = pre ++ (t, k) :: post → (∃ x ∈ pre, x.2.name = k.name) →
      ∃ x ∈ pre, x.2.name = k.name ∧
        py"Duplicate foreign key: foreign key named '" ++ k.name ++ py"' exists in tables '" ++ x.1.name ++ py"' and '" ++
          t.name ++ py"'" ∈ errs) ∧
    (∀ e ∈ errs, SaysDuplicate e → ∃ pre t k post x, foreignKeys tables = pre ++ (t, k) :: post ∧ x ∈ pre ∧ x.2.name = k.name ∧
      e = py"Duplicate foreign key: foreign key named '" ++ k.name ++ py"' exists in tables '" ++ x.1.name ++ py"' and '" ++
          t.name ++ py"'") := by
  obtain ⟨h1, h2⟩ := constraintLoop_dup _ _ _ h
  refine ⟨?_, ?_⟩
  · intro pre t k post hl hx
    obtain ⟨first, hm, hor⟩ := h2 pre t k post hl (.inr hx)
    rcases hor with hor | ⟨x, hx, hn, rfl⟩
    · simp at hor
    · exact ⟨x, hx, hn, hm⟩
  · intro e he hsay
    have hD : e.head? = some 'D' := by
      obtain ⟨r, rfl⟩ := hsay
      rfl
    obtain ⟨pre, t, k, post, first, hl, heq, hor⟩ := h1 e he hD
    rcases hor with hor | ⟨t', k', hm, hn, rfl⟩
    · simp at hor
    · exact ⟨pre, t, k, post, (t', k'), hl, hm, hn, heq⟩

/-- **C28**, short form: there is a report of a duplicate exactly if two foreign keys share a name. -/
theorem C28_iff (tables : Dict Table) (errs : List Str) (h : fkErrors tables = .ok errs) :
    (∃ e ∈ errs, SaysDuplicate e) ↔ ¬ ((foreignKeys tables).map (fun x => x.2.name)).Nodup := by
  obtain ⟨h1, h2⟩ := C28 tables errs h
  constructor
  · rintro ⟨e, he, hs⟩ hnd
    obtain ⟨pre, t, k, post, x, hl, hx, hn, _⟩ := h2 e he hs
    rw [hl, List.map_append, List.nodup_append] at hnd
    exact hnd.2.2 x.2.name (List.mem_map.mpr ⟨x, hx, rfl⟩) k.name (by simp) hn
  · intro hnd
    have hex : ∀ l : List (Table × Constraint), ¬ (l.map (fun x => x.2.name)).Nodup →
        ∃ pre t k post, l = pre ++ (t, k) :: post ∧ ∃ x ∈ pre, x.2.name = k.name := by
      intro l
      induction l with
      | nil => intro h; simp at h
      | cons a l ih =>
        intro hn
        by_cases hm : a.2.name ∈ l.map (fun x => x.2.name)
        · obtain ⟨y, hy, he⟩ := List.mem_map.mp hm
          obtain ⟨p, q, rfl⟩ := List.append_of_mem hy
          exact ⟨a :: p, y.1, y.2, q, rfl, a, by simp, he.symm⟩
        · simp only [List.map_cons, List.nodup_cons, hm, not_false_eq_true, true_and] at hn
          obtain ⟨pre, t, k, post, rfl, x, hx, he⟩ := ih hn
          exact ⟨a :: pre, t, k, post, rfl, x, List.mem_cons_of_mem _ hx, he⟩
    obtain ⟨pre, t, k, post, hl, hx⟩ := hex _ hnd
    obtain ⟨x, _, _, hm⟩ := h1 pre t k post hl hx
    exact ⟨_, hm, ⟨_, by simp only [List.append_assoc]; rfl⟩⟩

section
open Examples

/-- `comments` and `votes` use one name for two foreign keys: it is reported -/
example : fkErrors [(py"users", users py"INT"), (py"comments", comments py"INT"),
      (py"votes", { comments py"INT" with name := py"votes" })] =
    .ok [py"Duplicate foreign key: foreign key named 'comments_user_fk' exists in tables 'comments' and 'votes'"] := by decide

/-- and without the second table there is nothing to report -/
example : fkErrors [(py"users", users py"INT"), (py"comments", comments py"INT")] = .ok [] := by decide
end

end Mygrations

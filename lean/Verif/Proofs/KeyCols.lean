import Verif.Proofs.Order
import Verif.Proofs.Nodes
import Verif.Props.C76

/-! # Keys which are read from files have columns -/

namespace Mygrations
open Table

/-- the definition is not a key without columns -/
def Definition.Covers : Definition → Prop
  | .index i => i.columns ≠ []
  | _ => True

theorem delimParse_ne {e : Str} {sep q : Char} {s s' : Str} {v : PVal} (h : delimParse e sep q s = .ok (some (v, s'))) : ∃ l, v = .list l ∧ l ≠ [] := by
  unfold delimParse at h
  simp only at h
  split at h
  · cases h
  · split at h
    · cases h
    · rename_i hne
      cases h
      exact ⟨_, rfl, hne⟩

/-- the rules have a list of columns, and no other rule is called like it -/
def HasColumns (rules : List (Rule Kind)) : Prop :=
  (∃ x ∈ rules, x.optional = false ∧ x.name = py"columns") ∧ ∀ x ∈ rules, x.name = py"columns" → ∃ sep q e, x.kind = .delimited sep q e

theorem columns_ne {rules : List (Rule Kind)} (h : HasColumns rules) {s : Str} {r : ParseResult PVal} (hr : simpleParse rules s = .ok r) (hm : r.matched = true) :
    (listOf r.values py"columns").map cleanIndexColumn ≠ [] := by
  obtain ⟨⟨x, hx, ho, hxn⟩, hall⟩ := h
  have h1 := (runRules_present _ _ _ _ hr hm).2 x hx ho
  rw [hxn] at h1
  obtain ⟨v, hv⟩ := Dict.exists_get? h1
  obtain ⟨l, rfl, hl⟩ := runRules_from (P := fun n v => n = py"columns" → ∃ l, v = .list l ∧ l ≠ []) _ _ _ _ (by
    intro x hx s v s' hp hn
    obtain ⟨sep, q, e, hk⟩ := hall x hx hn
    rw [hk] at hp
    exact delimParse_ne hp) (fun _ _ h => (by cases h)) hr _ v hv rfl
  unfold listOf
  rw [hv]
  simpa using hl

theorem indexTail_columns (pre : List (Rule Kind)) (h : ∀ x ∈ pre, x.name ≠ py"columns") : HasColumns (pre ++ indexTail) := by
  refine ⟨⟨delimited py"columns" '`' py")", ?_, rfl, rfl⟩, fun x hx hn => ?_⟩
  · simp [indexTail]
  · rcases List.mem_append.mp hx with hx | hx
    · exact absurd hn (h x hx)
    · simp only [indexTail, List.mem_cons, List.not_mem_nil, or_false] at hx
      rcases hx with rfl | rfl | rfl | rfl
      · exact absurd hn (by decide)
      · exact ⟨_, _, _, rfl⟩
      · exact absurd hn (by decide)
      · exact absurd hn (by decide)

theorem tryParse_covers {c : ChildClass Definition} (hc : c ∈ definitionClasses) {s rest : Str} {d : Definition} (h : c.tryParse s = .ok (some (d, rest))) : d.Covers := by
  unfold ChildClass.tryParse at h
  split at h
  · cases h
  · rename_i r hr
    split at h
    · rename_i hm
      cases h
      simp only [definitionClasses, List.mem_cons, List.not_mem_nil, or_false] at hc
      rcases hc with rfl | rfl | rfl | rfl | rfl | rfl | rfl | rfl | rfl | rfl | rfl | rfl
      · exact columns_ne (indexTail_columns [lit py"PRIMARY KEY"] (by decide)) hr hm
      · exact columns_ne (indexTail_columns [{ kind := keyOrIndex, name := py"index_name" }, nameRule py"name"] (by
          intro x hx; simp only [List.mem_cons, List.not_mem_nil, or_false] at hx; rcases hx with rfl | rfl <;> decide)) hr hm
      · exact columns_ne (indexTail_columns [lit py"UNIQUE", { kind := keyOrIndex, name := py"index_name", optional := true },
          { kind := plus (· != '('), name := py"name", optional := true }] (by
          intro x hx; simp only [List.mem_cons, List.not_mem_nil, or_false] at hx; rcases hx with rfl | rfl | rfl <;> decide)) hr hm
      all_goals exact trivial
    · cases h

theorem keys_addColumn {t t' : Table} {c : Column} (h : t.IndexesHaveColumns) (hc : t.addColumn c .last = .ok t') : t'.IndexesHaveColumns := by
  unfold Table.addColumn at hc
  split at hc
  · cases hc
  · cases hc; exact h

theorem keys_addIndex {t t' : Table} {i : Index} (h : t.IndexesHaveColumns) (hi : t.addIndex i = .ok t') (hc : i.columns ≠ []) : t'.IndexesHaveColumns := by
  have key : t'.indexes = t.indexes.set i.name i := by
    unfold Table.addIndex at hi
    split at hi
    · cases hi
    · simp only at hi
      split at hi
      · cases hi; rfl
      · split at hi
        · cases hi
        · cases hi; rfl
  intro x hx
  rw [key] at hx
  obtain ⟨k, hk⟩ := Dict.mem_values.mp hx
  rcases Dict.mem_set hk with ⟨_, rfl⟩ | hk
  · exact hc
  · exact h x (Dict.mem_values.mpr ⟨k, hk⟩)

theorem keys_addConstraint {t t' : Table} {k : Constraint} (h : t.IndexesHaveColumns) (hk : t.addConstraint k = .ok t') : t'.IndexesHaveColumns := by
  unfold Table.addConstraint at hk
  split at hk
  · cases hk
  · cases hk; exact h

theorem keys_addDefinition {all : List Definition} {t t' : Table} {d : Definition} (h : t.IndexesHaveColumns) (hcov : d.Covers) (hd : addDefinition all t d = .ok t') :
    t'.IndexesHaveColumns := by
  cases d with
  | column c =>
    unfold addDefinition at hd
    simp only at hd
    split at hd
    · cases hd
      exact h
    · split at hd
      · cases hd
      · split at hd
        · cases hd
        · rename_i col _ _ t1 h1
          have k1 := keys_addColumn h h1
          split at hd
          · exact keys_addIndex k1 hd (by simp)
          · cases hd
            exact k1
  | index i =>
    unfold addDefinition at hd
    simp only at hd
    split at hd
    · cases hd
      exact h
    · exact keys_addIndex h hd hcov
  | constraint k bare =>
    unfold addDefinition at hd
    simp only at hd
    obtain ⟨k', hk'⟩ : ∃ k', k' = (if bare then { k with name := bareName t.name k.column k.ftable } else k) := ⟨_, rfl⟩
    simp only [← hk'] at hd
    split at hd
    · cases hd
      exact h
    · split at hd
      · cases hd
      · rename_i t1 h1
        have k1 := keys_addConstraint h h1
        split at hd
        · exact keys_addIndex k1 hd (by simp)
        · cases hd
          exact k1

theorem keys_addDefinitions {all : List Definition} : ∀ {ds : List Definition} {t t' : Table}, t.IndexesHaveColumns → (∀ d ∈ ds, d.Covers) →
    addDefinitions all t ds = .ok t' → t'.IndexesHaveColumns
  | [], t, t', h, _, hd => by cases hd; exact h
  | d :: ds, t, t', h, hc, hd => by
    unfold addDefinitions at hd
    split at hd
    · cases hd
    · rename_i t1 h1
      exact keys_addDefinitions (keys_addDefinition h (hc d List.mem_cons_self) h1) (fun x hx => hc x (List.mem_cons_of_mem _ hx)) hd

theorem parseCreate_keys {s rest : Str} {t : Table} (h : parseCreate s = .ok (t, rest)) : t.IndexesHaveColumns := by
  unfold parseCreate at h
  split at h
  · cases h
  · rename_i r hr
    have hnodes := topParse_nodes hr (Q := fun m => ∀ d, m.toDefinition = some d → d.Covers) (n := py"definitions") (by
      intro rule hrule hn classes hk c hc s m rest' ht d hd
      simp only [createRules, List.mem_cons, List.not_mem_nil, or_false] at hrule
      rcases hrule with rfl | rfl | rfl | rfl | rfl | rfl | rfl | rfl
      · exact absurd hn (by decide)
      · exact absurd hn (by decide)
      · exact absurd hn (by decide)
      · exact absurd hn (by decide)
      · cases hk
        obtain ⟨c0, hc0, rfl⟩ := List.mem_map.mp hc
        have h0 : ∃ d0, c0.tryParse s = .ok (some (d0, rest')) ∧ m = .definition d0 := by
          unfold ChildClass.tryParse at ht ⊢
          simp only [ChildClass.map] at ht
          split at ht
          · cases ht
          · rename_i q hq
            split at ht
            · rename_i hm
              rw [if_pos hm]
              cases ht
              exact ⟨_, rfl, rfl⟩
            · cases ht
        obtain ⟨d0, h0, rfl⟩ := h0
        cases hd
        exact tryParse_covers hc0 h0
      · exact absurd hn (by decide)
      · exact absurd hn (by decide)
      · exact absurd hn (by decide))
    split at h
    · split at h
      · cases h
      · rename_i t1 h1
        cases h
        unfold createProcess at h1
        simp only at h1
        split at h1
        · cases h1
        · rename_i t2 h2
          have k2 : t2.IndexesHaveColumns := keys_addDefinitions (t := { name := _, options := _ }) (fun _ h => by cases h) (fun d hd => by
            obtain ⟨m, hm, he⟩ := List.mem_filterMap.mp hd
            exact hnodes m hm d he) h2
          split at h1
          · cases h1; exact k2
          · cases h1; exact k2
    · cases h
      exact fun _ h => by cases h

theorem readLoop_keys : ∀ (n : Nat) (st : ReaderState) (s : Str), (∀ k t, (k, t) ∈ st.tables → t.IndexesHaveColumns) →
    ∀ k t, (k, t) ∈ (readLoop n st s).1.tables → t.IndexesHaveColumns
  | n, st, [], h => by rw [readLoop_nil]; exact h
  | 0, st, c :: cs, h => by rw [readLoop_zero st (by simp)]; exact h
  | n + 1, st, c :: cs, h => by
    rw [readLoop_succ n st (by simp)]
    unfold readStep
    split
    · exact h
    · split
      · exact readLoop_keys n _ _ h
      · split
        · split
          · exact h
          · rename_i t rest ht
            refine readLoop_keys n _ _ ?_
            intro k x hk
            rcases Dict.mem_set hk with ⟨_, rfl⟩ | hk
            · exact parseCreate_keys ht
            · exact h k x hk
        · split
          · split
            · exact h
            · exact readLoop_keys n _ _ h
          · exact h

/-- the keys of the tables of files have columns -/
theorem new_keyCols [PyNum] {sources : List Str} {d : Database} (h : FileDatabase.new sources = .ok d) (hq : ∀ f ∈ sources, (readSource f).2 = none)
    (hn : (sources.flatMap (fun f => (readSource f).1.tables.keys)).Nodup) : ∀ t ∈ d.tables.values, t.IndexesHaveColumns := by
  intro t ht
  obtain ⟨k, hk⟩ := Dict.mem_values.mp ht
  have h1 := congrArg Database.tables (new_shape h hq hn).1
  have h2 : (k, t.outline) ∈ d.outline.tables := List.mem_map.mpr ⟨_, hk, rfl⟩
  rw [h1] at h2
  simp only [List.mem_map, Prod.mk.injEq] at h2
  obtain ⟨⟨k', t'⟩, he, _, h3⟩ := h2
  obtain ⟨f, _, hf⟩ := List.mem_flatMap.mp he
  have h4 : t'.IndexesHaveColumns := readLoop_keys _ _ _ (fun _ _ h => by cases h) k' t' hf
  have h5 : t'.outline.indexes = t.outline.indexes := congrArg Table.indexes h3
  have h6 : t'.indexes = t.indexes := h5
  unfold IndexesHaveColumns
  rw [← h6]
  exact h4

end Mygrations

import Verif.Proofs.Phases2

/-! # What a plan which executes says about the migration -/

namespace Mygrations
open Table MySQL Mygration

/-! ## Statements which execute -/

theorem check_some {db db' : SDb} (h : db.check = some db') : db' = db ∧ db.consistent = true := by
  unfold SDb.check at h
  split at h
  · rename_i hc
    cases h
    exact ⟨rfl, hc⟩
  · cases h

theorem exec_create {db db' : SDb} {σ : Tabs} {b : Table} (h : At db σ) (he : db.exec (.createTable b) = some db') :
    At db' (σ.put b.name (some (ofTable b))) ∧ (σ.put b.name (some (ofTable b))).Cons := by
  simp only [SDb.exec] at he
  split at he
  · cases he
  · rename_i hn
    simp only [Bool.or_eq_true, not_or, Bool.not_eq_true] at hn
    have hnk := Dict.has_eq_false.mp hn.1.1
    obtain ⟨e, hc⟩ := check_some he
    have hat : At db' (σ.put b.name (some (ofTable b))) := by
      rw [e]
      refine ⟨h.off, ?_, ?_⟩
      · simp only [Dict.keys_append, List.nodup_append]
        refine ⟨h.nodup, by simp, ?_⟩
        intro a ha b hb e
        simp at hb
        subst hb
        subst e
        exact hnk ha
      · intro m
        rw [Dict.get?_append, h.get]
        by_cases e : m = b.name
        · subst e
          rw [← h.get, Dict.get?_eq_none.mpr hnk, Tabs.put_same, Dict.get?_cons]
          simp
        · rw [Tabs.put_other σ _ e, Dict.get?_cons, if_neg (fun h => e h.symm)]
          simp
    exact ⟨hat, hat.consistent.mp (e ▸ hc)⟩

theorem exec_alter {db db' : SDb} {σ : Tabs} {a : Alter} (h : At db σ) (he : db.exec (.alter a) = some db') :
    ∃ st st', σ a.table = some st ∧ alterTable st (a.ops.flatMap clauses) = some st' ∧ NoBreak σ a.table st (a.ops.flatMap clauses) ∧
      At db' (σ.put a.table (some st')) ∧ (σ.put a.table (some st')).Cons := by
  simp only [SDb.exec] at he
  cases hg : db.tables.get? a.table with
  | none => rw [hg] at he; cases he
  | some st =>
    rw [hg] at he
    simp only at he
    cases ha : alterTable st (a.ops.flatMap clauses) with
    | none => rw [ha] at he; cases he
    | some st' =>
      rw [ha] at he
      simp only at he
      split at he
      · cases he
      · rename_i hb
        obtain ⟨e, hc⟩ := check_some he
        have hat : At db' (σ.put a.table (some st')) := by
          rw [e]
          refine ⟨h.off, Dict.keys_set_nodup _ _ h.nodup, ?_⟩
          intro m
          rw [Dict.get?_set, h.get]
          by_cases e : m = a.table
          · subst e
            simp [Tabs.put_same]
          · rw [Tabs.put_other σ _ e]
            simp [Ne.symm e]
        refine ⟨st, st', by rw [← h.get]; exact hg, ha, ?_, hat, hat.consistent.mp (e ▸ hc)⟩
        intro e he c hcol hty m sm hm x k hk
        cases hu : uses m k a.table e.1 with
        | false => rfl
        | true =>
          exfalso
          apply hb
          rw [SDb.breaksFk, List.any_eq_true]
          refine ⟨e, he, ?_⟩
          rw [hcol]
          simp only [hty, Bool.true_and, List.any_eq_true]
          exact ⟨(m, sm), Dict.mem_of_get? (by rw [h.get]; exact hm), (x, k), hk, hu⟩

theorem exec_split {db db' : SDb} {a b : List Op} (h : db.execAll (a ++ b) = some db') :
    ∃ db₁, db.execAll a = some db₁ ∧ db₁.execAll b = some db' := by
  simp only [SDb.execAll, List.foldlM_append] at h ⊢
  cases h1 : a.foldlM SDb.exec db with
  | none => rw [h1] at h; simp at h
  | some db₁ => rw [h1] at h; exact ⟨db₁, rfl, h⟩

theorem exec_first {db db' : SDb} {o : Op} {b : List Op} (h : db.execAll (o :: b) = some db') :
    ∃ db₁, db.exec o = some db₁ ∧ db₁.execAll b = some db' := by
  simp only [SDb.execAll, List.foldlM_cons] at h ⊢
  cases h1 : db.exec o with
  | none => rw [h1] at h; simp at h
  | some db₁ => rw [h1] at h; exact ⟨db₁, rfl, h⟩

/-- alters which execute, one after the other -/
inductive Alters : Tabs → List Alter → Tabs → Prop
  | nil {σ : Tabs} : Alters σ [] σ
  | cons {σ σ' : Tabs} {a : Alter} {as : List Alter} {st st' : STable} (at_ : σ a.table = some st)
      (ok : alterTable st (a.ops.flatMap clauses) = some st') (quiet : NoBreak σ a.table st (a.ops.flatMap clauses))
      (cons : (σ.put a.table (some st')).Cons) (rest : Alters (σ.put a.table (some st')) as σ') : Alters σ (a :: as) σ'

theorem alters_of_exec : ∀ {as : List Alter} {db db' : SDb} {σ : Tabs}, At db σ → db.execAll (as.map .alter) = some db' →
    ∃ σ', Alters σ as σ' ∧ At db' σ'
  | [], db, db', σ, h, he => by
    simp only [SDb.execAll, List.map_nil, List.foldlM_nil, Option.pure_def, Option.some.injEq] at he
    subst he
    exact ⟨σ, .nil, h⟩
  | a :: as, db, db', σ, h, he => by
    obtain ⟨db₁, h1, h2⟩ := exec_first (b := as.map .alter) he
    obtain ⟨st, st', e1, e2, e3, e4, e5⟩ := exec_alter h h1
    obtain ⟨σ', e6, e7⟩ := alters_of_exec e4 h2
    exact ⟨σ', .cons e1 e2 e3 e5 e6, e7⟩

theorem Alters.consistent {σ σ' : Tabs} {as : List Alter} (h : Alters σ as σ') (hc : σ.Cons) : σ'.Cons := by
  induction h with
  | nil => exact hc
  | cons _ _ _ c _ ih => exact ih c

theorem Alters.other {σ σ' : Tabs} {as : List Alter} {n : Str} (h : Alters σ as σ') (hn : n ∉ as.map Alter.table) : σ' n = σ n := by
  induction h with
  | nil => rfl
  | cons _ _ _ _ _ ih =>
    simp only [List.map_cons, List.mem_cons, not_or] at hn
    rw [ih hn.2, Tabs.put_other _ _ hn.1]

theorem Alters.split {σ σ' : Tabs} {cs : List Alter} (h : Alters σ cs σ') : ∀ {as bs : List Alter}, cs = as ++ bs →
    ∃ σ₁, Alters σ as σ₁ ∧ Alters σ₁ bs σ' := by
  induction h with
  | nil =>
    intro as bs he
    obtain ⟨rfl, rfl⟩ := List.append_eq_nil_iff.mp he.symm
    exact ⟨_, .nil, .nil⟩
  | @cons σ σ' a cs st st' e1 e2 e3 e4 e5 ih =>
    intro as bs he
    cases as with
    | nil =>
      simp only [List.nil_append] at he
      subst he
      exact ⟨_, .nil, .cons e1 e2 e3 e4 e5⟩
    | cons x as =>
      simp only [List.cons_append, List.cons.injEq] at he
      obtain ⟨rfl, he⟩ := he
      obtain ⟨σ₁, h1, h2⟩ := ih he
      exact ⟨σ₁, .cons e1 e2 e3 e4 h1, h2⟩

/-- a table which is altered once -/
theorem Alters.once {σ σ' : Tabs} {as : List Alter} (h : Alters σ as σ') (hn : (as.map Alter.table).Nodup) : ∀ a ∈ as,
    ∃ st st', σ a.table = some st ∧ alterTable st (a.ops.flatMap clauses) = some st' ∧ σ' a.table = some st' := by
  induction h with
  | nil => intro a ha; cases ha
  | @cons σ σ' b as st st' e1 e2 _ _ e5 ih =>
    intro a ha
    simp only [List.map_cons, List.nodup_cons] at hn
    by_cases hb : a ∈ as
    · obtain ⟨s1, s2, h1, h2, h3⟩ := ih hn.2 a hb
      have : a.table ≠ b.table := fun e => hn.1 (e ▸ List.mem_map_of_mem hb)
      rw [Tabs.put_other _ _ this] at h1
      exact ⟨s1, s2, h1, h2, h3⟩
    · have : a = b := by
        rcases List.mem_cons.mp ha with e | e
        · exact e
        · exact absurd e hb
      subst this
      refine ⟨st, st', e1, e2, ?_⟩
      rw [e5.other hn.1, Tabs.put_same]

/-- the turn of one table -/
theorem Alters.turn {σ σ' : Tabs} {l : List Str} {g : Str → List Alter} (h : Alters σ (l.flatMap g) σ') (hg : ∀ n, ∀ a ∈ g n, a.table = n)
    (hn : l.Nodup) {l₁ l₂ : List Str} {p : Str} (hp : l = l₁ ++ p :: l₂) :
    ∃ σ₁ σ₂, Alters σ (l₁.flatMap g) σ₁ ∧ Alters σ₁ (g p) σ₂ ∧ Alters σ₂ (l₂.flatMap g) σ' ∧ (∀ n, n ∉ l₁ → σ₁ n = σ n) ∧ (∀ n, n ≠ p → σ₂ n = σ₁ n) ∧
      (∀ n, n ∉ l₂ → σ' n = σ₂ n) ∧ p ∉ l₁ ∧ p ∉ l₂ := by
  have hsub : ∀ l : List Str, ∀ n, n ∉ l → n ∉ (l.flatMap g).map Alter.table := by
    intro l n hn hm
    obtain ⟨a, ha, rfl⟩ := List.mem_map.mp hm
    obtain ⟨m, hm, ha⟩ := List.mem_flatMap.mp ha
    rw [hg m a ha] at hn
    exact hn hm
  obtain ⟨σ₁, h1, h2⟩ := h.split (as := l₁.flatMap g) (bs := g p ++ l₂.flatMap g) (by rw [hp]; simp)
  obtain ⟨σ₂, h3, h4⟩ := h2.split (as := g p) (bs := l₂.flatMap g) rfl
  have hnd := hn
  rw [hp, List.nodup_append, List.nodup_cons] at hnd
  refine ⟨σ₁, σ₂, h1, h3, h4, fun n hn => h1.other (hsub _ n hn), ?_, fun n hn => h4.other (hsub _ n hn), ?_, hnd.2.1.1⟩
  · intro n hn
    apply h3.other
    intro hm
    obtain ⟨a, ha, rfl⟩ := List.mem_map.mp hm
    exact hn (hg p a ha)
  · exact fun hm => hnd.2.2 p hm p (by simp) rfl

theorem alterIf_table {n : Str} {ops : List AlterOp} : ∀ a ∈ alterIf n ops, a.table = n := by
  intro a ha
  unfold alterIf at ha
  split at ha
  · cases ha
  · simp only [List.mem_singleton] at ha
    rw [ha]

/-- an alter which is left out if there is nothing to do -/
theorem Alters.one {σ σ' : Tabs} {n : Str} {ops : List AlterOp} (h : Alters σ (alterIf n ops) σ') :
    (ops = [] ∧ σ' = σ) ∨ ∃ st st', σ n = some st ∧ alterTable st (ops.flatMap clauses) = some st' ∧ NoBreak σ n st (ops.flatMap clauses) ∧
      σ' = σ.put n (some st') := by
  unfold alterIf at h
  split at h
  · rename_i he
    cases h
    exact .inl ⟨he, rfl⟩
  · cases h with
    | cons e1 e2 e3 e4 e5 =>
      cases e5
      exact .inr ⟨_, _, e1, e2, e3, rfl⟩

theorem addNamed_some {V : Type} {name : V → Str} : ∀ {vs : List V} {d d' : Dict V}, vs.foldlM (addNamed name) d = some d' →
    d' = d ++ vs.map (fun v => (name v, v)) ∧ ∀ v ∈ vs, name v ∉ d.keys
  | [], d, d', h => by
    simp only [List.foldlM_nil, Option.pure_def, Option.some.injEq] at h
    simp [h]
  | v :: vs, d, d', h => by
    simp only [List.foldlM_cons, addNamed] at h
    split at h
    · simp at h
    · rename_i hv
      simp only [Option.bind_eq_bind, Option.bind_some] at h
      obtain ⟨h1, h2⟩ := addNamed_some h
      refine ⟨by simp [h1], ?_⟩
      intro w hw
      rcases List.mem_cons.mp hw with rfl | hw
      · exact fun hm => hv (Dict.has_iff.mpr hm)
      · have := h2 w hw
        simp only [Dict.keys_append, List.mem_append, not_or] at this
        exact this.1

/-- an alter which adds foreign keys only -/
theorem alter_adds {st st' : STable} {l : List Constraint} (h : alterTable st ((l.map AlterOp.addConstraint).flatMap clauses) = some st') :
    st'.fks = st.fks ++ l.map (fun k => (k.name, k)) ∧ ∀ k ∈ l, k.name ∉ st.fks.keys := by
  obtain ⟨_, _, _, f0, _, _, _, _, _, h1, h2, _⟩ := alterTable_steps h
  obtain ⟨_, c1, c2⟩ := addConstraint_clauses l
  rw [c1, dropNames_nil] at h1
  simp only [Option.some.injEq] at h1
  rw [c2, ← h1] at h2
  exact addNamed_some h2

section
variable {f t : Dict Table} {c c' : Bool}

/-! ## Creating tables -/

theorem creates_of_exec (ht : KeyedTables t) : ∀ {l : List Str} {db db' : SDb} {σ : Tabs}, At db σ → (∀ n ∈ l, n ∈ t.keys) →
    db.execAll (l.filterMap (fun n => (t.get? n).map .createTable)) = some db' →
    ∃ σ', At db' σ' ∧ (σ.Cons → σ'.Cons) ∧ ∀ n, σ' n = if n ∈ l then (t.get? n).map ofTable else σ n
  | [], db, db', σ, h, _, he => by
    simp only [SDb.execAll, List.filterMap_nil, List.foldlM_nil, Option.pure_def, Option.some.injEq] at he
    subst he
    exact ⟨σ, h, id, by simp⟩
  | m :: l, db, db', σ, h, hl, he => by
    obtain ⟨b, hb⟩ := Dict.exists_get? (hl m (by simp))
    have hname : b.name = m := ht.name _ _ (Dict.mem_of_get? hb)
    simp only [List.filterMap_cons, hb, Option.map_some] at he
    obtain ⟨db₁, h1, h2⟩ := exec_first he
    obtain ⟨h3, h4⟩ := exec_create h h1
    obtain ⟨σ', h5, h6, h7⟩ := creates_of_exec ht h3 (fun n hn => hl n (by simp [hn])) h2
    refine ⟨σ', h5, fun _ => h6 h4, ?_⟩
    intro n
    rw [h7, hname]
    by_cases e : n = m
    · subst e
      simp [Tabs.put_same, hb]
    · rw [Tabs.put_other _ _ e]
      simp [e]

/-! ## Changing columns and keys -/

theorem kitchen_primary [PyNum] {s t : Table} (hs : s.Valid) (ht : t.Valid) (ps : s.Plain) (pt : t.Plain) {d : Diff} (hd : s.toSplit t = .ok d)
    (he : d.kitchenSink = [] ∨ ∃ F st', alterTable ⟨s.columns, (ofTable s).keys, F⟩ (d.kitchenSink.flatMap clauses) = some st') :
    PrimaryKept s t := by
  intro k a b ha hb hpa
  apply Classical.byContradiction
  intro hcon
  simp only [not_or, not_and] at hcon
  have va : a ∈ s.indexes.values := Dict.mem_values.mpr ⟨_, Dict.mem_of_get? ha⟩
  have vb : b ∈ t.indexes.values := Dict.mem_values.mpr ⟨_, Dict.mem_of_get? hb⟩
  have hch : k ∈ changedKeys s t := by
    rw [changedKeys_mem]
    refine ⟨a, b, ha, hb, ?_, ?_⟩
    · intro hr
      have := Index.render_inj (ps.idx a va) (pt.idx b vb) (hs.idxCols a va).1 (ht.idxCols b vb).1 hr
      exact hcon.2 (this.2.1 ▸ hpa) this.1
    · intro hc
      exact hcon.2 (by simpa [Index.isPrimary, ← hc.2] using hpa) hc.1
  obtain ⟨_, _, _, _, _, _, _, _, k5, _, _, _, _, _⟩ := cols_exec hs.toKeyed ht.toKeyed hd [] (by simp [FkOnly])
  rw [List.append_nil] at k5
  have hdk : k ∈ droppedKeys (d.kitchenSink.flatMap clauses) := by
    rw [k5, (keyOps_clauses s t).2.2.2.1, List.mem_append]
    right
    exact List.mem_map.mpr ⟨b, mem_look.mpr ⟨k, hch, hb⟩, ht.idxName _ _ (Dict.mem_of_get? hb)⟩
  rcases he with he | ⟨F, st', he⟩
  · rw [he] at hdk
    simp at hdk
  · obtain ⟨c0, c1, k0, f0, _, _, _, e4, _, _, _, _⟩ := alterTable_steps he
    rw [dropNames] at e4
    split at e4
    · rename_i hall
      have := List.all_eq_true.mp hall.1 k hdk
      rw [Dict.has_iff, ofTable_keys] at this
      simp only [Dict.keys, List.map_map, List.mem_map, Function.comp] at this
      obtain ⟨e, he, hek⟩ := this
      by_cases hpe : e.2.isPrimary = true
      · simp only [keyName, hpe, if_true] at hek
        exact hcon.1 hek.symm
      · simp only [keyName, hpe, Bool.false_eq_true, if_false] at hek
        have h1 := hs.idxName _ _ he
        have h2 := get?_of_entry hs.toKeyed he
        rw [← h1, hek, ha] at h2
        simp only [Option.some.injEq] at h2
        exact hpe (h2 ▸ hpa)
    · simp at e4

theorem kitchen_result [PyNum] {s t : Table} (hs : s.Valid) (ht : t.Valid) (ps : s.Plain) (pt : t.Plain) {d : Diff} (hd : s.toSplit t = .ok d)
    {F : Dict Constraint} {st' : STable} (he : alterTable ⟨s.columns, (ofTable s).keys, F⟩ (d.kitchenSink.flatMap clauses) = some st') :
    ∃ cols, ColsOk s t cols ∧ st' = ⟨cols, finalKeys s t, F⟩ := by
  obtain ⟨cols, h1, _, h3⟩ := kitchen_all hs ht ps pt (kitchen_primary hs ht ps pt hd (.inr ⟨F, st', he⟩)) hd
  refine ⟨cols, h1, ?_⟩
  obtain ⟨a0, a1, a2, a3, b1, b2, b3, b4, b5, _⟩ := alterTable_steps (h3 [] (by simp))
  obtain ⟨a0', a1', a2', a3', c1, c2, c3, c4, c5, c6, c7, _⟩ := alterTable_steps he
  simp only at b1 b2 b3 b4 b5 c1 c2 c4 c5 c6
  obtain ⟨n1, n2⟩ := kitchen_clauses (kitchenSink_noFk hd)
  rw [n1, dropNames_nil] at c6
  rw [n2] at c7
  simp only [List.foldlM_nil, Option.pure_def, Option.some.injEq] at c6 c7
  rw [b1] at c1
  cases c1
  rw [b2] at c2
  cases c2
  rw [b3] at c3
  rw [b4] at c4
  cases c4
  rw [b5] at c5
  simp only [Option.some.injEq] at c3 c5
  cases st'
  simp only at c3 c5 c7
  rw [c3, c5, c6, c7]

theorem retyped_change [PyNum] {s t : Table} (hs : s.Keyed) (ht : t.Keyed) {d : Diff} (h : s.toSplit t = .ok d) {x : Str} {u v : Column}
    (hu : s.columns.get? x = some u) (hv : t.columns.get? x = some v) (hne : ¬ Equivalent u v) : (x, v) ∈ changedCols (d.kitchenSink.flatMap clauses) := by
  simp only [toSplit, addedColumnOps_added s t ht] at h
  cases hc : changedColumnOps s t (overlap s.columns t.columns) with
  | error e => simp [hc] at h
  | ok changes =>
    simp only [hc, Except.ok.injEq] at h
    obtain ⟨ch, c1, c2, c3, c4⟩ := changedColumnOps_spec s t ht _ _ (overlap_nodup hs.colNodup) hc
    have hA := addsFrom_clauses s.columns [] t.columns
    have hC := changes_clauses ch (fun e he => (c3 e he).2.2.1)
    have hR := removedColumnOps_eq s hs (removed s.columns t.columns) (fun k hk => (mem_removed.mp hk).1)
    have hK := keyOps_clauses s t
    subst h
    subst c1
    simp only [List.flatMap_append, changedCols_append, hA, hC, hR, hK.2.1, List.nil_append, List.append_nil]
    obtain ⟨a, b, h1, h2, h3⟩ := c4 x (mem_overlap.mpr ⟨Dict.mem_keys_of_get? hu, Dict.mem_keys_of_get? hv⟩)
    rw [hu] at h1
    rw [hv] at h2
    cases h1
    cases h2
    rcases h3 with h3 | h3
    · exact absurd h3 hne
    · exact h3

/-! ## The states of a plan which executes -/

theorem Linked.of_fits {a b : Table} {k : Constraint} {σ : Tabs} (ka : a.Keyed) (kb : b.Keyed) {st : STable} (hc : st.cols = a.columns)
    (h : Fits σ st k) (hp : σ k.ftable = some (ofTable b)) : Linked a k b := by
  obtain ⟨c, h1, _, h3⟩ := h
  obtain ⟨d, h4, h5, h6⟩ := h3 _ hp
  rw [hc] at h1
  rw [ofTable_cols kb] at h4
  exact ⟨h5, c, d, h1, h4, h6⟩

/-- the states between the parts of a plan, each of which executes -/
structure Ran [PyNum] (f t : Dict Table) (σ₀ σ₁ σ₂ σ₃ σ₄ : Tabs) : Prop where
  start : ∀ n, σ₀ n = match f.get? n with | some a => some (ofTable a) | none => (t.get? n).map ofTable
  cons : σ₀.Cons
  temp : Alters σ₀ (groupAlters (cycleDrops (cycles (some f) t))) σ₁
  now : Alters σ₁ ((overlap f t).flatMap (nowOf (cycledNames (cycles (some f) t)) f t)) σ₂
  later : Alters σ₂ ((overlap f t).flatMap (laterOf (cycledNames (cycles (some f) t)) f t)) σ₃
  again : Alters σ₃ (groupAlters (cycleAdds (cycles (some f) t) [])) σ₄
  diffs : ∀ n a b, f.get? n = some a → t.get? n = some b → a.toSplit b = .ok (diffOf f t n)

variable [PyNum]

theorem ran_of_exec (hf : Accepted c f) (ht : Accepted c' t) {ops : List Op} {b : Bool} (h : process t (some f) b = .ok ops) {db db' : SDb}
    (hdb : Describes f db) (hoff : db.checks = false ∨ b = true) (he : db.execAll ops = some db') : ∃ σ₀ σ₁ σ₂ σ₃ σ₄, Ran f t σ₀ σ₁ σ₂ σ₃ σ₄ := by
  have hd : ∀ n a b, f.get? n = some a → t.get? n = some b → a.toSplit b = .ok (diffOf f t n) := by
    intro n a b ha hb
    obtain ⟨a', b', ha', hb', hs⟩ := (process_eq (from? := some f) hf.toKeyedTables h).2 n (get?_overlap.mpr ⟨by simp [ha], by simp [hb]⟩)
    simp only [Option.getD_some] at ha' hb' hs
    rw [ha] at ha'
    rw [hb] at hb'
    cases ha'
    cases hb'
    exact hs
  have hops := process_middle (from? := some f) hf.toKeyedTables h
  rw [hops, List.append_assoc] at he
  obtain ⟨db₀, h0, he⟩ := exec_split he
  obtain ⟨db₉, he, _⟩ := exec_split he
  have hat : At db₀ (fun n => (f.get? n).map ofTable) := by
    cases b with
    | true =>
      simp only [if_true, SDb.execAll, List.foldlM_cons, List.foldlM_nil, SDb.exec, Option.bind_eq_bind, Option.bind_some, Option.pure_def,
        Option.some.injEq] at h0
      subst h0
      exact ⟨rfl, hdb.nodup, hdb.get⟩
    | false =>
      simp only [Bool.false_eq_true, if_false, SDb.execAll, List.foldlM_nil, Option.pure_def, Option.some.injEq] at h0
      subst h0
      exact ⟨by simpa using hoff, hdb.nodup, hdb.get⟩
  simp only [middle, Option.getD_some] at he
  obtain ⟨d1, h1, he⟩ := exec_split he
  obtain ⟨d2, h2, he⟩ := exec_split he
  obtain ⟨d3, h3, he⟩ := exec_split he
  obtain ⟨d4, h4, he⟩ := exec_split he
  obtain ⟨d5, h5, _⟩ := exec_split he
  obtain ⟨σ₀, a0, c0, g0⟩ := creates_of_exec ht.toKeyedTables hat (fun n hn => (mem_added.mp hn).1) h1
  obtain ⟨σ₁, r1, a1⟩ := alters_of_exec a0 h2
  obtain ⟨σ₂, r2, a2⟩ := alters_of_exec a1 h3
  obtain ⟨σ₃, r3, a3⟩ := alters_of_exec a2 h4
  obtain ⟨σ₄, r4, a4⟩ := alters_of_exec a3 h5
  refine ⟨σ₀, σ₁, σ₂, σ₃, σ₄, ?_, c0 (accepted_cons hf), r1, r2, r3, r4, hd⟩
  intro n
  rw [g0]
  cases ha : f.get? n with
  | some a =>
    have : n ∉ added f t := fun hm => (mem_added.mp hm).2 (Dict.mem_keys_of_get? ha)
    simp [this]
  | none =>
    by_cases hm : n ∈ added f t
    · simp [hm]
    · have : t.get? n = none := by
        rw [Dict.get?_eq_none]
        exact fun h => hm (mem_added.mpr ⟨h, Dict.get?_eq_none.mp ha⟩)
      simp [hm, this]

section
variable {σ₀ σ₁ σ₂ σ₃ σ₄ : Tabs}

omit [PyNum] in
theorem temp_tables (hf : Accepted c f) (ht : Accepted c' t) {n : Str} (h : f.get? n = none) :
    n ∉ (groupAlters (cycleDrops (cycles (some f) t))).map Alter.table := by
  intro hm
  rw [groupAlters_tables, mem_groups_keys, cycleDrops] at hm
  simp only [List.map_map, List.mem_map, Function.comp] at hm
  obtain ⟨y, hy, rfl⟩ := hm
  obtain ⟨s, hs, _⟩ := (cycleOk hf.toKeyedTables ht.toKeyedTables hy).source
  rw [h] at hs
  cases hs

omit [PyNum] in
theorem again_tables (hf : Accepted c f) (ht : Accepted c' t) {n : Str} (h : t.get? n = none) :
    n ∉ (groupAlters (cycleAdds (cycles (some f) t) [])).map Alter.table := by
  intro hm
  rw [groupAlters_tables, mem_groups_keys, cycleAdds_eq] at hm
  simp only [List.map_map, List.mem_map, Function.comp] at hm
  obtain ⟨⟨m, k⟩, hy, rfl⟩ := hm
  obtain ⟨x, hx, hxt, m', hm'⟩ := mem_cycleTargets hy
  simp only at h
  rcases (cycleOk hf.toKeyedTables ht.toKeyedTables hx).target with ⟨h1, _⟩ | ⟨d, k', h1, _⟩
  · rw [hm'] at h1; cases h1
  · rw [hxt, h] at h1; cases h1

omit [PyNum] in
theorem ofTable_eta {a : Table} (ka : a.Keyed) : ofTable a = ⟨a.columns, (ofTable a).keys, a.constraints⟩ := by
  rw [← ofTable_cols ka, ← ofTable_fks ka]

/-- a table which was there, after the temporary drops -/
theorem Ran.old (h : Ran f t σ₀ σ₁ σ₂ σ₃ σ₄) (hf : Accepted c f) (ht : Accepted c' t) {n : Str} {a : Table} (ha : f.get? n = some a) :
    σ₁ n = some ⟨a.columns, (ofTable a).keys, fks1 (cycles (some f) t) n a⟩ := by
  have h0 : σ₀ n = some (ofTable a) := by rw [h.start, ha]
  by_cases hm : n ∈ (groupAlters (cycleDrops (cycles (some f) t))).map Alter.table
  · obtain ⟨x, hx, rfl⟩ := List.mem_map.mp hm
    obtain ⟨st, st', h1, h2, h3⟩ := h.temp.once (by rw [groupAlters_tables]; exact groups_nodup _) x hx
    rw [h0] at h1
    cases h1
    have hx' := hx
    rw [cycleDrops_eq] at hx'
    obtain ⟨_, hex⟩ := temp_alter hf ht ha x.ops (group_removeOnly hx')
    rw [ofTable_eta (hf.keyedTable ha), hex] at h2
    rw [h3, h2]
  · rw [h.temp.other hm, h0]
    have : fks1 (cycles (some f) t) n a = a.constraints := by
      rw [fks1, List.filter_eq_self]
      intro e he
      simp only [Bool.not_eq_true']
      cases hc : cycSrc (cycles (some f) t) n e.1 with
      | false => rfl
      | true =>
        exfalso
        simp only [cycSrc, List.any_eq_true, Bool.and_eq_true, decide_eq_true_eq] at hc
        obtain ⟨y, hy, h1, _⟩ := hc
        apply hm
        rw [groupAlters_tables, mem_groups_keys, cycleDrops]
        simp only [List.map_map, List.mem_map]
        exact ⟨y, hy, h1⟩
    rw [this, ← ofTable_eta (hf.keyedTable ha)]

/-- a table which is created, after the temporary drops -/
theorem Ran.new (h : Ran f t σ₀ σ₁ σ₂ σ₃ σ₄) (hf : Accepted c f) (ht : Accepted c' t) {n : Str} {b : Table} (ha : f.get? n = none)
    (hb : t.get? n = some b) : σ₁ n = some (ofTable b) := by
  rw [h.temp.other (temp_tables hf ht ha), h.start, ha, hb]
  rfl

theorem nowOf_table' (cyc : List (Str × Str)) (n : Str) : ∀ a ∈ nowOf cyc f t n, a.table = n := by
  intro a ha
  rcases List.mem_append.mp ha with ha | ha
  · exact alterIf_table a ha
  · exact alterIf_table a ha

/-- the turn of a table which stays: `τ₁` before, `τ₂` when its foreign keys are dropped, `τ₃` in the end -/
theorem Ran.turn (h : Ran f t σ₀ σ₁ σ₂ σ₃ σ₄) (hf : Accepted c f) (ht : Accepted c' t) {p : Str} {a b : Table} (ha : f.get? p = some a)
    (hb : t.get? p = some b) :
    ∃ (τ₂ τ₃ : Tabs) (l₁ l₂ : List Str) (cols : Dict Column), overlap f t = l₁ ++ p :: l₂ ∧ (∀ n, n ∉ l₁ → n ≠ p → τ₂ n = σ₁ n ∧ τ₃ n = σ₁ n) ∧ p ∉ l₁ ∧ p ∉ l₂ ∧
      τ₂ p = some ⟨a.columns, (ofTable a).keys, fks2 (cycles (some f) t) p a b⟩ ∧ PrimaryKept a b ∧ ColsOk a b cols ∧
      τ₃ p = some ⟨cols, finalKeys a b, fks2 (cycles (some f) t) p a b⟩ ∧ τ₃.Cons ∧ σ₂ p = τ₃ p ∧
      ((diffOf f t p).kitchenSink = [] ∨
        NoBreak τ₂ p ⟨a.columns, (ofTable a).keys, fks2 (cycles (some f) t) p a b⟩ ((diffOf f t p).kitchenSink.flatMap clauses)) := by
  obtain ⟨va, pa⟩ := hf.valid p a ha
  obtain ⟨vb, pb⟩ := ht.valid p b hb
  have hd := h.diffs p a b ha hb
  have hnd := overlap_nodup (t := t) hf.nodup
  have hp : p ∈ overlap f t := get?_overlap.mpr ⟨by simp [ha], by simp [hb]⟩
  obtain ⟨l₁, l₂, hl⟩ := List.append_of_mem hp
  obtain ⟨τ₁, τ₃, r1, r2, r3, e1, e2, e3, e4, e5⟩ := h.now.turn (nowOf_table' _) hnd hl
  have r2' := r2
  rw [nowOf_eq hd] at r2'
  obtain ⟨τ₂, s1, s2⟩ := r2'.split rfl
  have hτ₁ : τ₁ p = some ⟨a.columns, (ofTable a).keys, fks1 (cycles (some f) t) p a⟩ := by rw [e1 p e4, h.old hf ht ha]
  have hτ₂ : τ₂ p = some ⟨a.columns, (ofTable a).keys, fks2 (cycles (some f) t) p a b⟩ := by
    rcases s1.one with ⟨hz, rfl⟩ | ⟨st, st', g1, g2, _, rfl⟩
    · simp only [List.map_eq_nil_iff] at hz
      have : fks2 (cycles (some f) t) p a b = fks1 (cycles (some f) t) p a := by simp [fks2, hz]
      rw [hτ₁, this]
    · rw [hτ₁] at g1
      cases g1
      rw [(drops_alter hf ht ha hb).2] at g2
      rw [Tabs.put_same, g2]
  have hτ₂' : ∀ n, n ≠ p → τ₂ n = τ₁ n := by
    intro n hn
    apply s1.other
    intro hm
    obtain ⟨x, hx, rfl⟩ := List.mem_map.mp hm
    exact hn (alterIf_table x hx)
  have hcons : τ₃.Cons := r2.consistent (r1.consistent (h.temp.consistent h.cons))
  have hoth : ∀ n, n ∉ l₁ → n ≠ p → τ₂ n = σ₁ n ∧ τ₃ n = σ₁ n := by
    intro n h1 h2
    exact ⟨by rw [hτ₂' n h2, e1 n h1], by rw [e2 n h2, e1 n h1]⟩
  rcases s2.one with ⟨hz, rfl⟩ | ⟨st, st', g1, g2, g3, rfl⟩
  · have hpk := kitchen_primary va vb pa pb hd (.inl hz)
    obtain ⟨cols, h1, h2, _⟩ := kitchen_all va vb pa pb hpk hd
    obtain ⟨h3, h4⟩ := h2 hz
    refine ⟨τ₃, τ₃, l₁, l₂, cols, hl, hoth, e4, e5, hτ₂, hpk, h1, ?_, hcons, e3 p e5, .inl hz⟩
    rw [hτ₂, h3, h4]
  · rw [hτ₂] at g1
    cases g1
    have hpk := kitchen_primary va vb pa pb hd (.inr ⟨_, _, g2⟩)
    obtain ⟨cols, h1, h2⟩ := kitchen_result va vb pa pb hd g2
    refine ⟨τ₂, _, l₁, l₂, cols, hl, hoth, e4, e5, hτ₂, hpk, h1, ?_, hcons, e3 p e5, .inr g3⟩
    rw [Tabs.put_same, h2]

/-- a foreign key which refers to a table when its turn comes -/
theorem Ran.referred (h : Ran f t σ₀ σ₁ σ₂ σ₃ σ₄) (hf : Accepted c f) (ht : Accepted c' t) {m : Str} {sm : STable} {x : Str} {k : Constraint}
    {a b : Table} (hm : σ₁ m = some sm) (hk : (x, k) ∈ sm.fks) (ha : f.get? k.ftable = some a) (hb : t.get? k.ftable = some b)
    (hne : m ≠ k.ftable) (hbef : ¬ Before (overlap f t) m k.ftable) :
    ¬ Retyped f t k.ftable k.fcolumn ∧ ∃ τ, Offers sm.cols sm.keys k.column τ ∧ Offers b.columns (ofTable b).keys k.fcolumn τ := by
  obtain ⟨va, pa⟩ := hf.valid _ a ha
  obtain ⟨vb, pb⟩ := ht.valid _ b hb
  obtain ⟨τ₂, τ₃, l₁, l₂, cols, hl, hoth, _, _, hτ₂, _, hc, hτ₃, hcons, _, hq⟩ := h.turn hf ht ha hb
  have hm1 : m ∉ l₁ := by
    intro hm1
    obtain ⟨u, v, huv⟩ := List.append_of_mem hm1
    exact hbef ⟨u, v, l₂, by rw [hl, huv]⟩
  obtain ⟨o2, o3⟩ := hoth m hm1 hne
  constructor
  · rintro ⟨a', b', u, v, ha', hb', hu, hv, hty, hr, hs⟩
    rw [ha] at ha'
    rw [hb] at hb'
    cases ha'
    cases hb'
    have hch := retyped_change va.toKeyed vb.toKeyed (h.diffs _ a b ha hb) hu hv (fun he => he.elim hr hs)
    rcases hq with hq | hq
    · rw [hq] at hch
      simp at hch
    · have hty' : typeDiffers u v = true := by simpa [typeDiffers, Column.TypeDiffers, or_assoc] using hty
      have := hq _ hch u hu hty' m sm (by rw [o2, hm]) x k hk
      simp [uses] at this
  · have := hcons.fits m sm (by rw [o3, hm]) x k hk
    obtain ⟨τ, h1, h2⟩ := fits_offers.mp this
    refine ⟨τ, h1, ?_⟩
    have := h2 _ hτ₃
    exact (new_offers va vb pa pb (hf.tidy _ a ha) (ht.tidy _ b hb) hc _ _).mp this

omit [PyNum] in
theorem linked_of_offers {a b : Table} {k : Constraint} {K : Dict Index} {τ : Str × Bool} (h1 : Offers a.columns K k.column τ)
    (h2 : Offers b.columns (ofTable b).keys k.fcolumn τ) : Linked a k b := by
  obtain ⟨c, g1, _, g2⟩ := h1
  obtain ⟨d, g3, g4, g5⟩ := h2
  exact ⟨g4, c, d, g1, g3, linkable_iff.mpr (g2.trans g5.symm)⟩

theorem laterOf_table' (cyc : List (Str × Str)) (n : Str) : ∀ a ∈ laterOf cyc f t n, a.table = n := fun a ha => alterIf_table a ha

/-- the additions of a table which stays -/
theorem Ran.adds (h : Ran f t σ₀ σ₁ σ₂ σ₃ σ₄) (hf : Accepted c f) {p : Str} {a b : Table} (ha : f.get? p = some a)
    (hb : t.get? p = some b) {st : STable} (hst : σ₂ p = some st) :
    ∃ st', σ₃ p = some st' ∧ st'.fks = st.fks ++ (ownAdds (cycledNames (cycles (some f) t)) a b p).map (fun k => (k.name, k)) := by
  have hp : p ∈ overlap f t := get?_overlap.mpr ⟨by simp [ha], by simp [hb]⟩
  obtain ⟨l₁, l₂, hl⟩ := List.append_of_mem hp
  obtain ⟨τ₁, τ₂, r1, r2, r3, e1, e2, e3, e4, e5⟩ := h.later.turn (laterOf_table' _) (overlap_nodup (t := t) hf.nodup) hl
  rw [laterOf_eq (h.diffs p a b ha hb)] at r2
  rw [e3 p e5]
  rcases r2.one with ⟨hz, rfl⟩ | ⟨s, st', g1, g2, _, rfl⟩
  · simp only [List.map_eq_nil_iff] at hz
    exact ⟨st, by rw [e1 p e4, hst], by simp [hz]⟩
  · rw [e1 p e4, hst] at g1
    cases g1
    exact ⟨st', Tabs.put_same _ _ _, (alter_adds g2).1⟩

/-- the additions of cycled foreign keys -/
theorem Ran.regain (h : Ran f t σ₀ σ₁ σ₂ σ₃ σ₄) {p : Str} {st : STable} (hst : σ₃ p = some st) :
    ∃ st', σ₄ p = some st' ∧ st'.fks = st.fks ++ (againFks (cycles (some f) t) p).map (fun k => (k.name, k)) ∧
      ∀ k ∈ againFks (cycles (some f) t) p, k.name ∉ st.fks.keys := by
  by_cases hm : p ∈ (groupAlters (cycleAdds (cycles (some f) t) [])).map Alter.table
  · obtain ⟨x, hx, rfl⟩ := List.mem_map.mp hm
    obtain ⟨s, st', h1, h2, h3⟩ := h.again.once (by rw [groupAlters_tables]; exact groups_nodup _) x hx
    rw [hst] at h1
    cases h1
    rw [cycleAdds_eq] at hx
    rw [group_addOnly hx] at h2
    exact ⟨st', h3, alter_adds h2⟩
  · have : againFks (cycles (some f) t) p = [] := by
      rw [againFks, List.map_eq_nil_iff, List.filter_eq_nil_iff]
      intro e he heq
      simp only [decide_eq_true_eq] at heq
      apply hm
      rw [groupAlters_tables, mem_groups_keys, cycleAdds_eq]
      simp only [List.map_map, List.mem_map, Function.comp]
      exact ⟨e, he, heq⟩
    exact ⟨st, by rw [h.again.other hm, hst], by simp [this], by simp [this]⟩

/-- a plan which executes belongs to an untroubled migration -/
theorem Ran.untroubled (h : Ran f t σ₀ σ₁ σ₂ σ₃ σ₄) (hf : Accepted c f) (ht : Accepted true t) : Untroubled f t := by
  have hcreated : ∀ m b, t.get? m = some b → f.get? m = none → ∀ n a, f.get? n = some a → ∀ x ∈ b.constraints.keys, x ∉ a.constraints.keys := by
    intro m b hb hm n a ha x hx
    have := h.cons.unique m n (ofTable b) (ofTable a) (by rw [h.start, hm, hb]; rfl) (by rw [h.start, ha]) (by rintro rfl; rw [ha] at hm; cases hm) x
      (by rw [ofTable_fks (ht.keyedTable hb)]; exact hx)
    rwa [ofTable_fks (hf.keyedTable ha)] at this
  refine ⟨?_, ?_, ?_, hcreated, ?_, ?_, ?_⟩
  · intro n a b ha hb
    obtain ⟨_, _, _, _, _, _, _, _, _, _, hp, _⟩ := h.turn hf ht ha hb
    exact hp
  · -- renames
    intro n a b k k' l ha hb hk htouch hkb hfirst hl
    apply Classical.byContradiction
    intro hnl
    have ka := hf.keyedTable ha
    have kb := ht.keyedTable hb
    have hka := value_get? ka hk
    have hk'b : k' ∈ b.constraints.values := by
      obtain ⟨l₁, l₂, h1, _⟩ := hfirst
      rw [h1]; simp
    have hsame : k'.SameColumns k := by
      obtain ⟨_, _, _, h1, _⟩ := hfirst
      exact h1
    have hcp : HasCounterpart t n k := .inr ⟨b, hb, k', hk'b, .inr hsame⟩
    have hsrc := (cycSrc_iff hf ht ha hka).mpr ⟨htouch, hcp⟩
    simp only [cycSrc, List.any_eq_true, Bool.and_eq_true, decide_eq_true_eq] at hsrc
    obtain ⟨y, hy, hyt, hyn⟩ := hsrc
    have hok := cycleOk hf.toKeyedTables ht.toKeyedTables hy
    have hys : y.source = k := by
      obtain ⟨s, hs1, hs2⟩ := hok.source
      rw [hyt, ha] at hs1
      cases hs1
      rw [hyn, hka] at hs2
      cases hs2
      rfl
    have hcyc : (n, k'.name) ∈ cycledNames (cycles (some f) t) := by
      rcases hok.target with ⟨_, h1⟩ | ⟨d, k'', h1, h2, h3, h4⟩
      · rw [hyt, hb] at h1; cases h1
      · rw [hyt, hb] at h1
        cases h1
        rcases h4 with h4 | ⟨_, h4⟩
        · exfalso
          rw [hyn] at h4
          rw [h4] at h3
          exact hkb (Dict.mem_keys_of_get? h3)
        · rw [hys, firstLike_iff.mpr hfirst] at h4
          cases h4
          have := mem_cycledNames_target hy h2 (ht.actions _ _ hb _ hk'b).1
          rwa [hyt] at this
    have hag := again_complete hf ht hb (Dict.mem_keys_of_get? (value_get? kb hk'b)) hcyc
    have hm1 : (k'.name, l) ∈ fks1 (cycles (some f) t) n a := (mem_fks1 hf ht ha).mpr ⟨hl, fun h => hnl h.1⟩
    have hm2 : (k'.name, l) ∈ fks2 (cycles (some f) t) n a b := by
      refine List.mem_filter.mpr ⟨hm1, ?_⟩
      simp only [Bool.not_eq_true', List.contains_eq_mem, decide_eq_false_iff_not, ownDrops_names ka, List.mem_filter, not_and]
      intro _ hx
      simp [hcyc] at hx
    obtain ⟨_, τ₃, _, _, cols, _, _, _, _, _, _, _, hτ₃, _, hσ₂, _⟩ := h.turn hf ht ha hb
    obtain ⟨s3, h3, h4⟩ := h.adds hf ha hb (hσ₂.trans hτ₃)
    obtain ⟨_, _, _, h5⟩ := h.regain h3
    obtain ⟨j, hj, hjn⟩ := List.mem_map.mp hag
    apply h5 j hj
    rw [hjn, h4, Dict.keys_append, List.mem_append]
    exact .inl (List.mem_map_of_mem hm2)
  · -- dropped
    intro n a k m b ha hn hk hb hkb
    apply Classical.byContradiction
    intro hnt
    have ka := hf.keyedTable ha
    have hka := value_get? ka hk
    have hne : n ≠ m := by rintro rfl; rw [hn] at hb; cases hb
    cases ha' : f.get? m with
    | none => exact hcreated m b hb ha' n a ha k.name hkb (Dict.mem_keys_of_get? hka)
    | some a' =>
      have hxa : k.name ∉ a'.constraints.keys := accepted_unique hf ha ha' hne (Dict.mem_keys_of_get? hka)
      have hno : n ∉ overlap f t := fun hm => (get?_overlap.mp hm).2 hn
      have hm1 : (k.name, k) ∈ fks1 (cycles (some f) t) n a := (mem_fks1 hf ht ha).mpr ⟨hka, fun h => hnt h.1⟩
      have hflat : ∀ (g : Str → List Alter), (∀ n, ∀ a ∈ g n, a.table = n) → n ∉ ((overlap f t).flatMap g).map Alter.table := by
        intro g hg hm
        obtain ⟨x, hx, hxn⟩ := List.mem_map.mp hm
        obtain ⟨q, hq, hx⟩ := List.mem_flatMap.mp hx
        rw [hg q x hx] at hxn
        exact hno (hxn ▸ hq)
      have hσ₂ : σ₂ n = σ₁ n := h.now.other (hflat _ (nowOf_table' _))
      have hσ₃ : σ₃ n = σ₂ n := h.later.other (hflat _ (laterOf_table' _))
      have hσ₄ : σ₄ n = σ₃ n := h.again.other (again_tables hf ht hn)
      have hold := h.old hf ht ha
      obtain ⟨_, τ₃, _, _, cols, _, _, _, _, _, _, _, hτ₃, _, hs2, _⟩ := h.turn hf ht ha' hb
      obtain ⟨s3, h3, h4⟩ := h.adds hf ha' hb (hs2.trans hτ₃)
      obtain ⟨s4, h5, h6, _⟩ := h.regain h3
      have hc4 : σ₄.Cons := h.again.consistent (h.later.consistent (h.now.consistent (h.temp.consistent h.cons)))
      refine hc4.unique n m _ s4 (by rw [hσ₄, hσ₃, hσ₂, hold]) h5 hne k.name (List.mem_map_of_mem hm1) ?_
      rw [h6, h4, Dict.keys_append, Dict.keys_append, keys_named, keys_named]
      by_cases hc : (m, k.name) ∈ cycledNames (cycles (some f) t)
      · exact List.mem_append_right _ (again_complete hf ht hb hkb hc)
      · refine List.mem_append_left _ (List.mem_append_right _ ?_)
        rw [ownAdds_names (ht.keyedTable hb), List.mem_filter]
        obtain ⟨k', hk'⟩ := Dict.exists_get? hkb
        refine ⟨newFks_mem.mpr ⟨k', hk', fun k0 h0 => absurd (Dict.mem_keys_of_get? h0) hxa⟩, by simpa using hc⟩
  · -- parents
    intro m b k a hb hm hk ha
    have kb := ht.keyedTable hb
    have hkb := value_get? kb hk
    have hne : m ≠ k.ftable := by rintro e; rw [e, ha] at hm; cases hm
    constructor
    · have hfit := h.cons.fits m (ofTable b) (by rw [h.start, hm, hb]; rfl) k.name k (by rw [ofTable_fks kb]; exact Dict.mem_of_get? hkb)
      exact Linked.of_fits kb (hf.keyedTable ha) (ofTable_cols kb) hfit (by rw [h.start, ha])
    · obtain ⟨b', hb'⟩ := accepted_parent ht hb hkb
      refine (h.referred hf ht (h.new hf ht hm hb) (by rw [ofTable_fks kb]; exact Dict.mem_of_get? hkb) ha hb' hne ?_).1
      rintro ⟨l1, l2, l3, hl⟩
      have : m ∈ overlap f t := by rw [hl]; simp
      exact (get?_overlap.mp this).1 hm
  · -- leaving
    intro n a k b ha hk _ hne hfp hb
    apply Classical.byContradiction
    intro hcon
    simp only [not_or] at hcon
    obtain ⟨h1, h2, h3⟩ := hcon
    obtain ⟨a', ha'⟩ := Option.ne_none_iff_exists'.mp hfp
    have hm1 : (k.name, k) ∈ fks1 (cycles (some f) t) n a := (mem_fks1 hf ht ha).mpr ⟨value_get? (hf.keyedTable ha) hk, h2⟩
    obtain ⟨h4, τ, h5, h6⟩ := h.referred hf ht (h.old hf ht ha) hm1 ha' hb (Ne.symm hne) h3
    exact h1 ⟨linked_of_offers h5 h6, h4⟩
  · -- dangling
    intro n a k b ha hk hfp hb
    have ka := hf.keyedTable ha
    have hfit := h.cons.fits n (ofTable a) (by rw [h.start, ha]) k.name k (by rw [ofTable_fks ka]; exact Dict.mem_of_get? (value_get? ka hk))
    exact Linked.of_fits ka (ht.keyedTable hb) (ofTable_cols ka) hfit (by rw [h.start, hfp, hb]; rfl)

end

end

end Mygrations

import Verif.Proofs.Converge

/-! # C67: once a plan has been applied, there is nothing left to do -/

namespace Mygrations
open Table MySQL Mygration

section
variable [PyNum] {c : Bool} {f t d : Dict Table} {N : Str → Dict Column}

/-- the database after the last statement -/
theorem plan_end (hf : Accepted c f) (ht : Accepted true t) (hu : Untroubled f t) {ops : List Op} (h : process t (some f) true = .ok ops)
    {db db' : SDb} (hdb : Describes f db) (hex : db.execAll ops = some db') :
    ∃ N, Setup c f t N ∧ ∀ n, db'.tables.get? n = tabsAt f t N ⟨fun _ => 5, fun _ => true, fun _ => true⟩ n := by
  obtain ⟨N, hN, hops, hrun⟩ := process_runs hf ht hu h
  obtain ⟨db₁, h1, hat⟩ := hrun.exec _ (start_at hf hdb)
  refine ⟨N, hN, ?_⟩
  have : db.execAll ops = some { db₁ with checks := true } := by
    rw [hops]
    simp only [SDb.execAll, if_true, List.foldlM_append] at h1 ⊢
    simp only [List.foldlM_cons, List.foldlM_nil, SDb.exec, Option.bind_eq_bind, Option.bind_some, Option.pure_def]
    rw [h1]
    rfl
  rw [hex] at this
  cases this
  exact hat.get

/-- the tables which are read then -/
structure Settled [PyNum] (f t d : Dict Table) : Prop where
  keyed : KeyedTables d
  names : ∀ n, n ∈ d.keys ↔ n ∈ t.keys
  cols : ∀ n s b, d.get? n = some s → t.get? n = some b → ∀ k, k ∈ s.columns.keys ↔ k ∈ b.columns.keys
  same : ∀ n s b, d.get? n = some s → t.get? n = some b → ∀ k u v, s.columns.get? k = some u → b.columns.get? k = some v →
    u = v ∨ (Equivalent u v ∧ ∃ a, f.get? n = some a ∧ a.columns.get? k = some u)
  keys : ∀ n s b, d.get? n = some s → t.get? n = some b → s.indexes = b.indexes ∨ ∃ a, f.get? n = some a ∧ s.indexes = named (finalKeys a b)
  fks : ∀ n s b, d.get? n = some s → t.get? n = some b → ∀ k, k ∈ s.constraints.keys ↔ k ∈ b.constraints.keys
  fk : ∀ n s b, d.get? n = some s → t.get? n = some b → ∀ k u v, s.constraints.get? k = some u → b.constraints.get? k = some v → u.SameFk v

theorem settled_of_end (hN : Setup c f t N) (hd : KeyedTables d) {db : SDb} (hdb : Describes d db)
    (hget : ∀ n, db.tables.get? n = tabsAt f t N ⟨fun _ => 5, fun _ => true, fun _ => true⟩ n) : Settled f t d := by
  have hread : ∀ n, (d.get? n).map ofTable = tabsAt f t N ⟨fun _ => 5, fun _ => true, fun _ => true⟩ n := fun n => by rw [← hget, hdb.get]
  have hview : ∀ n s b, d.get? n = some s → t.get? n = some b →
      (f.get? n = none ∧ s.columns = b.columns ∧ s.indexes = b.indexes ∧ s.constraints = b.constraints) ∨
      (∃ a, f.get? n = some a ∧ s.columns = N n ∧ s.indexes = named (finalKeys a b) ∧ s.constraints = fks4 (cycles (some f) t) n a b) := by
    intro n s b hs hb
    have ks := hd.keyed _ _ (Dict.mem_of_get? hs)
    have kb := hN.tgt.keyedTable hb
    have := hread n
    rw [hs] at this
    cases ha : f.get? n with
    | none =>
      simp only [tabsAt, ha, hb, Option.map_some, if_true, Option.some.injEq] at this
      obtain ⟨h1, h2, h3⟩ := described ks this
      rw [ofTable_cols kb] at h1
      rw [named_ofTable kb] at h2
      rw [ofTable_fks kb] at h3
      exact .inl ⟨rfl, h1, h2, h3⟩
    | some a =>
      simp only [tabsAt, ha, hb, stageTab, Option.map_some, Option.some.injEq] at this
      obtain ⟨h1, h2, h3⟩ := described ks this
      exact .inr ⟨a, rfl, h1, h2, h3⟩
  refine ⟨hd, ?_, ?_, ?_, ?_, ?_, ?_⟩
  · intro n
    have := hread n
    constructor
    · intro hn
      obtain ⟨s, hs⟩ := Dict.exists_get? hn
      cases hb : t.get? n with
      | some b => exact Dict.mem_keys_of_get? hb
      | none => cases ha : f.get? n <;> simp [tabsAt, ha, hb, hs] at this
    · intro hn
      obtain ⟨b, hb⟩ := Dict.exists_get? hn
      cases hs : d.get? n with
      | some s => exact Dict.mem_keys_of_get? hs
      | none => cases ha : f.get? n <;> simp [tabsAt, ha, hb, hs] at this
  · intro n s b hs hb
    rcases hview n s b hs hb with ⟨_, h1, _⟩ | ⟨a, ha, h1, _⟩
    · rw [h1]; exact fun _ => Iff.rfl
    · rw [h1]; exact (hN.cols n a b ha hb).names
  · intro n s b hs hb k u v hu hv
    rcases hview n s b hs hb with ⟨_, h1, _⟩ | ⟨a, ha, h1, _⟩
    · rw [h1, hv] at hu
      cases hu
      exact .inl rfl
    · have hok := hN.cols n a b ha hb
      rw [h1] at hu
      cases hk : a.columns.get? k with
      | none =>
        rw [hok.new k (Dict.get?_eq_none.mp hk), hv] at hu
        cases hu
        exact .inl rfl
      | some x =>
        rcases hok.common k x v hk hv with ⟨h2, h3⟩ | ⟨_, h3⟩
        · rw [hu] at h3
          cases h3
          exact .inr ⟨h2, a, ha, hk⟩
        · rw [hu] at h3
          cases h3
          exact .inl rfl
  · intro n s b hs hb
    rcases hview n s b hs hb with ⟨_, _, h1, _⟩ | ⟨a, ha, _, h1, _⟩
    · exact .inl h1
    · exact .inr ⟨a, ha, h1⟩
  · intro n s b hs hb k
    rcases hview n s b hs hb with ⟨_, _, _, h1⟩ | ⟨a, ha, _, _, h1⟩
    · rw [h1]
    · rw [h1]
      refine ⟨fun hk => ?_, fks4_complete hN.src hN.tgt hN.ok ha hb⟩
      obtain ⟨l, hl⟩ := Dict.exists_get? hk
      obtain ⟨x, hx, _⟩ := mem_fks4 hN.src hN.tgt hN.ok ha hb (Dict.mem_of_get? hl)
      exact Dict.mem_keys_of_get? hx
  · intro n s b hs hb k u v hu hv
    rcases hview n s b hs hb with ⟨_, _, _, h1⟩ | ⟨a, ha, _, _, h1⟩
    · rw [h1, hv] at hu
      cases hu
      exact ⟨rfl, rfl, rfl, rfl, rfl, rfl⟩
    · rw [h1] at hu
      obtain ⟨x, hx, hsame⟩ := mem_fks4 hN.src hN.tgt hN.ok ha hb (Dict.mem_of_get? hu)
      rw [hv] at hx
      cases hx
      exact hsame

theorem Settled.process (h : Settled f t d) (ht : KeyedTables t) (hf : KeyedTables f)
    (hk : ∀ n a b, f.get? n = some a → t.get? n = some b → KeyNamesSettle a b) :
    process t (some d) true = .ok ([.disableChecks] ++ (groupAlters (cycleDrops (cycles (some d) t))).map .alter ++
      (groupAlters (cycleAdds (cycles (some d) t) [])).map .alter ++ [.enableChecks]) := by
  refine settled_process h.names ?_
  intro n s b hs hb
  refine settled_split (h.cols n s b hs hb) ?_ ?_ (h.fks n s b hs hb) (h.fk n s b hs hb)
  · intro k u v hu hv
    rcases h.same n s b hs hb k u v hu hv with rfl | ⟨h1, _⟩
    · exact .inl rfl
    · exact h1
  · rcases h.keys n s b hs hb with h1 | ⟨a, ha, h1⟩
    · exact keyOps_same h1
    · exact keyOps_again (hf.keyed _ _ (Dict.mem_of_get? ha)) (ht.keyed _ _ (Dict.mem_of_get? hb)) h1 (h.fks n s b hs hb) (hk n a b ha hb)

/-- what is left: foreign keys which are dropped and added again -/
theorem Settled.rest (h : Settled f t d) (ht : Accepted true t) (hf : Accepted c f)
    (hk : ∀ n a b, f.get? n = some a → t.get? n = some b → KeyNamesSettle a b) :
    ∃ ops, Mygration.process t (some d) true = .ok ops ∧
      (∀ o ∈ ops, o.isCreate = false ∧ o.isDrop = false ∧ o.changesColumnsOrKeys = false) ∧
      (∀ e ∈ ops.flatMap Op.dropsFk, e ∈ ops.flatMap Op.addsFk) ∧
      ((∀ n b k m x, t.get? n = some b → k ∈ b.constraints.values → Uses n k m x → ¬ LookAlike f t m x) →
        ops = [.disableChecks, .enableChecks]) := by
  have hp := h.process ht.toKeyedTables hf.toKeyedTables hk
  have hs := sections (from? := some d) h.keyed hp
  refine ⟨_, hp, ?_, ?_, ?_⟩
  · intro o ho
    have hc : ∀ o : Op, o.isAlter = true → o.isCreate = false ∧ o.isDrop = false := by
      intro o ho; cases o <;> simp_all [Op.isAlter, Op.isCreate, Op.isDrop]
    simp only [List.mem_append, List.mem_singleton] at ho
    rcases ho with ((rfl | ho) | ho) | rfl
    · exact ⟨rfl, rfl, rfl⟩
    · obtain ⟨h1, h2, _⟩ := hs.temp o ho
      exact ⟨(hc o h1).1, (hc o h1).2, h2⟩
    · obtain ⟨h1, h2, _⟩ := hs.again o ho
      exact ⟨(hc o h1).1, (hc o h1).2, h2⟩
    · exact ⟨rfl, rfl, rfl⟩
  · intro e he
    simp only [List.flatMap_append, List.mem_append] at he ⊢
    have hdrop : e ∈ ((groupAlters (cycleDrops (cycles (some d) t))).map Op.alter).flatMap Op.dropsFk := by
      rcases he with ((he | he) | he) | he
      · simp [Op.dropsFk] at he
      · exact he
      · obtain ⟨o, ho, ho'⟩ := List.mem_flatMap.mp he
        rw [(hs.again o ho).2.2] at ho'
        simp at ho'
      · simp [Op.dropsFk] at he
    obtain ⟨y, hy, hy1, hy2⟩ := mem_group_drops.mp hdrop
    obtain ⟨x, hx, rfl⟩ := List.mem_map.mp hy
    simp only [clauses, droppedFks, List.filterMap_cons, List.filterMap_nil, List.mem_singleton] at hy2
    simp only at hy1
    obtain ⟨s, h1, h2, _, h4⟩ := mem_fksToCycle hx
    have h1' := Dict.get?_of_mem h.keyed.nodup h1
    have ks := h.keyed.keyed _ _ h1
    obtain ⟨b, hb⟩ := Dict.exists_get? ((h.names _).mp (Dict.mem_keys_of_get? h1'))
    obtain ⟨k', hk'⟩ := Dict.exists_get? ((h.fks _ _ _ h1' hb x.name).mp (Dict.mem_keys_of_get? (Dict.get?_of_mem ks.fkNodup h2)))
    have htarget : x.target = some (k', x.name) := by
      simp only [cycleFor, hb, hk', Option.some.injEq] at h4
      rw [← h4]
    obtain ⟨z, hz, k'', h5, h6, h7⟩ := cycleAdds_complete (done := []) hx htarget (by simp)
    refine .inl (.inr (mem_group_adds.mpr ⟨_, h7, hy1, ?_⟩))
    have hok := cycleOk h.keyed ht.toKeyedTables hz
    rcases hok.target with ⟨h8, _⟩ | ⟨_, l, _, h8, _⟩
    · rw [h5] at h8; cases h8
    · rw [h5] at h8
      simp only [Option.some.injEq, Prod.mk.injEq] at h8
      obtain ⟨rfl, h9⟩ := h8
      have := ks.fkName _ _ h2
      simp [clauses, addedFks, ← h9, hy2, this]
  · intro hl
    have hnone : cycles (some d) t = [] := by
      rw [List.eq_nil_iff_forall_not_mem]
      intro x hx
      obtain ⟨s, h1, h2, h3, _⟩ := mem_fksToCycle hx
      obtain ⟨m, y, ⟨s', b', u, v, g1, g2, g3, g4, g5⟩, hu⟩ := (involves_iff h.keyed).mp h3
      have h1' := Dict.get?_of_mem h.keyed.nodup h1
      have ks := h.keyed.keyed _ _ h1
      have h2' := Dict.get?_of_mem ks.fkNodup h2
      obtain ⟨b, hb⟩ := Dict.exists_get? ((h.names _).mp (Dict.mem_keys_of_get? h1'))
      obtain ⟨k', hk'⟩ := Dict.exists_get? ((h.fks _ _ _ h1' hb x.name).mp (Dict.mem_keys_of_get? h2'))
      obtain ⟨_, e2, e3, e4, _⟩ := h.fk _ _ _ h1' hb _ _ _ h2' hk'
      refine hl x.table b k' m y hb (get?_value hk') (by simpa only [Uses, e2, e3, e4] using hu) ?_
      rcases h.same m s' b' g1 g2 y u v g3 g4 with rfl | ⟨h5, a, h6, h7⟩
      · simp [Column.TypeDiffers] at g5
      · exact ⟨a, b', u, v, h6, g2, h7, g4, equivalent_agrees (hf.tidy _ _ h6 _ _ h7) (ht.tidy _ _ g2 _ _ g4) h5, g5⟩
    rw [hnone]
    rfl

theorem Settled.uses (h : Settled f t d) {n : Str} {b : Table} {k : Constraint} (hb : t.get? n = some b) (ht : KeyedTables t)
    (hk : k ∈ b.constraints.values) : ∃ s k', d.get? n = some s ∧ k' ∈ s.constraints.values ∧ k'.name = k.name ∧ ∀ m x, Uses n k m x → Uses n k' m x := by
  have kb := ht.keyed _ _ (Dict.mem_of_get? hb)
  obtain ⟨j, hj⟩ := Dict.mem_values.mp hk
  have hj' := Dict.get?_of_mem kb.fkNodup hj
  obtain ⟨s, hs⟩ := Dict.exists_get? ((h.names n).mpr (Dict.mem_keys_of_get? hb))
  obtain ⟨k', hk'⟩ := Dict.exists_get? ((h.fks n s b hs hb j).mpr (Dict.mem_keys_of_get? hj'))
  obtain ⟨e1, e2, e3, e4, _⟩ := h.fk n s b hs hb j k' k hk' hj'
  exact ⟨s, k', hs, get?_value hk', e1, fun m x hu => by simpa only [Uses, e2, e3, e4] using hu⟩

/-- a foreign key on a column whose type is written differently is dropped and added by any plan for the tables which are read -/
theorem Settled.cycled (h : Settled f t d) (ht : KeyedTables t) {ops : List Op} (hp : Mygration.process t (some d) true = .ok ops)
    {n : Str} {b : Table} {k : Constraint} {m x : Str} (hb : t.get? n = some b) (hk : k ∈ b.constraints.values) (hu : Uses n k m x)
    (hc : TypeChanges d t m x) : (n, k.name) ∈ ops.flatMap Op.dropsFk := by
  obtain ⟨s, k', hs, hk', hn, hu'⟩ := h.uses hb ht hk
  have := temp_drop ht h.keyed hs hk' hc (hu' m x hu) (.inr ⟨b, hb, k, hk, .inl hn.symm⟩)
  rw [process_middle (from? := some d) h.keyed hp, ← hn]
  simp only [middle, List.flatMap_append, List.mem_append]
  exact .inl (.inr (.inr (.inl this)))

theorem Settled.exact (h : Settled f t d) (ht : Accepted true t) (hf : Accepted c f)
    (hk : ∀ n a b, f.get? n = some a → t.get? n = some b → KeyNamesSettle a b) :
    Mygration.process t (some d) true = .ok [.disableChecks, .enableChecks] ↔
      ∀ n b k m x, t.get? n = some b → k ∈ b.constraints.values → Uses n k m x → ¬ TypeChanges d t m x := by
  constructor
  · intro hp n b k m x hb hk' hu hc
    have := h.cycled ht.toKeyedTables hp hb hk' hu hc
    simp [Op.dropsFk] at this
  · intro hl
    have hnone : cycles (some d) t = [] := by
      rw [List.eq_nil_iff_forall_not_mem]
      intro x hx
      obtain ⟨s, h1, h2, h3, _⟩ := mem_fksToCycle hx
      obtain ⟨m, y, hc, hu⟩ := (involves_iff h.keyed).mp h3
      have h1' := Dict.get?_of_mem h.keyed.nodup h1
      have ks := h.keyed.keyed _ _ h1
      have h2' := Dict.get?_of_mem ks.fkNodup h2
      obtain ⟨b, hb⟩ := Dict.exists_get? ((h.names _).mp (Dict.mem_keys_of_get? h1'))
      obtain ⟨k', hk'⟩ := Dict.exists_get? ((h.fks _ _ _ h1' hb x.name).mp (Dict.mem_keys_of_get? h2'))
      obtain ⟨_, e2, e3, e4, _⟩ := h.fk _ _ _ h1' hb _ _ _ h2' hk'
      exact hl x.table b k' m y hb (get?_value hk') (by simpa only [Uses, e2, e3, e4] using hu) hc
    rw [h.process ht.toKeyedTables hf.toKeyedTables hk, hnone]
    rfl

/-- **C67** (partial: if no key is left standing under the name of a foreign key which goes, see `KeyNamesSettle`).  Once the statements of
a plan have been executed, whatever the tool then reads from the server, its next plan creates, changes and drops no table, column or key,
and every foreign key which it drops it adds again; and if no foreign key uses a column which is declared in other words than it is
(`LookAlike`), then the next plan is empty. -/
theorem C67_partial (f t : Dict Table) (c : Bool) (hf : Accepted c f) (ht : Accepted true t) (hu : Untroubled f t)
    (hk : ∀ n a b, f.get? n = some a → t.get? n = some b → KeyNamesSettle a b)
    (ops : List Op) (h : process t (some f) true = .ok ops) (db db' : SDb) (hdb : Describes f db) (hex : db.execAll ops = some db')
    (d : Dict Table) (hd : KeyedTables d) (hread : Describes d db') :
    ∃ ops', process t (some d) true = .ok ops' ∧
      (∀ o ∈ ops', o.isCreate = false ∧ o.isDrop = false ∧ o.changesColumnsOrKeys = false) ∧
      (∀ e ∈ ops'.flatMap Op.dropsFk, e ∈ ops'.flatMap Op.addsFk) ∧
      ((∀ n b k m x, t.get? n = some b → k ∈ b.constraints.values → Uses n k m x → ¬ LookAlike f t m x) →
        ops' = [.disableChecks, .enableChecks]) := by
  obtain ⟨N, hN, hget⟩ := plan_end hf ht hu h hdb hex
  exact (settled_of_end hN hd hread hget).rest ht hf hk

/-- **C67**, exactly: after a plan has been executed, the next plan is empty if and only if no declared foreign key uses a column whose type is
declared in other words than it is read. -/
theorem C67_iff (f t : Dict Table) (c : Bool) (hf : Accepted c f) (ht : Accepted true t) (hu : Untroubled f t)
    (hk : ∀ n a b, f.get? n = some a → t.get? n = some b → KeyNamesSettle a b)
    (ops : List Op) (h : process t (some f) true = .ok ops) (db db' : SDb) (hdb : Describes f db) (hex : db.execAll ops = some db')
    (d : Dict Table) (hd : KeyedTables d) (hread : Describes d db') :
    process t (some d) true = .ok [.disableChecks, .enableChecks] ↔
      ∀ n b k m x, t.get? n = some b → k ∈ b.constraints.values → Uses n k m x → ¬ TypeChanges d t m x := by
  obtain ⟨N, hN, hget⟩ := plan_end hf ht hu h hdb hex
  exact (settled_of_end hN hd hread hget).exact ht hf hk

theorem width_equivalent {u v : Column} (hcls : v.cls = .numeric) (hint : v.columnType ∈ intTypes) (hu : u = { v with len := u.len })
    (hd : v.default = none) : Equivalent u v := by
  right
  have e1 : u.cls = .numeric := by rw [hu]; exact hcls
  have e2 : u.columnType = v.columnType := by rw [hu]; rfl
  have e3 : u.name = v.name := by rw [hu]
  have e4 : u.null = v.null := by rw [hu]
  have e5 : u.isUnsigned = v.isUnsigned := by rw [hu]; rfl
  have e6 : u.default = none := by rw [hu]; exact hd
  have e7 : Column.integerTypes.contains v.columnType = true := by
    simpa [intTypes, Column.integerTypes] using hint
  have e8 : u.defaultNoneMismatch v = false := by
    unfold Column.defaultNoneMismatch
    rw [e6, hd]
    split <;> rfl
  simp only [Column.sameAs, e1, e7, if_true, Column.sameTail, e8, Column.sameDefault, Column.sameNumericDefault, e6, hd, e2, e3, e4, e5, ne_eq, not_true,
    or_self, if_false, Bool.false_eq_true]

/-- **C67 is false** for every foreign key on an integer column which is declared with another display width than it has: the plan leaves
the column as it is, and so the next plan, and every one after it, drops the foreign key and adds it again. -/
theorem C67_refuted (f t : Dict Table) (c : Bool) (hf : Accepted c f) (ht : Accepted true t) (hu : Untroubled f t)
    (n m x : Str) (a b b' : Table) (k : Constraint) (u v : Column) (hb : t.get? n = some b) (hk : k ∈ b.constraints.values) (huse : Uses n k m x)
    (ha : f.get? m = some a) (hb' : t.get? m = some b') (hcu : a.columns.get? x = some u) (hcv : b'.columns.get? x = some v)
    (hcls : v.cls = .numeric) (hint : v.columnType ∈ intTypes) (hsame : u = { v with len := u.len }) (hlen : u.len ≠ v.len) (hdef : v.default = none)
    (ops : List Op) (h : process t (some f) true = .ok ops) (db db' : SDb) (hdb : Describes f db) (hex : db.execAll ops = some db')
    (d : Dict Table) (hd : KeyedTables d) (hread : Describes d db') :
    (∃ s, d.get? m = some s ∧ s.columns.get? x = some u) ∧
    ∀ ops', process t (some d) true = .ok ops' → (n, k.name) ∈ ops'.flatMap Op.dropsFk := by
  obtain ⟨N, hN, hget⟩ := plan_end hf ht hu h hdb hex
  have hset := settled_of_end hN hd hread hget
  obtain ⟨s, hs⟩ := Dict.exists_get? ((hset.names m).mpr (Dict.mem_keys_of_get? hb'))
  have hcol : s.columns.get? x = some u := by
    have ks := hd.keyed _ _ (Dict.mem_of_get? hs)
    have := hget m
    rw [hread.get, hs] at this
    simp only [tabsAt, ha, hb', stageTab, Option.map_some, Option.some.injEq] at this
    rw [(described ks this).1]
    rcases (hN.cols m a b' ha hb').common x u v hcu hcv with h1 | h1
    · exact h1.2
    · exact absurd (width_equivalent hcls hint hsame hdef) h1.1
  exact ⟨⟨s, hs, hcol⟩, fun ops' hp => hset.cycled ht.toKeyedTables hp hb hk huse ⟨s, b', u, v, hs, hb', hcol, hcv, .inr (.inl hlen)⟩⟩

/-- **C67 is false** for every key which is declared under another name while its name, or the new one, is that of a foreign key which goes:
the plan leaves the key as it is, and the next plan drops it and adds the declared one. -/
theorem C67_keys_refuted (f t : Dict Table) (c : Bool) (hf : Accepted c f) (ht : Accepted true t) (hu : Untroubled f t)
    (n x y : Str) (a b : Table) (i j : Index) (ha : f.get? n = some a) (hb : t.get? n = some b) (hr : Renamed a b x y i j)
    (hn : x ∈ a.constraints.keys ∨ y ∈ a.constraints.keys) (hx : x ∉ b.constraints.keys) (hy : y ∉ b.constraints.keys)
    (ops : List Op) (h : process t (some f) true = .ok ops) (db db' : SDb) (hdb : Describes f db) (hex : db.execAll ops = some db')
    (d : Dict Table) (hd : KeyedTables d) (hread : Describes d db') (ops' : List Op) (h' : process t (some d) true = .ok ops') :
    ∃ l, .alter ⟨n, l⟩ ∈ ops' ∧ .addKey j ∈ l ∧ .removeKey i ∈ l := by
  obtain ⟨N, hN, hget⟩ := plan_end hf ht hu h hdb hex
  have hset := settled_of_end hN hd hread hget
  obtain ⟨s, hs⟩ := Dict.exists_get? ((hset.names n).mpr (Dict.mem_keys_of_get? hb))
  have ks := hd.keyed _ _ (Dict.mem_of_get? hs)
  have hsi : s.indexes = named (finalKeys a b) := by
    have := hget n
    rw [hread.get, hs] at this
    simp only [tabsAt, ha, hb, stageTab, Option.map_some, Option.some.injEq] at this
    exact (described ks this).2.1
  obtain ⟨k1, k2⟩ := hr.again (hf.toKeyedTables.keyed _ _ (Dict.mem_of_get? ha)) (ht.toKeyedTables.keyed _ _ (Dict.mem_of_get? hb)) ks hn hx hy hsi
    (hset.fks n s b hs hb)
  obtain ⟨s', b', g1, g2, hdiff⟩ := (process_eq (from? := some d) hd h').2 n (mem_overlap.mpr ⟨Dict.mem_keys_of_get? hs, Dict.mem_keys_of_get? hb⟩)
  simp only [Option.getD_some] at g1
  rw [hs] at g1
  rw [hb] at g2
  cases g1
  cases g2
  have hsub : ∀ o ∈ keyOps s b, o ∈ (diffOf d t n).kitchenSink := by
    intro o ho
    simp only [Option.getD_some] at hdiff
    unfold toSplit at hdiff
    split at hdiff
    · cases hdiff
    · split at hdiff
      · cases hdiff
      · simp only [Except.ok.injEq] at hdiff
        rw [← hdiff]
        exact List.mem_append_right _ ho
  refine ⟨(diffOf d t n).kitchenSink, ?_, hsub _ k1, hsub _ k2⟩
  rw [process_middle (from? := some d) hd h']
  simp only [middle, List.mem_append]
  refine .inl (.inr (.inr (.inr (.inl (List.mem_map.mpr ⟨_, List.mem_flatMap.mpr ⟨n,
    mem_overlap.mpr ⟨Dict.mem_keys_of_get? hs, Dict.mem_keys_of_get? hb⟩, ?_⟩, rfl⟩)))))
  rw [Option.getD_some, nowOf_eq (f := d) hdiff, List.mem_append]
  right
  unfold alterIf
  rw [if_neg]
  · simp
  · intro hnil
    have := hsub _ k1
    rw [hnil] at this
    simp at this

/-- **C67** for two runs: a second run is always enough.  After any migration, the next plan can be made and executes; and whatever is read
after that, the plan after next creates, changes and drops no table, column or key, and is empty if there are no lookalikes. -/
theorem C67_twice_partial (f t : Dict Table) (c : Bool) (hf : Accepted c f) (ht : Accepted true t) (hu : Untroubled f t)
    (ops : List Op) (h : process t (some f) true = .ok ops) (db db' : SDb) (hdb : Describes f db) (hex : db.execAll ops = some db')
    (d : Dict Table) (hread : Reading f db' d) :
    ∃ ops' db'', process t (some d) true = .ok ops' ∧ db'.execAll ops' = some db'' ∧ Migrated d t db'' ∧
      ∀ d', KeyedTables d' → Describes d' db'' → ∃ ops'', process t (some d') true = .ok ops'' ∧
        (∀ o ∈ ops'', o.isCreate = false ∧ o.isDrop = false ∧ o.changesColumnsOrKeys = false) ∧
        (∀ e ∈ ops''.flatMap Op.dropsFk, e ∈ ops''.flatMap Op.addsFk) ∧
        ((∀ n b k m x, t.get? n = some b → k ∈ b.constraints.values → Uses n k m x → ¬ LookAlike f t m x) →
          ops'' = [.disableChecks, .enableChecks]) := by
  obtain ⟨N, hN, hget⟩ := plan_end hf ht hu h hdb hex
  have hset := settled_of_end hN hread.keyed hread.describes hget
  have hmid := mid_of_reading hN (ordered_high (by simp)) hget hread
  obtain ⟨ops', hops'⟩ := hmid.plan h
  obtain ⟨db'', hex', hm⟩ := C14_partial d t (some d) rfl false hmid.accepted ht hmid.untroubled ops' hops' db' hread.describes
  refine ⟨ops', db'', hops', hex', hm, ?_⟩
  intro d' hd' hread'
  obtain ⟨ops'', h1, h2, h3, h4⟩ := C67_partial d t false hmid.accepted ht hmid.untroubled
    (fun n s b hs hb x hx _ => .inl ((hset.fks n s b hs hb x).mp hx)) ops' hops' db' db'' hread.describes hex' d' hd' hread'
  refine ⟨ops'', h1, h2, h3, fun hl => h4 ?_⟩
  rintro n b k m x hb hk hu ⟨s, b', u, v, g1, g2, g3, g4, g5, g6⟩
  rcases hset.same m s b' g1 g2 x u v g3 g4 with rfl | ⟨_, a, h5, h6⟩
  · simp [Column.TypeDiffers] at g6
  · exact hl n b k m x hb hk hu ⟨a, b', u, v, h5, g2, h6, g4, g5, g6⟩

end

/-! ## Examples -/

namespace Examples
attribute [local instance] exactNum

/-- what the tool reads after `livePlan` -/
def afterLive : Dict Table := db [users py"BIGINT", comments py"BIGINT", tags]

theorem afterLive_describes : SDb.execAll ⟨true, ofTables live⟩ livePlan = some ⟨true, ofTables afterLive⟩ := by decide +kernel

theorem afterLive_keyed : KeyedTables afterLive := keyedTables_of_check (by decide) (by decide)

/-- a checker for `KeyNamesSettle` -/
def keyNamesSettleB (f t : Dict Table) : Bool :=
  f.all (fun e => match t.get? e.1 with
    | none => true
    | some b => e.2.constraints.keys.all (fun x => !(e.2.indexes.has x || b.indexes.has x) || b.constraints.has x || (e.2.indexes.has x && b.indexes.has x)))

theorem keyNamesSettle_of_check {f t : Dict Table} (h : keyNamesSettleB f t = true) :
    ∀ n a b, f.get? n = some a → t.get? n = some b → KeyNamesSettle a b := by
  intro n a b ha hb x hx hor
  simp only [keyNamesSettleB, List.all_eq_true] at h
  have := h _ (Dict.mem_of_get? ha)
  simp only [hb, List.all_eq_true] at this
  have := this x hx
  simp only [Bool.or_eq_true, Bool.not_eq_true', Bool.or_eq_false_iff, Bool.and_eq_true, Dict.has_eq_false, Dict.has_iff] at this
  rcases this with (⟨h1, h2⟩ | h1) | h1
  · rcases hor with h3 | h3
    · exact absurd h3 h1
    · exact absurd h3 h2
  · exact .inl h1
  · exact .inr h1

/-- a checker: no foreign key uses a column of a different type of the same name -/
def noLookAlikeB (f t : Dict Table) : Bool :=
  t.all (fun e => e.2.constraints.values.all (fun k => [(e.1, k.column), (k.ftable, k.fcolumn)].all (fun p =>
    match f.get? p.1, t.get? p.1 with
    | some a, some b =>
      (match a.columns.get? p.2, b.columns.get? p.2 with
       | some u, some v => u.columnType ≠ v.columnType || !columnTypeDiffers u v
       | _, _ => true)
    | _, _ => true)))

theorem noLookAlike_of_check {f t : Dict Table} (h : noLookAlikeB f t = true) :
    ∀ n b k m x, t.get? n = some b → k ∈ b.constraints.values → Uses n k m x → ¬ LookAlike f t m x := by
  rintro n b k m x hb hk hu ⟨a, b', u, v, g1, g2, g3, g4, g5, g6⟩
  simp only [noLookAlikeB, List.all_eq_true] at h
  have := h _ (Dict.mem_of_get? hb) k hk (m, x) (by
    rcases hu with ⟨rfl, rfl⟩ | ⟨rfl, rfl⟩ <;> simp)
  simp only [g1, g2, g3, g4, g5.type, columnTypeDiffers_iff.mpr g6] at this
  simp at this

/-- C67 speaks about a plan which changes the types of columns below a foreign key, creates a table and drops a table: the next one is empty -/
example : process declared (some afterLive) true = .ok [.disableChecks, .enableChecks] := by
  obtain ⟨ops', h1, _, _, h2⟩ := C67_partial live declared true live_accepted declared_accepted live_untroubled
    (keyNamesSettle_of_check (by decide +kernel)) livePlan livePlan_ok _ _ (describes_ofTables live_keyed true) afterLive_describes
    afterLive afterLive_keyed (describes_ofTables afterLive_keyed true)
  rw [h1, h2 (noLookAlike_of_check (by decide +kernel))]

/-- and `C67_iff`: no foreign key uses a column which is declared in other words -/
example : ∀ n b k m x, declared.get? n = some b → k ∈ b.constraints.values → Uses n k m x → ¬ TypeChanges afterLive declared m x :=
  (C67_iff live declared true live_accepted declared_accepted live_untroubled
    (keyNamesSettle_of_check (by decide +kernel)) livePlan livePlan_ok _ _ (describes_ofTables live_keyed true) afterLive_describes
    afterLive afterLive_keyed (describes_ofTables afterLive_keyed true)).mp (by decide +kernel)

/-- a table with a key and a foreign key of the given names on the same column -/
def memos (k c : Str) (width : Str := py"10") : Table := mk py"memos"
  [idCol, { intCol py"user_id" with len := .str width }] [pk, key k [py"user_id"]] [userFk c]

/-- before: the key of `fk_a` bears its name, as MySQL does it -/
def memoFrom : Dict Table := db [users py"INT", memos py"fk_a" py"fk_a"]
/-- declared: the foreign key and the key have other names -/
def memoTo : Dict Table := db [users py"INT", memos py"user_id" py"fk_b"]
/-- after the first plan: the key has kept its name, because it is the name of a foreign key of before -/
def memoMid : Dict Table := db [users py"INT", memos py"fk_a" py"fk_b"]

/-- **C67 is false in general** (`KeyNamesSettle`): after the first plan the key still has its old name; the second plan, which no longer
sees the old foreign key, drops it and adds the declared one -/
theorem C67_counterexample_keys :
    Accepted true memoFrom ∧ Accepted true memoTo ∧ Untroubled memoFrom memoTo ∧
    (∃ ops, process memoTo (some memoFrom) true = .ok ops ∧ SDb.execAll ⟨true, ofTables memoFrom⟩ ops = some ⟨true, ofTables memoMid⟩) ∧
    process memoTo (some memoMid) true =
      .ok [.disableChecks, .alter ⟨py"memos", [.addKey (key py"user_id" [py"user_id"]), .removeKey (key py"fk_a" [py"user_id"])]⟩, .enableChecks] := by
  refine ⟨accepted_of_check (by decide +kernel), accepted_of_check (by decide +kernel), untroubled_of_check ?_ (by decide +kernel), ?_, by decide +kernel⟩
  · exact keyedTables_of_check (by decide) (by decide)
  · refine ⟨match process memoTo (some memoFrom) true with | .ok ops => ops | .error _ => [], ?_, ?_⟩ <;> decide +kernel

/-- `C67_keys_refuted` speaks about it -/
example : ∃ l, Op.alter ⟨py"memos", l⟩ ∈ [.disableChecks,
    .alter ⟨py"memos", [.addKey (key py"user_id" [py"user_id"]), .removeKey (key py"fk_a" [py"user_id"])]⟩, .enableChecks] ∧
    .addKey (key py"user_id" [py"user_id"]) ∈ l ∧ .removeKey (key py"fk_a" [py"user_id"]) ∈ l := by
  obtain ⟨h1, h2, h3, ⟨ops, h4, h5⟩, h6⟩ := C67_counterexample_keys
  have hk : KeyedTables memoMid := keyedTables_of_check (by decide) (by decide)
  have e1 : ∀ e ∈ (memos py"fk_a" py"fk_a").indexes, e.2.columns = [py"user_id"] → e.1 = py"fk_a" := by decide
  have e2 : ∀ e ∈ (memos py"user_id" py"fk_b").indexes, e.2.columns = [py"user_id"] → e.1 = py"user_id" := by decide
  exact C67_keys_refuted memoFrom memoTo true h1 h2 h3 py"memos" py"fk_a" py"user_id" (memos py"fk_a" py"fk_a") (memos py"user_id" py"fk_b")
    (key py"fk_a" [py"user_id"]) (key py"user_id" [py"user_id"]) (by decide +kernel) (by decide +kernel)
    ⟨by decide, by decide, by decide, by decide, by decide, by decide, fun _ _ h => e1 _ (Dict.mem_of_get? h), fun _ _ h => e2 _ (Dict.mem_of_get? h)⟩
    (by decide) (by decide) (by decide) ops h4 _ _ (describes_ofTables h1.toKeyedTables true) h5 memoMid hk (describes_ofTables hk true) _ h6

/-- C67 speaks about two runs of this migration: the third plan is empty -/
example : ∃ ops' db'', process memoTo (some memoMid) true = .ok ops' ∧ SDb.execAll ⟨true, ofTables memoMid⟩ ops' = some db'' ∧
    ∀ d', KeyedTables d' → Describes d' db'' → process memoTo (some d') true = .ok [.disableChecks, .enableChecks] := by
  obtain ⟨h1, h2, h3, ⟨ops, h4, h5⟩, _⟩ := C67_counterexample_keys
  have hk : KeyedTables memoMid := keyedTables_of_check (by decide) (by decide)
  have hkeys : memoMid.keys = memoFrom.keys := by decide
  obtain ⟨ops', db'', g1, g2, _, g3⟩ := C67_twice_partial memoFrom memoTo true h1 h2 h3 ops h4 _ _ (describes_ofTables h1.toKeyedTables true) h5
    memoMid ⟨hk, describes_ofTables hk true, fun x y hb _ _ => by rw [hkeys]; exact hb⟩
  refine ⟨ops', db'', g1, g2, fun d' hd hr => ?_⟩
  obtain ⟨ops'', e1, _, _, e2⟩ := g3 d' hd hr
  rw [e1, e2 (noLookAlike_of_check (by decide +kernel))]

/-- **C67 is false in general** (`LookAlike`): a foreign key's column is declared with another display width, which the plan leaves as it
is; every plan drops the foreign key and adds it again, and leaves the server as it was -/
theorem C67_counterexample_widths :
    let f := db [users py"INT", memos py"user_id" py"fk_a" py"11"]
    let t := db [users py"INT", memos py"user_id" py"fk_a"]
    let plan := [.disableChecks, .alter ⟨py"memos", [.removeConstraint (userFk py"fk_a")]⟩, .alter ⟨py"memos", [.addConstraint (userFk py"fk_a")]⟩, .enableChecks]
    process t (some f) true = .ok plan ∧ SDb.execAll ⟨true, ofTables f⟩ plan = some ⟨true, ofTables f⟩ := by
  decide +kernel

/-- `C67_refuted` speaks about it: the same tables, in which no key has the name of a foreign key -/
example : ∃ f t ops db', Accepted true f ∧ Accepted true t ∧ Untroubled f t ∧ process t (some f) true = .ok ops ∧
    SDb.execAll ⟨true, ofTables f⟩ ops = some db' ∧
    ∀ d, KeyedTables d → Describes d db' → ∀ ops', process t (some d) true = .ok ops' → (py"memos", py"fk_a") ∈ ops'.flatMap Op.dropsFk := by
  let f := db [users py"INT", memos py"user_id" py"fk_a" py"11"]
  let t := db [users py"INT", memos py"user_id" py"fk_a"]
  let plan : List Op := [.disableChecks, .alter ⟨py"memos", [.removeConstraint (userFk py"fk_a")]⟩, .alter ⟨py"memos", [.addConstraint (userFk py"fk_a")]⟩,
    .enableChecks]
  have hf : Accepted true f := accepted_of_check (by decide +kernel)
  have ht : Accepted true t := accepted_of_check (by decide +kernel)
  have hu : Untroubled f t := untroubled_of_check (keyedTables_of_check (by decide) (by decide)) (by decide +kernel)
  refine ⟨f, t, plan, ⟨true, ofTables f⟩, hf, ht, hu, C67_counterexample_widths.1, C67_counterexample_widths.2, fun d hd hread => ?_⟩
  exact (C67_refuted f t true hf ht hu py"memos" py"memos" py"user_id" (memos py"user_id" py"fk_a" py"11") (memos py"user_id" py"fk_a") (memos py"user_id" py"fk_a")
    (userFk py"fk_a") { intCol py"user_id" with len := .str py"11" } { intCol py"user_id" with len := .str py"10" } (by decide +kernel) (by decide)
    (.inl ⟨rfl, by decide⟩) (by decide +kernel) (by decide +kernel) (by decide) (by decide) (by decide) (by decide) rfl (by decide) (by decide)
    plan C67_counterexample_widths.1 _ _ (describes_ofTables hf.toKeyedTables true) C67_counterexample_widths.2 d hd hread).2

end Examples

end Mygrations

import Verif.Proofs.Trouble
import Verif.Props.C11
import Verif.Proofs.ServerCheck

/-! # C14: a plan executes, and the database is then as declared -/

namespace Mygrations
open Table MySQL Mygration

/-- The database after a migration from `f` to `t`: exactly the declared tables; new tables as declared; and in every other table
exactly the declared columns (which agree with their declarations), keys (one for one, see `KeyStands`) and foreign keys. -/
structure Migrated [PyNum] (f t : Dict Table) (db : SDb) : Prop where
  checks : db.checks = true
  nodup : db.tables.keys.Nodup
  names : ∀ n, n ∈ db.tables.keys ↔ n ∈ t.keys
  created : ∀ n b, f.get? n = none → t.get? n = some b → db.tables.get? n = some (ofTable b)
  cols : ∀ n a b st, f.get? n = some a → t.get? n = some b → db.tables.get? n = some st →
    st.cols.keys.Nodup ∧ (∀ k, k ∈ st.cols.keys ↔ k ∈ b.columns.keys) ∧
    ∀ k d, b.columns.get? k = some d → ∃ c, st.cols.get? k = some c ∧ (c = d ∨ c.Agrees d)
  keys : ∀ n a b st, f.get? n = some a → t.get? n = some b → db.tables.get? n = some st →
    ∃ js : List Index, js.Perm b.indexes.values ∧ Paired (KeyStands a b) st.keys js
  fks : ∀ n a b st, f.get? n = some a → t.get? n = some b → db.tables.get? n = some st →
    st.fks.keys.Nodup ∧ (∀ k, k ∈ st.fks.keys ↔ k ∈ b.constraints.keys) ∧
    ∀ k l d, st.fks.get? k = some l → b.constraints.get? k = some d → l.SameFk d
  consistent : db.consistent = true

section
variable [PyNum]

theorem migrated_of_at {c : Bool} {f t : Dict Table} {N : Str → Dict Column} (h : Setup c f t N) {db : SDb}
    (hat : At db (tabsAt f t N ⟨fun _ => 5, fun _ => true, fun _ => true⟩)) : Migrated f t { db with checks := true } := by
  have hkept : ∀ n a b st, f.get? n = some a → t.get? n = some b → db.tables.get? n = some st →
      st = ⟨N n, finalKeys a b, fks4 (cycles (some f) t) n a b⟩ := by
    intro n a b st ha hb hst
    rw [hat.get] at hst
    simp only [tabsAt, ha, hb, stageTab, Option.some.injEq] at hst
    exact hst.symm
  have hsome : ∀ n b, t.get? n = some b → ∃ st, db.tables.get? n = some st := by
    intro n b hb
    rw [hat.get]
    cases ha : f.get? n with
    | none => simp [tabsAt, ha, hb]
    | some a => simp [tabsAt, ha, hb]
  refine ⟨rfl, hat.nodup, ?_, ?_, ?_, ?_, ?_, ?_⟩
  · intro n
    constructor
    · intro hn
      obtain ⟨st, hst⟩ := Dict.exists_get? hn
      cases hb : t.get? n with
      | some b => exact Dict.mem_keys_of_get? hb
      | none =>
        rw [show ({ db with checks := true } : SDb).tables = db.tables from rfl, hat.get] at hst
        cases ha : f.get? n <;> simp [tabsAt, ha, hb] at hst
    · intro hn
      obtain ⟨b, hb⟩ := Dict.exists_get? hn
      obtain ⟨st, hst⟩ := hsome n b hb
      exact Dict.mem_keys_of_get? hst
  · intro n b ha hb
    rw [show ({ db with checks := true } : SDb).tables = db.tables from rfl, hat.get]
    simp [tabsAt, ha, hb]
  · intro n a b st ha hb hst
    rw [hkept n a b st ha hb hst]
    have hc := h.cols n a b ha hb
    refine ⟨hc.nodup, hc.names, ?_⟩
    intro k d hd
    cases hk : a.columns.get? k with
    | none => exact ⟨d, (hc.new k (Dict.get?_eq_none.mp hk)).trans hd, .inl rfl⟩
    | some x =>
      rcases hc.common k x d hk hd with ⟨h1, h2⟩ | ⟨_, h2⟩
      · exact ⟨x, h2, .inr (equivalent_agrees (h.src.tidy n a ha k x hk) (h.tgt.tidy n b hb k d hd) h1)⟩
      · exact ⟨d, h2, .inl rfl⟩
  · intro n a b st ha hb hst
    rw [hkept n a b st ha hb hst]
    obtain ⟨va, pa⟩ := h.src.valid n a ha
    obtain ⟨vb, pb⟩ := h.tgt.valid n b hb
    exact finalKeys_stand va vb pa pb
  · intro n a b st ha hb hst
    rw [hkept n a b st ha hb hst]
    refine ⟨fks4_nodup h.src h.tgt h.ok ha hb, ?_, ?_⟩
    · intro k
      refine ⟨fun hk => ?_, fks4_complete h.src h.tgt h.ok ha hb⟩
      obtain ⟨l, hl⟩ := Dict.exists_get? hk
      obtain ⟨d, hd, _⟩ := mem_fks4 h.src h.tgt h.ok ha hb (Dict.mem_of_get? hl)
      exact Dict.mem_keys_of_get? hd
    · intro k l d hl hd
      obtain ⟨d', hd', hs⟩ := mem_fks4 h.src h.tgt h.ok ha hb (Dict.mem_of_get? hl)
      rw [hd] at hd'
      cases hd'
      exact hs
  · have hcons := tabs_cons h (w := ⟨fun _ => 5, fun _ => true, fun _ => true⟩) (ordered_high (by simp))
    have hoff := hat.consistent.mpr hcons
    simp only [SDb.consistent, Bool.and_eq_true, List.all_eq_true] at hoff ⊢
    refine ⟨fun e he k hk => ?_, hoff.2⟩
    have hf := hoff.1 e he k hk
    have hget : tabsAt f t N ⟨fun _ => 5, fun _ => true, fun _ => true⟩ e.1 = some e.2 := by
      rw [← hat.get]
      exact Dict.get?_of_mem hat.nodup he
    have hpar : ∃ p, db.tables.get? k.2.ftable = some p := by
      rcases tab_fk h hget (x := k.1) (k := k.2) hk with ⟨⟨⟨a, ha, _⟩, _, h3, _⟩, _⟩ | ⟨⟨⟨b, k', hb, hkb, hs⟩, _⟩, _⟩
      · exfalso
        cases hb : t.get? e.1 with
        | none => simp [tabsAt, ha, hb] at hget
        | some b => simp [hb] at h3
      · obtain ⟨p, hp⟩ := accepted_parent h.tgt hb hkb
        rw [← hs.2.2.1] at hp
        exact hsome _ _ hp
    obtain ⟨p, hp⟩ := hpar
    rw [hat.off] at hf
    unfold MySQL.fits at hf ⊢
    cases hc : e.2.cols.get? k.2.column with
    | none => simp [hc] at hf
    | some c =>
      simp only [hc, hp] at hf ⊢
      exact hf

theorem process_none {t : Dict Table} {b : Bool} : process t none b = process t (some []) b := by
  have : cycles (some []) t = cycles none t := by simp [cycles, fksToCycle]
  simp [process, this]

/-- how a plan gets from the one database to the other -/
theorem process_runs {c b : Bool} {f t : Dict Table} (hf : Accepted c f) (ht : Accepted true t) (hu : Untroubled f t) {ops : List Op}
    (h : process t (some f) b = .ok ops) :
    ∃ N, Setup c f t N ∧ ops = (if b then [.disableChecks] else []) ++ middle t (some f) ++ (if b then [.enableChecks] else []) ∧
      Runs (During f t N) (tabsAt f t N ⟨fun _ => 0, fun _ => false, fun _ => false⟩) (middle t (some f))
        (tabsAt f t N ⟨fun _ => 5, fun _ => true, fun _ => true⟩) := by
  have hd : ∀ n a b, f.get? n = some a → t.get? n = some b → a.toSplit b = .ok (diffOf f t n) := by
    intro n a b ha hb
    obtain ⟨a', b', ha', hb', hs⟩ := (process_eq (from? := some f) hf.toKeyedTables h).2 n (get?_overlap.mpr ⟨by simp [ha], by simp [hb]⟩)
    simp only [Option.getD_some] at ha' hb' hs
    rw [ha] at ha'
    rw [hb] at hb'
    cases ha'
    cases hb'
    exact hs
  obtain ⟨N, hN, hk⟩ := setup_exists hf ht hu hd
  exact ⟨N, hN, process_middle (from? := some f) hf.toKeyedTables h, plan_runs hN hk⟩

theorem start_at {c : Bool} {f t : Dict Table} {N : Str → Dict Column} (hf : Accepted c f) {db : SDb} (hdb : Describes f db) :
    At { db with checks := false } (tabsAt f t N ⟨fun _ => 0, fun _ => false, fun _ => false⟩) := by
  refine ⟨rfl, hdb.nodup, ?_⟩
  intro n
  rw [show ({ db with checks := false } : SDb).tables = db.tables from rfl, hdb.get]
  cases ha : f.get? n with
  | none => cases hb : t.get? n <;> simp [tabsAt, ha, hb]
  | some a =>
    have ka := hf.keyedTable ha
    have : ofTable a = ⟨a.columns, (ofTable a).keys, a.constraints⟩ := by rw [← ofTable_cols ka, ← ofTable_fks ka]
    cases hb : t.get? n with
    | none => simp only [tabsAt, ha, hb, goneTab, Option.map_some]; simpa using this
    | some b => simp only [tabsAt, ha, hb, stageTab, Option.map_some]; rw [← this]

theorem describes_ofTables {f : Dict Table} (hf : KeyedTables f) (checks : Bool) : Describes f ⟨checks, ofTables f⟩ :=
  ⟨by simp only [ofTables_keys]; exact hf.nodup, ofTables_get?⟩

theorem process_from {t : Dict Table} {b : Bool} {from? : Option (Dict Table)} {f : Dict Table} (hfrom : from?.getD [] = f) :
    process t from? b = process t (some f) b := by
  cases from? with
  | none =>
    simp only [Option.getD_none] at hfrom
    rw [← hfrom, ← process_none]
  | some g =>
    simp only [Option.getD_some] at hfrom
    rw [← hfrom]

/-- **C14** (partial: only for migrations which are `Untroubled`; for all others it is false, see `C14_iff`).  The statements of a
plan execute one after the other without an error, whatever `FOREIGN_KEY_CHECKS` was before, and in the end the database is as
declared. -/
theorem C14_partial (f t : Dict Table) (from? : Option (Dict Table)) (hfrom : from?.getD [] = f) (c : Bool) (hf : Accepted c f)
    (ht : Accepted true t) (hu : Untroubled f t) (ops : List Op) (h : process t from? true = .ok ops) (db : SDb) (hdb : Describes f db) :
    ∃ db', db.execAll ops = some db' ∧ Migrated f t db' := by
  have h' : process t (some f) true = .ok ops := by rw [← process_from hfrom]; exact h
  obtain ⟨N, hN, hops, hrun⟩ := process_runs hf ht hu h'
  obtain ⟨db', hex, hat⟩ := hrun.exec _ (start_at hf hdb)
  refine ⟨{ db' with checks := true }, ?_, migrated_of_at hN hat⟩
  rw [hops]
  simp only [SDb.execAll, if_true, List.foldlM_append] at hex ⊢
  simp only [List.foldlM_cons, List.foldlM_nil, SDb.exec, Option.bind_eq_bind, Option.bind_some, Option.pure_def]
  rw [hex]
  rfl

/-- **C14 fails for every other migration**: if the migration is not `Untroubled` then one of the statements is refused. -/
theorem C14_refuted (f t : Dict Table) (from? : Option (Dict Table)) (hfrom : from?.getD [] = f) (c : Bool) (hf : Accepted c f)
    (ht : Accepted true t) (hu : ¬ Untroubled f t) (ops : List Op) (h : process t from? true = .ok ops) (db : SDb) (hdb : Describes f db) :
    db.execAll ops = none := by
  rw [process_from hfrom] at h
  cases he : db.execAll ops with
  | none => rfl
  | some db' =>
    exfalso
    obtain ⟨_, _, _, _, _, hr⟩ := ran_of_exec hf ht h hdb (.inr rfl) he
    exact hu (hr.untroubled hf ht)

/-- **C14, exactly**: the statements of a plan execute and bring about what is declared if and only if the migration is `Untroubled`. -/
theorem C14_iff (f t : Dict Table) (from? : Option (Dict Table)) (hfrom : from?.getD [] = f) (c : Bool) (hf : Accepted c f)
    (ht : Accepted true t) (ops : List Op) (h : process t from? true = .ok ops) (db : SDb) (hdb : Describes f db) :
    (∃ db', db.execAll ops = some db' ∧ Migrated f t db') ↔ Untroubled f t := by
  constructor
  · rintro ⟨db', he, _⟩
    apply Classical.byContradiction
    intro hu
    rw [C14_refuted f t from? hfrom c hf ht hu ops h db hdb] at he
    cases he
  · exact fun hu => C14_partial f t from? hfrom c hf ht hu ops h db hdb

/-- **C14, when the statements execute**: then the database is as declared (there is no migration which executes and goes wrong). -/
theorem C14_executed (f t : Dict Table) (from? : Option (Dict Table)) (hfrom : from?.getD [] = f) (c : Bool) (hf : Accepted c f)
    (ht : Accepted true t) (ops : List Op) (h : process t from? true = .ok ops) (db db' : SDb) (hdb : Describes f db)
    (he : db.execAll ops = some db') : Migrated f t db' := by
  have hu : Untroubled f t := by
    apply Classical.byContradiction
    intro hu
    rw [C14_refuted f t from? hfrom c hf ht hu ops h db hdb] at he
    cases he
  obtain ⟨db'', h1, h2⟩ := C14_partial f t from? hfrom c hf ht hu ops h db hdb
  rw [h1] at he
  cases he
  exact h2

end

/-! ## Examples -/

namespace Examples
attribute [local instance] exactNum

theorem live_accepted : Accepted true live := accepted_of_check (by decide +kernel)
theorem declared_accepted : Accepted true declared := accepted_of_check (by decide +kernel)
theorem live_untroubled : Untroubled live declared := untroubled_of_check live_keyed (by decide +kernel)

/-- C14 speaks about a plan which changes the types of columns below a foreign key, creates a table and drops a table -/
example : ∃ db, SDb.execAll ⟨true, ofTables live⟩ livePlan = some db ∧ Migrated live declared db :=
  C14_partial live declared (some live) rfl true live_accepted declared_accepted live_untroubled livePlan livePlan_ok _
    (describes_ofTables live_keyed true)

/-- a table with foreign keys -/
def notes (fks : List Constraint) (ctype : Str := py"INT") : Table := mk py"notes"
  [idCol, { intCol py"user_id" with ctype := ctype }, intCol py"tag_id"] [pk, key py"user_id" [py"user_id"], key py"tag_id" [py"tag_id"]] fks

/-- a foreign key to `users` -/
def userFk (n : Str) : Constraint := fk n py"user_id" py"users" py"id"

/-- a foreign key to `tags` -/
def tagFk (n : Str) : Constraint := fk n py"tag_id" py"tags" py"id"

/-- both databases are accepted, all conditions but the given one hold, and the plan fails -/
structure Fails (checks : Bool) (f t : Dict Table) (i : Nat) : Prop where
  src : acceptedB checks f = true
  tgt : acceptedB true t = true
  others : untroubledB f t = (List.replicate 7 true).set i false
  fails : ∃ ops, process t (some f) true = .ok ops ∧ SDb.execAll ⟨true, ofTables f⟩ ops = none

/-- a checker for `Fails` -/
theorem fails_of_check {checks : Bool} {f t : Dict Table} {i : Nat} (h1 : acceptedB checks f = true) (h2 : acceptedB true t = true)
    (h3 : untroubledB f t = (List.replicate 7 true).set i false)
    (h4 : (match process t (some f) true with | .ok ops => (SDb.execAll ⟨true, ofTables f⟩ ops).isNone | .error _ => false) = true) :
    Fails checks f t i := by
  refine ⟨h1, h2, h3, ?_⟩
  split at h4
  · rename_i ops e
    exact ⟨ops, e, by simpa using h4⟩
  · cases h4

/-- **C14 is false in general** (`primary`): a column is added to the primary key of `tags` -/
theorem C14_counterexample_primary : Fails true (db [tags])
    (db [mk py"tags" [idCol, textCol py"tag" py"20"] [{ pk with columns := [py"id", py"tag"] }] []]) 0 :=
  fails_of_check (by decide +kernel) (by decide +kernel) (by decide +kernel) (by decide +kernel)

/-- `renames`: the foreign key `a` is renamed to `b`, the name of another foreign key, while the type of its column changes -/
theorem C14_counterexample_renames : Fails true (db [users py"INT", tags, notes [userFk py"a", tagFk py"b"]])
    (db [users py"BIGINT", tags, notes [userFk py"b"] py"BIGINT"]) 1 :=
  fails_of_check (by decide +kernel) (by decide +kernel) (by decide +kernel) (by decide +kernel)

/-- `dropped`: `notes` gets a foreign key with the name of one of `comments`, which is dropped -/
theorem C14_counterexample_dropped : Fails true (db [users py"INT", notes [], comments py"INT"])
    (db [users py"INT", notes [userFk py"comments_user_fk"]]) 2 :=
  fails_of_check (by decide +kernel) (by decide +kernel) (by decide +kernel) (by decide +kernel)

/-- `created`: a foreign key moves from `notes` to a new table -/
theorem C14_counterexample_created : Fails true (db [users py"INT", notes [userFk py"comments_user_fk"]])
    (db [users py"INT", notes [], comments py"INT"]) 3 :=
  fails_of_check (by decide +kernel) (by decide +kernel) (by decide +kernel) (by decide +kernel)

/-- `parents`: a new table refers to a column whose type changes -/
theorem C14_counterexample_parents : Fails true (db [users py"INT"]) (db [users py"BIGINT", comments py"BIGINT"]) 4 :=
  fails_of_check (by decide +kernel) (by decide +kernel) (by decide +kernel) (by decide +kernel)

/-- `leaving`: `comments` loses its foreign key, and the column it refers to changes its type -/
theorem C14_counterexample_leaving : Fails true live freed 5 :=
  fails_of_check (by decide +kernel) (by decide +kernel) (by decide +kernel) (by decide +kernel)

/-- `dangling`: `comments` loses a foreign key to a missing table, which is created with another type -/
theorem C14_counterexample_dangling : Fails false (db [comments py"INT"]) (db [users py"BIGINT", freeComments py"INT"]) 6 :=
  fails_of_check (by decide +kernel) (by decide +kernel) (by decide +kernel) (by decide +kernel)

/-- such a migration is not `Untroubled` -/
theorem Fails.troubled {checks : Bool} {f t : Dict Table} {i : Nat} (h : Fails checks f t i) : ¬ Untroubled f t := by
  intro hu
  obtain ⟨ops, h1, h2⟩ := h.fails
  have hf := accepted_of_check h.src
  obtain ⟨_, h3, _⟩ := C14_partial f t (some f) rfl checks hf (accepted_of_check h.tgt) hu ops h1 _ (describes_ofTables hf.toKeyedTables true)
  rw [h2] at h3
  cases h3

/-- C14_refuted speaks about a plan which changes the type of a column below a foreign key that goes away; and it fails on every such server,
whatever its order of tables or its `FOREIGN_KEY_CHECKS` -/
example (db : SDb) (hdb : Describes live db) (ops : List Op) (h : process freed (some live) true = .ok ops) : db.execAll ops = none :=
  C14_refuted live freed (some live) rfl true live_accepted (accepted_of_check C14_counterexample_leaving.tgt) C14_counterexample_leaving.troubled ops h db hdb

end Examples

end Mygrations

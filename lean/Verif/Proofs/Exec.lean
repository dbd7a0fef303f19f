import Verif.Proofs.PlanParts
import Verif.Spec.Server

/-! # Executing statements on a database, table by table -/

namespace Mygrations
open Table MySQL

/-- the tables of a database by their names -/
abbrev Tabs := Str → Option STable

/-- one table is replaced -/
def Tabs.put (σ : Tabs) (n : Str) (x : Option STable) : Tabs := fun m => if m = n then x else σ m

theorem Tabs.put_same (σ : Tabs) (n : Str) (x : Option STable) : σ.put n x n = x := by simp [Tabs.put]

theorem Tabs.put_other (σ : Tabs) {n m : Str} (x : Option STable) (h : m ≠ n) : σ.put n x m = σ m := by simp [Tabs.put, h]

/-- a foreign key fits, while checks are off -/
def Fits (σ : Tabs) (st : STable) (k : Constraint) : Prop :=
  ∃ c, st.cols.get? k.column = some c ∧ st.leads k.column = true ∧
    ∀ p, σ k.ftable = some p → ∃ d, p.cols.get? k.fcolumn = some d ∧ p.leads k.fcolumn = true ∧ linkable c d = true

/-- the foreign keys are consistent, while checks are off -/
structure Tabs.Cons (σ : Tabs) : Prop where
  fits : ∀ n st, σ n = some st → ∀ x k, (x, k) ∈ st.fks → Fits σ st k
  unique : ∀ n m st st', σ n = some st → σ m = some st' → n ≠ m → ∀ x ∈ st.fks.keys, x ∉ st'.fks.keys

/-- the tables of the database, checks off -/
structure At (db : SDb) (σ : Tabs) : Prop where
  off : db.checks = false
  nodup : db.tables.keys.Nodup
  get : ∀ n, db.tables.get? n = σ n

theorem fits_iff {tables : Dict STable} {σ : Tabs} (h : ∀ n, tables.get? n = σ n) {st : STable} {k : Constraint} :
    fits false tables st k = true ↔ Fits σ st k := by
  unfold MySQL.fits Fits
  cases h1 : st.cols.get? k.column with
  | none => simp
  | some c =>
    rw [h]
    cases h2 : σ k.ftable with
    | none => simp
    | some p =>
      cases h3 : p.cols.get? k.fcolumn with
      | none => simp [h3]
      | some d => simp [h3]

theorem At.consistent {db : SDb} {σ : Tabs} (h : At db σ) : db.consistent = true ↔ σ.Cons := by
  simp only [SDb.consistent, Bool.and_eq_true, List.all_eq_true, Bool.or_eq_true, decide_eq_true_eq, h.off, Bool.not_eq_true']
  have hm : ∀ n st, (n, st) ∈ db.tables ↔ σ n = some st := by
    intro n st
    rw [← h.get]
    exact ⟨Dict.get?_of_mem h.nodup, Dict.mem_of_get?⟩
  constructor
  · rintro ⟨h1, h2⟩
    refine ⟨fun n st hn x k hk => (fits_iff h.get).mp (h1 (n, st) ((hm n st).mpr hn) (x, k) hk), ?_⟩
    intro n m st st' hn hm' hne x hx
    rcases h2 (n, st) ((hm n st).mpr hn) (m, st') ((hm m st').mpr hm') with e | e
    · exact absurd e hne
    · obtain ⟨k, hk⟩ := Dict.exists_get? hx
      exact Dict.has_eq_false.mp (e (x, k) (Dict.mem_of_get? hk))
  · rintro ⟨h1, h2⟩
    refine ⟨fun e he k hk => (fits_iff h.get).mpr (h1 e.1 e.2 ((hm _ _).mp he) k.1 k.2 hk), ?_⟩
    intro e he e' he'
    by_cases hne : e.1 = e'.1
    · exact .inl hne
    · refine .inr (fun k hk => Dict.has_eq_false.mpr (h2 e.1 e'.1 e.2 e'.2 ((hm _ _).mp he) ((hm _ _).mp he') hne k.1 ?_))
      exact List.mem_map_of_mem hk

/-- one statement takes the one database to the other -/
def Step (σ : Tabs) (o : Op) (σ' : Tabs) : Prop := ∀ db, At db σ → ∃ db', db.exec o = some db' ∧ At db' σ'

/-- a sequence of statements takes the one database to the other, through databases with the property `P` -/
inductive Runs (P : Tabs → Prop) : Tabs → List Op → Tabs → Prop
  | nil {σ : Tabs} (h : P σ) : Runs P σ [] σ
  | cons {σ σ' σ'' : Tabs} {o : Op} {ops : List Op} (h : P σ) (hs : Step σ o σ') (hr : Runs P σ' ops σ'') : Runs P σ (o :: ops) σ''

section
variable {P : Tabs → Prop}

theorem Runs.last {σ σ' : Tabs} {ops : List Op} (h : Runs P σ ops σ') : P σ' := by
  induction h with
  | nil h => exact h
  | cons _ _ _ ih => exact ih

theorem Runs.append {σ σ' σ'' : Tabs} {a b : List Op} (h : Runs P σ a σ') (h' : Runs P σ' b σ'') : Runs P σ (a ++ b) σ'' := by
  induction h with
  | nil _ => exact h'
  | cons hp hs _ ih => exact .cons hp hs (ih h')

theorem Runs.split {σ σ'' : Tabs} {ops : List Op} (h : Runs P σ ops σ'') : ∀ {a b : List Op}, ops = a ++ b → ∃ σ', Runs P σ a σ' ∧ Runs P σ' b σ'' := by
  induction h with
  | nil hp =>
    intro a b he
    obtain ⟨rfl, rfl⟩ := List.append_eq_nil_iff.mp he.symm
    exact ⟨_, .nil hp, .nil hp⟩
  | @cons σ σ₁ σ₂ o ops hp hs hr ih =>
    intro a b he
    cases a with
    | nil =>
      simp only [List.nil_append] at he
      subst he
      exact ⟨_, .nil hp, .cons hp hs hr⟩
    | cons x a =>
      simp only [List.cons_append, List.cons.injEq] at he
      obtain ⟨rfl, he⟩ := he
      obtain ⟨σ', h1, h2⟩ := ih he
      exact ⟨σ', .cons hp hs h1, h2⟩

/-- the statements execute -/
theorem Runs.exec {σ σ' : Tabs} {ops : List Op} (h : Runs P σ ops σ') : ∀ db, At db σ → ∃ db', db.execAll ops = some db' ∧ At db' σ' := by
  induction h with
  | nil _ => exact fun db hd => ⟨db, rfl, hd⟩
  | cons _ hs _ ih =>
    intro db hd
    obtain ⟨d1, e1, a1⟩ := hs db hd
    obtain ⟨d2, e2, a2⟩ := ih d1 a1
    refine ⟨d2, ?_, a2⟩
    simp only [SDb.execAll] at e2 ⊢
    rw [List.foldlM_cons, e1]
    exact e2

theorem runs_one {σ σ' : Tabs} {o : Op} (hp : P σ) (hp' : P σ') (h : Step σ o σ') : Runs P σ [o] σ' := .cons hp h (.nil hp')

theorem runs_create {σ : Tabs} {t : Table} (hn : σ t.name = none) (hok : (ofTable t).ok = true) (hd : (ofTable t).distinct = true)
    (hc : (σ.put t.name (some (ofTable t))).Cons) (hp : P σ) (hp' : P (σ.put t.name (some (ofTable t)))) :
    Runs P σ [.createTable t] (σ.put t.name (some (ofTable t))) := by
  apply runs_one hp hp'
  intro db h
  have hnk : t.name ∉ db.tables.keys := Dict.get?_eq_none.mp (by rw [h.get]; exact hn)
  have hat : At { db with tables := db.tables ++ [(t.name, ofTable t)] } (σ.put t.name (some (ofTable t))) := by
    refine ⟨h.off, ?_, ?_⟩
    · simp only [Dict.keys_append, List.nodup_append]
      refine ⟨h.nodup, by simp, ?_⟩
      intro a ha b hb e
      simp at hb
      subst hb
      subst e
      exact hnk ha
    · intro m
      rw [Dict.get?_append, h.get]
      by_cases e : m = t.name
      · subst e
        rw [hn, Tabs.put_same, Dict.get?_cons]
        simp
      · rw [Tabs.put_other σ _ e, Dict.get?_cons, if_neg (fun h => e h.symm)]
        simp
  refine ⟨_, ?_, hat⟩
  simp only [SDb.exec, Dict.has_eq_false.mpr hnk, hok, hd, Bool.not_true, Bool.or_false, Bool.false_eq_true, if_false]
  rw [SDb.check, hat.consistent.mpr hc, if_pos rfl]

theorem runs_drop {σ : Tabs} {n : Str} {st : STable} (hn : σ n = some st) (hc : (σ.put n none).Cons) (hp : P σ) (hp' : P (σ.put n none)) :
    Runs P σ [.removeTable n] (σ.put n none) := by
  apply runs_one hp hp'
  intro db h
  have hnk : n ∈ db.tables.keys := Dict.mem_keys_of_get? (v := st) (by rw [h.get]; exact hn)
  have hat : At { db with tables := db.tables.filter (fun e => e.1 ≠ n) } (σ.put n none) := by
    refine ⟨h.off, ?_, ?_⟩
    · rw [Dict.keys_filter_key (fun x => decide (x ≠ n))]
      exact h.nodup.filter _
    · intro m
      rw [Dict.get?_filter_key (fun x => decide (x ≠ n)), h.get]
      by_cases e : m = n
      · subst e
        rw [Tabs.put_same]
        simp
      · rw [Tabs.put_other σ _ e]
        simp [e]
  refine ⟨_, ?_, hat⟩
  simp only [SDb.exec, Dict.has_iff.mpr hnk, if_true]
  rw [SDb.check, hat.consistent.mpr hc, if_pos rfl]

/-- no column which a foreign key uses changes its type (R4) -/
def NoBreak (σ : Tabs) (n : Str) (st : STable) (cl : List Clause) : Prop :=
  ∀ e ∈ changedCols cl, ∀ a, st.cols.get? e.1 = some a → typeDiffers a e.2 = true →
    ∀ m sm, σ m = some sm → ∀ x k, (x, k) ∈ sm.fks → uses m k n e.1 = false

theorem runs_alter {σ : Tabs} {a : Alter} {st st' : STable} (hn : σ a.table = some st)
    (ha : alterTable st (a.ops.flatMap clauses) = some st') (hb : NoBreak σ a.table st (a.ops.flatMap clauses))
    (hc : (σ.put a.table (some st')).Cons) (hp : P σ) (hp' : P (σ.put a.table (some st'))) :
    Runs P σ [.alter a] (σ.put a.table (some st')) := by
  apply runs_one hp hp'
  intro db h
  have hg : db.tables.get? a.table = some st := by rw [h.get]; exact hn
  have hat : At { db with tables := db.tables.set a.table st' } (σ.put a.table (some st')) := by
    refine ⟨h.off, ?_, ?_⟩
    · exact Dict.keys_set_nodup _ _ h.nodup
    · intro m
      rw [Dict.get?_set, h.get]
      by_cases e : m = a.table
      · subst e
        simp [Tabs.put_same]
      · rw [Tabs.put_other σ _ e]
        simp [Ne.symm e, e]
  have hbr : db.breaksFk a.table st (a.ops.flatMap clauses) = false := by
    rw [SDb.breaksFk, List.any_eq_false]
    intro e he
    cases hcol : st.cols.get? e.1 with
    | none => simp
    | some c =>
      simp only [Bool.and_eq_true, List.any_eq_true, not_and, not_exists]
      rintro hty ⟨m, sm⟩ hm ⟨x, k⟩ hk
      have := hb e he c hcol hty m sm (by rw [← h.get]; exact Dict.get?_of_mem h.nodup hm) x k hk
      simp [this]
  refine ⟨_, ?_, hat⟩
  simp only [SDb.exec, hg, ha, hbr, Bool.false_eq_true, if_false]
  rw [SDb.check, hat.consistent.mpr hc, if_pos rfl]

end

end Mygrations

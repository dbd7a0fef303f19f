import Verif.Proofs.Checks
import Verif.Props.C27

/-! # C30, C33, C52: the errors of a database -/

namespace Mygrations
open Table Database

section
variable [PyNum]

theorem columnErrors_quiet {t : Table} : ∀ {cs : List Column}, (∀ c ∈ cs, c.schemaCheck.2 = none) →
    t.columnErrors cs = (cs.flatMap (fun c => c.schemaCheck.1.map t.inTable), cs.flatMap (fun c => c.parsingErrors.map t.inTable), none)
  | [], _ => rfl
  | c :: cs, h => by
    have hc := h c (by simp)
    obtain ⟨⟨e, r⟩, he⟩ : ∃ x, x = c.schemaCheck := ⟨_, rfl⟩
    rw [← he] at hc
    simp only at hc
    subst hc
    simp only [columnErrors, ← he, columnErrors_quiet (fun x hx => h x (List.mem_cons_of_mem _ hx)), List.flatMap_cons]

theorem findAll_quiet {t : Table} (h : ∀ c ∈ t.columns.values, c.schemaCheck.2 = none) : t.findAll.raised = none := by
  simp only [findAll, columnErrors_quiet h]

theorem askTables_quiet (part : Found → List Str) : ∀ (l : Dict Table) (checked : List Str),
    (∀ t ∈ l.values, t.findAll.raised = none) →
    (askTables part checked l).1 = .ok (l.values.flatMap (fun t => part t.findAll))
  | [], checked, _ => rfl
  | (n, t) :: l, checked, h => by
    have ht : t.findAll.raised = none := h t (by simp [Dict.values])
    have ih := askTables_quiet part l (setAdd checked n) (fun x hx => h x (by simp only [Dict.values, List.map_cons, List.mem_cons] at hx ⊢; exact .inr hx))
    have hask : askTable part checked n t = .ok (part t.findAll) := by
      unfold askTable
      rw [ht]
      split <;> rfl
    simp only [askTables, hask, ih, Except.map]
    rfl

/-- what the schema errors are, if nothing raises -/
theorem findSchemaErrors_quiet {d : Database} (hq : d.Quiet) (hc : d.schemaCache = none) :
    d.findSchemaErrors.1 = d.forget.findSchemaErrors.1 ∧
    (∀ l, d.findSchemaErrors.2.schemaCache = some l → d.forget.findSchemaErrors.1 = .ok l) := by
  have hall : ∀ t ∈ d.tables.values, t.findAll.raised = none := fun t ht => findAll_quiet (hq t ht)
  have h1 := askTables_quiet Found.schema d.tables d.checked hall
  have h2 := askTables_quiet Found.schema d.tables [] hall
  simp only [findSchemaErrors, forget, hc]
  cases fkErrors d.tables with
  | error e => simp [hc]
  | ok fe =>
    obtain ⟨⟨a, b⟩, hab⟩ : ∃ x, x = askTables Found.schema d.checked d.tables := ⟨_, rfl⟩
    obtain ⟨⟨a', b'⟩, hab'⟩ : ∃ x, x = askTables Found.schema [] d.tables := ⟨_, rfl⟩
    rw [← hab] at h1
    rw [← hab'] at h2
    simp only at h1 h2
    subst h1; subst h2
    simp only [← hab, ← hab']
    cases rowErrors d.tables d.rows with
    | error e => simp
    | ok re => simp

/-- the errors of the schema, as a database would report them if it had not been looked at -/
abbrev schemaNow (d : Database) : Except PyErr (List Str) := d.forget.findSchemaErrors.1

/-- the errors found while reading the files, as a database would report them if it had not been looked at -/
abbrev parsingNow (d : Database) : Except PyErr (List Str) := d.forget.findParsingErrors.1

/-- what the cache holds is right for the tables as they are -/
def CacheOk (d : Database) : Prop := d.Quiet → ∀ l, d.schemaCache = some l → schemaNow d = .ok l

theorem findSchemaErrors_tables (d : Database) : d.findSchemaErrors.2.tables = d.tables ∧ d.findSchemaErrors.2.rows = d.rows ∧
    d.findSchemaErrors.2.globalErrors = d.globalErrors ∧ d.findSchemaErrors.2.parsingCache = d.parsingCache := by
  unfold findSchemaErrors
  repeat' split
  all_goals simp

theorem findParsingErrors_tables (d : Database) : d.findParsingErrors.2.tables = d.tables ∧ d.findParsingErrors.2.rows = d.rows ∧
    d.findParsingErrors.2.globalErrors = d.globalErrors ∧ d.findParsingErrors.2.schemaCache = d.schemaCache := by
  unfold findParsingErrors
  repeat' split
  all_goals simp

theorem errors_tables (d : Database) : d.errors.2.tables = d.tables ∧ d.errors.2.rows = d.rows ∧
    d.errors.2.globalErrors = d.globalErrors ∧ d.errors.2.schemaCache = d.findSchemaErrors.2.schemaCache := by
  have hs := findSchemaErrors_tables d
  unfold Database.errors
  obtain ⟨⟨r, d₁⟩, hr⟩ : ∃ x, x = d.findSchemaErrors := ⟨_, rfl⟩
  rw [← hr] at hs
  simp only [← hr]
  cases r with
  | error e => exact ⟨hs.1, hs.2.1, hs.2.2.1, rfl⟩
  | ok s =>
    have hp := findParsingErrors_tables d₁
    obtain ⟨⟨r', d₂⟩, hr'⟩ : ∃ x, x = d₁.findParsingErrors := ⟨_, rfl⟩
    rw [← hr'] at hp
    simp only [← hr']
    simp only at hs hp
    cases r' with
    | error e => exact ⟨hp.1.trans hs.1, hp.2.1.trans hs.2.1, hp.2.2.1.trans hs.2.2.1, hp.2.2.2⟩
    | ok p => exact ⟨hp.1.trans hs.1, hp.2.1.trans hs.2.1, hp.2.2.1.trans hs.2.2.1, hp.2.2.2⟩

theorem quiet_congr {d d' : Database} (h : d'.tables = d.tables) : d'.Quiet ↔ d.Quiet := by
  unfold Database.Quiet; rw [h]

theorem schemaNow_congr {d d' : Database} (h : d'.tables = d.tables) (h' : d'.rows = d.rows) : schemaNow d' = schemaNow d := by
  simp only [schemaNow, findSchemaErrors, forget, h, h']
  cases fkErrors d.tables with
  | error e => rfl
  | ok fe =>
    simp only
    obtain ⟨⟨a, b⟩, hab⟩ : ∃ x, x = askTables Found.schema [] d.tables := ⟨_, rfl⟩
    simp only [← hab]
    cases a with
    | error e => rfl
    | ok te =>
      simp only
      cases rowErrors d.tables d.rows <;> rfl

theorem read_cacheOk {d : Database} (h : CacheOk d) : CacheOk d.errors.2 := by
  obtain ⟨h1, h2, h3, h4⟩ := errors_tables d
  intro hq l hl
  rw [quiet_congr h1] at hq
  rw [schemaNow_congr h1 h2]
  rw [h4] at hl
  cases hc : d.schemaCache with
  | none => exact (findSchemaErrors_quiet hq hc).2 l hl
  | some l' =>
    have : d.findSchemaErrors = (.ok l', d) := by simp only [findSchemaErrors, hc]
    rw [this] at hl
    exact h hq l hl

theorem step_cacheOk {d : Database} (op : DbOp) (h : CacheOk d) : CacheOk (op.step d) := by
  have reset : ∀ {d' : Database}, d'.schemaCache = none → CacheOk d' := by
    intro d' h' _ l hl; rw [h'] at hl; simp at hl
  cases op with
  | addTable t b =>
    simp only [DbOp.step, Database.addTable]
    split
    · rename_i heq; split at heq
      · simp at heq
      · simp at heq; subst heq; exact reset rfl
    · exact h
  | removeTable n =>
    simp only [DbOp.step, Database.removeTable]
    split
    · rename_i heq; split at heq
      · simp at heq; subst heq; exact reset rfl
      · simp at heq
    · exact h
  | apply n op =>
    simp only [DbOp.step]
    cases hr : d.applyOperation n op with
    | ok d' =>
      unfold Database.applyOperation at hr
      split at hr
      · simp at hr
      · split at hr
        · simp at hr
        · simp at hr; subst hr; exact reset rfl
    | error e =>
      simp only
      split
      · exact reset rfl
      · exact h
  | readErrors => exact read_cacheOk h

theorem run_cacheOk {d : Database} (hist : List DbOp) (h : CacheOk d) : CacheOk (DbOp.run d hist) := by
  induction hist generalizing d with
  | nil => exact h
  | cons op hist ih => exact ih (step_cacheOk op h)

/-- **C30** (partial, schema errors).  After any history of `add_table`, `remove_table`, `apply_operation` and reads of
`errors`, the schema errors are those which a fresh computation on the current tables gives, if no column makes the
checks raise.  Missing: tables with date columns (`C30_counterexample_date`). -/
theorem C30_schema_partial (d : Database) (hnew : d.schemaCache = none) (hist : List DbOp) (hq : (DbOp.run d hist).Quiet) :
    (DbOp.run d hist).findSchemaErrors.1 = (DbOp.run d hist).forget.findSchemaErrors.1 := by
  have h := run_cacheOk hist (d := d) (by intro _ l hl; rw [hnew] at hl; simp at hl)
  generalize DbOp.run d hist = d' at h hq
  cases hc : d'.schemaCache with
  | none => exact (findSchemaErrors_quiet hq hc).1
  | some l =>
    have h1 : d'.findSchemaErrors = (.ok l, d') := by simp only [findSchemaErrors, hc]
    rw [h1]
    exact (h hq l hc).symm

/-! ## All errors -/

theorem findParsingErrors_quiet {d : Database} (hq : d.Quiet) (hc : d.parsingCache = none) :
    d.findParsingErrors.1 = d.forget.findParsingErrors.1 ∧
    (∀ l, d.findParsingErrors.2.parsingCache = some l → d.forget.findParsingErrors.1 = .ok l) := by
  have hall : ∀ t ∈ d.tables.values, t.findAll.raised = none := fun t ht => findAll_quiet (hq t ht)
  have h1 := askTables_quiet Found.parsing d.tables d.checked hall
  have h2 := askTables_quiet Found.parsing d.tables [] hall
  simp only [findParsingErrors, forget, hc]
  obtain ⟨⟨a, b⟩, hab⟩ : ∃ x, x = askTables Found.parsing d.checked d.tables := ⟨_, rfl⟩
  obtain ⟨⟨a', b'⟩, hab'⟩ : ∃ x, x = askTables Found.parsing [] d.tables := ⟨_, rfl⟩
  rw [← hab] at h1
  rw [← hab'] at h2
  simp only at h1 h2
  subst h1; subst h2
  simp [← hab, ← hab']

/-- At every point of a history: no column makes the checks raise, and the errors found while reading files are `P`. -/
def Steady (P : List Str) : Database → List DbOp → Prop
  | d, [] => d.Quiet ∧ parsingNow d = .ok P
  | d, op :: hist => (d.Quiet ∧ parsingNow d = .ok P) ∧ Steady P (op.step d) hist

theorem Steady.head {P : List Str} {d : Database} {hist : List DbOp} (h : Steady P d hist) : d.Quiet ∧ parsingNow d = .ok P := by
  cases hist with
  | nil => exact h
  | cons op hist => exact h.1

theorem errors_parsing (d : Database) : d.errors.2.parsingCache = d.parsingCache ∨
    d.errors.2.parsingCache = d.findSchemaErrors.2.findParsingErrors.2.parsingCache := by
  have hs := findSchemaErrors_tables d
  unfold Database.errors
  obtain ⟨⟨r, d₁⟩, hr⟩ : ∃ x, x = d.findSchemaErrors := ⟨_, rfl⟩
  rw [← hr] at hs
  simp only [← hr]
  cases r with
  | error e => exact .inl hs.2.2.2
  | ok s =>
    right
    obtain ⟨⟨r', d₂⟩, hr'⟩ : ∃ x, x = d₁.findParsingErrors := ⟨_, rfl⟩
    simp only [← hr']
    cases r' <;> rfl

theorem step_parsing {P : List Str} {d : Database} (op : DbOp) (hq : d.Quiet) (hp : parsingNow d = .ok P)
    (h : ∀ l, d.parsingCache = some l → l = P) : ∀ l, (op.step d).parsingCache = some l → l = P := by
  cases op with
  | addTable t b =>
    simp only [DbOp.step, Database.addTable]
    split
    · rename_i heq; split at heq
      · simp at heq
      · simp at heq; subst heq; exact h
    · exact h
  | removeTable n =>
    simp only [DbOp.step, Database.removeTable]
    split
    · rename_i heq; split at heq
      · simp at heq; subst heq; exact h
      · simp at heq
    · exact h
  | apply n op =>
    simp only [DbOp.step]
    cases hr : d.applyOperation n op with
    | ok d' =>
      unfold Database.applyOperation at hr
      split at hr
      · simp at hr
      · split at hr
        · simp at hr
        · simp at hr; subst hr; exact h
    | error e =>
      simp only
      split
      · exact h
      · exact h
  | readErrors =>
    intro l hl
    simp only [DbOp.step] at hl
    rcases errors_parsing d with he | he
    · exact h l (he ▸ hl)
    · rw [he] at hl
      obtain ⟨t1, t2, -, t4⟩ := findSchemaErrors_tables d
      generalize d.findSchemaErrors.2 = d₁ at *
      cases hc : d₁.parsingCache with
      | none =>
        have hq₁ : d₁.Quiet := (quiet_congr t1).mpr hq
        have := (findParsingErrors_quiet hq₁ hc).2 l hl
        have hsame : d₁.forget.findParsingErrors.1 = parsingNow d := by
          simp only [parsingNow, findParsingErrors, forget, t1, t2]
          obtain ⟨⟨a, b⟩, hab⟩ : ∃ x, x = askTables Found.parsing [] d.tables := ⟨_, rfl⟩
          simp only [← hab]
          cases a <;> rfl
        rw [hsame, hp] at this
        simpa using this.symm
      | some l' =>
        have h1 : d₁.findParsingErrors = (.ok l', d₁) := by simp only [findParsingErrors, hc]
        rw [h1] at hl
        exact h l (t4 ▸ hl)

/-- **C30** (partial).  After any history of `add_table`, `remove_table`, `apply_operation` and reads of `errors`,
`database.errors` is what a fresh computation on the current tables gives, as long as the errors found while reading
files stay the same and no column makes the checks raise.
Missing: histories which add or remove tables with errors found while reading (`C30_counterexample`). -/
theorem C30_partial (d : Database) (hnew : d.schemaCache = none) (hnew' : d.parsingCache = none) (P : List Str) (hist : List DbOp)
    (hs : Steady P d hist) :
    (DbOp.run d hist).errors.1 = (DbOp.run d hist).forget.errors.1 := by
  have key : ∀ (hist : List DbOp) (d : Database), Steady P d hist → (∀ l, d.parsingCache = some l → l = P) →
      (DbOp.run d hist).Quiet ∧ parsingNow (DbOp.run d hist) = .ok P ∧ ∀ l, (DbOp.run d hist).parsingCache = some l → l = P := by
    intro hist
    induction hist with
    | nil => intro d h h'; exact ⟨h.1, h.2, h'⟩
    | cons op hist ih => intro d h h'; exact ih (op.step d) h.2 (step_parsing op h.1.1 h.1.2 h')
  obtain ⟨hq, hp, hpc⟩ := key hist d hs (by intro l hl; rw [hnew'] at hl; simp at hl)
  have hsch := C30_schema_partial d hnew hist hq
  generalize DbOp.run d hist = d' at hq hp hpc hsch
  obtain ⟨f1, f2, f3, f4⟩ := findSchemaErrors_tables d'
  obtain ⟨g1, g2, g3, g4⟩ := findSchemaErrors_tables d'.forget
  unfold Database.errors
  obtain ⟨⟨r, d₁⟩, hr⟩ : ∃ x, x = d'.findSchemaErrors := ⟨_, rfl⟩
  obtain ⟨⟨r', d₂⟩, hr'⟩ : ∃ x, x = d'.forget.findSchemaErrors := ⟨_, rfl⟩
  simp only [← hr, ← hr'] at *
  subst hsch
  cases r with
  | error e => rfl
  | ok s =>
    have hq₁ : d₁.Quiet := (quiet_congr f1).mpr hq
    have hq₂ : d₂.Quiet := (quiet_congr g1).mpr hq
    have ps : ∀ {x : Database}, x.tables = d'.tables → x.rows = d'.rows → parsingNow x = .ok P := by
      intro x hx1 hx2
      rw [← hp]
      simp only [parsingNow, findParsingErrors, forget, hx1, hx2]
      obtain ⟨⟨a, b⟩, hab⟩ : ∃ x, x = askTables Found.parsing [] d'.tables := ⟨_, rfl⟩
      simp only [← hab]
      cases a <;> rfl
    have e1 : d₁.findParsingErrors.1 = .ok P := by
      cases hc : d₁.parsingCache with
      | none => rw [(findParsingErrors_quiet hq₁ hc).1]; exact ps f1 f2
      | some l =>
        have h1 : d₁.findParsingErrors = (.ok l, d₁) := by simp only [findParsingErrors, hc]
        rw [h1, hpc l (f4 ▸ hc)]
    have e2 : d₂.findParsingErrors.1 = .ok P := by
      have hc : d₂.parsingCache = none := g4
      rw [(findParsingErrors_quiet hq₂ hc).1]; exact ps g1 g2
    obtain ⟨⟨x, y⟩, hxy⟩ : ∃ x, x = d₁.findParsingErrors := ⟨_, rfl⟩
    obtain ⟨⟨x', y'⟩, hxy'⟩ : ∃ x, x = d₂.findParsingErrors := ⟨_, rfl⟩
    rw [← hxy] at e1
    rw [← hxy'] at e2
    simp only at e1 e2
    subst e1; subst e2
    simp only [← hxy, ← hxy']
    rfl

/-! ## C30, exactly -/

/-- once the parsing errors are known they stay -/
theorem step_parsing_stays {P : List Str} {d : Database} (op : DbOp) (h : d.parsingCache = some P) : (op.step d).parsingCache = some P := by
  cases op with
  | addTable t b =>
    simp only [DbOp.step, Database.addTable]
    split
    · rename_i heq; split at heq
      · simp at heq
      · simp at heq; subst heq; exact h
    · exact h
  | removeTable n =>
    simp only [DbOp.step, Database.removeTable]
    split
    · rename_i heq; split at heq
      · simp at heq; subst heq; exact h
      · simp at heq
    · exact h
  | apply n op =>
    simp only [DbOp.step, Database.applyOperation]
    split
    · rename_i heq
      split at heq
      · simp at heq
      · split at heq
        · simp at heq
        · simp at heq; subst heq; exact h
    · split <;> exact h
  | readErrors =>
    simp only [DbOp.step]
    have h1 := (findSchemaErrors_tables d).2.2.2
    rcases errors_parsing d with he | he
    · rw [he, h]
    · rw [he]
      rw [h] at h1
      have : d.findSchemaErrors.2.findParsingErrors = (.ok P, d.findSchemaErrors.2) := by simp only [findParsingErrors, h1]
      rw [this]
      exact h1

theorem run_parsing_stays {P : List Str} (hist : List DbOp) : ∀ {d : Database}, d.parsingCache = some P → (DbOp.run d hist).parsingCache = some P := by
  induction hist with
  | nil => exact fun h => h
  | cons op hist ih => exact fun h => ih (step_parsing_stays op h)

/-- `errors` in parts -/
theorem errors_parts {d : Database} {s p : List Str} (hs : d.findSchemaErrors.1 = .ok s) (hp : d.findSchemaErrors.2.findParsingErrors.1 = .ok p) :
    d.errors.1 = .ok (d.globalErrors ++ p ++ s) ∧
      d.errors.2 = d.findSchemaErrors.2.findParsingErrors.2 := by
  unfold Database.errors
  rcases hr : d.findSchemaErrors with ⟨r, d₁⟩
  rw [hr] at hs hp
  simp only at hs hp
  subst hs
  rcases hr' : d₁.findParsingErrors with ⟨r', d₂⟩
  rw [hr'] at hp
  simp only at hp
  subst hp
  simp only [hr', and_self]

theorem parsingNow_congr {d d' : Database} (h : d'.tables = d.tables) (h' : d'.rows = d.rows) : parsingNow d' = parsingNow d := by
  simp only [parsingNow, findParsingErrors, forget, h, h']
  rcases askTables Found.parsing [] d.tables with ⟨a, b⟩
  cases a <;> rfl

/-- **C30**, exactly.  Read `errors` of a new database, then do whatever you want with it: `errors` is what a fresh computation gives if
and only if the errors found while reading the files of the tables which are there now are those of the tables which were there at the
first read.  (For databases without columns whose checks raise.) -/
theorem C30_iff (d : Database) (hnew : d = d.forget) (hist : List DbOp) (P s P' s' : List Str) (hq : d.Quiet)
    (hq' : (DbOp.run d (.readErrors :: hist)).Quiet) (hs : d.findSchemaErrors.1 = .ok s) (hp : d.findParsingErrors.1 = .ok P)
    (hs' : (DbOp.run d (.readErrors :: hist)).forget.findSchemaErrors.1 = .ok s')
    (hp' : (DbOp.run d (.readErrors :: hist)).forget.findParsingErrors.1 = .ok P') :
    (DbOp.run d (.readErrors :: hist)).errors.1 = (DbOp.run d (.readErrors :: hist)).forget.errors.1 ↔ P' = P := by
  have hcs : d.schemaCache = none := by rw [hnew]; rfl
  have hcp : d.parsingCache = none := by rw [hnew]; rfl
  have hread : d.errors.2.parsingCache = some P := by
    obtain ⟨f1, f2, f3, f4⟩ := findSchemaErrors_tables d
    have hq₁ : d.findSchemaErrors.2.Quiet := (quiet_congr f1).mpr hq
    have hc₁ : d.findSchemaErrors.2.parsingCache = none := by rw [f4, hcp]
    have h1 : d.findSchemaErrors.2.findParsingErrors.1 = .ok P := by
      rw [(findParsingErrors_quiet hq₁ hc₁).1]
      show parsingNow _ = _
      rw [parsingNow_congr f1 f2]
      show d.forget.findParsingErrors.1 = _
      rw [← hnew]; exact hp
    rw [(errors_parts hs h1).2]
    generalize d.findSchemaErrors.2 = d₁ at *
    revert h1
    unfold findParsingErrors
    simp only [hc₁]
    rcases askTables Found.parsing d₁.checked d₁.tables with ⟨a, b⟩
    cases a with
    | error e => intro h; cases h
    | ok te => intro h; simpa using h
  have hstay : (DbOp.run d (.readErrors :: hist)).parsingCache = some P := run_parsing_stays hist (d := d.errors.2) hread
  have hsch := C30_schema_partial d hcs (.readErrors :: hist) hq'
  generalize DbOp.run d (.readErrors :: hist) = d' at hq' hs' hp' hstay hsch
  rw [hs'] at hsch
  have e1 : d'.errors.1 = .ok (d'.globalErrors ++ P ++ s') := by
    refine (errors_parts hsch ?_).1
    have f4 := (findSchemaErrors_tables d').2.2.2
    simp only [findParsingErrors, f4, hstay]
  have e2 : d'.forget.errors.1 = .ok (d'.globalErrors ++ P' ++ s') := by
    obtain ⟨f1, f2, f3, f4⟩ := findSchemaErrors_tables d'.forget
    have hqf : d'.forget.Quiet := hq'
    have hq₁ : d'.forget.findSchemaErrors.2.Quiet := (quiet_congr f1).mpr hqf
    have hc₁ : d'.forget.findSchemaErrors.2.parsingCache = none := by rw [f4]; rfl
    refine (errors_parts hs' ?_).1
    rw [(findParsingErrors_quiet hq₁ hc₁).1]
    show parsingNow _ = _
    rw [parsingNow_congr f1 f2]
    exact hp'
  rw [e1, e2]
  simp only [Except.ok.injEq, List.append_cancel_right_eq, List.append_cancel_left_eq]
  exact eq_comm

/-! ## C33 -/

theorem askTables_mem (part : Found → List Str) : ∀ (l : Dict Table) (checked : List Str) (errs : List Str),
    (askTables part checked l).1 = .ok errs → ∀ n t, (n, t) ∈ l →
    (∀ m, t.findAll.raised ≠ some (.attributeError m)) → ∀ e ∈ part t.findAll, e ∈ errs
  | [], _, _, _, n, t, h, _ => by simp at h
  | (n', t') :: l, checked, errs, h, n, t, hm, hr => by
    simp only [askTables] at h
    cases ha : askTable part checked n' t' with
    | error e => simp [ha] at h
    | ok es =>
      simp only [ha] at h
      cases hrest : (askTables part (setAdd checked n') l).1 with
      | error e => simp [hrest, Except.map] at h
      | ok more =>
        simp only [hrest, Except.map, Except.ok.injEq] at h
        subst h
        intro e he
        rcases List.mem_cons.mp hm with heq | hm
        · simp only [Prod.mk.injEq] at heq
          obtain ⟨rfl, rfl⟩ := heq
          apply List.mem_append_left
          unfold askTable at ha
          split at ha
          · simp at ha; exact ha ▸ he
          · split at ha
            · simp at ha; exact ha ▸ he
            · rename_i m hm'; exact absurd hm' (hr m)
            · simp at ha
        · exact List.mem_append_right _ (askTables_mem part l _ more hrest n t hm hr e he)

omit [PyNum] in
theorem runChecks_error : ∀ (l : List (Except PyErr (List Str))) (e : PyErr), (Column.runChecks l).2 = some e → .error e ∈ l
  | [], e, h => by simp [Column.runChecks] at h
  | .error e' :: l, e, h => by simp [Column.runChecks] at h; subst h; simp
  | .ok x :: l, e, h => by
    simp only [Column.runChecks] at h
    exact List.mem_cons_of_mem _ (runChecks_error l e h)

omit [PyNum] in
theorem check_ne {b : Bool} {m : Str} {e : PyErr} : Column.check b m ≠ .error e := by simp [Column.check]

/-- what the checks of a column may raise -/
theorem schemaCheck_raises {c : Column} {e : PyErr} (h : c.schemaCheck.2 = some e) :
    (c.cls = .date ∨ ∀ m, e ≠ .attributeError m) ∧ (c.Checkable → ∃ m, e = .attributeError m) := by
  have hm := runChecks_error _ e h
  cases hc : c.cls with
  | numeric =>
    simp only [hc, Column.numericChecks, Column.baseChecks, List.mem_append, List.mem_cons, List.not_mem_nil, or_false,
      eq_comm (a := Except.error e), check_ne, false_or] at hm
    rcases hm with hm | hm
    · unfold Column.numericDefaultChecks at hm
      split at hm
      · simp [check_ne, eq_comm (a := Except.error e)] at hm
      · rename_i hstr
        simp only [List.mem_cons, List.not_mem_nil, or_false, eq_comm (a := Except.error e), check_ne, false_or] at hm
        split at hm
        · rename_i hbit
          split at hm
          · rename_i hd
            simp at hm; subst hm
            refine ⟨.inr (by simp), ?_⟩
            intro hck
            simp only [Column.Checkable, hc] at hck
            obtain ⟨x, hx, _⟩ := hck hbit
            rw [hx] at hd; simp at hd
          · rename_i d hd
            split at hm
            · rename_i hi
              simp at hm; subst hm
              refine ⟨.inr (by simp), ?_⟩
              intro hck
              simp only [Column.Checkable, hc] at hck
              obtain ⟨x, hx, hn⟩ := hck hbit
              rw [hx] at hd; simp at hd; subst hd
              rcases hn with hn | hn
              · exact absurd hi hn
              · exact absurd (by simp [Column.defaultType, hx, hi, hn]) hstr
            · exact absurd hm check_ne
        · simp at hm
    · split at hm
      · split at hm
        · exact absurd hm check_ne
        · exact absurd hm check_ne
      · simp at hm
  | string =>
    simp only [hc, Column.stringChecks, Column.baseChecks, List.mem_append, List.mem_cons, List.not_mem_nil, or_false,
      eq_comm (a := Except.error e), check_ne, false_or] at hm
    split at hm <;> simp at hm
  | date =>
    refine ⟨.inl rfl, ?_⟩
    intro hck
    simp only [Column.Checkable, hc] at hck
    simp only [hc, Column.dateChecks, Column.baseChecks, List.mem_append, List.mem_cons, List.not_mem_nil, or_false,
      eq_comm (a := Except.error e), check_ne, false_or, hck, Bool.false_eq_true, if_false] at hm
    rcases hm with hm | hm
    · simp at hm
    · simp at hm; exact ⟨_, hm.symm⟩
  | enum =>
    simp only [hc, Column.enumChecks, Column.stringChecks, Column.baseChecks, List.mem_append, List.mem_cons, List.not_mem_nil, or_false,
      eq_comm (a := Except.error e), check_ne, false_or] at hm
    rcases hm with hm | hm | hm
    · split at hm <;> simp at hm
    · split at hm
      · simp at hm
      · rename_i d hd
        split at hm
        · rename_i hv
          simp at hm; subst hm
          refine ⟨.inr (by simp), ?_⟩
          intro hck
          simp only [Column.Checkable, hc] at hck
          rcases hck.2 with h | h | h
          · rw [h] at hd; simp [Column.nonEmpty] at hd
          · rw [h] at hd; simp [Column.nonEmpty] at hd
          · exact absurd hv h
        · exact absurd hm check_ne
    · split at hm
      · rename_i ha
        simp at hm; subst hm
        refine ⟨.inr (by simp), ?_⟩
        intro hck
        simp only [Column.Checkable, hc] at hck
        rw [hck.1] at ha; simp at ha
      · simp at hm

theorem columnErrors_raised {t : Table} : ∀ {cs : List Column} {e : PyErr}, (t.columnErrors cs).2.2 = some e →
    ∃ c ∈ cs, c.schemaCheck.2 = some e
  | [], e, h => by simp [columnErrors] at h
  | c :: cs, e, h => by
    simp only [columnErrors] at h
    obtain ⟨⟨s, r⟩, hs⟩ : ∃ x, x = c.schemaCheck := ⟨_, rfl⟩
    simp only [← hs] at h
    cases r with
    | some e' =>
      simp only [Option.some.injEq] at h
      exact ⟨c, by simp, by rw [← hs, h]⟩
    | none =>
      obtain ⟨c', hc', h'⟩ := columnErrors_raised h
      exact ⟨c', List.mem_cons_of_mem _ hc', h'⟩

theorem findAll_raised {t : Table} {e : PyErr} (h : t.findAll.raised = some e) : ∃ c ∈ t.columns.values, c.schemaCheck.2 = some e := by
  obtain ⟨⟨s, p, r⟩, hs⟩ : ∃ x, x = t.columnErrors t.columns.values := ⟨_, rfl⟩
  simp only [findAll, ← hs] at h
  cases r with
  | none => simp at h
  | some e' =>
    simp only [Option.some.injEq] at h
    exact columnErrors_raised (by rw [← hs, h])

theorem findAll_structure {t : Table} (h : t.findAll.raised = none) : ∀ e ∈ t.structureErrors, e ∈ t.findAll.schema := by
  intro e he
  obtain ⟨⟨s, p, r⟩, hs⟩ : ∃ x, x = t.columnErrors t.columns.values := ⟨_, rfl⟩
  simp only [findAll, ← hs] at h ⊢
  cases r with
  | some e' => simp at h
  | none => exact List.mem_append_right _ he

/-- the structure errors of a table without date columns are among the errors of the database -/
theorem errors_structure {d : Database} (hnew : d.schemaCache = none) {errs : List Str} (h : d.errors.1 = .ok errs)
    {n : Str} {t : Table} (ht : (n, t) ∈ d.tables) (hchk : d.checked = []) (hdup : d.tables.keys.Nodup)
    (hdate : ∀ c ∈ t.columns.values, c.cls ≠ .date) : ∀ e ∈ t.structureErrors, e ∈ errs := by
  have hattr : ∀ m, t.findAll.raised ≠ some (.attributeError m) := by
    intro m hm
    obtain ⟨c, hc, hr⟩ := findAll_raised hm
    rcases (schemaCheck_raises hr).1 with h | h
    · exact hdate c hc h
    · exact h m rfl
  unfold Database.errors at h
  obtain ⟨⟨r, d₁⟩, hr⟩ : ∃ x, x = d.findSchemaErrors := ⟨_, rfl⟩
  simp only [← hr] at h
  cases r with
  | error e => simp at h
  | ok s =>
    simp only at h
    obtain ⟨⟨r', d₂⟩, hr'⟩ : ∃ x, x = d₁.findParsingErrors := ⟨_, rfl⟩
    simp only [← hr'] at h
    cases r' with
    | error e => simp at h
    | ok p =>
      simp only [Except.ok.injEq] at h
      subst h
      have hs1 : d.findSchemaErrors.1 = .ok s := by rw [← hr]
      simp only [findSchemaErrors, hnew] at hs1
      cases hfe : fkErrors d.tables with
      | error e => simp [hfe] at hs1
      | ok fe =>
        simp only [hfe] at hs1
        obtain ⟨⟨a, b⟩, hab⟩ : ∃ x, x = askTables Found.schema d.checked d.tables := ⟨_, rfl⟩
        simp only [← hab] at hs1
        cases a with
        | error e => simp at hs1
        | ok te =>
          simp only at hs1
          cases hre : rowErrors d.tables d.rows with
          | error e => simp [hre] at hs1
          | ok re =>
            simp only [hre, Except.ok.injEq] at hs1
            have hask : (askTables Found.schema d.checked d.tables).1 = .ok te := by rw [← hab]
            have hmem := askTables_mem Found.schema d.tables d.checked te hask n t ht hattr
            -- the check of the table did not raise, or the database would have
            have hnone : t.findAll.raised = none := by
              cases hrr : t.findAll.raised with
              | none => rfl
              | some e =>
                exfalso
                have gen : ∀ (l : Dict Table) (checked errs : List Str), l.keys.Nodup → (∀ k ∈ l.keys, k ∉ checked) → (n, t) ∈ l →
                    (askTables Found.schema checked l).1 ≠ .ok errs := by
                  intro l
                  induction l with
                  | nil => intro _ _ _ _ h; simp at h
                  | cons x l ih =>
                    intro checked errs hnd hck hm hok
                    obtain ⟨k, u⟩ := x
                    simp only [Dict.keys_cons, List.nodup_cons] at hnd
                    simp only [askTables] at hok
                    rcases List.mem_cons.mp hm with heq | hm
                    · simp only [Prod.mk.injEq] at heq
                      obtain ⟨rfl, rfl⟩ := heq
                      have hnc : n ∉ checked := hck n (by simp)
                      have : ∃ e', askTable Found.schema checked n t = .error e' := by
                        unfold askTable
                        simp only [List.contains_eq_mem, hnc, decide_false, Bool.false_eq_true, if_false, hrr]
                        cases e with
                        | attributeError m => exact absurd hrr (hattr m)
                        | _ => exact ⟨_, rfl⟩
                      obtain ⟨e', he'⟩ := this
                      simp [he'] at hok
                    · cases hau : askTable Found.schema checked k u with
                      | error e' => simp [hau] at hok
                      | ok es =>
                        simp only [hau] at hok
                        cases hrest : (askTables Found.schema (setAdd checked k) l).1 with
                        | error e' => simp [hrest, Except.map] at hok
                        | ok more =>
                          refine ih (setAdd checked k) more hnd.2 ?_ hm hrest
                          intro j hj hjc
                          rcases mem_setAdd.mp hjc with rfl | hjc
                          · exact hnd.1 hj
                          · exact hck j (by simp [hj]) hjc
                exact gen d.tables d.checked te hdup (by rw [hchk]; simp) ht hask
            intro e he
            have := hmem e (findAll_structure hnone e he)
            rw [← hs1]
            simp [this]

/-- **C33** (partial).  If `database.errors` returns, then for every table without date columns, whatever other
columns it has: an index on a missing column is reported; two primary keys are reported; two `AUTO_INCREMENT` columns
are reported; an `AUTO_INCREMENT` column without a primary key, or which is not the first column of the only primary
key, is reported.
Missing: tables with a date column, whose errors are not reported (`C33_counterexample`). -/
theorem C33_partial (d : Database) (hnew : d = d.forget) (hdup : d.tables.keys.Nodup) (errs : List Str) (h : d.errors.1 = .ok errs)
    (n : Str) (t : Table) (ht : (n, t) ∈ d.tables) (hdate : ∀ c ∈ t.columns.values, c.cls ≠ .date) :
    (∀ i ∈ t.indexes.values, ∀ c ∈ i.columns, c ∉ t.columns.keys →
      py"Table '" ++ t.name ++ py"' has index '" ++ i.name ++ py"' that references non-existent column '" ++ c ++ py"'" ∈ errs) ∧
    (1 < (t.indexes.values.filter Index.isPrimary).length → py"Table '" ++ t.name ++ py"' has more than one PRIMARY index" ∈ errs) ∧
    (1 < (t.columns.values.filter Column.isAutoInc).length → py"Table '" ++ t.name ++ py"' has more than one AUTO_INCREMENT column" ∈ errs) ∧
    (∀ a, t.columns.values.filter Column.isAutoInc = [a] →
      (t.indexes.values.filter Index.isPrimary = [] →
        py"Table '" ++ t.name ++ py"' has an AUTO_INCREMENT column but is missing the PRIMARY index" ∈ errs) ∧
      (∀ p c, t.indexes.values.filter Index.isPrimary = [p] → p.columns.head? = some c → c ≠ a.name →
        py"Mismatched indexes in table '" ++ t.name ++ py"': column '" ++ a.name ++ py"' is the AUTO_INCREMENT column but '" ++
          c ++ py"' is the PRIMARY index column" ∈ errs)) := by
  have hs : d.schemaCache = none := by rw [hnew]; rfl
  have hc : d.checked = [] := by rw [hnew]; rfl
  have key := errors_structure hs h ht hc hdup hdate
  refine ⟨?_, ?_, ?_, ?_⟩
  · intro i hi c hci hcc
    apply key
    unfold structureErrors
    apply List.mem_append_right
    rw [List.mem_flatMap]
    refine ⟨i, hi, List.mem_map.mpr ⟨c, ?_, rfl⟩⟩
    rw [List.mem_filter]
    exact ⟨hci, by simp [Dict.has_eq_false.mpr hcc]⟩
  · intro hp
    apply key
    unfold structureErrors
    apply List.mem_append_left
    apply List.mem_append_left
    rw [if_pos hp]
    simp
  · intro ha
    apply key
    unfold structureErrors
    apply List.mem_append_left
    apply List.mem_append_right
    match hl : t.columns.values.filter Column.isAutoInc, ha with
    | a :: b :: l, _ => simp
  · intro a ha
    refine ⟨?_, ?_⟩
    · intro hp
      apply key
      unfold structureErrors
      apply List.mem_append_left
      apply List.mem_append_right
      simp [ha, hp]
    · intro p c hp hpc hne
      apply key
      unfold structureErrors
      apply List.mem_append_left
      apply List.mem_append_right
      have hcs : p.columns.headD [] = c := by
        cases hcols : p.columns with
        | nil => rw [hcols] at hpc; simp at hpc
        | cons x xs => rw [hcols] at hpc; simp at hpc; simp [hpc]
      simp only [ha, hp, hcs, ne_eq, hne, not_false_eq_true, if_true, List.mem_singleton]

/-! ## C52 -/

omit [PyNum] in
theorem constraintLoop_ok {tables : Dict Table} : ∀ (l : List (Table × Constraint)) (seen : Dict Str),
    (∀ x ∈ l, ∃ r, findConstraintErrors tables x.1 x.2 = .ok r) → ∃ errs, constraintLoop tables l seen = .ok errs
  | [], _, _ => ⟨[], rfl⟩
  | (t, k) :: l, seen, h => by
    obtain ⟨r, hr⟩ := h (t, k) (by simp)
    have hstep : ∃ p, constraintStep tables t seen k = .ok p := by
      unfold constraintStep
      simp only [hr]
      split <;> exact ⟨_, rfl⟩
    obtain ⟨⟨e, s'⟩, hp⟩ := hstep
    obtain ⟨more, hm⟩ := constraintLoop_ok l s' (fun x hx => h x (List.mem_cons_of_mem _ hx))
    exact ⟨e ++ more, by simp [constraintLoop, hp, hm, Except.map]⟩

theorem askTables_ok (part : Found → List Str) : ∀ (l : Dict Table) (checked : List Str),
    (∀ t ∈ l.values, ∀ e, t.findAll.raised = some e → ∃ m, e = .attributeError m) →
    ∃ errs, (askTables part checked l).1 = .ok errs
  | [], _, _ => ⟨[], rfl⟩
  | (n, t) :: l, checked, h => by
    have ht := h t (by simp [Dict.values])
    have hask : ∃ es, askTable part checked n t = .ok es := by
      unfold askTable
      split
      · exact ⟨_, rfl⟩
      · cases hr : t.findAll.raised with
        | none => exact ⟨_, rfl⟩
        | some e =>
          obtain ⟨m, rfl⟩ := ht e hr
          exact ⟨_, rfl⟩
    obtain ⟨es, hes⟩ := hask
    obtain ⟨more, hm⟩ := askTables_ok part l (setAdd checked n) (fun x hx => h x (by
      simp only [Dict.values, List.map_cons, List.mem_cons] at hx ⊢; exact .inr hx))
    exact ⟨es ++ more, by simp [askTables, hes, hm, Except.map]⟩

omit [PyNum] in
theorem rowsLoop_ok {tables : Dict Table} : ∀ (l : List (Str × Rows)) (last : Option Table),
    (∀ x ∈ l, x.2.Named) → ∃ errs, rowsLoop tables l last = .ok errs
  | [], _, _ => ⟨[], rfl⟩
  | (n, r) :: l, last, h => by
    have hr : r.Named := h (n, r) (by simp)
    have hstep : ∃ p, rowsStep tables n r last = .ok p := by
      unfold rowsStep
      split
      · exact ⟨_, rfl⟩
      · split
        · exact ⟨_, rfl⟩
        · rename_i hz
          rw [hr (by simpa using hz)]
          cases last with
          | none => exact ⟨_, rfl⟩
          | some _ => exact ⟨_, rfl⟩
    obtain ⟨⟨e, l'⟩, hp⟩ := hstep
    obtain ⟨more, hm⟩ := rowsLoop_ok (tables := tables) l l' (fun x hx => h x (List.mem_cons_of_mem _ hx))
    exact ⟨e ++ more, by simp [rowsLoop, hp, hm, Except.map]⟩

/-- if the checks of the tables raise nothing but what is swallowed, `errors` returns a list -/
theorem errors_ok (d : Database) (htab : ∀ n t, (n, t) ∈ d.tables → t.Keyed ∧ t.IndexesHaveColumns ∧ t.CacheRight)
    (hraise : ∀ t ∈ d.tables.values, ∀ e, t.findAll.raised = some e → ∃ m, e = .attributeError m)
    (hrows : ∀ n rs r, (n, rs) ∈ d.rows → r ∈ rs → r.Named) :
    ∃ errs, d.errors.1 = .ok errs := by
  have h1 : ∃ s, d.findSchemaErrors.1 = .ok s := by
    unfold findSchemaErrors
    cases d.schemaCache with
    | some l => exact ⟨l, rfl⟩
    | none =>
      obtain ⟨fe, hfe⟩ : ∃ fe, fkErrors d.tables = .ok fe := by
        apply constraintLoop_ok
        rintro ⟨t, k⟩ hx
        simp only [allConstraints, List.mem_flatMap, List.mem_map, Prod.mk.injEq] at hx
        obtain ⟨t', ht', k', _, rfl, rfl⟩ := hx
        obtain ⟨n, hn⟩ := Dict.mem_values.mp ht'
        obtain ⟨r, hr, _⟩ := C27 d.tables (fun n t h => htab n t (Dict.mem_of_get? h)) t' (htab n t' hn) k'
        exact ⟨r, hr⟩
      obtain ⟨te, hte⟩ := askTables_ok Found.schema d.tables d.checked hraise
      obtain ⟨re, hre⟩ : ∃ re, rowErrors d.tables d.rows = .ok re := by
        apply rowsLoop_ok
        rintro ⟨n, r⟩ hx
        simp only [allRows, List.mem_flatMap, List.mem_map, Prod.mk.injEq] at hx
        obtain ⟨⟨n', rs⟩, h1, r', h2, rfl, rfl⟩ := hx
        exact hrows n' rs r' h1 h2
      obtain ⟨⟨a, b⟩, hab⟩ : ∃ x, x = askTables Found.schema d.checked d.tables := ⟨_, rfl⟩
      rw [← hab] at hte
      simp only at hte
      subst hte
      simp only [hfe, ← hab, hre]
      exact ⟨_, rfl⟩
  obtain ⟨s, hs⟩ := h1
  obtain ⟨t1, t2, -, -⟩ := findSchemaErrors_tables d
  unfold Database.errors
  obtain ⟨⟨r, d₁⟩, hr⟩ : ∃ x, x = d.findSchemaErrors := ⟨_, rfl⟩
  rw [← hr] at hs t1 t2
  simp only at hs t1 t2
  subst hs
  simp only [← hr]
  have h2 : ∃ p, d₁.findParsingErrors.1 = .ok p := by
    unfold findParsingErrors
    cases d₁.parsingCache with
    | some l => exact ⟨l, rfl⟩
    | none =>
      obtain ⟨te, hte⟩ := askTables_ok Found.parsing d₁.tables d₁.checked (by rw [t1]; exact hraise)
      obtain ⟨⟨a, b⟩, hab⟩ : ∃ x, x = askTables Found.parsing d₁.checked d₁.tables := ⟨_, rfl⟩
      rw [← hab] at hte
      simp only at hte
      subst hte
      simp only [← hab]
      exact ⟨_, rfl⟩
  obtain ⟨p, hp⟩ := h2
  obtain ⟨⟨r', d₂⟩, hr'⟩ : ∃ x, x = d₁.findParsingErrors := ⟨_, rfl⟩
  rw [← hr'] at hp
  simp only at hp
  subst hp
  simp only [← hr']
  exact ⟨_, rfl⟩

/-- **C52** (partial).  `database.errors` returns a list for every database whose columns can be checked, whose indexes
have columns, and whose INSERTs with rows name their columns (the readers make no others: `parseInsert_named`).
Missing: `BIT` columns without a default, enumerations with a default, `AUTO_INCREMENT` date columns
(`C52_counterexample`, `C52_iff`). -/
theorem C52_partial (d : Database) (htab : ∀ n t, (n, t) ∈ d.tables → t.Keyed ∧ t.IndexesHaveColumns ∧ t.CacheRight)
    (hcol : ∀ t ∈ d.tables.values, ∀ c ∈ t.columns.values, c.Checkable)
    (hrows : ∀ n rs r, (n, rs) ∈ d.rows → r ∈ rs → r.Named) :
    ∃ errs, d.errors.1 = .ok errs := by
  apply errors_ok d htab _ hrows
  intro t ht e he
  obtain ⟨c, hc, hr⟩ := findAll_raised he
  exact (schemaCheck_raises hr).2 (hcol t ht c hc)

/-! ## C52, exactly -/

omit [PyNum] in
/-- checks one of which raises -/
theorem runChecks_raises : ∀ {l : List (Except PyErr (List Str))}, (∃ e, Except.error e ∈ l) → ∃ e, (Column.runChecks l).2 = some e
  | [], h => by obtain ⟨e, he⟩ := h; cases he
  | .error e :: l, _ => ⟨e, rfl⟩
  | .ok x :: l, h => by
    obtain ⟨e, he⟩ := h
    obtain ⟨e', h'⟩ := runChecks_raises (l := l) ⟨e, by simpa using he⟩
    exact ⟨e', by simp [Column.runChecks, h']⟩

theorem date_check_raises {c : Column} (h : c.cls = .date) : ∃ e, c.schemaCheck.2 = some e := by
  unfold Column.schemaCheck
  simp only [h]
  exact runChecks_raises ⟨.attributeError py"values", by simp [Column.dateChecks]⟩

/-- a column which cannot be checked raises something which is not swallowed -/
theorem uncheckable_raises {c : Column} (h : ¬ c.Checkable) : ∃ e, c.schemaCheck.2 = some e ∧ ∀ m, e ≠ .attributeError m := by
  have fin : ∀ (_ : c.cls ≠ .date), (∃ e, c.schemaCheck.2 = some e) →
      ∃ e, c.schemaCheck.2 = some e ∧ ∀ m, e ≠ .attributeError m := by
    rintro hd ⟨e, he⟩
    exact ⟨e, he, (schemaCheck_raises he).1.resolve_left hd⟩
  cases hc : c.cls with
  | numeric =>
    apply fin (by simp [hc])
    simp only [Column.Checkable, hc, Classical.not_imp, not_exists, not_and, not_or, Classical.not_not] at h
    unfold Column.schemaCheck
    simp only [hc]
    apply runChecks_raises
    suffices hs : ∃ e, Except.error e ∈ c.numericDefaultChecks by
      obtain ⟨e, he⟩ := hs
      exact ⟨e, by simp [Column.numericChecks, he]⟩
    unfold Column.numericDefaultChecks
    cases hd : c.default with
    | none =>
      have : ¬ c.defaultType = .str := by simp [Column.defaultType, hd]
      rw [if_neg this]
      exact ⟨_, by rw [if_pos h.1]; simp; exact .inr rfl⟩
    | some d =>
      obtain ⟨hi, hf⟩ := h.2 d hd
      have : ¬ c.defaultType = .str := by
        simp only [Column.defaultType, hd, hi]
        cases hx : PyNum.float d with
        | none => exact absurd hx hf
        | some y => simp
      rw [if_neg this]
      exact ⟨_, by rw [if_pos h.1]; simp [hi]; exact .inr rfl⟩
  | string => exact absurd (by simp [Column.Checkable, hc]) h
  | date =>
    simp only [Column.Checkable, hc, Bool.not_eq_false] at h
    refine ⟨.nameError py"no_auto_increment", ?_, by simp⟩
    unfold Column.schemaCheck
    simp only [hc]
    simp [Column.dateChecks, Column.baseChecks, Column.check, Column.runChecks, h]
  | enum =>
    apply fin (by simp [hc])
    unfold Column.schemaCheck
    simp only [hc]
    apply runChecks_raises
    by_cases ha : c.isAutoInc
    · exact ⟨.nameError py"no_auto_increment", by simp [Column.enumChecks, ha]⟩
    · simp only [Column.Checkable, hc, ha, true_and, not_or, Classical.not_not, Bool.not_eq_true] at h
      obtain ⟨h1, h2, h3⟩ := h
      obtain ⟨d, hd⟩ : ∃ d, Column.nonEmpty c.default = some d := by
        cases hx : c.default with
        | none => exact absurd hx h1
        | some d =>
          cases d with
          | nil => exact absurd hx h2
          | cons a l => exact ⟨a :: l, by simp [Column.nonEmpty]⟩
      exact ⟨.typeError, by simp [Column.enumChecks, hd, h3]⟩

/-- the column on which the check of a table ends -/
theorem columnErrors_ends {t : Table} : ∀ {cs : List Column} {e : PyErr},
    (t.columnErrors cs).2.2 = some e ↔ ∃ pre c post, cs = pre ++ c :: post ∧ (∀ p ∈ pre, p.schemaCheck.2 = none) ∧ c.schemaCheck.2 = some e
  | [], e => by simp [columnErrors]
  | c :: cs, e => by
    have ih := columnErrors_ends (t := t) (cs := cs) (e := e)
    simp only [columnErrors]
    rcases hs : c.schemaCheck with ⟨s, r⟩
    cases r with
    | some e' =>
      simp only [Option.some.injEq]
      constructor
      · rintro rfl; exact ⟨[], c, cs, rfl, by simp, by simp [hs]⟩
      · rintro ⟨pre, c', post, heq, hpre, hc'⟩
        cases pre with
        | nil => simp at heq; rw [← heq.1, hs] at hc'; simpa using hc'
        | cons p pre => simp at heq; have := hpre p (by simp); rw [← heq.1, hs] at this; simp at this
    | none =>
      simp only
      rw [ih]
      constructor
      · rintro ⟨pre, c', post, rfl, hpre, hc'⟩
        exact ⟨c :: pre, c', post, rfl, by simp [hs]; simpa using hpre, hc'⟩
      · rintro ⟨pre, c', post, heq, hpre, hc'⟩
        cases pre with
        | nil => simp at heq; rw [← heq.1, hs] at hc'; simp at hc'
        | cons p pre =>
          simp at heq
          exact ⟨pre, c', post, heq.2, fun q hq => hpre q (by simp [hq]), hc'⟩

/-- the check of the table raises something which is not swallowed -/
theorem findAll_breaks {t : Table} : (∃ e, t.findAll.raised = some e ∧ ∀ m, e ≠ .attributeError m) ↔
    ∃ pre c post, t.columns.values = pre ++ c :: post ∧ (∀ p ∈ pre, p.cls ≠ .date) ∧ ¬ c.Checkable := by
  have hr : t.findAll.raised = (t.columnErrors t.columns.values).2.2 := by
    rcases hs : t.columnErrors t.columns.values with ⟨s, p, r⟩
    cases r <;> simp [findAll, hs]
  rw [hr]
  constructor
  · rintro ⟨e, he, hm⟩
    obtain ⟨pre, c, post, heq, hpre, hc⟩ := columnErrors_ends.mp he
    refine ⟨pre, c, post, heq, ?_, ?_⟩
    · intro p hp hd
      obtain ⟨e', h'⟩ := date_check_raises hd
      rw [hpre p hp] at h'; cases h'
    · intro hck
      obtain ⟨m, rfl⟩ := (schemaCheck_raises hc).2 hck
      exact hm m rfl
  · rintro ⟨pre, c, post, heq, hpre, hc⟩
    rw [heq]
    clear heq hr
    induction pre with
    | nil =>
      obtain ⟨e, he, hm⟩ := uncheckable_raises hc
      exact ⟨e, columnErrors_ends.mpr ⟨[], c, post, rfl, by simp, he⟩, hm⟩
    | cons p pre ih =>
      cases hp : p.schemaCheck.2 with
      | some e =>
        exact ⟨e, columnErrors_ends.mpr ⟨[], p, pre ++ c :: post, rfl, by simp, hp⟩,
          (schemaCheck_raises hp).1.resolve_left (hpre p (by simp))⟩
      | none =>
        obtain ⟨e, he, hm⟩ := ih (fun q hq => hpre q (by simp [hq]))
        obtain ⟨pre', c', post', heq, hpre', hc'⟩ := columnErrors_ends.mp he
        refine ⟨e, columnErrors_ends.mpr ⟨p :: pre', c', post', by simp [heq], ?_, hc'⟩, hm⟩
        simp [hp]; simpa using hpre'

theorem askTables_breaks (part : Found → List Str) : ∀ (l : Dict Table) (checked : List Str), l.keys.Nodup →
    (∀ n ∈ l.keys, n ∉ checked) →
    ((∃ e, (askTables part checked l).1 = .error e) ↔ ∃ t ∈ l.values, ∃ e, t.findAll.raised = some e ∧ ∀ m, e ≠ .attributeError m)
  | [], _, _, _ => by simp [askTables, Dict.values]
  | (n, t) :: l, checked, hnd, hck => by
    simp only [Dict.keys, List.map_cons, List.nodup_cons] at hnd
    have ih := askTables_breaks part l (setAdd checked n) hnd.2 (by
      intro k hk
      simp only [setAdd]
      have h1 := hck k (by simp only [Dict.keys, List.map_cons, List.mem_cons]; exact .inr hk)
      split
      · exact h1
      · simp only [List.mem_append, List.mem_singleton, not_or]
        exact ⟨h1, fun h => hnd.1 (h ▸ hk)⟩)
    have hn : checked.contains n = false := by
      have := hck n (by simp [Dict.keys])
      simpa using this
    have hv : Dict.values ((n, t) :: l) = t :: Dict.values l := rfl
    rw [hv]
    simp only [List.mem_cons, exists_eq_or_imp]
    rw [← ih]
    have hask : askTable part checked n t = match t.findAll.raised with
        | none => .ok (part t.findAll) | some (.attributeError _) => .ok [] | some e => .error e := by
      unfold askTable; rw [hn]; rfl
    simp only [askTables]
    rcases hr : askTables part (setAdd checked n) l with ⟨more, ch⟩
    cases ha : askTable part checked n t with
    | error e =>
      simp only
      constructor
      · intro _
        refine .inl ?_
        rw [hask] at ha
        split at ha
        · cases ha
        · cases ha
        · rename_i e' hne he'
          exact ⟨e', he', hne⟩
      · intro _; exact ⟨e, rfl⟩
    | ok es =>
      simp only
      constructor
      · rintro ⟨e, he⟩
        refine .inr ⟨e, ?_⟩
        cases more with
        | error x => simpa [Except.map] using he
        | ok x => simp [Except.map] at he
      · rintro (⟨e, he, hm⟩ | ⟨e, he⟩)
        · exfalso
          rw [hask, he] at ha
          cases e <;> first | exact hm _ rfl | cases ha
        · exact ⟨e, by subst he; rfl⟩

/-- **C52**, exactly.  On a database which has not been looked at yet, `database.errors` raises an exception if and only
if some table has a column which cannot be checked, and no date column before it (the check of a date column ends the
check of its table). -/
theorem C52_iff (d : Database) (hfresh : d.schemaCache = none ∧ d.checked = []) (hnd : d.tables.keys.Nodup)
    (htab : ∀ n t, (n, t) ∈ d.tables → t.Keyed ∧ t.IndexesHaveColumns ∧ t.CacheRight)
    (hrows : ∀ n rs r, (n, rs) ∈ d.rows → r ∈ rs → r.Named) :
    (∃ e, d.errors.1 = .error e) ↔
      ∃ t ∈ d.tables.values, ∃ pre c post, t.columns.values = pre ++ c :: post ∧ (∀ p ∈ pre, p.cls ≠ .date) ∧ ¬ c.Checkable := by
  have hask := askTables_breaks Found.schema d.tables d.checked hnd (by simp [hfresh.2])
  have hall : (∃ t ∈ d.tables.values, ∃ e, t.findAll.raised = some e ∧ ∀ m, e ≠ .attributeError m) ↔
      ∃ t ∈ d.tables.values, ∃ pre c post, t.columns.values = pre ++ c :: post ∧ (∀ p ∈ pre, p.cls ≠ .date) ∧ ¬ c.Checkable := by
    constructor
    · rintro ⟨t, ht, h⟩; exact ⟨t, ht, findAll_breaks.mp h⟩
    · rintro ⟨t, ht, h⟩; exact ⟨t, ht, findAll_breaks.mpr h⟩
  rw [← hall]
  constructor
  · rintro ⟨e, he⟩
    apply Classical.byContradiction
    intro hno
    have hraise : ∀ t ∈ d.tables.values, ∀ e, t.findAll.raised = some e → ∃ m, e = .attributeError m := by
      intro t ht e he
      apply Classical.byContradiction
      intro hm
      exact hno ⟨t, ht, e, he, fun m h => hm ⟨m, h⟩⟩
    obtain ⟨errs, h⟩ := errors_ok d htab hraise hrows
    rw [h] at he; cases he
  · intro h
    obtain ⟨e, he⟩ := hask.mpr h
    rcases hx : askTables Found.schema d.checked d.tables with ⟨a, b⟩
    rw [hx] at he
    simp only at he
    subst he
    have hs : ∃ e d', d.findSchemaErrors = (.error e, d') := by
      unfold findSchemaErrors
      simp only [hfresh.1]
      cases fkErrors d.tables with
      | error e' => exact ⟨_, _, rfl⟩
      | ok fe => simp only [hx]; exact ⟨_, _, rfl⟩
    obtain ⟨e', d', hs⟩ := hs
    exact ⟨e', by simp only [Database.errors, hs]⟩

/-- parsing errors come from the columns and constraints -/
theorem columnErrors_parsing {t : Table} : ∀ {cs : List Column}, (∀ c ∈ cs, c.parsingErrors = []) → (t.columnErrors cs).2.1 = []
  | [], _ => rfl
  | c :: cs, h => by
    have ih := columnErrors_parsing (t := t) (cs := cs) (fun x hx => h x (List.mem_cons_of_mem _ hx))
    have hc := h c (by simp)
    simp only [columnErrors]
    rcases c.schemaCheck with ⟨s, r⟩
    cases r with
    | some e => rfl
    | none => simp [hc, ih]

/-- **C33** is false for every table with a date column: whatever its indexes, primary keys and `AUTO_INCREMENT` columns
are, `database.errors` of the database with this table alone reports nothing (for a table whose file was read without
errors, whose columns can be checked, without foreign keys). -/
theorem C33_refuted (t : Table) (c : Column) (hc : c ∈ t.columns.values) (hdate : c.cls = .date)
    (hck : ∀ c ∈ t.columns.values, c.Checkable) (hread : ∀ c ∈ t.columns.values, c.parsingErrors = [])
    (hfk : t.constraints = []) :
    ({ tables := [(t.name, t)] } : Database).errors.1 = .ok [] := by
  have hex : ∃ m, t.findAll.raised = some (.attributeError m) := by
    have hr : t.findAll.raised = (t.columnErrors t.columns.values).2.2 := by
      rcases hs : t.columnErrors t.columns.values with ⟨s, p, r⟩
      cases r <;> simp [findAll, hs]
    cases hx : t.findAll.raised with
    | none =>
      exfalso
      rw [hr] at hx
      have : ∀ (cs : List Column), c ∈ cs → (t.columnErrors cs).2.2 ≠ none := by
        intro cs
        induction cs with
        | nil => intro h; cases h
        | cons a cs ih =>
          intro h
          simp only [columnErrors]
          rcases hs : a.schemaCheck with ⟨s, r⟩
          cases r with
          | some e => simp
          | none =>
            rcases List.mem_cons.mp h with rfl | h
            · obtain ⟨e, he⟩ := date_check_raises hdate
              rw [hs] at he; cases he
            · simpa using ih h
      exact this _ hc hx
    | some e =>
      obtain ⟨c', hc', he⟩ := findAll_raised hx
      obtain ⟨m, rfl⟩ := (schemaCheck_raises he).2 (hck c' hc')
      exact ⟨m, rfl⟩
  obtain ⟨m, hm⟩ := hex
  have hp : t.findAll.parsing = [] := by
    have := columnErrors_parsing (t := t) hread
    rcases hs : t.columnErrors t.columns.values with ⟨s, p, r⟩
    rw [hs] at this
    simp only at this
    subst this
    cases r <;> simp [findAll, hs, hfk, show Dict.values ([] : Dict Constraint) = [] from rfl]
  have h1 : fkErrors [(t.name, t)] = .ok [] := by
    simp [fkErrors, allConstraints, Dict.values, hfk, constraintLoop]
  simp [Database.errors, findSchemaErrors, findParsingErrors, h1, askTables, askTable, hm, hp, rowErrors, allRows, rowsLoop,
    rowParsingErrors, setAdd, Except.map]

end

namespace Examples
attribute [local instance] exactNum

/-- a table with an index on a missing column -/
def broken : Table := mk py"broken" [idCol] [pk, key py"nope" [py"missing"]] []

/-- the same with a date column -/
def brokenDate : Table := mk py"broken" [{ idCol with collation := some py"utf8" }, { cls := .date, name := py"at", ctype := py"DATETIME", len := .none }] [pk, key py"nope" [py"missing"]] []

/-- a table whose file had an error -/
def unread : Table := mk py"unread" [{ idCol with parsingErrors := [py"oops"] }] [pk] []

/-- the files hold one table -/
def small : Database := { tables := [(py"posts", mk py"posts" [idCol] [pk] [])] }

/-- **C30**: after `remove_table`, the errors of the removed table's file are still reported. -/
theorem C30_counterexample :
    let d := DbOp.run small [.addTable unread false, .readErrors, .removeTable py"unread"]
    d.errors.1 ≠ d.forget.errors.1 := by decide

/-- the hypotheses of `C30_iff` hold, for a history where the errors are wrong: `P` is the error of the file, `P'` is empty -/
example :
    let d : Database := { small with tables := small.tables.set py"unread" unread }
    let d' := DbOp.run d [.readErrors, .removeTable py"unread"]
    d = d.forget ∧ d.Quiet ∧ d'.Quiet ∧ d.findSchemaErrors.1 = .ok [] ∧
      d.findParsingErrors.1 = .ok [py"oops in table 'unread'"] ∧ d'.forget.findSchemaErrors.1 = .ok [] ∧ d'.forget.findParsingErrors.1 = .ok [] := by
  simp only [Database.Quiet]
  decide

/-- **C30**: a table with a date column reports its errors only when it is asked a second time. -/
theorem C30_counterexample_date :
    let d := DbOp.run small [.addTable brokenDate true]
    d.findSchemaErrors.1 ≠ d.forget.findSchemaErrors.1 := by decide

/-- the hypotheses of `C30_partial` hold for a history in which errors come and go -/
example : Steady [] small [.addTable broken false, .readErrors, .removeTable py"broken", .readErrors,
    .apply py"posts" (.addColumn (textCol py"title" py"20") .last)] := by
  simp only [Steady, Database.Quiet, parsingNow]
  decide

/-- the errors differ along that history -/
example : (DbOp.run small [.addTable broken false, .readErrors]).errors.1 ≠
    (DbOp.run small [.addTable broken false, .readErrors, .removeTable py"broken"]).errors.1 := by decide

/-- **C33**: the index on a missing column is not reported. -/
theorem C33_counterexample : ({ tables := [(py"broken", brokenDate)] } : Database).errors.1 = .ok [] := by decide

/-- the hypotheses of `C33_refuted` hold for a table with an index on a missing column -/
example : ({ tables := [(py"broken", brokenDate)] } : Database).errors.1 = .ok [] :=
  C33_refuted brokenDate { cls := .date, name := py"at", ctype := py"DATETIME", len := .none } (by decide) rfl
    (by
      intro c hc
      simp only [brokenDate, mk, Dict.values, List.map_cons, List.map_nil, List.mem_cons, List.not_mem_nil, or_false] at hc
      rcases hc with rfl | rfl
      · simp [Column.Checkable, idCol, Column.columnType]; decide
      · simp [Column.Checkable, Column.isAutoInc])
    (by decide) (by decide)

/-- the hypotheses of `C33_partial` hold, and the first conclusion is not empty -/
example : ({ tables := [(py"broken", broken)] } : Database).errors.1 =
    .ok [py"Table 'broken' has index 'nope' that references non-existent column 'missing'"] := by decide

/-- **C52**: a `BIT` column without a default makes `errors` raise a `TypeError`. -/
theorem C52_counterexample :
    ({ tables := [(py"flags", mk py"flags" [idCol, { cls := .numeric, name := py"on", ctype := py"BIT", len := .str py"1" }] [pk] [])] } :
      Database).errors.1 = .error .typeError := by decide

/-- the hypotheses of `C52_iff` hold, and both outcomes occur: the `BIT` column is checked, or hidden by a date column -/
example : (∃ e, ({ tables := [(py"flags", mk py"flags" [idCol, { cls := .numeric, name := py"on", ctype := py"BIT", len := .str py"1" }] [pk] [])] } :
      Database).errors.1 = .error e) ∧
    ¬ (∃ e, ({ tables := [(py"flags", mk py"flags" [{ cls := .date, name := py"at", ctype := py"DATETIME", len := .none },
      { cls := .numeric, name := py"on", ctype := py"BIT", len := .str py"1" }] [key py"at" [py"at"]] [])] } :
      Database).errors.1 = .error e) := by
  constructor
  · rw [C52_iff _ ⟨rfl, rfl⟩ (by decide)]
    · refine ⟨_, List.mem_singleton.mpr rfl, [idCol], _, [], rfl, by simp [idCol], ?_⟩
      rintro h
      obtain ⟨_, h, _⟩ := h rfl
      cases h
    · intro n t h
      simp only [List.mem_singleton, Prod.mk.injEq] at h
      obtain ⟨rfl, rfl⟩ := h
      refine ⟨Table.keyed_of_check (by decide), by unfold Table.IndexesHaveColumns; decide, by simp [Table.CacheRight, mk]⟩
    · intro n rs r h; cases h
  · rw [C52_iff _ ⟨rfl, rfl⟩ (by decide)]
    · rintro ⟨t, ht, pre, c, post, heq, hpre, hc⟩
      simp only [Dict.values, List.map_cons, List.map_nil, List.mem_singleton] at ht
      subst ht
      simp only [mk, Dict.values, List.map_cons, List.map_nil] at heq
      cases pre with
      | nil =>
        simp at heq
        exact hc (by rw [← heq.1]; simp [Column.Checkable, Column.isAutoInc])
      | cons p pre =>
        simp at heq
        exact hpre p (by simp) (by rw [← heq.1])
    · intro n t h
      simp only [List.mem_singleton, Prod.mk.injEq] at h
      obtain ⟨rfl, rfl⟩ := h
      refine ⟨Table.keyed_of_check (by decide), by unfold Table.IndexesHaveColumns; decide, by simp [Table.CacheRight, mk]⟩
    · intro n rs r h; cases h

/-- the hypotheses of `C52_partial` hold for a database with errors, a date column and an INSERT -/
example : ∃ errs, ({ tables := [(py"broken", brokenDate)], rows := 
      [(py"broken", [⟨py"broken", [py"id"], [[.str py"1"]], 1, [], []⟩])] } : Database).errors.1 = .ok errs := by
  apply C52_partial
  · intro n t h
    simp only [List.mem_singleton, Prod.mk.injEq] at h
    obtain ⟨rfl, rfl⟩ := h
    refine ⟨Table.keyed_of_check (by decide), by unfold Table.IndexesHaveColumns; decide, by simp [Table.CacheRight, brokenDate, mk]⟩
  · intro t ht c hc
    simp only [Dict.values, List.map_cons, List.map_nil, List.mem_singleton] at ht
    subst ht
    simp only [brokenDate, mk, Dict.values, List.map_cons, List.map_nil, List.mem_cons, List.not_mem_nil, or_false] at hc
    rcases hc with rfl | rfl
    · simp [Column.Checkable, idCol, Column.columnType]; decide
    · simp [Column.Checkable, Column.isAutoInc]
  · intro n rs r h hr
    simp only [List.mem_singleton, Prod.mk.injEq] at h
    obtain ⟨rfl, rfl⟩ := h
    simp only [List.mem_singleton] at hr
    subst hr
    exact fun h => by cases h

end Examples

end Mygrations

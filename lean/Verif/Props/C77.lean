import Verif.Model.Warnings
import Verif.Model.Reader
import Verif.Props.C30

/-! # C77: the warnings name exactly the columns which have to be given a value -/

namespace Mygrations
open Database Table

/-! ## Specification -/

/-- An `INSERT` into the table has to give this column a value: it may not be null, has no default, is not counted up, and is not part of the
primary key (whose values are given anyway). -/
def NeedsValue (t : Table) (c : Column) : Prop :=
  c.null = false ∧ c.default = none ∧ c.isAutoInc = false ∧ ∀ i ∈ t.indexes.values, i.isPrimary = true → c.name ∉ i.columns

instance (t : Table) (c : Column) : Decidable (NeedsValue t c) := inferInstanceAs (Decidable (_ ∧ _ ∧ _ ∧ _))

/-- The warning about a column. -/
def needsValueText (t : Table) (c : Column) : Str :=
  py"Column " ++ c.name ++ py" does not allow null values and has no default: you should set a default to avoid warnings in table '" ++ t.name ++ py"'"

/-- All columns which have to be given a value, with their tables, in order. -/
def needy (tables : List Table) : List (Table × Column) :=
  tables.flatMap (fun t => (t.columns.values.filter (fun c => decide (NeedsValue t c))).map (fun c => (t, c)))

/-! ## Proofs -/

section
variable [PyNum]

theorem columnWarnings_quiet (t : Table) : ∀ {cs : List Column}, (∀ c ∈ cs, c.schemaCheck.2 = none) →
    t.columnWarnings cs = (cs.filter (fun c => decide (NeedsValue t c))).map (needsValueText t)
  | [], _ => rfl
  | c :: cs, h => by
    have ih := columnWarnings_quiet t (cs := cs) (fun x hx => h x (List.mem_cons_of_mem _ hx))
    have hc := h c List.mem_cons_self
    unfold columnWarnings
    cases hs : c.schemaCheck with
    | mk a b =>
    rw [hs] at hc
    cases hc
    simp only [ih]
    have hprim : t.primaryColumns.contains c.name = true ↔ ∃ i ∈ t.indexes.values, i.isPrimary = true ∧ c.name ∈ i.columns := by
      rw [List.contains_iff_mem]
      unfold primaryColumns
      simp only [List.mem_flatMap, List.mem_filter]
      exact ⟨fun ⟨i, ⟨a, b⟩, c⟩ => ⟨i, a, b, c⟩, fun ⟨i, a, b, c⟩ => ⟨i, ⟨a, b⟩, c⟩⟩
    by_cases hp : t.primaryColumns.contains c.name = true
    · have : ¬ NeedsValue t c := fun hn => by
        obtain ⟨i, hi, hip, hic⟩ := hprim.mp hp
        exact hn.2.2.2 i hi hip hic
      rw [if_pos hp, List.filter_cons_of_neg (by simpa using this)]
      rfl
    · rw [if_neg hp]
      unfold Column.schemaWarnings
      by_cases hw : (c.default.isNone && !c.null && !c.isAutoInc) = true
      · have hn : NeedsValue t c := by
          simp only [Bool.and_eq_true, Option.isNone_iff_eq_none, Bool.not_eq_true'] at hw
          refine ⟨hw.1.2, hw.1.1, hw.2, fun i hi hip hic => hp (hprim.mpr ⟨i, hi, hip, hic⟩)⟩
        rw [if_pos hw, List.filter_cons_of_pos (by simpa using hn)]
        simp [needsValueText, inTable]
      · have hn : ¬ NeedsValue t c := fun hn => hw (by simp [hn.2.1, hn.1, hn.2.2.1])
        rw [if_neg hw, List.filter_cons_of_neg (by simpa using hn)]
        rfl

theorem askWarnings_quiet : ∀ {tables : Dict Table} {checked : List Str}, (∀ t ∈ tables.values, ∀ c ∈ t.columns.values, c.schemaCheck.2 = none) →
    askWarnings checked tables = .ok ((needy tables.values).map (fun x => needsValueText x.1 x.2))
  | [], _, _ => rfl
  | (n, t) :: rest, checked, h => by
    have ht := h t List.mem_cons_self
    have ih := fun ch => askWarnings_quiet (tables := rest) (checked := ch) (fun x hx => h x (List.mem_cons_of_mem _ hx))
    unfold askWarnings
    have : (if checked.contains n then none else t.findAll.raised) = none := by
      rw [findAll_quiet ht]; simp
    rw [this]
    simp only [ih, Except.map, columnWarnings_quiet t ht]
    simp [needy, Dict.values, Function.comp_def]

/-! ## The properties -/

/-- **C77.**  If no check raises, then the warnings name exactly the columns of all tables which have to be given a value, in order. -/
theorem C77_partial (d : Database) (hq : d.Quiet) : d.schemaWarnings = .ok ((needy d.tables.values).map (fun x => needsValueText x.1 x.2)) :=
  askWarnings_quiet hq

end

/-! ## Tables with dates -/

section
variable [PyNum]

/-- The columns in front of the first date. -/
def untilDate (cs : List Column) : List Column := cs.takeWhile (fun c => decide (c.cls ≠ .date))

/-- The columns which have to be given a value, without those at or after the first date of their table. -/
def needyUntilDate (tables : List Table) : List (Table × Column) :=
  tables.flatMap (fun t => ((untilDate t.columns.values).filter (fun c => decide (NeedsValue t c))).map (fun c => (t, c)))

/-- The table has no date. -/
def Dateless (t : Table) : Prop := ∀ c ∈ t.columns.values, c.cls ≠ .date

instance (t : Table) : Decidable (Dateless t) := inferInstanceAs (Decidable (∀ _ ∈ _, _))

theorem check_quiet_of_not_date {c : Column} (hck : c.Checkable) (hd : c.cls ≠ .date) : c.schemaCheck.2 = none := by
  cases h : c.schemaCheck.2 with
  | none => rfl
  | some e =>
    obtain ⟨h1, h2⟩ := schemaCheck_raises h
    obtain ⟨m, rfl⟩ := h2 hck
    rcases h1 with h1 | h1
    · exact absurd h1 hd
    · exact absurd rfl (h1 m)

theorem columnWarnings_date (t : Table) : ∀ {cs : List Column}, (∀ c ∈ cs, c.Checkable) →
    t.columnWarnings cs = ((untilDate cs).filter (fun c => decide (NeedsValue t c))).map (needsValueText t) := by
  intro cs
  induction cs with
  | nil => intro _; rfl
  | cons c cs ih =>
    intro h
    have ih := ih (fun x hx => h x (List.mem_cons_of_mem _ hx))
    by_cases hd : c.cls = .date
    · obtain ⟨e, he⟩ := date_check_raises hd
      have hu : untilDate (c :: cs) = [] := by simp [untilDate, hd]
      rw [hu]
      unfold columnWarnings
      rcases hs : c.schemaCheck with ⟨a, b⟩
      rw [hs] at he
      simp only at he
      subst he
      rfl
    · have hq := check_quiet_of_not_date (h c List.mem_cons_self) hd
      have hu : untilDate (c :: cs) = c :: untilDate cs := by simp [untilDate, hd]
      have h1 := columnWarnings_quiet t (cs := [c]) (by intro x hx; simp only [List.mem_singleton] at hx; subst hx; exact hq)
      have h2 : t.columnWarnings (c :: cs) = t.columnWarnings [c] ++ t.columnWarnings cs := by
        rw [columnWarnings.eq_2 t c cs, columnWarnings.eq_2 t c []]
        rcases hs : c.schemaCheck with ⟨a, b⟩
        rw [hs] at hq
        simp only at hq
        subst hq
        simp only [columnWarnings, List.append_nil]
      rw [h2, h1, ih, hu]
      simp only [List.filter_cons, List.filter_nil]
      split <;> simp

theorem findAll_dateless {t : Table} (hck : ∀ c ∈ t.columns.values, c.Checkable) (hd : Dateless t) : t.findAll.raised = none :=
  findAll_quiet (fun c hc => check_quiet_of_not_date (hck c hc) (hd c hc))

theorem findAll_dated {t : Table} (hck : ∀ c ∈ t.columns.values, c.Checkable) (hd : ¬ Dateless t) : ∃ m, t.findAll.raised = some (.attributeError m) := by
  cases hx : t.findAll.raised with
  | some e =>
    obtain ⟨c', hc', he⟩ := findAll_raised hx
    obtain ⟨m, rfl⟩ := (schemaCheck_raises he).2 (hck c' hc')
    exact ⟨m, rfl⟩
  | none =>
    exfalso
    apply hd
    intro c hc hcd
    have hr : t.findAll.raised = (t.columnErrors t.columns.values).2.2 := by
      rcases hs : t.columnErrors t.columns.values with ⟨s, p, r⟩
      cases r <;> simp [findAll, hs]
    rw [hr] at hx
    have : ∀ (cs : List Column), c ∈ cs → (t.columnErrors cs).2.2 ≠ none := by
      intro cs
      induction cs with
      | nil => intro h; cases h
      | cons a cs ih =>
        intro h
        simp only [columnErrors]
        rcases hs : a.schemaCheck with ⟨s, r⟩
        cases r with
        | some e => simp
        | none =>
          rcases List.mem_cons.mp h with rfl | h
          · obtain ⟨e, he⟩ := date_check_raises hcd
            rw [hs] at he; cases he
          · simpa using ih h
    exact this _ hc hx

theorem askWarnings_fresh : ∀ (tables : Dict Table) (checked : List Str), (∀ t ∈ tables.values, ∀ c ∈ t.columns.values, c.Checkable) →
    tables.keys.Nodup → (∀ n ∈ tables.keys, n ∉ checked) →
    askWarnings checked tables = .ok ((needy (tables.values.filter (fun t => decide (Dateless t)))).map (fun x => needsValueText x.1 x.2))
  | [], _, _, _, _ => rfl
  | (n, t) :: rest, checked, h, hnd, hck => by
    have ht := h t List.mem_cons_self
    simp only [Dict.keys, List.map_cons, List.nodup_cons] at hnd
    have ih := askWarnings_fresh rest (setAdd checked n) (fun x hx => h x (List.mem_cons_of_mem _ hx)) hnd.2 (by
      intro k hk hm
      rcases mem_setAdd.mp hm with rfl | hm
      · exact hnd.1 hk
      · exact hck k (List.mem_cons_of_mem _ hk) hm)
    have hn : checked.contains n = false := by
      have := hck n List.mem_cons_self
      simpa using this
    unfold askWarnings
    simp only [hn, Bool.false_eq_true, if_false]
    by_cases hd : Dateless t
    · rw [findAll_dateless ht hd]
      simp only [ih, Except.map, columnWarnings_quiet t (fun c hc => check_quiet_of_not_date (ht c hc) (hd c hc))]
      simp [needy, Dict.values, Function.comp_def, hd]
    · obtain ⟨m, hm⟩ := findAll_dated ht hd
      rw [hm]
      simp only [ih]
      simp [Dict.values, hd]

theorem askWarnings_checked : ∀ (tables : Dict Table) (checked : List Str), (∀ t ∈ tables.values, ∀ c ∈ t.columns.values, c.Checkable) →
    (∀ n ∈ tables.keys, n ∈ checked) →
    askWarnings checked tables = .ok ((needyUntilDate tables.values).map (fun x => needsValueText x.1 x.2))
  | [], _, _, _ => rfl
  | (n, t) :: rest, checked, h, hck => by
    have ht := h t List.mem_cons_self
    have ih := askWarnings_checked rest (setAdd checked n) (fun x hx => h x (List.mem_cons_of_mem _ hx))
      (fun k hk => mem_setAdd.mpr (.inr (hck k (List.mem_cons_of_mem _ hk))))
    have hn : checked.contains n = true := List.contains_iff_mem.mpr (hck n List.mem_cons_self)
    unfold askWarnings
    simp only [hn, if_true]
    simp only [ih, Except.map, columnWarnings_date t ht]
    simp [needyUntilDate, Dict.values, Function.comp_def]

theorem askTables_marks (part : Found → List Str) : ∀ (l : Dict Table) (checked : List Str) (errs : List Str),
    (askTables part checked l).1 = .ok errs → ∀ n, n ∈ checked ∨ n ∈ l.keys → n ∈ (askTables part checked l).2 := by
  intro l
  induction l with
  | nil => intro checked errs _ n hn; simpa [askTables, Dict.keys] using hn
  | cons e l ih =>
    obtain ⟨k, t⟩ := e
    intro checked errs h n hn
    simp only [askTables] at h ⊢
    cases ha : askTable part checked k t with
    | error e => simp [ha] at h
    | ok es =>
      simp only [ha] at h ⊢
      rcases hr : askTables part (setAdd checked k) l with ⟨more, ch⟩
      rw [hr] at h
      cases more with
      | error e => simp [Except.map] at h
      | ok more =>
        have := ih (setAdd checked k) more (by rw [hr]) n (by
          rcases hn with hn | hn
          · exact .inl (mem_setAdd.mpr (.inr hn))
          · simp only [Dict.keys, List.map_cons, List.mem_cons] at hn
            rcases hn with rfl | hn
            · exact .inl (mem_setAdd.mpr (.inl rfl))
            · exact .inr hn)
        rw [hr] at this
        exact this

/-- **C77**, exactly, for a database which has not been looked at: the warnings name the columns which have to be given a value of all tables
without a date, and of no others. -/
theorem C77_fresh (d : Database) (hck : ∀ t ∈ d.tables.values, ∀ c ∈ t.columns.values, c.Checkable) (hc : d.checked = [])
    (hnd : d.tables.keys.Nodup) :
    d.schemaWarnings = .ok ((needy (d.tables.values.filter (fun t => decide (Dateless t)))).map (fun x => needsValueText x.1 x.2)) :=
  askWarnings_fresh _ _ hck hnd (by rw [hc]; simp)

/-- **C77**, exactly, once the errors have been asked for (as `check` does): of every table, the warnings name the columns which have to be given a
value in front of the first date. -/
theorem C77_after_errors (d : Database) (hck : ∀ t ∈ d.tables.values, ∀ c ∈ t.columns.values, c.Checkable) (hs : d.schemaCache = none)
    (errs : List Str) (he : d.errors.1 = .ok errs) :
    d.errors.2.schemaWarnings = .ok ((needyUntilDate d.tables.values).map (fun x => needsValueText x.1 x.2)) := by
  have hsub : ∀ n ∈ d.tables.keys, n ∈ d.errors.2.checked := by
    intro n hn
    unfold Database.errors at he ⊢
    rcases hf : d.findSchemaErrors with ⟨r, d₁⟩
    rw [hf] at he
    cases r with
    | error e => simp at he
    | ok s =>
      simp only at he ⊢
      have h1 : n ∈ d₁.checked ∧ d₁.tables = d.tables := by
        simp only [findSchemaErrors, hs] at hf
        cases hfk : fkErrors d.tables with
        | error e => simp [hfk] at hf
        | ok fe =>
          simp only [hfk] at hf
          rcases ha : askTables Found.schema d.checked d.tables with ⟨te, ch⟩
          rw [ha] at hf
          cases te with
          | error e => simp at hf
          | ok te =>
            simp only at hf
            cases hre : rowErrors d.tables d.rows with
            | error e => simp [hre] at hf
            | ok re =>
              simp only [hre, Prod.mk.injEq] at hf
              have := askTables_marks Found.schema d.tables d.checked te (by rw [ha]) n (.inr hn)
              rw [ha] at this
              rw [← hf.2]
              exact ⟨this, rfl⟩
      unfold findParsingErrors at he ⊢
      cases hp : d₁.parsingCache with
      | some l => simp only; exact h1.1
      | none =>
        rw [hp] at he
        simp only at he ⊢
        rcases ha : askTables Found.parsing d₁.checked d₁.tables with ⟨te, ch⟩
        rw [ha] at he
        cases te with
        | error e => simp at he
        | ok te =>
          simp only
          have := askTables_marks Found.parsing d₁.tables d₁.checked te (by rw [ha]) n (.inl h1.1)
          rw [ha] at this
          exact this
  have htab : d.errors.2.tables = d.tables := (errors_tables d).1
  unfold schemaWarnings
  rw [htab]
  exact askWarnings_checked _ _ hck hsub

theorem flatMap_length_le {α β : Type} {f g : α → List β} (h : ∀ a, (g a).length ≤ (f a).length) : ∀ l : List α, (l.flatMap g).length ≤ (l.flatMap f).length
  | [] => Nat.le_refl _
  | a :: l => by
    have := h a
    have := flatMap_length_le h l
    simp only [List.flatMap_cons, List.length_append]
    omega

theorem flatMap_length_eq {α β : Type} {f g : α → List β} (h : ∀ a, (g a).length ≤ (f a).length) : ∀ {l : List α}, (l.flatMap g).length = (l.flatMap f).length →
    ∀ a ∈ l, (g a).length = (f a).length
  | [], _, _, ha => by cases ha
  | b :: l, he, a, ha => by
    have h1 := h b
    have h2 := flatMap_length_le h l
    simp only [List.flatMap_cons, List.length_append] at he
    rcases List.mem_cons.mp ha with rfl | ha
    · omega
    · exact flatMap_length_eq h (by omega) a ha

theorem flatMap_filter {α β : Type} (f : α → List β) (p : α → Bool) : ∀ l : List α, (l.filter p).flatMap f = l.flatMap (fun a => if p a then f a else [])
  | [] => rfl
  | a :: l => by
    rw [List.flatMap_cons, ← flatMap_filter f p l]
    cases h : p a with
    | true => rw [List.filter_cons_of_pos h, List.flatMap_cons]; rfl
    | false => rw [List.filter_cons_of_neg (by rw [h]; simp)]; rfl

theorem flatMap_agree {α β : Type} {f g : α → List β} : ∀ {l : List α}, (∀ a ∈ l, f a = g a) → l.flatMap f = l.flatMap g
  | [], _ => rfl
  | a :: l, h => by
    rw [List.flatMap_cons, List.flatMap_cons, h a List.mem_cons_self, flatMap_agree (fun x hx => h x (List.mem_cons_of_mem _ hx))]

/-- **C77, exactly when**: as long as nothing else has been asked for, the warnings are right if and only if every column which has to be given a value is in
a table without dates. -/
theorem C77_iff (d : Database) (hck : ∀ t ∈ d.tables.values, ∀ c ∈ t.columns.values, c.Checkable) (hc : d.checked = []) (hnd : d.tables.keys.Nodup) :
    d.schemaWarnings = .ok ((needy d.tables.values).map (fun x => needsValueText x.1 x.2)) ↔
      ∀ t ∈ d.tables.values, ∀ c ∈ t.columns.values, NeedsValue t c → Dateless t := by
  rw [C77_fresh d hck hc hnd]
  unfold needy
  rw [flatMap_filter]
  constructor
  · intro h t ht c hct hn
    have hl := congrArg List.length (Except.ok.inj h)
    rw [List.length_map, List.length_map] at hl
    have := flatMap_length_eq (fun a => by split <;> simp) hl t ht
    by_cases hd : Dateless t
    · exact hd
    · exfalso
      rw [if_neg (by simpa using hd), List.length_map] at this
      have hm : c ∈ t.columns.values.filter (fun c => decide (NeedsValue t c)) := List.mem_filter.mpr ⟨hct, by simpa using hn⟩
      rw [List.eq_nil_of_length_eq_zero this.symm] at hm
      cases hm
  · intro h
    congr 2
    refine flatMap_agree (fun t ht => ?_)
    by_cases hd : Dateless t
    · rw [if_pos (by simpa using hd)]
    · rw [if_neg (by simpa using hd)]
      symm
      rw [List.map_eq_nil_iff, List.filter_eq_nil_iff]
      intro c hct hn
      exact hd (h t ht c hct (by simpa using hn))

/-- Once the errors have been asked for, they are right if and only if no column which has to be given a value comes after a date. -/
theorem C77_after_iff (d : Database) (hck : ∀ t ∈ d.tables.values, ∀ c ∈ t.columns.values, c.Checkable) (hs : d.schemaCache = none)
    (errs : List Str) (he : d.errors.1 = .ok errs) :
    d.errors.2.schemaWarnings = .ok ((needy d.tables.values).map (fun x => needsValueText x.1 x.2)) ↔
      ∀ t ∈ d.tables.values, ∀ pre day post, t.columns.values = pre ++ day :: post → day.cls = .date → ∀ c ∈ day :: post, ¬ NeedsValue t c := by
  rw [C77_after_errors d hck hs errs he]
  unfold needy needyUntilDate untilDate
  have split : ∀ (t : Table), (t.columns.values.filter (fun c => decide (NeedsValue t c))) =
      ((t.columns.values.takeWhile (fun c => decide (c.cls ≠ .date))).filter (fun c => decide (NeedsValue t c))) ++
      ((t.columns.values.dropWhile (fun c => decide (c.cls ≠ .date))).filter (fun c => decide (NeedsValue t c))) := by
    intro t
    rw [← List.filter_append, List.takeWhile_append_dropWhile]
  constructor
  · intro h t ht pre day post hcols hday c hct hn
    have hl := congrArg List.length (Except.ok.inj h)
    rw [List.length_map, List.length_map] at hl
    have h1 := flatMap_length_eq (fun a => by rw [List.length_map, List.length_map, split a, List.length_append]; omega) hl t ht
    rw [List.length_map, List.length_map, split t, List.length_append] at h1
    have h2 : (t.columns.values.dropWhile (fun c => decide (c.cls ≠ .date))).filter (fun c => decide (NeedsValue t c)) = [] :=
      List.eq_nil_of_length_eq_zero (by omega)
    rw [List.filter_eq_nil_iff] at h2
    refine h2 c ?_ (by simpa using hn)
    rw [hcols]
    clear h h1 h2 hl hcols
    induction pre with
    | nil => rw [List.nil_append, List.dropWhile_cons_of_neg (by simpa using hday)]; exact hct
    | cons x pre ih =>
      by_cases hx : x.cls = .date
      · rw [List.cons_append, List.dropWhile_cons_of_neg (by simpa using hx)]
        exact List.mem_cons_of_mem _ (List.mem_append_right _ hct)
      · rw [List.cons_append, List.dropWhile_cons_of_pos (by simpa using hx)]
        exact ih
  · intro h
    congr 2
    refine flatMap_agree (fun t ht => ?_)
    rw [split t]
    have h1 : (t.columns.values.dropWhile (fun c => decide (c.cls ≠ .date))).filter (fun c => decide (NeedsValue t c)) = [] := by
      rw [List.filter_eq_nil_iff]
      intro c hct hn
      cases hd : t.columns.values.dropWhile (fun c => decide (c.cls ≠ .date)) with
      | nil => rw [hd] at hct; cases hct
      | cons day post =>
        have hday : day.cls = .date := by
          have := List.head?_dropWhile_not (fun c : Column => decide (c.cls ≠ .date)) t.columns.values
          rw [hd] at this
          simpa using this
        have hcols := (List.takeWhile_append_dropWhile (p := fun c : Column => decide (c.cls ≠ .date)) (l := t.columns.values)).symm
        rw [hd] at hcols hct
        exact h t ht _ day post hcols hday c hct (by simpa using hn)
    rw [h1, List.append_nil]

end

/-! ## Examples and refutation -/

section Examples
attribute [local instance] exactNum

def warnedFiles (texts : List Str) : Database := match FileDatabase.new texts with | .ok d => d | .error _ => {}

/-- of the columns which may not be null, the primary key and the one with a default are left out -/
def warned : Database :=
  warnedFiles [py"CREATE TABLE a (id INT(10) NOT NULL, name VARCHAR(20) NOT NULL, kind VARCHAR(20) NOT NULL DEFAULT 'x', note VARCHAR(20), PRIMARY KEY (id));",
    py"CREATE TABLE b (id INT(10) NOT NULL, PRIMARY KEY (id), size INT(10) NOT NULL);"]

theorem warned_quiet : warned.Quiet := by unfold Database.Quiet; decide +kernel

example : warned.schemaWarnings = .ok ((needy warned.tables.values).map (fun x => needsValueText x.1 x.2)) ∧
    (needy warned.tables.values).map (fun x => (x.1.name, x.2.name)) = [(py"a", py"name"), (py"b", py"size")] :=
  ⟨C77_partial warned warned_quiet, by decide +kernel⟩

/-- the same table with a date -/
def warnedDate : Database := warnedFiles [py"CREATE TABLE a (id INT(10) NOT NULL, name VARCHAR(20) NOT NULL, day DATE, PRIMARY KEY (id));"]

/-- **C77 fails for tables with a date.**  Nothing is warned about, although a column has to be given a value; but once the errors have been asked for,
the warning is there. -/
theorem C77_refuted : (needy warnedDate.tables.values).map (fun x => x.2.name) = [py"name"] ∧ warnedDate.schemaWarnings = .ok [] ∧
    warnedDate.errors.1 = .ok [] ∧
    warnedDate.errors.2.schemaWarnings = .ok ((needy warnedDate.tables.values).map (fun x => needsValueText x.1 x.2)) := by
  refine ⟨?_, ?_, ?_, ?_⟩ <;> decide +kernel

/-- a table whose date comes between two columns which have to be given a value, and a table without dates -/
def warnedDates : Database := warnedFiles [py"CREATE TABLE a (id INT(10) NOT NULL, name VARCHAR(20) NOT NULL, day DATE, size INT(10) NOT NULL, PRIMARY KEY (id));",
  py"CREATE TABLE b (id INT(10) NOT NULL, PRIMARY KEY (id), weight INT(10) NOT NULL);"]

theorem warnedDates_checkable : ∀ t ∈ warnedDates.tables.values, ∀ c ∈ t.columns.values, c.Checkable := by
  have h : ∀ t ∈ warnedDates.tables.values, ∀ c ∈ t.columns.values, c.columnType ≠ py"BIT" ∧ c.cls ≠ .enum ∧ c.isAutoInc = false := by decide +kernel
  intro t ht c hc
  obtain ⟨h1, h2, h3⟩ := h t ht c hc
  unfold Column.Checkable
  cases hcl : c.cls with
  | numeric => exact fun hb => absurd hb h1
  | string => exact True.intro
  | date => exact h3
  | enum => exact absurd hcl h2

/-- at first the table with the date is left out; after the errors only what comes after the date is -/
example : (needy warnedDates.tables.values).map (fun x => x.2.name) = [py"name", py"size", py"weight"] ∧
    warnedDates.schemaWarnings = .ok ((needy (warnedDates.tables.values.filter (fun t => decide (Dateless t)))).map (fun x => needsValueText x.1 x.2)) ∧
    (needy (warnedDates.tables.values.filter (fun t => decide (Dateless t)))).map (fun x => x.2.name) = [py"weight"] ∧
    warnedDates.errors.2.schemaWarnings = .ok ((needyUntilDate warnedDates.tables.values).map (fun x => needsValueText x.1 x.2)) ∧
    (needyUntilDate warnedDates.tables.values).map (fun x => x.2.name) = [py"name", py"weight"] :=
  ⟨by decide +kernel, C77_fresh _ warnedDates_checkable (by decide +kernel) (by decide +kernel), by decide +kernel,
    C77_after_errors _ warnedDates_checkable (by decide +kernel) [] (by decide +kernel), by decide +kernel⟩

/-- both kinds of mistake occur: in front of a date, and after one -/
example : warnedDates.schemaWarnings ≠ .ok ((needy warnedDates.tables.values).map (fun x => needsValueText x.1 x.2)) ∧
    warnedDates.errors.2.schemaWarnings ≠ .ok ((needy warnedDates.tables.values).map (fun x => needsValueText x.1 x.2)) ∧
    warned.schemaWarnings = .ok ((needy warned.tables.values).map (fun x => needsValueText x.1 x.2)) := by
  refine ⟨fun h => ?_, fun h => ?_, ?_⟩
  · have := (C77_iff _ warnedDates_checkable (by decide +kernel) (by decide +kernel)).mp h
    revert this
    decide +kernel
  · have := (C77_after_iff _ warnedDates_checkable (by decide +kernel) [] (by decide +kernel)).mp h (warnedDates.tables.values.headD {}) (by decide +kernel)
      ((warnedDates.tables.values.headD {}).columns.values.take 2) (((warnedDates.tables.values.headD {}).columns.values.drop 2).headD { cls := .date, name := [], ctype := [] })
      ((warnedDates.tables.values.headD {}).columns.values.drop 3) (by decide +kernel) (by decide +kernel)
      (((warnedDates.tables.values.headD {}).columns.values.drop 3).headD { cls := .date, name := [], ctype := [] }) (by decide +kernel)
    exact this (by decide +kernel)
  · exact C77_partial _ warned_quiet

end Examples

end Mygrations

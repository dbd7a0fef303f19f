import Verif.Props.C78
import Verif.Props.C39
import Verif.Spec.Remarks

/-!
# C84: what `check` prints about the files
-/

namespace Mygrations
open Table Database

/-! ## Specification (with `remarksOf` of `Spec/Remarks` and `needyUntilDate` of C77) -/

/-- The remarks on the columns of a table in front of its first date, each with the name of the table. -/
def remarksUntilDate (t : Table) (r : Dict (List Str)) : List Str :=
  ((r.take (untilDate t.columns.values).length).flatMap (·.2)).map (fun m => m ++ py" in table '" ++ t.name ++ py"'")

/-- The remarks on the columns of all tables of these statements, and then the columns which have to be given a value. -/
def remarksUpon (ss : List Statement) : List Str :=
  ((tablesOf ss).zip (remarksOf ss)).flatMap (fun x => remarksUntilDate x.1 x.2.2) ++
    (needyUntilDate (tablesOf ss)).map (fun x => needsValueText x.1 x.2)

/-- All remarks on the columns of these statements, wherever the dates are. -/
def allRemarksUpon (ss : List Statement) : List Str :=
  ((tablesOf ss).zip (remarksOf ss)).flatMap (fun x => (x.2.2.flatMap (·.2)).map (fun m => m ++ py" in table '" ++ x.1.name ++ py"'")) ++
    (needy (tablesOf ss)).map (fun x => needsValueText x.1 x.2)

/-- What is to be seen: the errors and the remarks under their headings, or that there are none. -/
def report (errs remarks : List Str) : List Str :=
  match errs, remarks with
  | [], [] => [py"No problems found"]
  | e :: es, [] => py"Errors found in *.sql files:" :: e :: es
  | [], r :: rs => py"Warnings found in *.sql files:" :: r :: rs
  | e :: es, r :: rs => (py"Errors found in *.sql files:" :: e :: es) ++ (py"Warnings found in *.sql files:" :: r :: rs)

/-! ## Proofs -/

theorem SameColumn.checkable [PyNum] {a b : Column} (h : SameColumn a b) (hc : a.Checkable) : b.Checkable := by
  unfold Column.Checkable at hc ⊢
  rw [h.cls, h.type, h.default, h.autoInc, h.enumValues]
  exact hc

theorem readerWarnings_date [PyNum] (t : Table) : ∀ {cs : List Column}, (∀ c ∈ cs, c.Checkable) →
    t.readerWarnings cs = (untilDate cs).flatMap (fun c => c.parsingWarnings.map t.inTable) := by
  intro cs
  induction cs with
  | nil => intro _; rfl
  | cons c cs ih =>
    intro h
    have ih := ih (fun x hx => h x (List.mem_cons_of_mem _ hx))
    by_cases hd : c.cls = .date
    · obtain ⟨e, he⟩ := date_check_raises hd
      have hu : untilDate (c :: cs) = [] := by simp [untilDate, hd]
      rw [hu]
      unfold readerWarnings
      rcases hs : c.schemaCheck with ⟨a, b⟩
      rw [hs] at he
      simp only at he
      subst he
      rfl
    · have hq := check_quiet_of_not_date (h c List.mem_cons_self) hd
      have hu : untilDate (c :: cs) = c :: untilDate cs := by simp [untilDate, hd]
      rw [hu]
      unfold readerWarnings
      rcases hs : c.schemaCheck with ⟨a, b⟩
      rw [hs] at hq
      simp only at hq
      subst hq
      simp only [ih, List.flatMap_cons]

/-- the columns before the first date of two tables which are the same -/
theorem untilDate_paired : ∀ {a b : List (Str × Column)}, Paired (fun x y => y.1 = x.1 ∧ SameColumn x.2 y.2) a b →
    Paired SameColumn (untilDate (a.map (·.2))) (untilDate (b.map (·.2)))
  | _, _, .nil => .nil
  | _, _, .cons (a := x) (b := y) (as := as) (bs := bs) h hs => by
    have ih := untilDate_paired hs
    by_cases hd : x.2.cls = .date
    · have hy : y.2.cls = .date := by rw [h.2.cls, hd]
      have h1 : untilDate (((x :: as) : List (Str × Column)).map (·.2)) = [] := by simp [untilDate, hd]
      have h2 : untilDate (((y :: bs) : List (Str × Column)).map (·.2)) = [] := by simp [untilDate, hy]
      rw [h1, h2]
      exact .nil
    · have hy : y.2.cls ≠ .date := by rw [h.2.cls]; exact hd
      have h1 : untilDate (((x :: as) : List (Str × Column)).map (·.2)) = x.2 :: untilDate (as.map (·.2)) := by simp [untilDate, hd]
      have h2 : untilDate (((y :: bs) : List (Str × Column)).map (·.2)) = y.2 :: untilDate (bs.map (·.2)) := by simp [untilDate, hy]
      rw [h1, h2]
      exact .cons h.2 ih

theorem primaryColumns_paired : ∀ {a b : List (Str × Index)}, Paired (fun x y => y.1 = x.1 ∧ SameIndex x.2 y.2) a b →
    ∀ n : Str, (∀ i ∈ b.map (·.2), i.isPrimary = true → n ∉ i.columns) ↔ (∀ i ∈ a.map (·.2), i.isPrimary = true → n ∉ i.columns)
  | _, _, .nil, _ => by simp
  | _, _, .cons (a := x) (b := y) (as := as) (bs := bs) h hs, n => by
    have ih := primaryColumns_paired hs n
    have h1 : y.2.isPrimary = x.2.isPrimary := by unfold Index.isPrimary; rw [h.2.type]
    simp only [List.map_cons, List.forall_mem_cons, ih, h1, h.2.columns]

theorem NeedsValue.same {t t' : Table} {c c' : Column} (h : SameTable t t') (hc : SameColumn c c') : NeedsValue t' c' ↔ NeedsValue t c := by
  unfold NeedsValue
  have := primaryColumns_paired h.indexes c.name
  unfold Dict.values
  rw [hc.null, hc.default, hc.autoInc, hc.name, this]

theorem needyTexts_same {t t' : Table} (h : SameTable t t') : ∀ {cs cs' : List Column}, Paired SameColumn cs cs' →
    ((cs'.filter (fun c => decide (NeedsValue t' c))).map (fun c => (t', c))).map (fun x => needsValueText x.1 x.2) =
    ((cs.filter (fun c => decide (NeedsValue t c))).map (fun c => (t, c))).map (fun x => needsValueText x.1 x.2)
  | _, _, .nil => rfl
  | _, _, .cons (a := x) (b := y) hc hs => by
    have ih := needyTexts_same h hs
    have hn := NeedsValue.same h hc
    by_cases hx : NeedsValue t x
    · rw [List.filter_cons_of_pos (by simpa using hn.mpr hx), List.filter_cons_of_pos (by simpa using hx)]
      simp only [List.map_cons, ih]
      congr 1
      unfold needsValueText
      rw [hc.name, h.name]
    · rw [List.filter_cons_of_neg (by simpa using fun h => hx (hn.mp h)), List.filter_cons_of_neg (by simpa using hx)]
      exact ih

theorem take_noted (t : Table) (n : Nat) : (t.noted.take n).flatMap (·.2) = (t.columns.values.take n).flatMap Column.parsingWarnings := by
  unfold Table.noted Dict.values
  rw [← List.map_take, ← List.map_take, List.flatMap_map, List.flatMap_map]

theorem untilDate_take (cs : List Column) : cs.take (untilDate cs).length = untilDate cs := by
  induction cs with
  | nil => rfl
  | cons c cs ih =>
    by_cases hd : c.cls = .date
    · simp [untilDate, hd]
    · have hu : untilDate (c :: cs) = c :: untilDate cs := by simp [untilDate, hd]
      rw [hu, List.length_cons, List.take_succ_cons, ih]

/-- the warnings about tables which have been read as they were meant -/
theorem readerWarnings_same [PyNum] {t t' : Table} (h : SameTable t t') (hc : ∀ c ∈ t'.columns.values, c.Checkable) :
    t'.readerWarnings t'.columns.values = remarksUntilDate t t'.noted := by
  rw [readerWarnings_date t' hc]
  unfold remarksUntilDate
  have hl : (untilDate t.columns.values).length = (untilDate t'.columns.values).length := (untilDate_paired h.columns).length
  rw [hl, take_noted, untilDate_take, List.map_flatMap]
  congr 1
  funext c
  congr 1
  funext m
  unfold inTable
  rw [h.name]

section
variable [PyNum]

theorem tables_remarks : ∀ {ts : List Table} {dt : Dict Table} {rs : List (Str × Dict (List Str))}, Paired (fun t e => SameTable t e.2) ts dt →
    dt.map (fun e => (e.1, e.2.noted)) = rs → (∀ e ∈ dt, ∀ c ∈ e.2.columns.values, c.Checkable) →
    tableParsingWarnings dt = (ts.zip rs).flatMap (fun x => remarksUntilDate x.1 x.2.2)
  | _, _, _, .nil, rfl, _ => rfl
  | _, _, _, .cons (a := t) (b := e) (as := ts) (bs := dt) h hs, rfl, hc => by
    have ih := tables_remarks hs rfl (fun x hx => hc x (List.mem_cons_of_mem _ hx))
    have h1 := readerWarnings_same h (hc e List.mem_cons_self)
    unfold tableParsingWarnings at ih ⊢
    simp only [Dict.values, List.map_cons, List.flatMap_cons, List.zip_cons_cons] at ih ⊢
    rw [ih]
    congr 1

omit [PyNum] in
theorem tables_needy : ∀ {ts : List Table} {dt : Dict Table}, Paired (fun t e => SameTable t e.2) ts dt →
    (needyUntilDate dt.values).map (fun x => needsValueText x.1 x.2) = (needyUntilDate ts).map (fun x => needsValueText x.1 x.2)
  | _, _, .nil => rfl
  | _, _, .cons (a := t) (b := e) (as := ts) (bs := dt) h hs => by
    have ih := tables_needy hs
    unfold needyUntilDate at ih ⊢
    simp only [Dict.values, List.map_cons, List.flatMap_cons, List.map_append] at ih ⊢
    rw [ih]
    congr 1
    exact needyTexts_same h (untilDate_paired h.columns)

omit [PyNum] in
/-- what is read from the files -/
theorem sources_read : ∀ {sources : List Str} {sss : List (List Statement)}, Paired SourceFile sources sss → (∀ ss ∈ sss, Readable ss) →
    ((tablesOf sss.flatten).map (·.name)).Nodup →
    (∀ f ∈ sources, (readSource f).2 = none) ∧
    (sources.flatMap (fun f => (readSource f).1.tables)).map (fun e => (e.1, e.2.noted)) = remarksOf sss.flatten ∧
    sources.flatMap (fun f => (readSource f).1.tables.keys) = (tablesOf sss.flatten).map (·.name) ∧
    ∀ r ∈ sources.flatMap insertsIn, r.parsingWarnings = []
  | _, _, .nil, _, _ => ⟨fun _ h => (by cases h), rfl, rfl, fun _ h => (by cases h)⟩
  | _, _, .cons (a := f) (b := ss) (as := sources) (bs := sss) h hs, hr, hnd => by
    rw [List.flatten_cons, tablesOf_append, List.map_append] at hnd
    obtain ⟨n1, n2, _⟩ := List.nodup_append.mp hnd
    obtain ⟨i1, i2, i3, i4⟩ := sources_read hs (fun x hx => hr x (List.mem_cons_of_mem _ hx)) n2
    obtain ⟨st, hst, hra⟩ := file_read h (hr ss List.mem_cons_self)
    refine ⟨?_, ?_, ?_, ?_⟩
    · intro g hg
      rcases List.mem_cons.mp hg with rfl | hg
      · rw [hst]
      · exact i1 g hg
    · rw [List.flatMap_cons, List.map_append, i2, hst, hra.noted n1]
      simp [remarksOf]
    · rw [List.flatMap_cons, i3, hst, (hra.order n1).keys.1, List.flatten_cons, tablesOf_append, List.map_append]
    · intro r hr'
      rw [List.flatMap_cons, List.mem_append] at hr'
      rcases hr' with hr' | hr'
      · unfold insertsIn at hr'
        rw [hst] at hr'
        obtain ⟨rs, h1, h2⟩ := List.mem_flatMap.mp hr'
        obtain ⟨k, hk⟩ := Dict.mem_values.mp h1
        have := Dict.get?_of_mem hra.rowKeys hk
        rw [hra.rows] at this
        split at this
        · cases this
        · cases this
          obtain ⟨i, _, rfl⟩ := List.mem_map.mp h2
          rfl
      · exact i4 r hr'

omit [PyNum] in
theorem report_eq (errs warns : List Str) : (if errs = [] ∧ warns = [] then [py"No problems found"]
    else Command.headed py"Errors found in *.sql files:" errs ++ Command.headed py"Warnings found in *.sql files:" warns) = report errs warns := by
  cases errs <;> cases warns <;> simp [report, Command.headed]

/-! ## The properties -/

/-- **C84.**  For files which are written as they should be, with different tables and good rows, `check` prints the errors, and under another
heading exactly the remarks on the ways defaults are written and the columns which have to be given a value, in the order of the files; of a table
with a date only what is in front of the first date. -/
theorem C84_partial (sources : List Str) (sss : List (List Statement)) (hs : Paired SourceFile sources sss) (hr : ∀ ss ∈ sss, Readable ss)
    (hnd : ((tablesOf sss.flatten).map (·.name)).Nodup) (hg : GoodRows sss.flatten)
    (hc : ∀ t ∈ tablesOf sss.flatten, ∀ c ∈ t.columns.values, c.Checkable) :
    ∃ files errs, FileDatabase.new sources = .ok files ∧ files.errors.1 = .ok errs ∧
      Command.checkPrints sources = .ok (report errs (remarksUpon sss.flatten)) := by
  obtain ⟨ts, rows, hnew, hts⟩ := files_new sources sss hs hr hnd hg
  obtain ⟨q1, q2, q3, q4⟩ := sources_read hs hr hnd
  obtain ⟨a1, _, a3, _, a5, _⟩ := new_shape hnew q1 (by rw [q3]; exact hnd)
  have hsame : Paired (fun t e => SameTable t e.2) (tablesOf sss.flatten) ts := by
    have : ∀ {l : List Table} {dt : Dict Table}, Paired (fun t e => TableRead sss.flatten (!(insertsFor t.name sss.flatten).isEmpty) t e) l dt →
        Paired (fun t e => SameTable t e.2) l dt := by
      intro l dt h
      induction h with
      | nil => exact .nil
      | cons h _ ih => exact .cons h.same ih
    exact this hts
  have hck : ∀ e ∈ ts, ∀ c ∈ e.2.columns.values, c.Checkable := by
    have key : ∀ {a b : List (Str × Column)}, Paired (fun x y => y.1 = x.1 ∧ SameColumn x.2 y.2) a b → (∀ c ∈ a.map (·.2), c.Checkable) →
        ∀ c ∈ b.map (·.2), c.Checkable := by
      intro a b h
      induction h with
      | nil => intro h; exact h
      | cons h _ ih =>
        intro hh c hc
        rcases List.mem_cons.mp hc with rfl | hc
        · exact h.2.checkable (hh _ List.mem_cons_self)
        · exact ih (fun x hx => hh x (List.mem_cons_of_mem _ hx)) c hc
    have : ∀ {l : List Table} {dt : Dict Table}, Paired (fun t e => SameTable t e.2) l dt → (∀ t ∈ l, ∀ c ∈ t.columns.values, c.Checkable) →
        ∀ e ∈ dt, ∀ c ∈ e.2.columns.values, c.Checkable := by
      intro l dt h
      induction h with
      | nil => intro _ e he; cases he
      | cons h _ ih =>
        intro hh e he
        rcases List.mem_cons.mp he with rfl | he
        · exact key h.columns (hh _ List.mem_cons_self)
        · exact ih (fun x hx => hh x (List.mem_cons_of_mem _ hx)) e he
    exact this hsame hc
  have hck' : ∀ t ∈ ({ tables := ts, rows := rows } : Database).tables.values, ∀ c ∈ t.columns.values, c.Checkable := by
    intro t ht
    obtain ⟨k, hk⟩ := Dict.mem_values.mp ht
    exact hck _ hk
  obtain ⟨errs, he, _⟩ := C78_partial _ (new_fresh hnew q1 (by rw [q3]; exact hnd) hck')
  refine ⟨_, errs, hnew, he, ?_⟩
  have hw := C77_after_errors _ hck' a5 errs he
  have hnoted : ts.map (fun e => (e.1, e.2.noted)) = remarksOf sss.flatten := by
    rw [← q2]
    have h1 := congrArg (fun d : Database => d.tables.map (fun e => (e.1, e.2.noted))) a1
    simp only [Database.outline, List.map_map] at h1
    exact h1
  have hrow : rowParsingWarnings rows = [] := by
    unfold rowParsingWarnings
    rw [show rows = _ from a3]
    refine List.flatMap_eq_nil_iff.mpr (fun e he => List.flatMap_eq_nil_iff.mpr (fun r hr => ?_))
    exact q4 r ((mem_filed he).2 r hr).2
  have htab : ∀ d : Database, d.errors.2.tables = d.tables ∧ d.errors.2.rows = d.rows := fun d => ⟨(errors_tables d).1, (errors_tables d).2.1⟩
  have hp : Command.problems sources = .ok (errs, remarksUpon sss.flatten) := by
    refine problems_of hnew (Prod.ext he rfl) ?_
    unfold Database.warnings
    rw [hw]
    simp only [(htab _).1, (htab _).2]
    rw [hrow, List.append_nil, tables_remarks hsame hnoted hck, tables_needy hsame]
    rfl
  unfold Command.checkPrints
  rw [hp]
  simp only
  rw [← report_eq]
  split <;> rfl

/-- Nothing is printed but that there are no problems if and only if there are no errors and no remarks. -/
theorem C84_clean_partial (sources : List Str) (sss : List (List Statement)) (hs : Paired SourceFile sources sss) (hr : ∀ ss ∈ sss, Readable ss)
    (hnd : ((tablesOf sss.flatten).map (·.name)).Nodup) (hg : GoodRows sss.flatten)
    (hc : ∀ t ∈ tablesOf sss.flatten, ∀ c ∈ t.columns.values, c.Checkable) :
    Command.checkPrints sources = .ok [py"No problems found"] ↔
      (∃ files, FileDatabase.new sources = .ok files ∧ files.errors.1 = .ok []) ∧ remarksUpon sss.flatten = [] := by
  obtain ⟨files, errs, h1, h2, h3⟩ := C84_partial sources sss hs hr hnd hg hc
  rw [h3]
  constructor
  · intro h
    cases errs with
    | nil =>
      cases hm : remarksUpon sss.flatten with
      | nil => exact ⟨⟨files, h1, h2⟩, rfl⟩
      | cons r rs => rw [hm] at h; exact absurd h (by simp [report])
    | cons e es =>
      cases hm : remarksUpon sss.flatten with
      | nil => rw [hm] at h; exact absurd h (by simp [report])
      | cons r rs => rw [hm] at h; exact absurd h (by simp [report])
  · rintro ⟨⟨files', h1', h2'⟩, h⟩
    rw [h1] at h1'
    cases h1'
    rw [h2] at h2'
    cases h2'
    rw [h]
    rfl

theorem report_length {errs a b : List Str} (h : report errs a = report errs b) : a.length = b.length := by
  have hl := congrArg List.length h
  cases errs <;> cases a <;> cases b <;> simp [report] at hl ⊢ <;> first | omega | (simp [report] at h)

/-- **C84, exactly when**: `check` prints all remarks if and only if neither the readers have anything to say about a column which comes after a date of
its table (or is the date), nor has such a column to be given a value. -/
theorem C84_iff (sources : List Str) (sss : List (List Statement)) (hs : Paired SourceFile sources sss) (hr : ∀ ss ∈ sss, Readable ss)
    (hnd : ((tablesOf sss.flatten).map (·.name)).Nodup) (hg : GoodRows sss.flatten)
    (hc : ∀ t ∈ tablesOf sss.flatten, ∀ c ∈ t.columns.values, c.Checkable) :
    ∃ files errs, FileDatabase.new sources = .ok files ∧ files.errors.1 = .ok errs ∧
      (Command.checkPrints sources = .ok (report errs (allRemarksUpon sss.flatten)) ↔
        (∀ x ∈ (tablesOf sss.flatten).zip (remarksOf sss.flatten), ∀ e ∈ x.2.2.drop (untilDate x.1.columns.values).length, e.2 = []) ∧
        ∀ t ∈ tablesOf sss.flatten, ∀ c ∈ t.columns.values.drop (untilDate t.columns.values).length, ¬ NeedsValue t c) := by
  obtain ⟨files, errs, h1, h2, h3⟩ := C84_partial sources sss hs hr hnd hg hc
  refine ⟨files, errs, h1, h2, ?_⟩
  rw [h3]
  generalize sss.flatten = ss
  have cut : ∀ (t : Table) (r : Dict (List Str)), (r.flatMap (·.2)).map (fun m => m ++ py" in table '" ++ t.name ++ py"'") =
      remarksUntilDate t r ++ ((r.drop (untilDate t.columns.values).length).flatMap (·.2)).map (fun m => m ++ py" in table '" ++ t.name ++ py"'") := by
    intro t r
    unfold remarksUntilDate
    rw [← List.map_append, ← List.flatMap_append, List.take_append_drop]
  have cut2 : ∀ (t : Table), (t.columns.values.filter (fun c => decide (NeedsValue t c))).map (fun c => (t, c)) =
      ((untilDate t.columns.values).filter (fun c => decide (NeedsValue t c))).map (fun c => (t, c)) ++
      ((t.columns.values.drop (untilDate t.columns.values).length).filter (fun c => decide (NeedsValue t c))).map (fun c => (t, c)) := by
    intro t
    rw [← List.map_append, ← List.filter_append]
    congr 2
    have : t.columns.values.take (untilDate t.columns.values).length = untilDate t.columns.values :=
      (List.prefix_iff_eq_take.mp (List.takeWhile_prefix _)).symm
    exact ((congrArg (· ++ _) this).symm.trans (List.take_append_drop _ _)).symm
  constructor
  · intro h
    have hl := report_length (Except.ok.inj h)
    unfold remarksUpon allRemarksUpon at hl
    rw [List.length_append, List.length_append, List.length_map, List.length_map] at hl
    have l1 : ∀ x : Table × (Str × Dict (List Str)), (remarksUntilDate x.1 x.2.2).length ≤
        ((x.2.2.flatMap (·.2)).map (fun m => m ++ py" in table '" ++ x.1.name ++ py"'")).length := by
      intro x; rw [cut, List.length_append]; omega
    have l2 : ∀ t : Table, (((untilDate t.columns.values).filter (fun c => decide (NeedsValue t c))).map (fun c => (t, c))).length ≤
        ((t.columns.values.filter (fun c => decide (NeedsValue t c))).map (fun c => (t, c))).length := by
      intro t; rw [cut2, List.length_append]; omega
    have g1 := flatMap_length_le l1 ((tablesOf ss).zip (remarksOf ss))
    have g2 : (needyUntilDate (tablesOf ss)).length ≤ (needy (tablesOf ss)).length := flatMap_length_le l2 (tablesOf ss)
    constructor
    · intro x hx e he
      have := flatMap_length_eq l1 (l := (tablesOf ss).zip (remarksOf ss)) (by omega) x hx
      rw [cut, List.length_append, List.length_map] at this
      have hnil := List.eq_nil_of_length_eq_zero (show ((x.2.2.drop (untilDate x.1.columns.values).length).flatMap (·.2)).length = 0 by omega)
      exact List.flatMap_eq_nil_iff.mp hnil e he
    · intro t ht c hct hn
      have g3 : (needyUntilDate (tablesOf ss)).length = (needy (tablesOf ss)).length := by omega
      have := flatMap_length_eq l2 (l := tablesOf ss) g3 t ht
      rw [cut2, List.length_append] at this
      have hnil := List.eq_nil_of_length_eq_zero (show (((t.columns.values.drop (untilDate t.columns.values).length).filter
        (fun c => decide (NeedsValue t c))).map (fun c => (t, c))).length = 0 by omega)
      rw [List.map_eq_nil_iff, List.filter_eq_nil_iff] at hnil
      exact hnil c hct (by simpa using hn)
  · rintro ⟨h1, h2⟩
    have e1 : ((tablesOf ss).zip (remarksOf ss)).flatMap (fun x => remarksUntilDate x.1 x.2.2) =
        ((tablesOf ss).zip (remarksOf ss)).flatMap (fun x => (x.2.2.flatMap (·.2)).map (fun m => m ++ py" in table '" ++ x.1.name ++ py"'")) := by
      refine flatMap_agree (fun x hx => ?_)
      rw [cut, List.flatMap_eq_nil_iff.mpr (h1 x hx), List.map_nil, List.append_nil]
    have e2 : needyUntilDate (tablesOf ss) = needy (tablesOf ss) := by
      refine flatMap_agree (fun t ht => ?_)
      rw [cut2, List.filter_eq_nil_iff.mpr (fun c hc hn => h2 t ht c hc (by simpa using hn)), List.map_nil, List.append_nil]
    unfold remarksUpon allRemarksUpon
    rw [e1, e2]

end

/-! ## Examples and refutation -/

section Examples
attribute [local instance] exactNum
open Examples

/-- a table with a default which lacks quotes, one which should not have any, and a column which has to be given a value -/
def wares : TableDecl :=
  { name := py"wares"
    first := .column { cls := .numeric, name := py"id", ctype := py"INT", len := .str py"10", null := false, unsigned := some true, autoInc := some true } .usual
    others := [.column { cls := .string, name := py"kind", ctype := py"VARCHAR", len := .str py"20", null := false, hasDefault := true, default := some py"plain" }
        { Style.usual with bare := fun _ => true },
      .column { cls := .numeric, name := py"price", ctype := py"DECIMAL", len := .str py"7,2", hasDefault := true, default := some py"5" }
        { Style.usual with bare := fun _ => false },
      .column { cls := .string, name := py"title", ctype := py"VARCHAR", len := .str py"20", null := false } .usual,
      .index { columns := [py"id"], itype := py"primary" } py"KEY"]
    options := [] }

theorem wares_ok : wares.Ok := by
  refine ⟨by decide, ?_, ?_, ⟨_, _, rfl⟩, ?_, by decide, by decide, by decide, by decide, by decide⟩
  · intro x hx
    simp only [wares, TableDecl.defs, List.mem_cons, List.not_mem_nil, or_false] at hx
    rcases hx with rfl | rfl | rfl | rfl | rfl
    · refine ⟨⟨by decide, by decide, rfl, ⟨_, .one (by decide), by decide, ?_⟩, by decide, ?_, ?_⟩, usual_fits⟩ <;> intro v hv <;> cases hv
    · refine ⟨⟨by decide, by decide, rfl, ⟨_, .one (by decide), by decide, ?_⟩, by decide, ?_, ?_⟩, ⟨fun _ => rfl, ?_⟩⟩ <;> intro v hv <;> cases hv
      · exact ⟨Or.inl ⟨by decide, by decide⟩, by decide⟩
      · intro _; exact ⟨by decide, by decide, by decide⟩
    · refine ⟨⟨by decide, by decide, rfl, ⟨_, .two (a := py"7") (b := py"2") (by decide) (by decide), by decide, ?_⟩, by decide, ?_, ?_⟩, ⟨fun _ => rfl, ?_⟩⟩ <;> intro v hv <;> cases hv
      · exact ⟨Or.inl ⟨by decide, by decide⟩, by decide⟩
      · intro h; cases h
    · refine ⟨⟨by decide, by decide, rfl, ⟨_, .one (by decide), by decide, ?_⟩, by decide, ?_, ?_⟩, usual_fits⟩ <;> intro v hv <;> cases hv
    · exact ⟨⟨by decide, by decide⟩, .inl (by decide)⟩
  · intro x hx
    simp only [wares, TableDecl.defs, List.mem_cons, List.not_mem_nil, or_false] at hx
    rcases hx with rfl | rfl | rfl | rfl | rfl
    · rintro v (h | h | h) <;> cases h
    · rintro v (h | h | h) <;> cases h; unfold NoComment; decide
    · rintro v (h | h | h) <;> cases h; unfold NoComment; decide
    · rintro v (h | h | h) <;> cases h
    · trivial
  · intro o ho; cases ho

/-- a file with the table -/
def waresScript : List Statement := [.declare wares ⟨[], py" ", []⟩]

theorem wares_file : SourceFile (wares.sql ⟨[], py" ", []⟩) waresScript := by
  refine ⟨0, [], _, rfl, .nil, ?_, by decide, by intro h; cases h⟩
  have := Script.cons (blanks := []) (s := .declare wares ⟨[], py" ", []⟩) (by decide) (.nil (blanks := []) (by decide))
  rwa [List.nil_append, List.append_nil] at this

theorem wares_checkable : ∀ t ∈ tablesOf waresScript, ∀ c ∈ t.columns.values, c.Checkable := by
  intro t ht c hc
  have : t = wares.table := by simpa [tablesOf, waresScript] using ht
  subst this
  have h1 : c.cls = .numeric ∧ c.columnType ≠ py"BIT" ∨ c.cls = .string := by
    revert c
    decide
  unfold Column.Checkable
  rcases h1 with ⟨h, h'⟩ | h
  · rw [h]; exact fun e => absurd e h'
  · rw [h]; trivial

example : ∃ files errs, FileDatabase.new [wares.sql ⟨[], py" ", []⟩] = .ok files ∧ files.errors.1 = .ok errs ∧
    Command.checkPrints [wares.sql ⟨[], py" ", []⟩] = .ok (report errs (remarksUpon waresScript)) := by
  have := C84_partial [wares.sql ⟨[], py" ", []⟩] [waresScript] (.cons wares_file .nil) (by
    intro ss hss
    rw [List.mem_singleton] at hss
    subst hss
    refine ⟨?_, by simp [waresScript]⟩
    intro s hs
    simp only [waresScript, List.mem_singleton] at hs
    subst hs
    exact ⟨wares_ok, by decide, by decide, by decide⟩) (by decide)
    ⟨fun i hi => (by cases hi), fun i hi => (by cases hi), fun i hi => (by cases hi), fun n => (show ([] : List Str).Nodup from List.nodup_nil)⟩
    (by rw [show [waresScript].flatten = waresScript by simp]; exact wares_checkable)
  rwa [show [waresScript].flatten = waresScript by simp] at this

/-- the remarks on this file -/
example : remarksUpon waresScript = [py"Default value of \"plain\" should have quotes for field kind in table 'wares'",
    py"Column 'price' has a numeric type but its default value is a string in table 'wares'",
    py"Column title does not allow null values and has no default: you should set a default to avoid warnings in table 'wares'"] := by decide +kernel

/-- nothing is lost of the remarks on `wares`, which has no dates -/
example : ∃ files errs, FileDatabase.new [wares.sql ⟨[], py" ", []⟩] = .ok files ∧ files.errors.1 = .ok errs ∧
    Command.checkPrints [wares.sql ⟨[], py" ", []⟩] = .ok (report errs (allRemarksUpon waresScript)) := by
  have := C84_iff [wares.sql ⟨[], py" ", []⟩] [waresScript] (.cons wares_file .nil) (by
    intro ss hss
    rw [List.mem_singleton] at hss
    subst hss
    refine ⟨?_, by simp [waresScript]⟩
    intro s hs
    simp only [waresScript, List.mem_singleton] at hs
    subst hs
    exact ⟨wares_ok, by decide, by decide, by decide⟩) (by decide)
    ⟨fun i hi => (by cases hi), fun i hi => (by cases hi), fun i hi => (by cases hi), fun n => (show ([] : List Str).Nodup from List.nodup_nil)⟩
    (by rw [show [waresScript].flatten = waresScript by simp]; exact wares_checkable)
  rw [show [waresScript].flatten = waresScript by simp] at this
  obtain ⟨files, errs, h1, h2, h3⟩ := this
  exact ⟨files, errs, h1, h2, h3.mpr (by decide +kernel)⟩

/-- **C84 fails** for what comes after a date: the same column is remarked upon if it is in front of the date, and else not. -/
theorem C84_date_refuted :
    Command.checkPrints [py"CREATE TABLE a (id INT(10) NOT NULL, PRIMARY KEY (id), kind VARCHAR(20) DEFAULT plain, day DATE);"] =
      .ok [py"Warnings found in *.sql files:", py"Default value of \"plain\" should have quotes for field kind in table 'a'"] ∧
    Command.checkPrints [py"CREATE TABLE a (id INT(10) NOT NULL, PRIMARY KEY (id), day DATE, kind VARCHAR(20) DEFAULT plain);"] =
      .ok [py"No problems found"] := by
  constructor <;> decide +kernel

end Examples

end Mygrations

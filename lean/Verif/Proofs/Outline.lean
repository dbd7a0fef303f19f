import Verif.Model.Database
import Verif.Proofs.Dict

/-!
# The errors of a database do not depend on the rows in its tables

`Database.errors` looks at the `INSERT`s which were read, not at what became of them in the tables.
-/

namespace Mygrations
open Database

/-- forget the rows, and what was noted while the table and its rows were read -/
def Table.outline (t : Table) : Table := { t with rows := none, tracking := false, globalErrors := [], globalWarnings := [] }

/-- forget it for all tables -/
def Database.outline (d : Database) : Database := { d with tables := d.tables.map (fun e => (e.1, e.2.outline)) }

theorem outline_indexed (t : Table) (c : Str) : (t.outline.columnIsIndexed c).map (·.1) = (t.columnIsIndexed c).map (·.1) := by
  unfold Table.columnIsIndexed Table.outline
  simp only
  split
  · rfl
  · split
    · rfl
    · cases Table.firstColumns t.indexes.values <;> rfl

theorem outline_get (ts : Dict Table) (k : Str) : Dict.get? (ts.map (fun e => (e.1, e.2.outline))) k = (Dict.get? ts k).map Table.outline := by
  induction ts with
  | nil => rfl
  | cons e ts ih =>
    obtain ⟨j, t⟩ := e
    rw [List.map_cons, Dict.get?_cons, Dict.get?_cons, ih]
    split <;> rfl

theorem outline_fk (ts : Dict Table) (t : Table) (k : Constraint) :
    findConstraintErrors (ts.map (fun e => (e.1, e.2.outline))) t.outline k = findConstraintErrors ts t k := by
  unfold findConstraintErrors
  rw [outline_get]
  cases Dict.get? ts k.ftable with
  | none => rfl
  | some ft =>
    simp only [Option.map_some]
    have e1 : ft.outline.columns = ft.columns := rfl
    have e2 : t.outline.columns = t.columns := rfl
    rw [e1, e2]
    cases Dict.get? ft.columns k.fcolumn with
    | none => rfl
    | some fc =>
      cases Dict.get? t.columns k.column with
      | none => rfl
      | some c =>
        simp only
        have h1 := outline_indexed t c.name
        have h2 := outline_indexed ft fc.name
        have e3 : attributeError k t.outline ft.outline c fc = attributeError k t ft c fc := rfl
        have e4 : setNullError k t.outline c = setNullError k t c := rfl
        rw [e3, e4]
        cases ha : t.outline.columnIsIndexed c.name with
        | error e =>
          cases hb : t.columnIsIndexed c.name with
          | error e' => rw [ha, hb] at h1; cases h1; rfl
          | ok p => rw [ha, hb] at h1; cases h1
        | ok p =>
          cases hb : t.columnIsIndexed c.name with
          | error e' => rw [ha, hb] at h1; cases h1
          | ok q =>
            obtain ⟨b, _⟩ := p
            obtain ⟨b', _⟩ := q
            rw [ha, hb] at h1
            cases h1
            cases b with
            | false => rfl
            | true =>
              simp only
              cases attributeError k t ft c fc with
              | some e => rfl
              | none =>
                simp only
                cases setNullError k t c with
                | some e => rfl
                | none =>
                  simp only
                  cases hc : ft.outline.columnIsIndexed fc.name with
                  | error e =>
                    cases hd : ft.columnIsIndexed fc.name with
                    | error e' => rw [hc, hd] at h2; cases h2; rfl
                    | ok p => rw [hc, hd] at h2; cases h2
                  | ok p =>
                    cases hd : ft.columnIsIndexed fc.name with
                    | error e' => rw [hc, hd] at h2; cases h2
                    | ok q =>
                      obtain ⟨b, _⟩ := p
                      obtain ⟨b', _⟩ := q
                      rw [hc, hd] at h2
                      cases h2
                      cases b <;> rfl

theorem outline_loop (ts : Dict Table) : ∀ (l : List (Table × Constraint)) (seen : Dict Str),
    constraintLoop (ts.map (fun e => (e.1, e.2.outline))) (l.map (fun e => (e.1.outline, e.2))) seen = constraintLoop ts l seen
  | [], _ => rfl
  | (t, k) :: l, seen => by
    have h : constraintStep (ts.map (fun e => (e.1, e.2.outline))) t.outline seen k = constraintStep ts t seen k := by
      unfold constraintStep
      rw [outline_fk]
      rfl
    simp only [List.map_cons, constraintLoop, h, outline_loop ts l]

section
variable [PyNum]

theorem outline_columns (t : Table) : ∀ l : List Column, t.outline.columnErrors l = t.columnErrors l
  | [] => rfl
  | c :: l => by simp only [Table.columnErrors, outline_columns t l]; rfl

theorem outline_findAll (t : Table) : t.outline.findAll = t.findAll := by
  unfold Table.findAll
  rw [show t.outline.columns = t.columns from rfl, outline_columns]
  rfl

theorem outline_ask (part : Table.Found → List Str) : ∀ (checked : List Str) (ts : Dict Table),
    askTables part checked (ts.map (fun e => (e.1, e.2.outline))) = askTables part checked ts
  | _, [] => rfl
  | checked, (n, t) :: ts => by
    have h : askTable part checked n t.outline = askTable part checked n t := by unfold askTable; rw [outline_findAll]
    simp only [List.map_cons, askTables, h, outline_ask part _ ts]

omit [PyNum] in
theorem outline_rows (ts : Dict Table) : ∀ (l : List (Str × Rows)) (last : Option Table),
    rowsLoop (ts.map (fun e => (e.1, e.2.outline))) l (last.map Table.outline) = rowsLoop ts l last
  | [], _ => rfl
  | (n, r) :: l, last => by
    have h : rowsStep (ts.map (fun e => (e.1, e.2.outline))) n r (last.map Table.outline) = (rowsStep ts n r last).map (fun p => (p.1, p.2.map Table.outline)) := by
      unfold rowsStep
      rw [outline_get]
      cases Dict.get? ts n with
      | none => rfl
      | some t =>
        simp only [Option.map_some]
        split
        · rfl
        · cases last with
          | none => simp only [Option.map_none]; split <;> rfl
          | some x => rfl
    simp only [rowsLoop, h]
    cases rowsStep ts n r last with
    | error e => rfl
    | ok p =>
      obtain ⟨errs, last'⟩ := p
      simp only [Except.map]
      rw [outline_rows ts l last']

/-- the errors do not depend on what is forgotten -/
theorem Database.outline_errors (d : Database) : d.outline.errors.1 = d.errors.1 := by
  have hfk : fkErrors d.outline.tables = fkErrors d.tables := by
    unfold fkErrors
    have : allConstraints d.outline.tables = (allConstraints d.tables).map (fun e => (e.1.outline, e.2)) := by
      unfold allConstraints Database.outline Dict.values
      simp only [List.map_map, List.flatMap_map, List.map_flatMap, Function.comp_def]
      rfl
    rw [this]
    exact outline_loop d.tables _ _
  have hask : ∀ part checked, askTables part checked d.outline.tables = askTables part checked d.tables := fun part checked => outline_ask part checked d.tables
  have hrow : rowErrors d.outline.tables d.outline.rows = rowErrors d.tables d.rows := outline_rows d.tables _ none
  have hs : d.outline.findSchemaErrors = ((d.findSchemaErrors).1, (d.findSchemaErrors).2.outline) := by
    unfold Database.findSchemaErrors
    have h1 : d.outline.schemaCache = d.schemaCache := rfl
    have h2 : d.outline.checked = d.checked := rfl
    rw [h1, h2, hfk, hask, hrow]
    cases d.schemaCache with
    | some l => rfl
    | none =>
      simp only
      cases fkErrors d.tables with
      | error e => rfl
      | ok fe =>
        simp only
        rcases askTables Table.Found.schema d.checked d.tables with ⟨x, c⟩
        cases x with
        | error e => rfl
        | ok te =>
          simp only
          cases rowErrors d.tables d.rows <;> rfl
  have hsame : (d.findSchemaErrors).2.tables = d.tables := by
    unfold Database.findSchemaErrors
    cases d.schemaCache with
    | some l => rfl
    | none =>
      simp only
      cases fkErrors d.tables with
      | error e => rfl
      | ok fe =>
        simp only
        rcases askTables Table.Found.schema d.checked d.tables with ⟨x, c⟩
        cases x with
        | error e => rfl
        | ok te =>
          simp only
          cases rowErrors d.tables d.rows <;> rfl
  unfold Database.errors
  rw [hs]
  rcases hx : d.findSchemaErrors with ⟨x, d1⟩
  rw [hx] at hsame
  have hsame' : d1.tables = d.tables := hsame
  cases x with
  | error e => rfl
  | ok s =>
    simp only
    have hp : (d1.outline.findParsingErrors).1 = (d1.findParsingErrors).1 := by
      unfold Database.findParsingErrors
      have h1 : d1.outline.parsingCache = d1.parsingCache := rfl
      have h2 : d1.outline.checked = d1.checked := rfl
      have h3 : d1.outline.rows = d1.rows := rfl
      have h4 : askTables Table.Found.parsing d1.checked d1.outline.tables = askTables Table.Found.parsing d1.checked d1.tables := outline_ask _ _ _
      rw [h1, h2, h3, h4]
      cases d1.parsingCache with
      | some l => rfl
      | none =>
        simp only
        rcases askTables Table.Found.parsing d1.checked d1.tables with ⟨x, c⟩
        cases x <;> rfl
    rcases hy : d1.outline.findParsingErrors with ⟨y, d2⟩
    rcases hz : d1.findParsingErrors with ⟨z, d3⟩
    rw [hy, hz] at hp
    have hp' : y = z := hp
    subst hp'
    cases y <;> rfl

end

end Mygrations

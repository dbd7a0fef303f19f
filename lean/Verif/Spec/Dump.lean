import Verif.Spec.Text
import Verif.Spec.Tables

/-!
# Specification: tables which can be written down as SQL and read back

`C38` says that the text of the `CREATE TABLE` statements of a schema, read by the file reader, gives the schema back.
-/

namespace Mygrations

/-- The text does not contain two dashes in a row, which start a comment. -/
def NoComment (v : Str) : Prop := ¬ py"--" <:+: v

/-- An option of a table as it can be written down: its name consists of words separated by single blanks, from 4 to 30
characters; its value has no blanks, commas, parentheses or semicolons. -/
structure TableOpt.Plain (o : TableOpt) : Prop where
  nameChars : ∀ c ∈ o.name, isWord c = true ∨ c = ' '
  nameBlanks : normalize o.name = o.name
  nameLength : 4 ≤ o.name.length ∧ o.name.length ≤ 30
  value : o.value ≠ [] ∧ ∀ c ∈ o.value, isSpace c = false ∧ c ≠ ';' ∧ c ≠ '(' ∧ c ≠ ')' ∧ c ≠ ','
  noComment : NoComment o.value

/-- A table which can be written down and read back. -/
structure Table.Readable (t : Table) : Prop where
  name : Ident t.name
  keyed : t.Keyed
  hasColumns : t.columns ≠ []
  columns : ∀ c ∈ t.columns.values, c.Plain
  noComment : ∀ c ∈ t.columns.values, ∀ v, c.default = some v ∨ c.characterSet = some v ∨ c.collate = some v → NoComment v
  indexes : ∀ i ∈ t.indexes.values, i.Plain
  constraints : ∀ k ∈ t.constraints.values, k.Plain
  options : ∀ o ∈ t.options, o.Plain
  fewDefinitions : t.columns.length + t.indexes.length + t.constraints.length < 1000
  fewOptions : t.options.length < 1000

/-- Two definitions of the same table: the same name, and the same columns, indexes and foreign keys in the same order.
The option `AUTO_INCREMENT`, which counts rows, is not part of the definition. -/
structure SameTable (t t' : Table) : Prop where
  name : t'.name = t.name
  columns : Paired (fun a b => b.1 = a.1 ∧ SameColumn a.2 b.2) t.columns t'.columns
  indexes : Paired (fun a b => b.1 = a.1 ∧ SameIndex a.2 b.2) t.indexes t'.indexes
  constraints : Paired (fun a b => b.1 = a.1 ∧ b.2 = { a.2 with parsingErrors := [] }) t.constraints t'.constraints
  options : t'.options = t.options.filter (fun o => o.name ≠ py"AUTO_INCREMENT")

/-- A table about which nothing was reported, which has no rows, and where the columns have the usual lengths. -/
structure Table.JustRead (t : Table) : Prop where
  noErrors : t.globalErrors = []
  noRows : t.rows = none
  untracked : t.tracking = false
  columns : ∀ e ∈ t.columns, e.2.parsingErrors = []
  lengths : ∀ e ∈ t.columns, e.2.UsualLength

/-- A file which consists of the `CREATE TABLE` statements of these tables, with any white space around them. -/
inductive Dump (nice : Bool) : Str → List Table → Prop
  | nil {blanks : Str} : (∀ c ∈ blanks, isSpace c = true) → Dump nice blanks []
  | cons {blanks : Str} {t : Table} {more : Str} {ts : List Table} : (∀ c ∈ blanks, isSpace c = true) → Dump nice more ts →
      Dump nice (blanks ++ t.renderCreate nice ++ more) (t :: ts)

end Mygrations

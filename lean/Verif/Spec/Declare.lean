import Verif.Spec.Dump

/-!
# Specification: `CREATE TABLE` statements with definitions in any order

`C55` and `C57` are about such statements.  Foreign keys may come without a name.
-/

namespace Mygrations

/-- A definition in a `CREATE TABLE`: a column and the way it is written, a key and the word for it, a foreign key with a name, or one without
(where the name of the constraint is not written), and which of its actions are written down. -/
inductive Src
  | column (c : Column) (s : Style)
  | index (i : Index) (w : Str)
  | constraint (k : Constraint) (w : Actions)
  | bare (k : Constraint) (w : Actions)

namespace Src

/-- The text of a definition. -/
def render : Src → Str
  | column c s => c.written s
  | index i w => i.written w
  | constraint k w => py"CONSTRAINT `" ++ k.name ++ py"` " ++ k.body w
  | bare k w => k.body w

/-- The definition can be written down and read back. -/
def Plain : Src → Prop
  | column c s => c.Plain ∧ s.Fits c
  | index i w => i.Plain ∧ i.Spelled w
  | constraint k w => k.Plain ∧ w.Fits k
  | bare k w => ({ k with name := py"name" } : Constraint).Plain ∧ w.Fits k

/-- Nothing in the definition looks like a comment. -/
def Quiet : Src → Prop
  | column c _ => ∀ v, c.default = some v ∨ c.characterSet = some v ∨ c.collate = some v → NoComment v
  | _ => True

/-- The columns among the definitions. -/
def column? : Src → Option (Str × Column)
  | column c _ => some (c.name, c)
  | _ => none

/-- The foreign keys of a table among its definitions.  One without a name is called after the table, its column and the
table it refers to; names have at most 64 characters. -/
def constraint? (table : Str) : Src → Option (Str × Constraint)
  | constraint k _ => some (k.name, k)
  | bare k _ =>
    let name := (table ++ py"_" ++ k.column ++ py"_" ++ k.ftable ++ py"_fk").take 64
    some (name, { k with name := name })
  | _ => none

/-- Is it a key which has the column? -/
def covers (column : Str) : Src → Bool
  | index i _ => i.columns.contains column
  | _ => false

/-- Is it a foreign key without a name for the column? -/
def bareOn (column : Str) : Src → Bool
  | bare k _ => k.column = column
  | _ => false

end Src

/-- The keys which a definition gives to its table, given all definitions and those before it: a key which is written
down, or a key for the column of a foreign key without a name, unless some key of the table has the column. -/
def Src.keys (all before : List Src) : Src → List (Str × Index)
  | .index i _ => [(i.name, i)]
  | .bare k _ =>
    if all.any (Src.covers k.column) || before.any (Src.bareOn k.column) then []
    else [(k.column, { rawName := k.column, columns := [k.column], itype := py"index" })]
  | _ => []

/-- The keys which the listed definitions give to their table. -/
def indexesOf (all : List Src) : List Src → List Src → List (Str × Index)
  | _, [] => []
  | before, d :: ds => d.keys all before ++ indexesOf all (before ++ [d]) ds

/-- A `CREATE TABLE` statement. -/
structure TableDecl where
  name : Str
  first : Src
  others : List Src
  options : List TableOpt

/-- The white space before the first definition, after the commas and after the last definition. -/
structure Layout where
  lead : Str
  sep : Str
  trail : Str

/-- It is only white space. -/
structure Layout.Ok (l : Layout) : Prop where
  lead : ∀ c ∈ l.lead, isSpace c = true
  sep : ∀ c ∈ l.sep, isSpace c = true
  trail : ∀ c ∈ l.trail, isSpace c = true

namespace TableDecl

/-- All definitions. -/
def defs (d : TableDecl) : List Src := d.first :: d.others

/-- The text of the statement without its semicolon. -/
def text (d : TableDecl) (l : Layout) : Str :=
  py"CREATE TABLE `" ++ d.name ++ py"` (" ++ l.lead ++ join (py"," ++ l.sep) (d.defs.map Src.render) ++ l.trail ++ py")" ++
  d.options.flatMap (fun o => py" " ++ o.name ++ py"=" ++ o.value)

/-- The text of the statement. -/
def sql (d : TableDecl) (l : Layout) : Str := d.text l ++ py";"

/-- The table which is meant. -/
def table (d : TableDecl) : Table :=
  { name := d.name
    columns := d.defs.filterMap Src.column?
    indexes := indexesOf d.defs [] d.defs
    constraints := d.defs.filterMap (Src.constraint? d.name)
    options := d.options }

/-- The statement can be written down, begins with a column and declares nothing twice. -/
structure Ok (d : TableDecl) : Prop where
  name : Ident d.name
  plain : ∀ x ∈ d.defs, x.Plain
  quiet : ∀ x ∈ d.defs, x.Quiet
  column : ∃ c s, d.first = .column c s
  options : ∀ o ∈ d.options, o.Plain
  columnNames : (d.table.columns.keys).Nodup
  indexNames : (d.table.indexes.keys).Nodup
  constraintNames : (d.table.constraints.keys).Nodup
  few : d.defs.length < 1000
  fewOptions : d.options.length < 1000

end TableDecl

end Mygrations

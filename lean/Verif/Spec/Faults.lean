import Verif.Spec.Checks

/-!
# Specification: what can be wrong with a schema, and how it is called

The faults are stated in terms of what was declared, without regard to how and in which order they are looked for.
-/

namespace Mygrations

/-! ## Columns -/

/-- A column holds text. -/
def Column.IsText (c : Column) : Prop := c.cls = .string ∨ c.cls = .enum

/-- A length, or something else in parentheses, is given. -/
def Column.HasLength (c : Column) : Prop := c.len ≠ .none ∧ c.len ≠ .str [] ∧ c.len ≠ .list []

/-- A list of values is given. -/
def Column.HasValues (c : Column) : Prop := ∃ v vs, c.enumValues = some (v :: vs)

/-- A character set or a collation is given. -/
def Column.HasCharset (c : Column) : Prop := (∃ s, c.charset = some s ∧ s ≠ []) ∨ (∃ s, c.collation = some s ∧ s ≠ [])

/-- The kinds of faults of a column. -/
inductive ColumnFault
  | noName
  | noType
  | textForNumber
  | fractionForInteger
  | notABit
  | numberLength
  | fractionLength
  | numberCharset
  | numberCollation
  | fractionCounts
  | numberValues
  | textDefault
  | textCounts
  | textCharset
  | binaryCharset
  | textLength
  | textValues
  | textUnsigned
  | noValues
  | defaultNotAValue

/-- When a column has the fault. -/
def ColumnFault.In [PyNum] (c : Column) : ColumnFault → Prop
  | noName => c.name = []
  | noType => c.ctype = []
  | textForNumber => c.cls = .numeric ∧ ∃ d, c.default = some d ∧ PyNum.int d = none ∧ PyNum.float d = none
  | fractionForInteger => c.cls = .numeric ∧ upper c.ctype ∉ [py"DECIMAL", py"NUMERIC", py"FLOAT", py"DOUBLE"] ∧
      ∃ d, c.default = some d ∧ PyNum.int d = none ∧ PyNum.float d ≠ none
  | notABit => c.cls = .numeric ∧ upper c.ctype = py"BIT" ∧ ∃ d n, c.default = some d ∧ PyNum.int d = some n ∧ n ≠ 0 ∧ n ≠ 1
  | numberLength => c.cls = .numeric ∧ upper c.ctype ∈ [py"FLOAT", py"DOUBLE", py"BIT"] ∧ c.HasLength
  | fractionLength => c.cls = .numeric ∧ upper c.ctype ∉ [py"DECIMAL", py"NUMERIC", py"FLOAT", py"DOUBLE", py"BIT"] ∧
      ∃ s, c.len = .str s ∧ ',' ∈ s
  | numberCharset => c.cls = .numeric ∧ c.charset ≠ none
  | numberCollation => c.cls = .numeric ∧ c.collation ≠ none
  | fractionCounts => c.cls = .numeric ∧ upper c.ctype ∈ [py"FLOAT", py"DOUBLE", py"BIT"] ∧ c.autoInc = some true
  | numberValues => c.cls = .numeric ∧ c.HasValues
  | textDefault => c.IsText ∧ c.hasDefault = true ∧
      upper c.ctype ∉ [py"CHAR", py"VARCHAR", py"BINARY", py"VARBINARY", py"ENUM", py"SET"]
  | textCounts => c.IsText ∧ c.autoInc = some true
  | textCharset => c.IsText ∧ c.HasCharset ∧ upper c.ctype ∉ [py"CHAR", py"VARCHAR", py"BINARY", py"VARBINARY", py"ENUM", py"SET"]
  | binaryCharset => c.IsText ∧ c.HasCharset ∧ upper c.ctype ∈ [py"BINARY", py"VARBINARY"] ∧
      ((∃ s, c.charset = some s ∧ upper s ≠ py"BINARY") ∨ (∃ s, c.collation = some s ∧ upper s ≠ py"BINARY"))
  | textLength => c.IsText ∧ c.HasLength ∧ upper c.ctype ∉ [py"CHAR", py"VARCHAR", py"BINARY", py"VARBINARY"]
  | textValues => c.IsText ∧ c.HasValues ∧ upper c.ctype ∉ [py"ENUM", py"SET"]
  | textUnsigned => c.IsText ∧ c.unsigned = some true
  | noValues => c.cls = .enum ∧ ¬ c.HasValues
  | defaultNotAValue => c.cls = .enum ∧ ∃ d vs, c.default = some d ∧ d ≠ [] ∧ c.enumValues = some vs ∧ d ∉ vs

/-- The text of the fault. -/
def ColumnFault.text (c : Column) : ColumnFault → Str
  | noName => py"Column does not have a name"
  | noType => py"Missing column_type for column " ++ c.name
  | textForNumber => py"Column '" ++ c.name ++ py"' of type '" ++ upper c.ctype ++ py"' cannot have a string value as a default"
  | fractionForInteger => py"Column '" ++ c.name ++ py"' of type '" ++ upper c.ctype ++ py"' must have an integer value as a default"
  | notABit => py"Column '" ++ c.name ++ py"' of type 'BIT' must have a default of 1 or 0"
  | numberLength => py"Column '" ++ c.name ++ py"' of type '" ++ upper c.ctype ++ py"' cannot have a length"
  | fractionLength => py"Column '" ++ c.name ++ py"' of type '" ++ upper c.ctype ++ py"' must have an integer value as its length"
  | numberCharset => py"Column '" ++ c.name ++ py"' of type '" ++ upper c.ctype ++ py"' cannot have a character set"
  | numberCollation => py"Column '" ++ c.name ++ py"' of type '" ++ upper c.ctype ++ py"' cannot have a collate"
  | fractionCounts => py"Column '" ++ c.name ++ py"' of type '" ++ upper c.ctype ++ py"' cannot be an AUTO_INCREMENT"
  | numberValues | textValues =>
    py"Column '" ++ c.name ++ py"' of type " ++ upper c.ctype ++ py" is not allowed to have a list of values for its length"
  | textDefault => py"Column '" ++ c.name ++ py"' of type '" ++ upper c.ctype ++ py"' cannot have a default"
  | textCounts => py"Column '" ++ c.name ++ py"' of type '" ++ upper c.ctype ++ py"' cannot be an AUTO_INCREMENT: only numeric columns can"
  | textCharset => py"Column '" ++ c.name ++ py"' of type '" ++ upper c.ctype ++ py"' cannot have a collation/character set"
  | binaryCharset => py"Column '" ++ c.name ++ py"' of type '" ++ upper c.ctype ++ py"' can only have a collate/character set of BINARY"
  | textLength => py"Column " ++ c.name ++ py" of type " ++ upper c.ctype ++ py" cannot have a length"
  | textUnsigned => py"Column " ++ c.name ++ py" cannot be unsigned"
  | noValues => py"column '" ++ c.name ++ py"' of type '" ++ upper c.ctype ++ py"' must have a list of values"
  | defaultNotAValue => py"Default value for '" ++ upper c.ctype ++ py"' column '" ++ c.name ++ py"' is not in the list of allowed values"

/-! ## Keys -/

/-- The faults of a key. -/
inductive IndexFault (i : Index) : Str → Prop
  | noName : i.name = [] → IndexFault i (py"Missing name for index " ++ i.name)
  | noType : i.itype = [] → IndexFault i (py"Missing index_type for index " ++ i.name)
  | noColumns : i.columns = [] → IndexFault i (py"Missing columns for index " ++ i.name)
  | long : 64 < i.name.length → IndexFault i (py"Key name " ++ i.rawName ++ py" must be <=64 characters long")

/-! ## Foreign keys, each for itself -/

/-- The actions which MySQL knows. -/
def fkActionNames : List Str := [py"CASCADE", py"NO ACTION", py"RESTRICT", py"SET DEFAULT", py"SET NULL"]

/-- The faults which a foreign key has by itself. -/
inductive ConstraintFault (k : Constraint) : Str → Prop
  | noName : k.name = [] → ConstraintFault k py"Missing name for constraint"
  | missingName : k.name = [] → ConstraintFault k (py"Missing name for constraint '" ++ k.name ++ py"'")
  | long : 64 < k.name.length → ConstraintFault k (py"Key name '" ++ k.name ++ py"' is too long")
  | onDelete : k.onDelete ∉ fkActionNames → ConstraintFault k
      (py"ON DELETE action of '" ++ k.onDelete ++ py"' for constraint '" ++ k.name ++ py"' is not a valid ON DELETE action")
  | onUpdate : k.onUpdate ∉ fkActionNames → ConstraintFault k
      (py"ON UPDATE action of '" ++ k.onUpdate ++ py"' for constraint '" ++ k.name ++ py"' is not a valid ON UPDATE action")
  | noColumn : k.column = [] → ConstraintFault k (py"Missing column_name for constraint '" ++ k.name ++ py"'")
  | noTable : k.ftable = [] → ConstraintFault k (py"Missing foreign_table_name for constraint '" ++ k.name ++ py"'")
  | noForeignColumn : k.fcolumn = [] → ConstraintFault k (py"Missing foreign_column_name for constraint '" ++ k.name ++ py"'")

/-! ## Tables -/

/-- The faults of a table. -/
inductive TableFault [PyNum] (t : Table) : Str → Prop
  | noName : t.name = [] → TableFault t py"Table missing name"
  | noColumns : t.columns = [] → TableFault t (py"Table '" ++ t.name ++ py"' does not have any columns")
  | column (c : Column) (f : ColumnFault) : c ∈ t.columns.values → f.In c → TableFault t (f.text c ++ py" in table '" ++ t.name ++ py"'")
  | index (i : Index) (m : Str) : i ∈ t.indexes.values → IndexFault i m → TableFault t (m ++ py" in table '" ++ t.name ++ py"'")
  | constraint (k : Constraint) (m : Str) : k ∈ t.constraints.values → ConstraintFault k m →
      TableFault t (m ++ py" in table '" ++ t.name ++ py"'")
  | primaries (i j : Index) (rest : List Index) : t.indexes.values.filter Index.isPrimary = i :: j :: rest →
      TableFault t (py"Table '" ++ t.name ++ py"' has more than one PRIMARY index")
  | counters (a b : Column) (rest : List Column) : t.columns.values.filter Column.isAutoInc = a :: b :: rest →
      TableFault t (py"Table '" ++ t.name ++ py"' has more than one AUTO_INCREMENT column")
  | countsWithoutKey (a : Column) : t.columns.values.filter Column.isAutoInc = [a] → (∀ i ∈ t.indexes.values, i.isPrimary = false) →
      TableFault t (py"Table '" ++ t.name ++ py"' has an AUTO_INCREMENT column but is missing the PRIMARY index")
  | countsOther (a : Column) (i : Index) (rest : List Index) (c : Str) : t.columns.values.filter Column.isAutoInc = [a] →
      t.indexes.values.filter Index.isPrimary = i :: rest → i.columns.head? = some c → c ≠ a.name →
      TableFault t (py"Mismatched indexes in table '" ++ t.name ++ py"': column '" ++ a.name ++
        py"' is the AUTO_INCREMENT column but '" ++ c ++ py"' is the PRIMARY index column")
  | indexColumn (i : Index) (c : Str) : i ∈ t.indexes.values → c ∈ i.columns → c ∉ t.columns.keys →
      TableFault t (py"Table '" ++ t.name ++ py"' has index '" ++ i.name ++ py"' that references non-existent column '" ++ c ++ py"'")

/-! ## Foreign keys among the tables -/

/-- The column is the first one of some key. -/
def Table.HasKeyOn (t : Table) (c : Str) : Prop := ∃ i ∈ t.indexes.values, i.columns.head? = some c

/-- `` `table`.`column` `` -/
def place (table column : Str) : Str := py"`" ++ table ++ py"`.`" ++ column ++ py"`"

/-- How the two ends of the foreign key differ. -/
def differs (t : Table) (k : Constraint) (what here there : Str) : Str :=
  py"Constraint error for foreign key `" ++ k.name ++ py"`: " ++ what ++ py" mismatch. " ++ place t.name k.column ++ py" is '" ++ here ++
  py"' but " ++ place k.ftable k.fcolumn ++ py" is '" ++ there ++ py"'"

/-- The faults of a foreign key among the tables. -/
inductive FkFault (tables : Dict Table) (t : Table) (k : Constraint) : Str → Prop
  | noTable : k.ftable ∉ tables.keys → FkFault tables t k (py"Constraint error for foreign key `" ++ k.name ++ py"`: " ++ place t.name k.column ++
      py" references " ++ place k.ftable k.fcolumn ++ py", but table `" ++ k.ftable ++ py"` does not exist")
  | noForeignColumn (ft : Table) : tables.get? k.ftable = some ft → k.fcolumn ∉ ft.columns.keys →
      FkFault tables t k (py"Constraint error for foreign key `" ++ k.name ++ py"`: " ++ place t.name k.column ++ py" references " ++
        place k.ftable k.fcolumn ++ py", but column " ++ place k.ftable k.fcolumn ++ py" does not exist")
  | noColumn : k.column ∉ t.columns.keys → FkFault tables t k (py"Constraint error for foreign key `" ++ k.name ++
      py"`: sets constraint on column " ++ place t.name k.column ++ py", but this column does not exist")
  | noKey : ¬ t.HasKeyOn k.column → FkFault tables t k (py"Constraint error for foreign key `" ++ k.name ++ py"`: missing index. " ++
      place t.name k.column ++ py" does not have an index and therefore cannot be used in a foreign key constraint")
  | type (ft : Table) (c fc : Column) : tables.get? k.ftable = some ft → t.columns.get? k.column = some c → ft.columns.get? k.fcolumn = some fc →
      c.columnType ≠ fc.columnType → FkFault tables t k (differs t k py"column type" c.columnType fc.columnType)
  | length (ft : Table) (c fc : Column) : tables.get? k.ftable = some ft → t.columns.get? k.column = some c → ft.columns.get? k.fcolumn = some fc →
      c.len ≠ fc.len → FkFault tables t k (differs t k py"length" c.len.format fc.len.format)
  | charset (ft : Table) (c fc : Column) : tables.get? k.ftable = some ft → t.columns.get? k.column = some c → ft.columns.get? k.fcolumn = some fc →
      c.characterSet ≠ fc.characterSet →
      FkFault tables t k (differs t k py"character set" (c.characterSet.getD py"None") (fc.characterSet.getD py"None"))
  | collation (ft : Table) (c fc : Column) : tables.get? k.ftable = some ft → t.columns.get? k.column = some c → ft.columns.get? k.fcolumn = some fc →
      c.collate ≠ fc.collate → FkFault tables t k (differs t k py"collate" (c.collate.getD py"None") (fc.collate.getD py"None"))
  | unsignedHere (ft : Table) (c fc : Column) : tables.get? k.ftable = some ft → t.columns.get? k.column = some c →
      ft.columns.get? k.fcolumn = some fc → c.isUnsigned = true → fc.isUnsigned = false →
      FkFault tables t k (py"Constraint error for foreign key `" ++ k.name ++ py"`: unsigned mistmatch. " ++ place t.name k.column ++
        py" is unsigned but " ++ place k.ftable k.fcolumn ++ py" is not")
  | unsignedThere (ft : Table) (c fc : Column) : tables.get? k.ftable = some ft → t.columns.get? k.column = some c →
      ft.columns.get? k.fcolumn = some fc → c.isUnsigned = false → fc.isUnsigned = true →
      FkFault tables t k (py"Constraint error for foreign key `" ++ k.name ++ py"`: unsigned mistmatch. " ++ place k.ftable k.fcolumn ++
        py" is unsigned but " ++ place t.name k.column ++ py" is not")
  | setNull (c : Column) (how : Str) : t.columns.get? k.column = some c → c.null = false →
      ((k.onDelete = py"SET NULL" ∧ k.onUpdate = py"SET NULL" ∧ how = py"ON DELETE and ON UPDATE") ∨
       (k.onDelete = py"SET NULL" ∧ k.onUpdate ≠ py"SET NULL" ∧ how = py"ON DELETE") ∨
       (k.onDelete ≠ py"SET NULL" ∧ k.onUpdate = py"SET NULL" ∧ how = py"ON UPDATE")) →
      FkFault tables t k (py"Constraint error for foreign key `" ++ k.name ++ py"`: invalid SET NULL. " ++ place t.name k.column ++
        py" is not allowed to be null but the foreign key attempts to set the value to null " ++ how)
  | noForeignKey (ft : Table) : tables.get? k.ftable = some ft → ¬ ft.HasKeyOn k.fcolumn →
      FkFault tables t k (py"Constraint error for foreign key `" ++ k.name ++ py"`: missing index. " ++ place t.name k.column ++ py" references " ++
        place k.ftable k.fcolumn ++ py" but " ++ place k.ftable k.fcolumn ++
        py" does not have an index and therefore cannot be used in a foreign key constraint")

/-! ## Databases -/

/-- What the readers noted about a column or a foreign key of a table. -/
inductive NotedFault (t : Table) : Str → Prop
  | column (c : Column) (m : Str) : c ∈ t.columns.values → m ∈ c.parsingErrors → NotedFault t (m ++ py" in table '" ++ t.name ++ py"'")
  | constraint (k : Constraint) (m : Str) : k ∈ t.constraints.values → m ∈ k.parsingErrors →
      NotedFault t (m ++ py" in table '" ++ t.name ++ py"'")

/-- All foreign keys with their tables, in order. -/
def everyFk (tables : Dict Table) : List (Table × Constraint) := tables.values.flatMap (fun t => t.constraints.values.map (fun k => (t, k)))

/-- The faults of a database which are not about the inside of its tables or of single foreign keys. -/
inductive GlobalFault (d : Database) : Str → Prop
  /-- noted by the readers: statements which are not understood -/
  | reader (m : Str) : m ∈ d.globalErrors → GlobalFault d m
  /-- noted by the readers about an `INSERT` -/
  | insert (n : Str) (rs : List Rows) (r : Rows) (m : Str) : (n, rs) ∈ d.rows → r ∈ rs → m ∈ r.parsingErrors → GlobalFault d m
  /-- two foreign keys with one name; `t₀` has the first of them -/
  | sameName (pre post : List (Table × Constraint)) (t₀ t : Table) (k₀ k : Constraint) : everyFk d.tables = pre ++ (t, k) :: post →
      pre.find? (fun x => x.2.name == k.name) = some (t₀, k₀) →
      GlobalFault d (py"Duplicate foreign key: foreign key named '" ++ k.name ++ py"' exists in tables '" ++ t₀.name ++ py"' and '" ++
        t.name ++ py"'")
  /-- rows for a table which does not exist -/
  | insertTable (n : Str) (rs : List Rows) (r : Rows) : (n, rs) ∈ d.rows → r ∈ rs → n ∉ d.tables.keys →
      GlobalFault d (py"Insert error: found an insert for table '" ++ n ++ py"' but this table does not exist")
  /-- rows with a value for a column which does not exist -/
  | insertColumn (n : Str) (rs : List Rows) (r : Rows) (t : Table) (c : Str) : (n, rs) ∈ d.rows → r ∈ rs → d.tables.get? n = some t →
      r.numExplicit ≠ 0 → c ∈ r.columns → c ∉ t.columns.keys →
      GlobalFault d (py"Insert error: insert command attempts to set column '" ++ c ++ py"' for table '" ++ n ++
        py"' but the column does not exist in the table.")

/-- Something is wrong with the database, and it is called `m`. -/
def Fault [PyNum] (d : Database) (m : Str) : Prop :=
  (∃ t ∈ d.tables.values, TableFault t m) ∨ (∃ t ∈ d.tables.values, ∃ k ∈ t.constraints.values, FkFault d.tables t k m) ∨
  (∃ t ∈ d.tables.values, NotedFault t m) ∨ GlobalFault d m

end Mygrations

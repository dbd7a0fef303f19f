import Verif.Model.Column

/-!
# Specification: when two column definitions mean the same to a user
-/

namespace Mygrations

/-- An ordinary column definition: the type is a word, the length is empty or made of digits and commas, and
the texts that are printed between quotes contain none.  (Enumerations, whose length is a list, are left out:
the tool reports an error for every one of them.) -/
structure Column.Tidy (c : Column) : Prop where
  name : '`' ∉ c.name
  ctype : ∀ x ∈ c.ctype, isWord x = true
  len : c.len = .none ∨ ∃ l, c.len = .str l ∧ ∀ x ∈ l, (isDigit x || x == ',') = true
  noEnum : c.enumValues = none
  dflt : ∀ d, c.default = some d → '\'' ∉ d
  cset : ∀ d, c.charset = some d → d ≠ [] ∧ '\'' ∉ d
  coll : ∀ d, c.collation = some d → d ≠ [] ∧ '\'' ∉ d

/-- What is printed between the parentheses after the type; empty if there are none. -/
def Column.shownLen (c : Column) : Str :=
  match c.len with
  | .str l => l
  | _ => []

/-- The integer types, whose display width means nothing. -/
def intTypes : List Str := [py"INT", py"INTEGER", py"TINYINT", py"SMALLINT", py"MEDIUMINT", py"BIGINT"]

/-- The types for which MySQL ignores a literal default. -/
def bigTypes : List Str :=
  [py"TINYBLOB", py"BLOB", py"MEDIUMBLOB", py"LONGBLOB", py"TINYTEXT", py"TEXT", py"MEDIUMTEXT", py"LONGTEXT", py"JSON"]

/-- Two defaults which are the same number. -/
def SameNumber [PyNum] (x y : Str) : Prop :=
  ∃ fx fy, PyNum.float x = some fx ∧ PyNum.float y = some fy ∧ PyNum.feq fx fy = true

/-- Two defaults which are the same number at the scale of a `DECIMAL(m,n)`. -/
def SameDecimal [PyNum] (len x y : Str) : Prop :=
  ∃ m n k fx fy, len = m ++ ',' :: n ∧ PyNum.int n = some k ∧ PyNum.float x = some fx ∧ PyNum.float y = some fy ∧
    PyNum.feq (PyNum.round fx k) (PyNum.round fy k) = true

/-- The defaults of two columns agree: they are the same, or the same number (for numeric columns), or MySQL
ignores them (big texts). -/
def Column.SameDefaultValue [PyNum] (a b : Column) : Prop :=
  a.default = b.default ∨
  (a.cls = .numeric ∧ ∃ x y, a.default = some x ∧ b.default = some y ∧
    (SameNumber x y ∨ (a.columnType = py"DECIMAL" ∧ SameDecimal a.shownLen x y))) ∨
  (a.isStringClass = true ∧ a.columnType ∈ bigTypes)

/-- Two optional attributes do not contradict each other. -/
def NoConflict (a b : Option Str) : Prop := ∀ x y, a = some x → b = some y → x = y

/-- Two column definitions agree in name, type, length (display width of integers aside), nullability,
signedness, default, and do not contradict each other in character set and collation. -/
structure Column.Agrees [PyNum] (a b : Column) : Prop where
  name : a.name = b.name
  type : a.columnType = b.columnType
  len : a.shownLen = b.shownLen ∨ (a.cls = .numeric ∧ a.columnType ∈ intTypes)
  null : a.null = b.null
  unsigned : a.isUnsigned = b.isUnsigned
  dflt : a.SameDefaultValue b
  charset : a.isStringClass → b.isStringClass → NoConflict a.characterSet b.characterSet
  collate : a.isStringClass → b.isStringClass → NoConflict a.collate b.collate

end Mygrations

import Verif.Model.Column
import Verif.Model.Parse

/-!
# Specification: definitions which can be written down as SQL and read back

`C35`–`C38` say that the text of a definition, read by the file reader, gives the definition back.  They are about
*plain* definitions: identifiers made of letters, digits and underscores, lengths made of digits, values without blanks,
parentheses, commas and quotes.
-/

namespace Mygrations

/-- A plain identifier. -/
def Ident (s : Str) : Prop := s ≠ [] ∧ ∀ c ∈ s, isWord c = true

/-- A number. -/
def Digits (d : Str) : Prop := d ≠ [] ∧ ∀ c ∈ d, isDigit c = true

/-- A plain value: no white space, no parentheses, commas or quotes. -/
def Bare (v : Str) : Prop := ∀ c ∈ v, isSpace c = false ∧ c ≠ '(' ∧ c ≠ ')' ∧ c ≠ ',' ∧ c ≠ '\'' ∧ c ≠ '"'

instance (s : Str) : Decidable (Ident s) := inferInstanceAs (Decidable (_ ∧ _))
instance (s : Str) : Decidable (Digits s) := inferInstanceAs (Decidable (_ ∧ _))
instance (s : Str) : Decidable (Bare s) := inferInstanceAs (Decidable (∀ c ∈ s, _))

/-- The types of each class of columns.  `INTEGER`, `BOOLEAN` and `BOOL` are missing: the reader turns them into other
types.  Enumerations are missing: see C51. -/
def plainTypes : ColClass → List Str
  | .numeric => [py"INT", py"SMALLINT", py"TINYINT", py"MEDIUMINT", py"BIGINT", py"DECIMAL", py"NUMERIC", py"FLOAT", py"DOUBLE", py"BIT"]
  | .date => [py"DATE", py"DATETIME", py"TIMESTAMP", py"TIME", py"YEAR"]
  | .string => [py"CHAR", py"VARCHAR", py"BINARY", py"VARBINARY", py"TINYBLOB", py"BLOB", py"MEDIUMBLOB", py"LONGBLOB",
      py"TINYTEXT", py"TEXT", py"MEDIUMTEXT", py"LONGTEXT", py"JSON"]
  | .enum => []

/-- How the length of a column is written: not at all, one number, or two. -/
inductive PlainLen : Len → Str → Prop
  | none : PlainLen .none []
  | empty : PlainLen (.str []) []
  | one {d : Str} : Digits d → PlainLen (.str d) d
  | two {a b : Str} : Digits a → Digits b → PlainLen (.str (a ++ py"," ++ b)) (a ++ py"," ++ b)

/-- A plain default of a column: a plain value (other than `null`, if there is no length), or, if there is no length, two
plain values separated by a blank of which the second starts with a digit, as in `2020-01-01 00:00:00`. -/
def PlainDefault (hasLen : Bool) (v : Str) : Prop :=
  (Bare v ∧ (hasLen = false → lower v ≠ py"null")) ∨
  (hasLen = false ∧ ∃ a c b, v = a ++ py" " ++ c :: b ∧ Bare a ∧ isDigit c = true ∧ Bare b)

/-- A plain column. -/
structure Column.Plain (c : Column) : Prop where
  name : Ident c.name
  type : c.columnType ∈ plainTypes c.cls
  noValues : c.enumValues = none
  len : ∃ shown, PlainLen c.len shown ∧ (hasChar ',' shown = true → c.cls = .numeric ∧ c.isAutoInc = false) ∧
    ∀ v, c.default = some v → PlainDefault (!shown.isEmpty) v ∧ (v.contains ' ' = true → c.isUnsigned = false ∧ c.isAutoInc = false)
  number : c.cls ≠ .numeric → c.isUnsigned = false ∧ c.isAutoInc = false
  charset : ∀ v, c.characterSet = some v → c.cls = .string ∧ v ≠ [] ∧ Bare v
  collate : ∀ v, c.collate = some v → c.cls = .string ∧ v ≠ [] ∧ Bare v

/-- The ways to write a column down. -/
structure Style where
  /-- capital and small letters of the types, the keywords, the character sets and the collations -/
  spell : Str → Str
  /-- is this default written without quotes? -/
  bare : Str → Bool
  /-- is `NULL` written for a column which may be null? -/
  null : Bool
  /-- is `DEFAULT NULL` written for a column without a default? -/
  nullDefault : Bool
  /-- do character set and collation come before `NOT NULL`, or at the end? -/
  early : Bool
  /-- are character set and collation written in quotes? -/
  quotes : Bool

/-- As mygrations writes columns. -/
def Style.usual : Style := { spell := id, bare := isNumeric, null := false, nullDefault := false, early := false, quotes := true }

/-- As `SHOW CREATE TABLE` writes columns: types, character sets and collations in small letters, keywords in capital
letters, defaults in quotes. -/
def Style.server (nullDefault : Bool) : Style :=
  { spell := fun w => if [py"NOT NULL", py"NULL", py"DEFAULT", py"AUTO_INCREMENT", py"CHARACTER SET", py"COLLATE"].contains w then w else lower w
    bare := (· == py"CURRENT_TIMESTAMP"), null := false, nullDefault := nullDefault, early := true, quotes := false }

/-- A value, perhaps in quotes. -/
def Style.value (quoted : Bool) (v : Str) : Str := if quoted then py"'" ++ v ++ py"'" else v

/-- The character set and the collation of a column. -/
def Style.characters (s : Style) (c : Column) : Str :=
  (match c.characterSet with | some v => py" " ++ s.spell py"CHARACTER SET" ++ py" " ++ Style.value s.quotes (s.spell v) | none => []) ++
  (match c.collate with | some v => py" " ++ s.spell py"COLLATE" ++ py" " ++ Style.value s.quotes (s.spell v) | none => [])

/-- The default of a column. -/
def Style.default (s : Style) : Option Str → Str
  | some v => py" " ++ s.spell py"DEFAULT" ++ py" " ++ Style.value (!s.bare v) v
  | none => if s.nullDefault then py" " ++ s.spell py"DEFAULT" ++ py" " ++ s.spell py"NULL" else []

/-- The text of a column in a style. -/
def Column.written (c : Column) (s : Style) : Str :=
  py"`" ++ c.name ++ py"` " ++ s.spell c.columnType ++ (if c.len = .none ∨ c.len = .str [] then [] else py"(" ++ c.len.format ++ py")") ++
  (if c.isUnsigned then py" " ++ s.spell py"UNSIGNED" else []) ++
  (if s.early then s.characters c else []) ++
  (if !c.null then py" " ++ s.spell py"NOT NULL" else if s.null then py" " ++ s.spell py"NULL" else []) ++
  s.default c.default ++
  (if c.isAutoInc then py" " ++ s.spell py"AUTO_INCREMENT" else []) ++
  (if s.early then [] else s.characters c)

/-- The column can be written in this style: only capital and small letters differ, and a default without quotes is not
empty, has no blank and is not `null`. -/
structure Style.Fits (s : Style) (c : Column) : Prop where
  spell : ∀ w, lower (s.spell w) = lower w
  bare : ∀ v, c.default = some v → s.bare v = true → v ≠ [] ∧ v.contains ' ' = false ∧ lower v ≠ py"null"

/-- Which actions of a foreign key are written down. -/
structure Actions where
  delete : Bool
  update : Bool

/-- Both. -/
def Actions.both : Actions := ⟨true, true⟩

/-- The text of a foreign key from `FOREIGN KEY` on. -/
def Constraint.body (k : Constraint) (w : Actions) : Str :=
  py"FOREIGN KEY (`" ++ k.column ++ py"`) REFERENCES `" ++ k.ftable ++ py"` (`" ++ k.fcolumn ++ py"`)" ++
  (if w.delete then py" ON DELETE " ++ k.onDelete else []) ++ (if w.update then py" ON UPDATE " ++ k.onUpdate else [])

/-- An action which is not written down is `RESTRICT`. -/
structure Actions.Fits (w : Actions) (k : Constraint) : Prop where
  delete : w.delete = false → k.onDelete = py"RESTRICT"
  update : w.update = false → k.onUpdate = py"RESTRICT"

/-- A plain index: a primary key without a name, a unique key, or a key with a name, on at least one column. -/
structure Index.Plain (i : Index) : Prop where
  columns : i.columns ≠ [] ∧ ∀ c ∈ i.columns, Ident c
  type : (i.indexType = py"PRIMARY" ∧ i.rawName = []) ∨ (i.indexType = py"UNIQUE" ∧ (i.rawName = [] ∨ Ident i.rawName)) ∨
    (i.indexType = py"INDEX" ∧ Ident i.rawName)

/-- The words for an index. -/
def keyWords : List Str := [py"KEY", py"INDEX", py"key", py"index"]

/-- The text of an index with this word for it, which may be left out after `UNIQUE`. -/
def Index.written (i : Index) (w : Str) : Str :=
  (if i.indexType = py"PRIMARY" then py"PRIMARY KEY " else if i.indexType = py"UNIQUE" then py"UNIQUE " else []) ++
  (if i.indexType = py"PRIMARY" ∨ w = [] then [] else w ++ py" ") ++
  (if i.rawName = [] then [] else py"`" ++ i.rawName ++ py"` ") ++
  py"(`" ++ join py"`,`" i.columns ++ py"`)"

/-- The index can be written with this word. -/
def Index.Spelled (i : Index) (w : Str) : Prop := w ∈ keyWords ∨ (w = [] ∧ i.indexType = py"UNIQUE")

/-- The same index: the type is compared as `index_type` shows it, in capital letters. -/
structure SameIndex (a b : Index) : Prop where
  name : b.rawName = a.rawName
  columns : b.columns = a.columns
  type : b.indexType = a.indexType

/-- A plain foreign key. -/
structure Constraint.Plain (k : Constraint) : Prop where
  name : Ident k.name
  column : Ident k.column
  ftable : Ident k.ftable
  fcolumn : Ident k.fcolumn
  onDelete : k.onDelete ∈ [py"CASCADE", py"NO ACTION", py"RESTRICT", py"SET DEFAULT", py"SET NULL"]
  onUpdate : k.onUpdate ∈ [py"CASCADE", py"NO ACTION", py"RESTRICT", py"SET DEFAULT", py"SET NULL"]

/-- No length, or an empty one: nothing is written. -/
def Len.absent (l : Len) : Bool := l == .none || l == .str []

/-- How the reader stores that there is no length: as an empty text, unless the default has a blank. -/
def Column.UsualLength (c : Column) : Prop :=
  c.len.absent = true → c.len = if (c.default.getD []).contains ' ' then .none else .str []

/-- Two columns which a user cannot tell apart: no length and an empty length are the same, and so are an attribute which
is not set and one which is off. -/
structure SameColumn (a b : Column) : Prop where
  cls : b.cls = a.cls
  name : b.name = a.name
  type : b.columnType = a.columnType
  len : b.len = a.len ∨ (a.len.absent = true ∧ b.len.absent = true)
  null : b.null = a.null
  default : b.default = a.default
  unsigned : b.isUnsigned = a.isUnsigned
  autoInc : b.isAutoInc = a.isAutoInc
  charset : b.characterSet = a.characterSet
  collate : b.collate = a.collate
  enumValues : b.enumValues = a.enumValues

/-- What may follow a definition, and what is then left to read: nothing; a comma and any text; or a closing parenthesis
and any text.  What is left is left with its white space normalised. -/
inductive Follows : Str → Str → Prop
  | nothing : Follows [] []
  | comma (more : Str) : Follows (py"," ++ more) (normalize more)
  | close (blanks more : Str) : (∀ c ∈ blanks, isSpace c = true) → Follows (blanks ++ py")" ++ more) (normalize (py")" ++ more))

end Mygrations

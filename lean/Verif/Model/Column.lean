import Verif.Py.Basic

/-!
# Model of the column, index, constraint, option and row definitions
(`mygrations/core/definitions`)
-/

namespace Mygrations

/-- Python's number parsing and rounding, used when column defaults are compared or checked.
The model never looks inside: every theorem holds for any behaviour of `int()`, `float()` and
`round()` (in particular for IEEE doubles).  `none` stands for a `ValueError`. -/
class PyNum where
  F : Type
  /-- `int(s)` -/
  int : Str → Option Int
  /-- `float(s)` -/
  float : Str → Option F
  /-- `a == b` on floats -/
  feq : F → F → Bool
  /-- `round(x, n)` -/
  round : F → Int → F

/-- The column classes (core/definitions/columns/{numeric,date,string,enum}.py). -/
inductive ColClass
  | numeric | date | string | enum
  deriving DecidableEq, Repr

/-- `Column._length`: `None`, a string, or (enum columns) a list of strings. -/
inductive Len
  | none
  | str (s : Str)
  | list (l : List Str)
  deriving DecidableEq, Repr

/-- truth value of a length -/
def Len.truthy : Len → Bool
  | .none => false
  | .str s => !s.isEmpty
  | .list l => !l.isEmpty

/-- `Column` (core/definitions/columns/column.py:6-52).  Only values which the readers produce are
modelled: the default is `None` or a string (the class also accepts an int), `null` is always a bool. -/
structure Column where
  cls : ColClass
  name : Str
  ctype : Str
  len : Len := .none
  null : Bool := true
  hasDefault : Bool := false
  default : Option Str := none
  unsigned : Option Bool := none
  charset : Option Str := none
  collation : Option Str := none
  autoInc : Option Bool := some false
  enumValues : Option (List Str) := none
  parsingErrors : List Str := []
  parsingWarnings : List Str := []
  deriving DecidableEq, Repr

namespace Column

/-- `column_type` (column.py:85-99) -/
def columnType (c : Column) : Str := upper c.ctype

/-- `character_set` (column.py:129-134) -/
def characterSet (c : Column) : Option Str := c.charset.map upper

/-- `collate` (column.py:137-142) -/
def collate (c : Column) : Option Str := c.collation.map upper

/-- `bool(self.unsigned)` -/
def isUnsigned (c : Column) : Bool := c.unsigned.getD false

/-- `bool(self.auto_increment)` -/
def isAutoInc (c : Column) : Bool := c.autoInc.getD false

end Column

/-- `repr(s)` of a string.  Simplification: only backslashes and quotes are escaped (non-printable
characters are left as they are). -/
def pyReprStr (s : Str) : Str :=
  if hasChar '\'' s && !hasChar '"' s then
    ['"'] ++ replaceChar '\\' ['\\', '\\'] s ++ ['"']
  else
    ['\''] ++ replaceChar '\'' ['\\', '\''] (replaceChar '\\' ['\\', '\\'] s) ++ ['\'']

/-- `"%s" % length` -/
def Len.format : Len → Str
  | .none => py"None"
  | .str s => s
  | .list l => py"[" ++ join py", " (l.map pyReprStr) ++ py"]"

namespace Column

/-- The type part of `Column.__str__` (column.py:212-217). -/
def typeString (c : Column) : Str :=
  c.columnType ++
    (match c.enumValues with
     | some (v :: vs) => py"('" ++ join py"', '" (v :: vs) ++ py"')"
     | _ => if c.len = .none ∨ c.len = .str [] then [] else py"(" ++ c.len.format ++ py")")

/-- The DEFAULT part of `Column.__str__` (column.py:225-231). -/
def defaultParts (c : Column) : List Str :=
  match c.default with
  | none => []
  | some [] => [py"DEFAULT ''"]
  | some d => if isNumeric d then [py"DEFAULT " ++ d] else [py"DEFAULT '" ++ d ++ py"'"]

/-- The list `parts` of `Column.__str__` (column.py:209-234). -/
def parts (c : Column) : List Str :=
  [py"`" ++ c.name ++ py"`", c.typeString] ++
  (if c.isUnsigned then [py"UNSIGNED"] else []) ++
  (if c.null then [] else [py"NOT NULL"]) ++
  c.defaultParts ++
  (if c.isAutoInc then [py"AUTO_INCREMENT"] else [])

/-- A non-empty optional string (`if self.character_set:`). -/
def nonEmpty : Option Str → Option Str
  | some (c :: cs) => some (c :: cs)
  | _ => none

/-- `Column.__str__` (column.py:202-236) and `String.__str__` (string.py:86-94). -/
def render (c : Column) : Str :=
  let base := join py" " c.parts
  match c.cls with
  | .numeric | .date => base
  | .string | .enum =>
    base ++
    (match nonEmpty c.characterSet with
     | some cs => py" CHARACTER SET '" ++ cs ++ py"'"
     | none => []) ++
    (match nonEmpty c.collate with
     | some cs => py" COLLATE '" ++ cs ++ py"'"
     | none => [])

/-! ## `is_really_the_same_as` -/

/-- `String._no_literal_default_types` (string.py:133-143) -/
def noLiteralDefaultTypes : List Str :=
  [py"TINYBLOB", py"BLOB", py"MEDIUMBLOB", py"LONGBLOB", py"TINYTEXT", py"TEXT", py"MEDIUMTEXT",
   py"LONGTEXT", py"JSON"]

/-- `Numeric._integer_types_with_deprecated_width` (numeric.py:116-123) -/
def integerTypes : List Str :=
  [py"INT", py"INTEGER", py"TINYINT", py"SMALLINT", py"MEDIUMINT", py"BIGINT"]

/-- is this one of the classes deriving from `String`? -/
def isStringClass (c : Column) : Bool := c.cls = .string || c.cls = .enum

/-- `Column._default_none_mismatch` (column.py:266-271) / `String._default_none_mismatch` (string.py:145-148) -/
def defaultNoneMismatch (c d : Column) : Bool :=
  if c.isStringClass && noLiteralDefaultTypes.contains c.columnType then false
  else c.default.isSome != d.default.isSome

/-- `Numeric._is_really_the_same_default` (numeric.py:139-157) -/
def sameNumericDefault [PyNum] (c d : Column) : Except PyErr Bool :=
  match c.default, d.default with
  | none, none => .ok true
  | none, some _ => .ok false
  | some _, none => .ok false
  | some x, some y =>
    if c.columnType ≠ py"DECIMAL" then
      match PyNum.float x, PyNum.float y with
      | some fx, some fy => .ok (PyNum.feq fx fy)
      | _, _ => .error (.valueError py"could not convert string to float")
    else
      match c.len with
      | .str l =>
        match splitOn ',' l with
        | [_, n] =>
          match PyNum.int n with
          | none => .error (.valueError py"invalid literal for int() with base 10")
          | some k =>
            match PyNum.float x, PyNum.float y with
            | some fx, some fy =>
              .ok (PyNum.feq (PyNum.round fx k) (PyNum.round fy k) || x == y)
            | _, _ => .error (.valueError py"could not convert string to float")
        | _ => .ok (x == y)
      | _ => .error (.attributeError py"split")

/-- `_is_really_the_same_default`: `Column` (column.py:273-274), `String` (string.py:150-153), `Numeric`. -/
def sameDefault [PyNum] (c d : Column) : Except PyErr Bool :=
  match c.cls with
  | .numeric => sameNumericDefault c d
  | .date => .ok (c.default == d.default)
  | .string | .enum =>
    if noLiteralDefaultTypes.contains c.columnType then .ok true else .ok (c.default == d.default)

/-- The common tail of `is_really_the_same_as`: signedness and default
(column.py:252-258, numeric.py:130-135). -/
def sameTail [PyNum] (c d : Column) : Except PyErr Bool :=
  if c.isUnsigned ≠ d.isUnsigned then .ok false
  else if c.defaultNoneMismatch d then .ok false
  else c.sameDefault d

/-- `Column.is_really_the_same_as` (column.py:238-264) -/
def sameBase [PyNum] (c d : Column) : Except PyErr Bool :=
  if c.name ≠ d.name ∨ c.len ≠ d.len ∨ c.null ≠ d.null ∨ c.columnType ≠ d.columnType then .ok false
  else c.sameTail d

/-- two optional attributes which both have a value and differ (string.py:161-165) -/
def bothDiffer (a b : Option Str) : Bool :=
  match nonEmpty a, nonEmpty b with
  | some x, some y => x != y
  | _, _ => false

/-- `is_really_the_same_as`, dispatching on the class of the receiver
(numeric.py:125-137, string.py:155-167, column.py:238-264). -/
def sameAs [PyNum] (c d : Column) : Except PyErr Bool :=
  match c.cls with
  | .numeric =>
    if integerTypes.contains c.columnType then
      if c.name ≠ d.name ∨ c.null ≠ d.null ∨ c.columnType ≠ d.columnType then .ok false
      else c.sameTail d
    else c.sameBase d
  | .date => c.sameBase d
  | .string | .enum =>
    match c.sameBase d with
    | .error e => .error e
    | .ok false => .ok false
    | .ok true =>
      .ok (!(bothDiffer c.collate d.collate) && !(bothDiffer c.characterSet d.characterSet))

/-! ## Schema checks -/

/-- Accumulate the messages of consecutive checks until one of them raises. -/
def runChecks : List (Except PyErr (List Str)) → List Str × Option PyErr
  | [] => ([], none)
  | .error e :: _ => ([], some e)
  | .ok l :: rest => let (m, e) := runChecks rest; (l ++ m, e)

/-- `[msg] if b else []` -/
def check (b : Bool) (msg : Str) : Except PyErr (List Str) := .ok (if b then [msg] else [])

/-- "Column '<name>' of type '<type>' " -/
def label (c : Column) : Str := py"Column '" ++ c.name ++ py"' of type '" ++ c.columnType ++ py"' "

/-- `Column._check_for_schema_errors_and_warnings`: errors (column.py:192-195) -/
def baseChecks (c : Column) : List (Except PyErr (List Str)) :=
  [check c.name.isEmpty py"Column does not have a name",
   check c.columnType.isEmpty (py"Missing column_type for column " ++ c.name)]

/-- `Column._check_for_schema_errors_and_warnings`: warnings (column.py:197-200) -/
def schemaWarnings (c : Column) : List Str :=
  if c.default.isNone && !c.null && !c.isAutoInc then
    [py"Column " ++ c.name ++ py" does not allow null values and has no default: you should set a default to avoid warnings"]
  else []

/-- classification of a numeric default (numeric.py:63-78); strings only -/
inductive DefaultType | none | int | float | str
  deriving DecidableEq

/-- numeric.py:63-78 -/
def defaultType [PyNum] (c : Column) : DefaultType :=
  match c.default with
  | Option.none => .none
  | some d => if (PyNum.int d).isSome then .int else if (PyNum.float d).isSome then .float else .str

/-- types with a fractional default (numeric.py:57) -/
def allowFloat : List Str := [py"DECIMAL", py"NUMERIC", py"FLOAT", py"DOUBLE"]

/-- types without length / AUTO_INCREMENT (numeric.py:58-59) -/
def noLength : List Str := [py"FLOAT", py"DOUBLE", py"BIT"]

/-- the default checks of `Numeric` (numeric.py:80-90) -/
def numericDefaultChecks [PyNum] (c : Column) : List (Except PyErr (List Str)) :=
  if c.defaultType = .str then
    [check true (c.label ++ py"cannot have a string value as a default")]
  else
    [check (c.defaultType = .float && !allowFloat.contains c.columnType)
      (c.label ++ py"must have an integer value as a default"),
     if c.columnType = py"BIT" then
       match c.default with
       | Option.none => .error .typeError
       | some d =>
         match PyNum.int d with
         | Option.none => .error (.valueError py"invalid literal for int() with base 10")
         | some n => check (n ≠ 0 && n ≠ 1) (py"Column '" ++ c.name ++ py"' of type 'BIT' must have a default of 1 or 0")
     else .ok []]

/-- `"," in self.length` for string lengths -/
def lenHasComma (c : Column) : Bool :=
  match c.len with
  | .str s => hasChar ',' s
  | _ => false

/-- `Numeric._check_for_schema_errors_and_warnings` (numeric.py:54-112) -/
def numericChecks [PyNum] (c : Column) : List (Except PyErr (List Str)) :=
  c.baseChecks ++ c.numericDefaultChecks ++
  [if c.len.truthy then
     if noLength.contains c.columnType then check true (c.label ++ py"cannot have a length")
     else check (c.lenHasComma && !allowFloat.contains c.columnType)
       (c.label ++ py"must have an integer value as its length")
   else .ok [],
   check c.characterSet.isSome (c.label ++ py"cannot have a character set"),
   check c.collate.isSome (c.label ++ py"cannot have a collate"),
   check (c.isAutoInc && noLength.contains c.columnType) (c.label ++ py"cannot be an AUTO_INCREMENT"),
   check ((c.enumValues.getD []) ≠ [])
     (py"Column '" ++ c.name ++ py"' of type " ++ c.columnType ++ py" is not allowed to have a list of values for its length")]

/-- `String._allowed_default` / `_allowed_collation` (string.py:22-38) -/
def allowedCollation : List Str :=
  [py"CHAR", py"VARCHAR", py"BINARY", py"VARBINARY", py"ENUM", py"SET"]

/-- `String._allowed_length` (string.py:40-45) -/
def allowedLength : List Str := [py"CHAR", py"VARCHAR", py"BINARY", py"VARBINARY"]

/-- `String._check_for_schema_errors_and_warnings` (string.py:96-130) -/
def stringChecks (c : Column) : List (Except PyErr (List Str)) :=
  c.baseChecks ++
  [check (c.hasDefault && !allowedCollation.contains c.columnType) (c.label ++ py"cannot have a default"),
   check c.isAutoInc (c.label ++ py"cannot be an AUTO_INCREMENT: only numeric columns can"),
   (if (nonEmpty c.characterSet).isSome || (nonEmpty c.collate).isSome then
      .ok ((if allowedCollation.contains c.columnType then []
            else [c.label ++ py"cannot have a collation/character set"]) ++
           (if (c.columnType = py"BINARY" ∨ c.columnType = py"VARBINARY") ∧
               (c.collate.getD py"BINARY" ≠ py"BINARY" ∨ c.characterSet.getD py"BINARY" ≠ py"BINARY") then
              [c.label ++ py"can only have a collate/character set of BINARY"]
            else []))
    else .ok []),
   check (c.len.truthy && !allowedLength.contains c.columnType)
     (py"Column " ++ c.name ++ py" of type " ++ c.columnType ++ py" cannot have a length"),
   check ((c.enumValues.getD []) ≠ [] && !(c.columnType = py"ENUM" || c.columnType = py"SET"))
     (py"Column '" ++ c.name ++ py"' of type " ++ c.columnType ++ py" is not allowed to have a list of values for its length"),
   check c.isUnsigned (py"Column " ++ c.name ++ py" cannot be unsigned")]

/-- `Enum._check_for_schema_errors_and_warnings` (enum.py:43-58).  `default in None` raises
`TypeError`, the name `no_auto_increment` does not exist. -/
def enumChecks (c : Column) : List (Except PyErr (List Str)) :=
  c.stringChecks ++
  [check ((c.enumValues.getD []) = [])
     (py"column '" ++ c.name ++ py"' of type '" ++ c.columnType ++ py"' must have a list of values"),
   (match nonEmpty c.default with
    | none => .ok []
    | some d =>
      match c.enumValues with
      | none => .error .typeError
      | some vs => check (!vs.contains d)
          (py"Default value for '" ++ c.columnType ++ py"' column '" ++ c.name ++ py"' is not in the list of allowed values")),
   if c.isAutoInc then .error (.nameError py"no_auto_increment") else .ok [],
   check c.isUnsigned (py"Column " ++ c.name ++ py" cannot be unsigned")]

/-- `Date._check_for_schema_errors_and_warnings` (date.py:44-65).  The attribute `values` does not
exist, so the check always raises. -/
def dateChecks (c : Column) : List (Except PyErr (List Str)) :=
  c.baseChecks ++
  [check c.len.truthy (c.label ++ py"cannot have a length"),
   check c.characterSet.isSome (c.label ++ py"cannot have a character set"),
   check c.collate.isSome (c.label ++ py"cannot have a collate"),
   if c.isAutoInc then .error (.nameError py"no_auto_increment") else .ok [],
   .error (.attributeError py"values")]

/-- `column.schema_errors` on first access: the messages collected so far and the exception, if any. -/
def schemaCheck [PyNum] (c : Column) : List Str × Option PyErr :=
  runChecks (match c.cls with
    | .numeric => c.numericChecks
    | .string => c.stringChecks
    | .enum => c.enumChecks
    | .date => c.dateChecks)

end Column

/-! ## Index -/

/-- `Index` (core/definitions/index.py) -/
structure Index where
  rawName : Str := []
  columns : List Str
  itype : Str
  deriving DecidableEq, Repr

namespace Index

/-- `name` (index.py:40-51): an unnamed index is called like its first column. -/
def name (i : Index) : Str :=
  if i.rawName ≠ [] then i.rawName else i.columns.headD []

/-- `index_type` (index.py:53-61) -/
def indexType (i : Index) : Str := upper i.itype

/-- `is_primary` (index.py:63-65) -/
def isPrimary (i : Index) : Bool := i.indexType = py"PRIMARY"

/-- `__str__` (index.py:105-124) -/
def render (i : Index) : Str :=
  join py" "
    ((if i.indexType = py"PRIMARY" then [py"PRIMARY"]
      else if i.indexType = py"UNIQUE" then [py"UNIQUE"] else []) ++
     [py"KEY"] ++
     (if i.rawName ≠ [] then [py"`" ++ i.name ++ py"`"] else []) ++
     [py"(`" ++ join py"`,`" i.columns ++ py"`)"])

/-- `_check_for_schema_errors_and_warnings` (index.py:96-103) -/
def schemaErrors (i : Index) : List Str :=
  (if i.name = [] then [py"Missing name for index " ++ i.name] else []) ++
  (if i.indexType = [] then [py"Missing index_type for index " ++ i.name] else []) ++
  (if i.columns = [] then [py"Missing columns for index " ++ i.name] else []) ++
  (if i.name.length > 64 then [py"Key name " ++ i.rawName ++ py" must be <=64 characters long"] else [])

end Index

/-! ## Constraint -/

/-- `Constraint` (core/definitions/constraint.py) -/
structure Constraint where
  name : Str
  column : Str
  ftable : Str
  fcolumn : Str
  onDelete : Str := py"RESTRICT"
  onUpdate : Str := py"RESTRICT"
  parsingErrors : List Str := []
  deriving DecidableEq, Repr

namespace Constraint

/-- the allowed actions (constraint.py, `_check_for_schema_errors_and_warnings`) -/
def allowedActions : List Str :=
  [py"CASCADE", py"NO ACTION", py"RESTRICT", py"SET DEFAULT", py"SET NULL"]

/-- `__str__` (constraint.py:117-135) -/
def render (k : Constraint) : Str :=
  join py" " [py"CONSTRAINT", py"`" ++ k.name ++ py"`", py"FOREIGN KEY", py"(`" ++ k.column ++ py"`)",
    py"REFERENCES", py"`" ++ k.ftable ++ py"`", py"(`" ++ k.fcolumn ++ py"`)",
    py"ON DELETE " ++ k.onDelete, py"ON UPDATE " ++ k.onUpdate]

/-- `_check_for_schema_errors_and_warnings` (constraint.py:93-115) -/
def schemaErrors (k : Constraint) : List Str :=
  (if k.name = [] then [py"Missing name for constraint"]
   else if k.name.length > 64 then [py"Key name '" ++ k.name ++ py"' is too long"] else []) ++
  (if allowedActions.contains k.onDelete then []
   else [py"ON DELETE action of '" ++ k.onDelete ++ py"' for constraint '" ++ k.name ++ py"' is not a valid ON DELETE action"]) ++
  (if allowedActions.contains k.onUpdate then []
   else [py"ON UPDATE action of '" ++ k.onUpdate ++ py"' for constraint '" ++ k.name ++ py"' is not a valid ON UPDATE action"]) ++
  (if k.name = [] then [py"Missing name for constraint '" ++ k.name ++ py"'"] else []) ++
  (if k.column = [] then [py"Missing column_name for constraint '" ++ k.name ++ py"'"] else []) ++
  (if k.ftable = [] then [py"Missing foreign_table_name for constraint '" ++ k.name ++ py"'"] else []) ++
  (if k.fcolumn = [] then [py"Missing foreign_column_name for constraint '" ++ k.name ++ py"'"] else [])

end Constraint

/-- A table option (`TableOption`, `Option`): name and value. -/
structure TableOpt where
  name : Str
  value : Str
  deriving DecidableEq, Repr

/-! ## Rows -/

/-- A cell value: `None`, a string (file rows), an int, or any other object a driver may return, given
by its type, a key deciding `==` among objects of that type, and its `str()`. -/
inductive PyVal
  | none
  | str (s : Str)
  | int (n : Int)
  | other (type eqKey text : Str)
  deriving DecidableEq, Repr

/-- decimal digits of an integer, as `str(n)` prints it -/
def intStr (n : Int) : Str := (toString n).toList

/-- `str(v)` -/
def PyVal.toStr : PyVal → Str
  | .none => py"None"
  | .str s => s
  | .int n => intStr n
  | .other _ _ t => t

/-- An INSERT statement read from a file (`Rows`, `InsertParser`).  `numExplicit` is
`num_explicit_columns`. -/
structure Rows where
  table : Str
  columns : List Str
  rawRows : List (List PyVal)
  numExplicit : Nat
  parsingErrors : List Str := []
  parsingWarnings : List Str := []
  deriving DecidableEq, Repr

/-- One stored row: column name to value. -/
abbrev Row := Dict PyVal

end Mygrations

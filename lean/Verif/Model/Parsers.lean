import Verif.Model.Parse
import Verif.Model.Table

/-!
# Model of the definition parsers (`mygrations/formats/mysql/file_reader/parsers`)
-/

namespace Mygrations

/-! ## Pieces of rules -/

/-- `[^\(\s\)]` -/
def nameChar (c : Char) : Bool := c != '(' && c != ')' && !isSpace c

/-- `[^\(\s\),]` -/
def valueChar (c : Char) : Bool := c != '(' && c != ')' && c != ',' && !isSpace c

/-- a regular expression which is one character class repeated, `[p]+` -/
def plus (p : Char → Bool) : Kind := .regexp (.cls [] p none [])

/-- `PREFIX ([^\(\s\),]+)` -/
def keyword (pre : Str) : Kind := .regexp (.cls pre valueChar none [])

/-- a literal rule without a name is named like its value (core/parse/rule_literal.py:37-42) -/
def lit (v : Str) : Rule Kind := { kind := .literal v, name := v }

/-- an optional literal rule without a name -/
def optLit (v : Str) : Rule Kind := { kind := .literal v, name := v, optional := true }

/-- `{"type": "literal", "value": ",", "optional": True, "name": "ending_comma"}` -/
def endingComma : Rule Kind := { kind := .literal py",", name := py"ending_comma", optional := true }

/-- `{"type": "literal", "value": "NULL", "optional": True, "name": "bare_null"}` -/
def bareNull : Rule Kind := { kind := .literal py"NULL", name := py"bare_null", optional := true }

/-- `{"type": "regexp", "value": "COLLATE ([^\(\s\),]+)", "name": "collate", "optional": True}` -/
def collateRule : Rule Kind := { kind := keyword py"COLLATE ", name := py"collate", optional := true }

/-- `{"type": "regexp", "value": "CHARACTER SET ([^\(\s\),]+)", "name": "character_set", "optional": True}` -/
def charsetRule : Rule Kind := { kind := keyword py"CHARACTER SET ", name := py"character_set", optional := true }

/-- `{"type": "regexp", "value": "DEFAULT ([^\(\s\),]+)", "name": "default", "optional": True}` -/
def defaultRule : Rule Kind := { kind := keyword py"DEFAULT ", name := py"default", optional := true }

/-- `{"type": "regexp", "value": "[^\(\s\)]+", "name": ...}` -/
def nameRule (n : Str) : Rule Kind := { kind := plus nameChar, name := n }

/-- `{"type": "regexp", "value": "\w+", "name": "type"}` -/
def typeRule : Rule Kind := { kind := plus isWord, name := py"type" }

/-- `{"type": "regexp", "value": "\d+", "name": ...}` -/
def digitsRule (n : Str) : Rule Kind := { kind := plus isDigit, name := n }

/-- a delimited rule; the end is the value of the next rule -/
def delimited (n : Str) (quote : Char) (endLit : Str) : Rule Kind := { kind := .delimited ',' quote endLit, name := n }

/-- the value of a rule as a string (`None` is handled where it can occur) -/
def PVal.text : PVal → Str
  | .str s => s
  | _ => []

/-- `self._values[name]`, for rules whose value is a string and which must have matched -/
def textOf (vals : Dict PVal) (n : Str) : Str :=
  match vals.get? n with
  | some v => v.text
  | none => []

/-- `self._values.get(name)`, for rules whose value is a string -/
def optTextOf (vals : Dict PVal) (n : Str) : Option Str := (vals.get? n).map PVal.text

/-- `self._values[name]`, for delimited rules -/
def listOf (vals : Dict PVal) (n : Str) : List Str :=
  match vals.get? n with
  | some (.list l) => l
  | _ => []

/-- `.strip("`")` -/
def stripTicks (s : Str) : Str := stripChars (· == '`') s

/-- `.strip("'")` -/
def stripQuotes (s : Str) : Str := stripChars (· == '\'') s

/-- `value and len(value) >= 2 and value[0] == "'" and value[-1] == "'"` -/
def isQuoted (s : Str) : Bool := 2 ≤ s.length && s.head? == some '\'' && s.getLast? == some '\''

/-- `Type._unquote` (parsers/type.py:6-15) -/
def unquote (s : Option Str) : Option Str := s.map (fun v => if isQuoted v then stripQuotes v else v)

/-- `Type._normalize_type` (parsers/type.py:75-86) -/
def normalizeType (s : Str) : Str := if lower s = py"integer" then py"int" else s

/-- "make sense of the default" of `TypeCharacter`, `TypeNumeric`, `TypeDecimal`, `TypeEnum`, `TypeText` and
`TypeDateTime` (for example parsers/type_character.py:59-68) -/
def senseDefault (d : Option Str) : Option Str :=
  match d with
  | none => none
  | some s => if isQuoted s then some (stripQuotes s) else if lower s = py"null" then none else some s

/-! ## Warnings about defaults -/

/-- `'Default value of "%s" should have quotes for field %s'` (parsers/type_character.py:66-68) -/
def quotesText (v name : Str) : Str := py"Default value of \"" ++ v ++ py"\" should have quotes for field " ++ name

/-- the warnings of `TypeCharacter`, `TypeText` and `TypeDateTime` about the default which they have read for the column `name`
(parsers/type_character.py:59-68, type_text.py:51-60, type_datetime.py:56-65).  An empty default cannot be read. -/
def characterWarnings (name : Str) : Option Str → List Str
  | none => []
  | some v => if isQuoted v then [] else if lower v = py"null" then [] else if isNumeric v then [] else [quotesText v name]

/-- the warnings of `TypeNumeric` (parsers/type_numeric.py:50-57) -/
def numericWarnings (name type : Str) : Option Str → List Str
  | none => []
  | some v =>
    if isQuoted v then [] else if lower v = py"null" then []
    else if [py"char", py"varchar"].contains type then [py"Default value for column " ++ name ++ py" should be quoted"]
    else []

/-- the warnings of `TypeDecimal` (parsers/type_decimal.py:38-43) -/
def decimalWarnings (name : Str) : Option Str → List Str
  | none => []
  | some v => if isQuoted v then [py"Column '" ++ name ++ py"' has a numeric type but its default value is a string"] else []

/-- the warnings of `TypeEnum` (parsers/type_enum.py:38-47) -/
def enumWarnings (name : Str) : Option Str → List Str
  | none => []
  | some v => if isQuoted v then [] else if lower v = py"null" then [] else [quotesText v name]

/-! ## Parsed definitions -/

/-- A column as a parser holds it, before `as_definition` (parsers/type*.py): the attributes which
`as_definition` reads with `getattr`, and `_is_primary_key`.  `enum_values` is always `None` there, because
`TypeEnum` stores `_enum_values`. -/
structure ParsedColumn where
  name : Str
  ctype : Str
  len : Len := .none
  null : Bool
  hasDefault : Bool := false
  default : Option Str := none
  unsigned : Option Bool := none
  charset : Option Str := none
  collation : Option Str := none
  autoInc : Option Bool := none
  isPrimaryKey : Bool := false
  parsingWarnings : List Str := []
  deriving DecidableEq, Repr

/-- `Type.column_type_map` (parsers/type.py:32-66) -/
def columnTypeMap : Dict ColClass :=
  [(py"INTEGER", .numeric), (py"INT", .numeric), (py"SMALLINT", .numeric), (py"TINYINT", .numeric),
   (py"MEDIUMINT", .numeric), (py"BIGINT", .numeric), (py"DECIMAL", .numeric), (py"NUMERIC", .numeric),
   (py"FLOAT", .numeric), (py"DOUBLE", .numeric), (py"BIT", .numeric), (py"BOOLEAN", .numeric), (py"BOOL", .numeric),
   (py"DATE", .date), (py"DATETIME", .date), (py"TIMESTAMP", .date), (py"TIME", .date), (py"YEAR", .date),
   (py"CHAR", .string), (py"VARCHAR", .string), (py"BINARY", .string), (py"VARBINARY", .string),
   (py"TINYBLOB", .string), (py"BLOB", .string), (py"MEDIUMBLOB", .string), (py"LONGBLOB", .string),
   (py"TINYTEXT", .string), (py"TEXT", .string), (py"MEDIUMTEXT", .string), (py"LONGTEXT", .string),
   (py"JSON", .string), (py"ENUM", .enum), (py"SET", .enum)]

/-- `as_definition` (parsers/type.py:88-116) -/
def ParsedColumn.asDefinition (c : ParsedColumn) : Except PyErr Column :=
  match columnTypeMap.get? (upper c.ctype) with
  | none => .error (.valueError (py"Found an unknown column type, '" ++ upper c.ctype ++
      py"' that does not have a corresponding column class"))
  | some cls => .ok
      { cls := cls
        name := c.name
        ctype := upper c.ctype
        len := c.len
        null := c.null
        hasDefault := c.hasDefault
        default := c.default
        unsigned := c.unsigned
        charset := c.charset
        collation := c.collation
        autoInc := c.autoInc
        enumValues := none
        parsingWarnings := c.parsingWarnings }

/-- What a child of `CREATE TABLE (...)` parses to. -/
inductive Definition
  | column (c : ParsedColumn)
  | index (i : Index)
  | constraint (k : Constraint) (bare : Bool)
  deriving DecidableEq, Repr

/-! ## Indexes -/

/-- `_INDEX_LENGTH_RE.sub("", col.strip())` (core/definitions/index.py:9-13) -/
def cleanIndexColumn (s : Str) : Str :=
  let s := strip s
  match s.reverse with
  | ')' :: r =>
    match r.dropWhile isDigit with
    | '(' :: r' => if (r.takeWhile isDigit).isEmpty then s else r'.reverse
    | _ => s
  | _ => s

/-- the end of every index definition: `(columns)` and an optional comma -/
def indexTail : List (Rule Kind) := [lit py"(", delimited py"columns" '`' py")", lit py")", endingComma]

/-- `(KEY)|(INDEX)` -/
def keyOrIndex : Kind := .regexp (.alt py"KEY" py"INDEX")

/-- `IndexPrimary` (parsers/index_primary.py) -/
def indexPrimary : ChildClass Definition where
  rules := lit py"PRIMARY KEY" :: indexTail
  process vals := .index { rawName := [], columns := (listOf vals py"columns").map cleanIndexColumn, itype := py"primary" }

/-- `IndexKey` (parsers/index_key.py) -/
def indexKey : ChildClass Definition where
  rules := { kind := keyOrIndex, name := py"index_name" } :: nameRule py"name" :: indexTail
  process vals := .index { rawName := stripTicks (strip (textOf vals py"name"))
                           columns := (listOf vals py"columns").map cleanIndexColumn
                           itype := py"index" }

/-- `IndexUnique` (parsers/index_unique.py) -/
def indexUnique : ChildClass Definition where
  rules := lit py"UNIQUE" :: { kind := keyOrIndex, name := py"index_name", optional := true } ::
    { kind := plus (· != '('), name := py"name", optional := true } :: indexTail
  process vals := .index { rawName := match vals.get? py"name" with | some v => stripTicks (strip v.text) | none => []
                           columns := (listOf vals py"columns").map cleanIndexColumn
                           itype := py"unique" }

/-! ## Constraints -/

/-- the actions, in the order of the rules (parsers/constraint_foreign.py:17-26,44) -/
def fkActions : List Str := [py"CASCADE", py"NO ACTION", py"RESTRICT", py"SET DEFAULT", py"SET NULL"]

/-- the rules from `FOREIGN KEY (` on, shared by both classes (parsers/constraint_foreign.py:10-27,65-82) -/
def foreignRules : List (Rule Kind) :=
  [lit py"FOREIGN KEY (", nameRule py"column_name", lit py") REFERENCES",
   { kind := plus (· != '('), name := py"foreign_table_name" }, lit py"(",
   { kind := plus (· != ')'), name := py"foreign_column_name" }, lit py")"] ++
  fkActions.map (fun a => optLit (py"ON DELETE " ++ a)) ++
  fkActions.map (fun a => optLit (py"ON UPDATE " ++ a)) ++ [endingComma]

/-- the actions of one kind which were found -/
def foundActions (vals : Dict PVal) (what : Str) : List Str :=
  fkActions.filter (fun a => vals.has (py"ON " ++ what ++ py" " ++ a))

/-- `find_action` (parsers/constraint_foreign.py:42-57): the first action found, `RESTRICT` if there is none -/
def findAction (vals : Dict PVal) (what : Str) : Str := (foundActions vals what).headD py"RESTRICT"

/-- the errors which `find_action` appends: one for every further action -/
def actionErrors (vals : Dict PVal) (what : Str) : List Str :=
  ((foundActions vals what).drop 1).map (fun _ => py"Found contradictory rules in foreign constraint for ON " ++ what)

/-- the part of `process` which both classes share (parsers/constraint_foreign.py:32-40,86-96) -/
def foreignConstraint (name : Str) (vals : Dict PVal) : Constraint :=
  { name := name
    column := stripTicks (strip (textOf vals py"column_name"))
    ftable := stripTicks (strip (textOf vals py"foreign_table_name"))
    fcolumn := stripTicks (strip (textOf vals py"foreign_column_name"))
    onDelete := findAction vals py"DELETE"
    onUpdate := findAction vals py"UPDATE"
    parsingErrors := actionErrors vals py"DELETE" ++ actionErrors vals py"UPDATE" }

/-- `ConstraintForeign` (parsers/constraint_foreign.py:5-57) -/
def constraintForeign : ChildClass Definition where
  rules := lit py"CONSTRAINT" :: nameRule py"name" :: foreignRules
  process vals := .constraint (foreignConstraint (stripTicks (strip (textOf vals py"name"))) vals) false

/-- `ConstraintForeignBare` (parsers/constraint_foreign.py:60-96); the placeholder name is always overwritten by
`CreateParser.process`. -/
def constraintForeignBare : ChildClass Definition where
  rules := foreignRules
  process vals := .constraint (foreignConstraint
    (stripTicks (strip (textOf vals py"column_name")) ++ py"_" ++
      stripTicks (strip (textOf vals py"foreign_table_name")) ++ py"_fk") vals) true

/-! ## Columns -/

/-- `"NOT NULL" not in self._values` (`_extract_null`, parsers/type.py:28-30) -/
def extractNull (vals : Dict PVal) : Bool := !vals.has py"NOT NULL"

/-- the first rules of the column parsers -/
def columnHead : List (Rule Kind) := [nameRule py"name", typeRule]

/-- the repeated collation rules (for example parsers/type_character.py:32-34) -/
def collations : List (Rule Kind) := [collateRule, charsetRule, collateRule]

/-- `TypeCharacter` (parsers/type_character.py) -/
def typeCharacter : ChildClass Definition where
  rules := columnHead ++ [lit py"(", digitsRule py"length", lit py")"] ++ collations ++ [bareNull, optLit py"NOT NULL"] ++
    collations ++ [defaultRule] ++ collations ++ [endingComma]
  process vals := .column
    { name := stripTicks (textOf vals py"name")
      ctype := normalizeType (textOf vals py"type")
      len := .str (textOf vals py"length")
      null := extractNull vals
      hasDefault := vals.has py"default"
      default := senseDefault (optTextOf vals py"default")
      charset := unquote (optTextOf vals py"character_set")
      collation := unquote (optTextOf vals py"collate")
      parsingWarnings := characterWarnings (stripTicks (textOf vals py"name")) (optTextOf vals py"default") }

/-- `TypeNumeric` (parsers/type_numeric.py) -/
def typeNumeric : ChildClass Definition where
  rules := columnHead ++ [lit py"(", digitsRule py"length", lit py")", optLit py"UNSIGNED", bareNull, optLit py"NOT NULL",
    defaultRule, optLit py"AUTO_INCREMENT", endingComma]
  process vals := .column
    { name := stripTicks (textOf vals py"name")
      ctype := normalizeType (textOf vals py"type")
      len := .str (textOf vals py"length")
      null := extractNull vals
      hasDefault := vals.has py"default"
      default := senseDefault (optTextOf vals py"default")
      unsigned := some (vals.has py"UNSIGNED")
      autoInc := some (vals.has py"AUTO_INCREMENT")
      parsingWarnings := numericWarnings (stripTicks (textOf vals py"name")) (normalizeType (textOf vals py"type")) (optTextOf vals py"default") }

/-- `TypeDecimal` (parsers/type_decimal.py) -/
def typeDecimal : ChildClass Definition where
  rules := columnHead ++ [lit py"(", digitsRule py"length", { kind := .literal py",", name := py"separating_comma" },
    digitsRule py"decimals", lit py")", optLit py"UNSIGNED", bareNull, optLit py"NOT NULL", defaultRule, endingComma]
  process vals := .column
    { name := stripTicks (textOf vals py"name")
      ctype := textOf vals py"type"
      len := .str (textOf vals py"length" ++ py"," ++ textOf vals py"decimals")
      null := extractNull vals
      hasDefault := vals.has py"default"
      default := senseDefault (optTextOf vals py"default")
      unsigned := some (vals.has py"UNSIGNED")
      parsingWarnings := decimalWarnings (stripTicks (textOf vals py"name")) (optTextOf vals py"default") }

/-- `TypeEnum` (parsers/type_enum.py) -/
def typeEnum : ChildClass Definition where
  rules := columnHead ++ [lit py"(", delimited py"enum_values" '\'' py")", lit py")", bareNull, optLit py"NOT NULL",
    defaultRule, charsetRule, collateRule, endingComma]
  process vals := .column
    { name := stripTicks (textOf vals py"name")
      ctype := textOf vals py"type"
      len := .list (listOf vals py"enum_values")
      null := extractNull vals
      hasDefault := vals.has py"default"
      default := senseDefault (optTextOf vals py"default")
      charset := unquote (optTextOf vals py"character_set")
      collation := unquote (optTextOf vals py"collate")
      parsingWarnings := enumWarnings (stripTicks (textOf vals py"name")) (optTextOf vals py"default") }

/-- the default of `TypePlain` (parsers/type_plain.py:44,59-69) -/
def plainDefault (isBool : Bool) (d : Option Str) : Option Str :=
  match unquote d with
  | none => none
  | some s =>
    let s := if isBool && upper s = py"FALSE" then py"0" else if isBool && upper s = py"TRUE" then py"1" else s
    if lower s = py"null" then none else some s

/-- `self._column_type.upper() in ("BOOLEAN", "BOOL")` (parsers/type_plain.py:59) -/
def isBoolType (s : Str) : Bool := upper s = py"BOOLEAN" || upper s = py"BOOL"

/-- `TypePlain` (parsers/type_plain.py) -/
def typePlain : ChildClass Definition where
  rules := columnHead ++ [optLit py"UNSIGNED", bareNull, optLit py"NOT NULL", optLit py"PRIMARY KEY", defaultRule, bareNull,
    optLit py"NOT NULL", optLit py"PRIMARY KEY", optLit py"AUTO_INCREMENT", endingComma]
  process vals :=
    let ctype := normalizeType (textOf vals py"type")
    let isBool := isBoolType ctype
    .column
      { name := stripTicks (textOf vals py"name")
        ctype := if isBool then py"TINYINT" else ctype
        len := .str (if isBool then py"1" else [])
        null := !vals.has py"NOT NULL" && !vals.has py"PRIMARY KEY"
        hasDefault := vals.has py"default"
        default := plainDefault isBool (optTextOf vals py"default")
        unsigned := some (vals.has py"UNSIGNED")
        autoInc := some (vals.has py"AUTO_INCREMENT")
        isPrimaryKey := vals.has py"PRIMARY KEY" }

/-- `TypeText` (parsers/type_text.py) -/
def typeText : ChildClass Definition where
  rules := columnHead ++ collations ++ [bareNull, optLit py"NOT NULL"] ++ collations ++ [defaultRule] ++ collations ++
    [endingComma]
  process vals := .column
    { name := stripTicks (textOf vals py"name")
      ctype := normalizeType (textOf vals py"type")
      len := .str []
      null := extractNull vals
      hasDefault := vals.has py"default"
      default := senseDefault (optTextOf vals py"default")
      charset := unquote (optTextOf vals py"character_set")
      collation := unquote (optTextOf vals py"collate")
      parsingWarnings := characterWarnings (stripTicks (textOf vals py"name")) (optTextOf vals py"default") }

/-- `TypeDateTime` (parsers/type_datetime.py) -/
def typeDateTime : ChildClass Definition where
  rules := columnHead ++ collations ++ [bareNull, optLit py"NOT NULL"] ++ collations ++
    [{ kind := .regexp (.cls py"DEFAULT '" (· != '\'') none py"'"), name := py"default", optional := true },
     { kind := .regexp (.cls py"DEFAULT \"" (· != '"') none py"\""), name := py"default", optional := true }] ++ collations ++
    [endingComma]
  process vals := .column
    { name := stripTicks (textOf vals py"name")
      ctype := textOf vals py"type"
      null := extractNull vals
      hasDefault := vals.has py"default"
      default := senseDefault (optTextOf vals py"default")
      charset := unquote (optTextOf vals py"character_set")
      collation := unquote (optTextOf vals py"collate")
      parsingWarnings := characterWarnings (stripTicks (textOf vals py"name")) (optTextOf vals py"default") }

/-- the classes of the definitions, in the order in which they are tried (create_parser.py:38-51) -/
def definitionClasses : List (ChildClass Definition) :=
  [indexPrimary, indexKey, indexUnique, constraintForeign, constraintForeignBare, typeCharacter, typeNumeric,
   typeDecimal, typeEnum, typePlain, typeText, typeDateTime]

/-! ## Options and values -/

/-- `TableOption` (parsers/table_option.py) -/
def tableOption : ChildClass TableOpt where
  rules := [{ kind := .regexp (.cls [] (· != '=') (some 30) []), name := py"name" }, lit py"=",
    { kind := plus (fun c => !isSpace c && c != ';'), name := py"value" }]
  process vals := { name := strip (textOf vals py"name"), value := strip (textOf vals py"value") }

/-- a group of values: the values, and whether a comma follows (parsers/insert_values.py, core/parse/parser.py:112) -/
structure ValueGroup where
  values : List PyVal
  hasComma : Bool
  deriving DecidableEq, Repr

/-- the value of a cell (parsers/insert_values.py:17-20): `\\` becomes `\`, then `\'` becomes `'` -/
def cellValue (s : Str) : PyVal :=
  if s = py"NULL" then .none else .str (replacePair '\\' '\'' py"'" (replacePair '\\' '\\' py"\\" s))

/-- `InsertValues` (parsers/insert_values.py) -/
def insertValues : ChildClass ValueGroup where
  rules := [lit py"(", delimited py"values" '\'' py")", lit py")", endingComma]
  process vals := { values := (listOf vals py"values").map cellValue, hasComma := vals.has py"ending_comma" }

end Mygrations

import Verif.Spec.Sql

/-!
# Specification: how MySQL reads statements

A reader for the part of MySQL's grammar in which column definitions, keys, foreign keys and the statements of a plan
are written (MySQL 8 reference manual, "CREATE TABLE Statement", "ALTER TABLE Statement", "Data Types", "Keywords and
Reserved Words").  It works on the tokens of `Spec/Sql.lean` and knows nothing of the program.

The rules which matter:

* The numbers in parentheses after a type depend on the type; `ENUM` and `SET` have strings there.
* `UNSIGNED` and `CHARACTER SET` belong to the type and come right after it; `[NOT] NULL`, `DEFAULT`, `AUTO_INCREMENT` and
  `COLLATE` come after them, in any order.
* A default is a number, a string, `NULL`, or the keyword `CURRENT_TIMESTAMP`.  What is written in quotes is a string.
* A name without backticks must not be a reserved word.

Keywords, types, character sets and collations are compared without regard to capital letters.  Left out: the other
attributes (`COMMENT`, `ON UPDATE`, `ZEROFILL`, ...), expressions as defaults, names without backticks which start with a
digit, lengths and orders of the columns of keys, and whether the statement makes sense (a text with a default, say).
-/

namespace Mygrations
namespace Sql

/-! ## Names -/

/-- The reserved words of MySQL 8. -/
def reserved : List Str :=
  [py"ACCESSIBLE", py"ADD", py"ALL", py"ALTER", py"ANALYZE", py"AND", py"AS", py"ASC", py"ASENSITIVE", py"BEFORE", py"BETWEEN",
   py"BIGINT", py"BINARY", py"BLOB", py"BOTH", py"BY", py"CALL", py"CASCADE", py"CASE", py"CHANGE", py"CHAR", py"CHARACTER",
   py"CHECK", py"COLLATE", py"COLUMN", py"CONDITION", py"CONSTRAINT", py"CONTINUE", py"CONVERT", py"CREATE", py"CROSS", py"CUBE",
   py"CUME_DIST", py"CURRENT_DATE", py"CURRENT_TIME", py"CURRENT_TIMESTAMP", py"CURRENT_USER", py"CURSOR", py"DATABASE",
   py"DATABASES", py"DAY_HOUR", py"DAY_MICROSECOND", py"DAY_MINUTE", py"DAY_SECOND", py"DEC", py"DECIMAL", py"DECLARE",
   py"DEFAULT", py"DELAYED", py"DELETE", py"DENSE_RANK", py"DESC", py"DESCRIBE", py"DETERMINISTIC", py"DISTINCT", py"DISTINCTROW",
   py"DIV", py"DOUBLE", py"DROP", py"DUAL", py"EACH", py"ELSE", py"ELSEIF", py"EMPTY", py"ENCLOSED", py"ESCAPED", py"EXCEPT",
   py"EXISTS", py"EXIT", py"EXPLAIN", py"FALSE", py"FETCH", py"FIRST_VALUE", py"FLOAT", py"FLOAT4", py"FLOAT8", py"FOR",
   py"FORCE", py"FOREIGN", py"FROM", py"FULLTEXT", py"FUNCTION", py"GENERATED", py"GET", py"GRANT", py"GROUP", py"GROUPING",
   py"GROUPS", py"HAVING", py"HIGH_PRIORITY", py"HOUR_MICROSECOND", py"HOUR_MINUTE", py"HOUR_SECOND", py"IF", py"IGNORE",
   py"IN", py"INDEX", py"INFILE", py"INNER", py"INOUT", py"INSENSITIVE", py"INSERT", py"INT", py"INT1", py"INT2", py"INT3",
   py"INT4", py"INT8", py"INTEGER", py"INTERSECT", py"INTERVAL", py"INTO", py"IO_AFTER_GTIDS", py"IO_BEFORE_GTIDS", py"IS",
   py"ITERATE", py"JOIN", py"JSON_TABLE", py"KEY", py"KEYS", py"KILL", py"LAG", py"LAST_VALUE", py"LATERAL", py"LEAD",
   py"LEADING", py"LEAVE", py"LEFT", py"LIKE", py"LIMIT", py"LINEAR", py"LINES", py"LOAD", py"LOCALTIME", py"LOCALTIMESTAMP",
   py"LOCK", py"LONG", py"LONGBLOB", py"LONGTEXT", py"LOOP", py"LOW_PRIORITY", py"MASTER_BIND", py"MASTER_SSL_VERIFY_SERVER_CERT",
   py"MATCH", py"MAXVALUE", py"MEDIUMBLOB", py"MEDIUMINT", py"MEDIUMTEXT", py"MIDDLEINT", py"MINUTE_MICROSECOND",
   py"MINUTE_SECOND", py"MOD", py"MODIFIES", py"NATURAL", py"NOT", py"NO_WRITE_TO_BINLOG", py"NTH_VALUE", py"NTILE", py"NULL",
   py"NUMERIC", py"OF", py"ON", py"OPTIMIZE", py"OPTIMIZER_COSTS", py"OPTION", py"OPTIONALLY", py"OR", py"ORDER", py"OUT",
   py"OUTER", py"OUTFILE", py"OVER", py"PARTITION", py"PERCENT_RANK", py"PRECISION", py"PRIMARY", py"PROCEDURE", py"PURGE",
   py"RANGE", py"RANK", py"READ", py"READS", py"READ_WRITE", py"REAL", py"RECURSIVE", py"REFERENCES", py"REGEXP", py"RELEASE",
   py"RENAME", py"REPEAT", py"REPLACE", py"REQUIRE", py"RESIGNAL", py"RESTRICT", py"RETURN", py"REVOKE", py"RIGHT", py"RLIKE",
   py"ROW", py"ROWS", py"ROW_NUMBER", py"SCHEMA", py"SCHEMAS", py"SECOND_MICROSECOND", py"SELECT", py"SENSITIVE", py"SEPARATOR",
   py"SET", py"SHOW", py"SIGNAL", py"SMALLINT", py"SPATIAL", py"SPECIFIC", py"SQL", py"SQLEXCEPTION", py"SQLSTATE", py"SQLWARNING",
   py"SQL_BIG_RESULT", py"SQL_CALC_FOUND_ROWS", py"SQL_SMALL_RESULT", py"SSL", py"STARTING", py"STORED", py"STRAIGHT_JOIN",
   py"SYSTEM", py"TABLE", py"TERMINATED", py"THEN", py"TINYBLOB", py"TINYINT", py"TINYTEXT", py"TO", py"TRAILING", py"TRIGGER",
   py"TRUE", py"UNDO", py"UNION", py"UNIQUE", py"UNLOCK", py"UNSIGNED", py"UPDATE", py"USAGE", py"USE", py"USING", py"UTC_DATE",
   py"UTC_TIME", py"UTC_TIMESTAMP", py"VALUES", py"VARBINARY", py"VARCHAR", py"VARCHARACTER", py"VARYING", py"VIRTUAL", py"WHEN",
   py"WHERE", py"WHILE", py"WINDOW", py"WITH", py"WRITE", py"XOR", py"YEAR_MONTH", py"ZEROFILL"]

/-- Can the word be a name although it has no backticks? -/
def bareName : Str → Bool
  | [] => false
  | c :: s => !isDigit c && !reserved.contains (upper (c :: s))

/-- A name. -/
def nameTok : Tok → Option Str
  | .ident s => if s = [] then none else some s
  | .word s => if bareName s then some s else none
  | _ => none

/-- Is it this keyword? -/
def isKw (w : Str) : Tok → Bool
  | .word s => upper s = w
  | _ => false

/-- Names up to a closing parenthesis. -/
def names : List Tok → Option (List Str × List Tok)
  | t :: .sym ',' :: r =>
    match nameTok t with
    | some n => (names r).map (fun x => (n :: x.1, x.2))
    | none => none
  | t :: .sym ')' :: r => (nameTok t).map (fun n => ([n], r))
  | _ => none

/-! ## Columns -/

/-- A default. -/
inductive DefaultSql
  | null
  | number (s : Str)
  | text (s : Str)
  | keyword (s : Str)
  deriving DecidableEq, Repr

/-- A column definition. -/
structure ColumnSql where
  name : Str
  type : Str
  /-- the numbers in parentheses after the type -/
  numbers : List Str := []
  /-- the values of an enumeration or a set -/
  values : List Str := []
  unsigned : Bool := false
  charset : Option Str := none
  notNull : Bool := false
  default : Option DefaultSql := none
  autoInc : Bool := false
  collate : Option Str := none
  deriving DecidableEq, Repr

/-- The types (other than `ENUM` and `SET`), and how many numbers they can have. -/
def typeNumbers : Dict (List Nat) :=
  [(py"TINYINT", [0, 1]), (py"SMALLINT", [0, 1]), (py"MEDIUMINT", [0, 1]), (py"INT", [0, 1]), (py"INTEGER", [0, 1]), (py"BIGINT", [0, 1]),
   (py"DECIMAL", [0, 1, 2]), (py"NUMERIC", [0, 1, 2]), (py"FLOAT", [0, 1, 2]), (py"DOUBLE", [0, 2]), (py"BIT", [0, 1]),
   (py"BOOL", [0]), (py"BOOLEAN", [0]), (py"DATE", [0]), (py"DATETIME", [0, 1]), (py"TIMESTAMP", [0, 1]), (py"TIME", [0, 1]), (py"YEAR", [0, 1]),
   (py"CHAR", [0, 1]), (py"VARCHAR", [1]), (py"BINARY", [0, 1]), (py"VARBINARY", [1]), (py"TINYBLOB", [0]), (py"BLOB", [0, 1]),
   (py"MEDIUMBLOB", [0]), (py"LONGBLOB", [0]), (py"TINYTEXT", [0]), (py"TEXT", [0, 1]), (py"MEDIUMTEXT", [0]), (py"LONGTEXT", [0]), (py"JSON", [0])]

/-- The types with a list of values. -/
def valueTypes : List Str := [py"ENUM", py"SET"]

/-- The types which can be unsigned. -/
def unsignedTypes : List Str :=
  [py"TINYINT", py"SMALLINT", py"MEDIUMINT", py"INT", py"INTEGER", py"BIGINT", py"DECIMAL", py"NUMERIC", py"FLOAT", py"DOUBLE"]

/-- The types which can have a character set. -/
def charTypes : List Str := [py"CHAR", py"VARCHAR", py"TINYTEXT", py"TEXT", py"MEDIUMTEXT", py"LONGTEXT", py"ENUM", py"SET"]

/-- Numbers up to a closing parenthesis. -/
def numbers : List Tok → Option (List Str × List Tok)
  | .word d :: .sym ',' :: r =>
    if isNumeric d then (numbers r).map (fun x => (d :: x.1, x.2)) else none
  | .word d :: .sym ')' :: r => if isNumeric d then some ([d], r) else none
  | _ => none

/-- Strings up to a closing parenthesis. -/
def strings : List Tok → Option (List Str × List Tok)
  | .str v :: .sym ',' :: r => (strings r).map (fun x => (v :: x.1, x.2))
  | .str v :: .sym ')' :: r => some ([v], r)
  | _ => none

/-- What is in parentheses after the type, and what follows. -/
def typeArgs (type : Str) (r : List Tok) : Option (List Str × List Str × List Tok) :=
  if valueTypes.contains type then
    match r with
    | .sym '(' :: r => (strings r).map (fun x => ([], x.1, x.2))
    | _ => none
  else match typeNumbers.get? type with
    | none => none
    | some counts =>
      match (match r with
        | .sym '(' :: r => numbers r
        | r => some ([], r)) with
      | none => none
      | some (ns, r') => if counts.contains ns.length then some (ns, [], r') else none

/-- `[UNSIGNED] [CHARACTER SET name]` after a type. -/
def typeTail (c : ColumnSql) : List Tok → Option (ColumnSql × List Tok)
  | .word w :: r =>
    if upper w = py"UNSIGNED" then
      if unsignedTypes.contains c.type then some ({ c with unsigned := true }, r) else none
    else if upper w = py"CHARACTER" then
      if charTypes.contains c.type then
        match r with
        | .word s :: .word v :: r => if upper s = py"SET" then some ({ c with charset := some (upper v) }, r) else none
        | .word s :: .str v :: r => if upper s = py"SET" then some ({ c with charset := some (upper v) }, r) else none
        | _ => none
      else none
    else some (c, .word w :: r)
  | r => some (c, r)

/-- A word as a default. -/
def wordDefault (w : Str) : Option DefaultSql :=
  if isNumeric w then some (.number w)
  else if upper w = py"NULL" then some .null
  else if upper w = py"CURRENT_TIMESTAMP" then some (.keyword py"CURRENT_TIMESTAMP")
  else none

/-- The attributes of a column: each of them is taken away, until something else comes. -/
def attributes (c : ColumnSql) : List Tok → Option (ColumnSql × List Tok)
  | .word w :: r =>
    if upper w = py"NULL" then attributes { c with notNull := false } r
    else if upper w = py"AUTO_INCREMENT" then attributes { c with autoInc := true } r
    else if upper w = py"NOT" then
      match r with
      | .word n :: r => if upper n = py"NULL" then attributes { c with notNull := true } r else none
      | _ => none
    else if upper w = py"COLLATE" then
      match r with
      | .word v :: r => attributes { c with collate := some (upper v) } r
      | .str v :: r => attributes { c with collate := some (upper v) } r
      | _ => none
    else if upper w = py"DEFAULT" then
      match r with
      | .str v :: r => attributes { c with default := some (.text v) } r
      | .sym '-' :: .word d :: .sym '.' :: .word e :: r =>
        if isNumeric d && isNumeric e then attributes { c with default := some (.number (py"-" ++ d ++ py"." ++ e)) } r else none
      | .sym '-' :: .word d :: r => if isNumeric d then attributes { c with default := some (.number (py"-" ++ d)) } r else none
      | .word d :: .sym '.' :: .word e :: r =>
        if isNumeric d && isNumeric e then attributes { c with default := some (.number (d ++ py"." ++ e)) } r else none
      | .word d :: r =>
        match wordDefault d with
        | some v => attributes { c with default := some v } r
        | none => none
      | _ => none
    else some (c, .word w :: r)
  | r => some (c, r)

/-- A column definition, and what follows. -/
def column : List Tok → Option (ColumnSql × List Tok)
  | n :: .word t :: r =>
    match nameTok n, typeArgs (upper t) r with
    | some n, some (ns, vs, r) =>
      match typeTail { name := n, type := upper t, numbers := ns, values := vs } r with
      | some (c, r) => attributes c r
      | none => none
    | _, _ => none
  | _ => none

/-- The text of a column definition. -/
def readColumn (s : Str) : Option ColumnSql :=
  match (tokens s).bind column with
  | some (c, []) => some c
  | _ => none

/-! ## Keys and foreign keys -/

/-- The kinds of keys. -/
inductive KeyKind
  | primary
  | unique
  | plain
  deriving DecidableEq, Repr

/-- A key. -/
structure KeySql where
  kind : KeyKind
  name : Option Str
  columns : List Str
  deriving DecidableEq, Repr

/-- A foreign key. -/
structure FkSql where
  name : Option Str
  columns : List Str
  table : Str
  refs : List Str
  onDelete : Option Str := none
  onUpdate : Option Str := none
  deriving DecidableEq, Repr

/-- `[name] (columns)` at the end of a key -/
def keyTail (kind : KeyKind) : List Tok → Option KeySql
  | .sym '(' :: r =>
    match names r with
    | some (cs, []) => some ⟨kind, none, cs⟩
    | _ => none
  | n :: .sym '(' :: r =>
    match nameTok n, names r with
    | some n, some (cs, []) => some ⟨kind, some n, cs⟩
    | _, _ => none
  | _ => none

/-- What happens to rows when the row they refer to is deleted or updated. -/
def fkAction : List Tok → Option (Str × List Tok)
  | .word a :: r =>
    if [py"RESTRICT", py"CASCADE"].contains (upper a) then some (upper a, r)
    else match r with
      | .word b :: r =>
        if [py"SET NULL", py"SET DEFAULT", py"NO ACTION"].contains (upper a ++ py" " ++ upper b) then some (upper a ++ py" " ++ upper b, r)
        else none
      | _ => none
  | _ => none

/-- `[ON DELETE action] [ON UPDATE action]` at the end of a foreign key -/
def fkTail (k : FkSql) : List Tok → Option FkSql
  | [] => some k
  | o :: e :: r =>
    if isKw py"ON" o && isKw py"DELETE" e then
      match fkAction r with
      | some (a, []) => some { k with onDelete := some a }
      | some (a, o :: e :: r) =>
        if isKw py"ON" o && isKw py"UPDATE" e then
          match fkAction r with
          | some (b, []) => some { k with onDelete := some a, onUpdate := some b }
          | _ => none
        else none
      | _ => none
    else if isKw py"ON" o && isKw py"UPDATE" e then
      match fkAction r with
      | some (a, []) => some { k with onUpdate := some a }
      | _ => none
    else none
  | _ => none

/-- `FOREIGN KEY (columns) REFERENCES table (columns) ...` -/
def foreignKey (name : Option Str) : List Tok → Option FkSql
  | f :: k :: .sym '(' :: r =>
    if isKw py"FOREIGN" f && isKw py"KEY" k then
      match names r with
      | some (cs, w :: t :: .sym '(' :: r) =>
        if isKw py"REFERENCES" w then
          match nameTok t, names r with
          | some t, some (rs, r) => fkTail ⟨name, cs, t, rs, none, none⟩ r
          | _, _ => none
        else none
      | _ => none
    else none
  | _ => none

/-! ## Definitions -/

/-- A definition in `CREATE TABLE`, or after `ADD`. -/
inductive ItemSql
  | column (c : ColumnSql) (position : List Tok)
  | key (k : KeySql)
  | fk (k : FkSql)
  deriving DecidableEq, Repr

/-- The tokens of one definition.  What follows a column (`FIRST`, `AFTER name`) is kept. -/
def item : List Tok → Option ItemSql
  | t :: r =>
    if isKw py"PRIMARY" t then
      match r with
      | k :: .sym '(' :: r => if isKw py"KEY" k then (keyTail .primary (.sym '(' :: r)).map .key else none
      | _ => none
    else if isKw py"UNIQUE" t then
      match r with
      | k :: r => if isKw py"KEY" k || isKw py"INDEX" k then (keyTail .unique r).map .key else (keyTail .unique (k :: r)).map .key
      | _ => none
    else if isKw py"KEY" t || isKw py"INDEX" t then (keyTail .plain r).map .key
    else if isKw py"FOREIGN" t then (foreignKey none (t :: r)).map .fk
    else if isKw py"CONSTRAINT" t then
      match r with
      | n :: r =>
        match nameTok n with
        | some n => (foreignKey (some n) r).map .fk
        | none => none
      | _ => none
    else (column (t :: r)).map (fun x => .column x.1 x.2)
  | [] => none

/-- A definition in `CREATE TABLE`: nothing follows a column. -/
def definition (ts : List Tok) : Option ItemSql :=
  match item ts with
  | some (.column _ (_ :: _)) => none
  | x => x

/-- All or nothing. -/
def every {A B : Type} (f : A → Option B) : List A → Option (List B)
  | [] => some []
  | a :: as =>
    match f a with
    | some b => (every f as).map (b :: ·)
    | none => none

/-- Put a token in front of the first part. -/
def push (t : Tok) (x : List (List Tok) × List Tok) : List (List Tok) × List Tok := ((t :: x.1.headD []) :: x.1.tail, x.2)

/-- The parts between the commas outside parentheses, up to a closing parenthesis without an opening one, or a
semicolon; and what is there.  The number counts open parentheses. -/
def parts : Nat → List Tok → List (List Tok) × List Tok
  | _, [] => ([[]], [])
  | d, .sym c :: r =>
    if c = '(' then push (.sym c) (parts (d + 1) r)
    else if c = ')' then
      match d with
      | 0 => ([[]], .sym c :: r)
      | d + 1 => push (.sym c) (parts d r)
    else if d = 0 ∧ c = ';' then ([[]], .sym c :: r)
    else if d = 0 ∧ c = ',' then ([] :: (parts 0 r).1, (parts 0 r).2)
    else push (.sym c) (parts d r)
  | d, t :: r => push t (parts d r)

/-! ## Statements -/

/-- A clause of `ALTER TABLE`. -/
inductive ClauseSql
  | addColumn (c : ColumnSql)
  | addColumnFirst (c : ColumnSql)
  | addColumnAfter (c : ColumnSql) (n : Str)
  | changeColumn (old : Str) (c : ColumnSql)
  | dropColumn (n : Str)
  | addKey (k : KeySql)
  | dropPrimaryKey
  | dropKey (n : Str)
  | addFk (k : FkSql)
  | dropFk (n : Str)
  deriving DecidableEq, Repr

/-- A condition `column = value`, or an assignment; the value is `NULL` or a string. -/
structure Equation where
  column : Str
  value : Option Str
  deriving DecidableEq, Repr

/-- A statement. -/
inductive Stmt
  | createTable (name : Str) (items : List ItemSql) (options : List (List Str × Str))
  | alterTable (name : Str) (clauses : List ClauseSql)
  | dropTable (name : Str)
  | insert (table : Str) (columns : List Str) (values : List (Option Str))
  | update (table : Str) (sets : List Equation) (condition : Equation)
  | delete (table : Str) (condition : Equation)
  | setVar (name value : Str)
  deriving DecidableEq, Repr

/-- `ADD` a definition -/
def addClause (ts : List Tok) : Option ClauseSql :=
  match item ts with
  | some (.column c []) => some (.addColumn c)
  | some (.column c [t]) => if isKw py"FIRST" t then some (.addColumnFirst c) else none
  | some (.column c [t, n]) => if isKw py"AFTER" t then (nameTok n).map (.addColumnAfter c) else none
  | some (.column _ _) => none
  | some (.key k) => some (.addKey k)
  | some (.fk k) => some (.addFk k)
  | none => none

/-- A clause of `ALTER TABLE`. -/
def clause : List Tok → Option ClauseSql
  | t :: r =>
    if isKw py"ADD" t then addClause r
    else if isKw py"CHANGE" t then
      match r with
      | n :: r =>
        match nameTok n, column r with
        | some n, some (c, []) => some (.changeColumn n c)
        | _, _ => none
      | [] => none
    else if isKw py"DROP" t then
      match r with
      | [n] => (nameTok n).map .dropColumn
      | [k, n] =>
        if isKw py"PRIMARY" k && isKw py"KEY" n then some .dropPrimaryKey
        else if isKw py"KEY" k || isKw py"INDEX" k then (nameTok n).map .dropKey
        else if isKw py"COLUMN" k then (nameTok n).map .dropColumn
        else none
      | [f, k, n] => if isKw py"FOREIGN" f && isKw py"KEY" k then (nameTok n).map .dropFk else none
      | _ => none
    else none
  | [] => none

/-- The options of a table, up to the semicolon: words, an equals sign, and a value. -/
def options (ws : List Str) : List Tok → Option (List (List Str × Str))
  | [.sym ';'] => if ws = [] then some [] else none
  | .word w :: r => options (ws ++ [w]) r
  | .sym '=' :: .word v :: r => if ws = [] then none else (options [] r).map ((ws, v) :: ·)
  | .sym '=' :: .str v :: r => if ws = [] then none else (options [] r).map ((ws, v) :: ·)
  | _ => none

/-- `NULL` or a string -/
def literal : Tok → Option (Option Str)
  | .str v => some (some v)
  | .word w => if upper w = py"NULL" then some none else none
  | _ => none

/-- Values up to a closing parenthesis. -/
def literals : List Tok → Option (List (Option Str) × List Tok)
  | t :: .sym ',' :: r =>
    match literal t with
    | some v => (literals r).map (fun x => (v :: x.1, x.2))
    | none => none
  | t :: .sym ')' :: r => (literal t).map (fun v => ([v], r))
  | _ => none

/-- Assignments up to `WHERE`, and the condition. -/
def assignments : List Tok → Option (List Equation × Equation)
  | n :: .sym '=' :: t :: s :: r =>
    match nameTok n, literal t with
    | some c, some v =>
      if s = .sym ',' then (assignments r).map (fun x => (⟨c, v⟩ :: x.1, x.2))
      else if isKw py"WHERE" s then
        match r with
        | [m, .sym '=', u, .sym ';'] =>
          match nameTok m, literal u with
          | some m, some u => some ([⟨c, v⟩], ⟨m, u⟩)
          | _, _ => none
        | _ => none
      else none
    | _, _ => none
  | _ => none

/-- The tokens of a statement. -/
def stmt : List Tok → Option Stmt
  | k :: r =>
    if isKw py"CREATE" k then
      match r with
      | t :: n :: .sym '(' :: r =>
        if isKw py"TABLE" t then
          match nameTok n, every definition (parts 0 r).1, (parts 0 r).2 with
          | some n, some is, .sym ')' :: r => (options [] r).map (.createTable n is)
          | _, _, _ => none
        else none
      | _ => none
    else if isKw py"ALTER" k then
      match r with
      | t :: n :: r =>
        if isKw py"TABLE" t then
          match nameTok n, every clause (parts 0 r).1, (parts 0 r).2 with
          | some n, some cs, [.sym ';'] => some (.alterTable n cs)
          | _, _, _ => none
        else none
      | _ => none
    else if isKw py"DROP" k then
      match r with
      | [t, n, .sym ';'] => if isKw py"TABLE" t then (nameTok n).map .dropTable else none
      | _ => none
    else if isKw py"INSERT" k then
      match r with
      | i :: n :: .sym '(' :: r =>
        if isKw py"INTO" i then
          match nameTok n, names r with
          | some n, some (cs, v :: .sym '(' :: r) =>
            if isKw py"VALUES" v then
              match literals r with
              | some (vs, [.sym ';']) => if vs.length = cs.length then some (.insert n cs vs) else none
              | _ => none
            else none
          | _, _ => none
        else none
      | _ => none
    else if isKw py"UPDATE" k then
      match r with
      | n :: s :: r =>
        if isKw py"SET" s then
          match nameTok n, assignments r with
          | some n, some (es, e) => some (.update n es e)
          | _, _ => none
        else none
      | _ => none
    else if isKw py"DELETE" k then
      match r with
      | [f, n, w, m, .sym '=', u, .sym ';'] =>
        if isKw py"FROM" f && isKw py"WHERE" w then
          match nameTok n, nameTok m, literal u with
          | some n, some m, some u => some (.delete n ⟨m, u⟩)
          | _, _, _ => none
        else none
      | _ => none
    else if isKw py"SET" k then
      match r with
      | [.word x, .sym '=', .word v, .sym ';'] => some (.setVar x v)
      | _ => none
    else none
  | [] => none

/-- The text of a statement. -/
def readStatement (s : Str) : Option Stmt := (tokens s).bind stmt

end Sql
end Mygrations

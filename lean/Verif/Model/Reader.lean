import Verif.Model.Parsers
import Verif.Model.Database

/-!
# Model of the file reader (`mygrations/formats/mysql/file_reader`)
-/

namespace Mygrations

/-! ## `CREATE TABLE` -/

/-- `re.sub(r"--[^\n]*", "", s)` (create_parser.py:73); the flag says that a comment is being skipped -/
def stripDashes : Bool → Str → Str
  | _, [] => []
  | true, c :: cs => if c = '\n' then c :: stripDashes false cs else stripDashes true cs
  | false, '-' :: '-' :: cs => stripDashes true cs
  | false, c :: cs => c :: stripDashes false cs

/-- a match of ``(\(|\,)(\s*`?\w+`?)\(\d+\)`` at the start of the text: the two groups together, and the rest
(create_parser.py:79).  None of the repetitions overlap, so the match is unique. -/
def prefixMatch : Str → Option (Str × Str)
  | [] => none
  | c :: cs =>
    if c = '(' ∨ c = ',' then
      let spaces := cs.takeWhile isSpace
      let r₁ := cs.dropWhile isSpace
      let tick₁ := r₁.take (if r₁.head? = some '`' then 1 else 0)
      let r₂ := r₁.drop tick₁.length
      let word := r₂.takeWhile isWord
      let r₃ := r₂.dropWhile isWord
      let tick₂ := r₃.take (if r₃.head? = some '`' then 1 else 0)
      let r₄ := r₃.drop tick₂.length
      match r₄ with
      | '(' :: r₅ =>
        let digits := r₅.takeWhile isDigit
        match r₅.dropWhile isDigit with
        | ')' :: rest =>
          if word = [] ∨ digits = [] then none else some (c :: spaces ++ tick₁ ++ word ++ tick₂, rest)
        | _ => none
      | _ => none
    else none

/-- ``re.sub(r"(\(|\,)(\s*`?\w+`?)\(\d+\)", r"\1\2", s)`` (create_parser.py:79); the number bounds the steps -/
def stripPrefixes : Nat → Str → Str
  | 0, s => s
  | _ + 1, [] => []
  | n + 1, c :: cs =>
    match prefixMatch (c :: cs) with
    | some (kept, rest) => kept ++ stripPrefixes n rest
    | none => c :: stripPrefixes n cs

/-- the text which `CreateParser.parse` hands to the rule engine (create_parser.py:68-80) -/
def cleanCreate (s : Str) : Str :=
  let s := stripDashes false s
  stripPrefixes s.length s

/-- the children of a `CREATE TABLE`: definitions or options -/
inductive CreateNode
  | definition (d : Definition)
  | option (o : TableOpt)

/-- a class with its results wrapped -/
def ChildClass.map {α β : Type} (f : α → β) (c : ChildClass α) : ChildClass β := { rules := c.rules, process := fun v => f (c.process v) }

/-- a simple rule of a top-level parser -/
def Rule.top {α : Type} (r : Rule Kind) : Rule (TopKind α) := { kind := .simple r.kind, name := r.name, optional := r.optional }

/-- `;` -/
def closingSemicolon : Rule Kind := { kind := .literal py";", name := py"closing_semicolon", optional := true }

/-- `CreateParser.rules` (create_parser.py:25-66) -/
def createRules : List (Rule (TopKind CreateNode)) :=
  [(lit py"CREATE TABLE").top,
   Rule.top { kind := .literal py"IF NOT EXISTS", name := py"if_not_exists", optional := true },
   Rule.top { kind := plus (fun c => !isSpace c), name := py"name" },
   (lit py"(").top,
   { kind := .children (definitionClasses.map (ChildClass.map .definition)), name := py"definitions" },
   (lit py")").top,
   { kind := .children [tableOption.map .option], name := py"table_options", optional := true },
   closingSemicolon.top]

/-- `self._values[name]` for a simple rule -/
def topText {α : Type} (vals : Dict (TVal α)) (n : Str) : Str :=
  match vals.get? n with
  | some (.simple v) => v.text
  | _ => []

/-- `self._values[name]` for a delimited rule -/
def topList {α : Type} (vals : Dict (TVal α)) (n : Str) : List Str :=
  match vals.get? n with
  | some (.simple (.list l)) => l
  | _ => []

/-- `self._values[name]` for a children rule -/
def topNodes {α : Type} (vals : Dict (TVal α)) (n : Str) : List α :=
  match vals.get? n with
  | some (.nodes l) => l
  | _ => []

namespace CreateNode
/-- the definitions among the nodes -/
def toDefinition : CreateNode → Option Definition
  | definition d => some d
  | option _ => none
/-- the options among the nodes -/
def toOption : CreateNode → Option TableOpt
  | option o => some o
  | definition _ => none
end CreateNode

/-- the name given to a constraint without one (create_parser.py:116-121) -/
def bareName (table column ftable : Str) : Str := (table ++ py"_" ++ column ++ py"_" ++ ftable ++ py"_fk").take 64

/-- is the definition an index on (among others) the column?  (create_parser.py:131) -/
def indexesColumn (col : Str) : Definition → Bool
  | .index i => i.columns.contains col
  | _ => false

/-- one iteration of the loop of `CreateParser.process` (create_parser.py:96-136); `all` are all definitions -/
def addDefinition (all : List Definition) (t : Table) : Definition → Except PyErr Table
  | .column c =>
    if t.columns.has c.name then
      .ok { t with globalErrors := t.globalErrors ++ [py"Table '" ++ t.name ++ py"' has two columns named '" ++ c.name ++ py"'"] }
    else
      match c.asDefinition with
      | .error e => .error e
      | .ok col =>
        match t.addColumn col .last with
        | .error e => .error e
        | .ok t' => if c.isPrimaryKey then t'.addIndex { rawName := [], columns := [c.name], itype := py"primary" } else .ok t'
  | .index i =>
    if t.indexes.has i.rawName then
      .ok { t with globalErrors := t.globalErrors ++ [py"Table '" ++ t.name ++ py"' has two indexes named '" ++ i.rawName ++ py"'"] }
    else t.addIndex i
  | .constraint k bare =>
    let k := if bare then { k with name := bareName t.name k.column k.ftable } else k
    if t.constraints.has k.name then
      .ok { t with globalErrors := t.globalErrors ++ [py"Table '" ++ t.name ++ py"' has two constraints named '" ++ k.name ++ py"'"] }
    else
      match t.addConstraint k with
      | .error e => .error e
      | .ok t' =>
        if bare && !(t'.indexes.has k.column || t'.indexes.values.any (fun i => i.columns.contains k.column)) &&
            !all.any (indexesColumn k.column) then
          t'.addIndex { rawName := k.column, columns := [k.column], itype := py"index" }
        else .ok t'

/-- the loop of `CreateParser.process` -/
def addDefinitions (all : List Definition) : Table → List Definition → Except PyErr Table
  | t, [] => .ok t
  | t, d :: ds =>
    match addDefinition all t d with
    | .error e => .error e
    | .ok t' => addDefinitions all t' ds

/-- `CreateParser.process` (create_parser.py:82-139) -/
def createProcess (vals : Dict (TVal CreateNode)) : Except PyErr Table :=
  let defs := (topNodes vals py"definitions").filterMap CreateNode.toDefinition
  let opts := (topNodes vals py"table_options").filterMap CreateNode.toOption
  match addDefinitions defs { name := stripTicks (topText vals py"name"), options := opts.filter (fun o => o.name ≠ py"AUTO_INCREMENT") } defs with
  | .error e => .error e
  | .ok t =>
    if vals.has py"closing_semicolon" then .ok t
    else .ok { t with globalErrors := t.globalErrors ++ [py"Missing ending semicolon for table " ++ t.name] }

/-- `parser = CreateParser(); data = parser.parse(data)`: the table (nameless if the text did not match) and the text
that is left (create_parser.py:68-80, core/parse/parser.py:66-114) -/
def parseCreate (s : Str) : Except PyErr (Table × Str) :=
  match topParse createRules (cleanCreate s) with
  | .error e => .error e
  | .ok r =>
    if r.matched then
      match createProcess r.values with
      | .error e => .error e
      | .ok t => .ok (t, r.rest)
    else .ok ({}, r.rest)

/-! ## `INSERT INTO` -/

/-- `InsertParser.rules` (insert_parser.py:6-36) -/
def insertRules : List (Rule (TopKind ValueGroup)) :=
  [(lit py"INSERT INTO").top,
   Rule.top { kind := plus (fun c => !isSpace c && c != '('), name := py"table" },
   (lit py"(").top, (delimited py"columns" '`' py")").top, (lit py")").top,
   (lit py"VALUES").top,
   { kind := .children [insertValues], name := py"inserts" },
   closingSemicolon.top]

/-- the warnings of the loop of `InsertParser.process` (insert_parser.py:50-61): one for each group in front of which the comma is missing.
A group with the wrong number of values does not change what is remembered about the comma. -/
def commaWarnings (columns : Nat) : Bool → List ValueGroup → List Str
  | _, [] => []
  | comma, g :: gs =>
    (if comma then [] else [py"Missing comma between insert value groups"]) ++
      (if columns ≠ 0 ∧ g.values.length ≠ columns then commaWarnings columns comma gs else commaWarnings columns g.hasComma gs)

/-- the loop of `InsertParser.process` (insert_parser.py:45-61): the rows kept, an error for each group with the wrong number of values, and
the warnings -/
def insertProcess (vals : Dict (TVal ValueGroup)) : Rows :=
  let columns := topList vals py"columns"
  let groups := topNodes vals py"inserts"
  let bad := fun g : ValueGroup => columns.length ≠ 0 && g.values.length ≠ columns.length
  { table := stripTicks (topText vals py"table")
    columns := columns
    rawRows := (groups.filter (fun g => !bad g)).map ValueGroup.values
    numExplicit := columns.length
    parsingErrors := (groups.filter bad).map (fun _ =>
      py"Insert values has different number of columns and values for <InsertValues>")
    parsingWarnings := commaWarnings columns.length true groups }

/-- `parser = InsertParser(); data = parser.parse(data)`: the rows (nameless and empty if the text did not match) and
the text that is left -/
def parseInsert (s : Str) : Except PyErr (Rows × Str) :=
  match topParse insertRules s with
  | .error e => .error e
  | .ok r => if r.matched then .ok (insertProcess r.values, r.rest) else .ok ({ table := [], columns := [], rawRows := [], numExplicit := 0 }, r.rest)

/-! ## Comments -/

/-- the text after the first `*/`, if there is one -/
def afterClose : Str → Option Str
  | [] => none
  | '*' :: '/' :: cs => some cs
  | _ :: cs => afterClose cs

/-- `CommentParser.parse` (comment_parser.py:17-74) on a text which starts with a comment (after stripping):
the text that is left.  An unterminated block comment is returned unchanged.  The reader only calls it on texts which
start with a comment, so the `ValueError` of line 63 is not modelled. -/
def parseComment (s : Str) : Str :=
  let s := strip s
  if s.head? = some '#' ∨ s.take 2 = py"--" then
    match s.dropWhile (· ≠ '\n') with
    | [] => []
    | _ :: rest => strip rest
  else
    match afterClose s with
    | none => s
    | some rest => strip rest

/-! ## `Reader` -/

/-- `Reader` (reader.py:6-16): what it has read so far -/
structure ReaderState where
  tables : Dict Table := []
  rows : Dict (List Rows) := []
  globalErrors : List Str := []
  deriving DecidableEq, Repr

/-- does the text start with a comment?  (reader.py:169) -/
def startsComment (s : Str) : Bool := s.take 2 = py"--" || s.take 2 = py"/*" || s.head? = some '#'

/-- the main loop of `Reader.parse` (reader.py:153-193); `n` is `10000 - c`.  The result is the state together with
the exception which ended the loop, if any.  Simplification: the file name is not mentioned in messages. -/
def readLoop : Nat → ReaderState → Str → ReaderState × Option PyErr
  | _, st, [] => (st, none)
  | 0, st, _ :: _ => (st, some (.valueError py"Exceeded max parse depth"))
  | n + 1, st, c :: cs =>
    let data := strip (c :: cs)
    if data = [] then (st, some .indexError)
    else if startsComment data then readLoop n st (parseComment data)
    else if lower (data.take 6) = py"create" then
      match parseCreate data with
      | .error e => (st, some e)
      | .ok (t, rest) => readLoop n { st with tables := st.tables.set t.name t } rest
    else if lower (data.take 6) = py"insert" then
      match parseInsert data with
      | .error e => (st, some e)
      | .ok (r, rest) =>
        readLoop n { st with rows := st.rows.set r.table ((st.rows.get? r.table).getD [] ++ [r]) } rest
    else ({ st with globalErrors := st.globalErrors ++ [py"Unrecognized MySQL command: " ++ data] }, none)

/-- `Reader().parse(contents)` -/
def readSource (contents : Str) : ReaderState × Option PyErr := readLoop 10000 {} contents

/-! ## `Database` (file_reader/database.py) -/

/-- is the exception a `ValueError`? -/
def PyErr.isValueError : PyErr → Bool
  | .valueError _ => true
  | _ => false

namespace FileDatabase

/-- the tables of a reader are stored, one by one (file_reader/database.py:89-92).  `self.errors.append(...)` computes
the errors of the database, which fills its caches, and appends to a list which nobody keeps. -/
def storeTables [PyNum] : Database → List Table → Except PyErr Database
  | d, [] => .ok d
  | d, t :: ts =>
    if d.tables.has t.name then
      match d.errors with
      | (.error e, _) => .error e
      | (.ok _, d') => storeTables { d' with tables := d'.tables.set t.name t, checked := d'.checked.filter (· ≠ t.name) } ts
    else storeTables { d with tables := d.tables.set t.name t } ts

/-- the rows of a reader are stored (file_reader/database.py:97-101) -/
def storeRows (d : Database) (rows : List Rows) : Database :=
  { d with rows := rows.foldl (fun acc r => acc.set r.table ((acc.get? r.table).getD [] ++ [r])) d.rows }

/-- `_read` (file_reader/database.py:70-101): a `ValueError` is only printed, what was read before it is kept -/
def read [PyNum] (d : Database) (contents : Str) : Except PyErr Database :=
  match readSource contents with
  | (st, exc) =>
    match exc.filter (fun e => !e.isValueError) with
    | some e => .error e
    | none =>
      match storeTables d st.tables.values with
      | .error e => .error e
      | .ok d' => .ok (storeRows { d' with globalErrors := d'.globalErrors ++ st.globalErrors } (st.rows.values.flatMap id))

/-- the loop over the sources -/
def readAll [PyNum] : Database → List Str → Except PyErr Database
  | d, [] => .ok d
  | d, s :: ss =>
    match read d s with
    | .error e => .error e
    | .ok d' => readAll d' ss

/-- one INSERT is added to its table (file_reader/database.py:103-110): a missing table adds the characters of the
message, one by one, to the errors, and then raises a `KeyError` -/
def addInserts (n : Str) : Dict Table → List Rows → Except PyErr (Dict Table)
  | ts, [] => .ok ts
  | ts, r :: rs =>
    match ts.get? n with
    | none => .error (.keyError n)
    | some t =>
      match t.addRows r with
      | .error e => .error e
      | .ok t' => addInserts n (ts.set n t') rs

/-- `_combine_tables_and_rows` (file_reader/database.py:103-110).  Adding rows resets the caches of the table
(core/definitions/table.py:278-346), but not those of the database. -/
def combine : Database → List (Str × List Rows) → Except PyErr Database
  | d, [] => .ok d
  | d, (n, rs) :: rest =>
    let d := if d.tables.has n then d else
      { d with globalErrors := d.globalErrors ++
          (py"Found rows for table " ++ n ++ py", but this table does not exist in the database").map (fun c => [c]) }
    match addInserts n d.tables rs with
    | .error e => .error e
    | .ok ts => combine { d with tables := ts, checked := d.checked.filter (· ≠ n) } rest

/-- `Database(strings)` (file_reader/database.py:6-35), for strings which are SQL: what `os.path.isdir`, `isfile` and
`glob` find is in `Model/Disk`, the contents of the files found take their place here. -/
def new [PyNum] (sources : List Str) : Except PyErr Database :=
  match readAll {} sources with
  | .error e => .error e
  | .ok d => combine d d.rows

end FileDatabase

end Mygrations

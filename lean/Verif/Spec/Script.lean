import Verif.Spec.Declare

/-!
# Specification: files with `CREATE TABLE`, `INSERT` and comments

`C39`–`C41` and `C57` are about files which consist of such statements.  This file says how they are written down.
-/

namespace Mygrations

/-! ## Values -/

/-- Every backslash is written twice. -/
def doubled (x : Str) : Str := x.flatMap (fun c => if c = '\\' then py"\\\\" else [c])

/-- A value in an `INSERT`: `NULL`, a word without quotes (such as a number), or a text in quotes. -/
inductive Cell
  | null
  | bare (w : Str)
  | text (x : Str)
  deriving DecidableEq

/-- How the value is written. -/
def Cell.sql : Cell → Str
  | null => py"NULL"
  | bare w => w
  | text x => py"'" ++ doubled x ++ py"'"

/-- The value which is meant. -/
def Cell.value : Cell → PyVal
  | null => .none
  | bare w => .str w
  | text x => .str x

/-- The values which survive: the only white space is single blanks, there are no quotes, and the text is not `NULL`;
a word has no backslashes. -/
def Cell.Ok : Cell → Prop
  | null => True
  | bare w => w ≠ [] ∧ Bare w ∧ '\\' ∉ w ∧ w ≠ py"NULL"
  | text x => '\'' ∉ x ∧ collapse x = x ∧ x ≠ py"NULL"

instance (c : Cell) : Decidable c.Ok := by
  cases c with
  | null => exact isTrue trivial
  | bare w => exact inferInstanceAs (Decidable (_ ∧ _ ∧ _ ∧ _))
  | text x => exact inferInstanceAs (Decidable (_ ∧ _ ∧ _))

/-- The text of the value. -/
def Cell.chars : Cell → Str
  | null => []
  | bare w => w
  | text x => x

/-! ## Inserts -/

/-- ``INSERT INTO `table` (`columns`) VALUES (row), (row), …;`` -/
structure InsertStmt where
  table : Str
  columns : List Str
  rows : List (List Cell)

/-- The white space in an `INSERT`: before and after the name of the table, after the commas between columns, before and
after `VALUES`, after the commas between values and between rows, and before the semicolon. -/
structure InsertLayout where
  beforeName : Str
  afterName : Str
  columnSep : Str
  beforeValues : Str
  afterValues : Str
  cellSep : Str
  rowSep : Str
  beforeEnd : Str

/-- It is only white space. -/
structure InsertLayout.Ok (l : InsertLayout) : Prop where
  beforeName : ∀ c ∈ l.beforeName, isSpace c = true
  afterName : ∀ c ∈ l.afterName, isSpace c = true
  columnSep : ∀ c ∈ l.columnSep, isSpace c = true
  beforeValues : ∀ c ∈ l.beforeValues, isSpace c = true
  afterValues : ∀ c ∈ l.afterValues, isSpace c = true
  cellSep : ∀ c ∈ l.cellSep, isSpace c = true
  rowSep : ∀ c ∈ l.rowSep, isSpace c = true
  beforeEnd : ∀ c ∈ l.beforeEnd, isSpace c = true

/-- The text of a row. -/
def rowSql (l : InsertLayout) (r : List Cell) : Str := py"(" ++ join (py"," ++ l.cellSep) (r.map Cell.sql) ++ py")"

/-- The text of the statement. -/
def InsertStmt.sql (i : InsertStmt) (l : InsertLayout) : Str :=
  py"INSERT INTO" ++ l.beforeName ++ (py"`" ++ i.table ++ py"`") ++ l.afterName ++
  py"(" ++ join (py"," ++ l.columnSep) (i.columns.map (fun c => py"`" ++ c ++ py"`")) ++ py")" ++
  l.beforeValues ++ py"VALUES" ++ l.afterValues ++ join (py"," ++ l.rowSep) (i.rows.map (rowSql l)) ++ l.beforeEnd ++ py";"

/-- Names are plain, each row has as many values as there are columns, and there is at least one row. -/
structure InsertStmt.Ok (i : InsertStmt) : Prop where
  table : Ident i.table
  columns : i.columns ≠ [] ∧ ∀ c ∈ i.columns, Ident c
  rows : i.rows ≠ []
  square : ∀ r ∈ i.rows, r.length = i.columns.length
  cells : ∀ r ∈ i.rows, ∀ c ∈ r, c.Ok

/-- The rows which are meant. -/
def InsertStmt.meaning (i : InsertStmt) : Rows :=
  { table := i.table, columns := i.columns, rawRows := i.rows.map (fun r => r.map Cell.value), numExplicit := i.columns.length }

/-! ## Files -/

/-- A statement of a file: a table (as it is exported, with or without line breaks, or with definitions in any order and
foreign keys without a name), rows, or a block comment. -/
inductive Statement
  | create (t : Table) (nice : Bool)
  | declare (d : TableDecl) (l : Layout)
  | insert (i : InsertStmt) (l : InsertLayout)
  | comment (body : Str)

/-- The text of the statement. -/
def Statement.sql : Statement → Str
  | create t nice => t.renderCreate nice
  | declare d l => d.sql l
  | insert i l => i.sql l
  | comment body => py"/*" ++ body ++ py"*/"

/-- The statements which are read as they are meant: a table which can be written down; rows, fewer than 1000; a comment
which ends where it should (in particular, the `*` of its start is not that of its end). -/
def Statement.Ok : Statement → Prop
  | create t _ => t.Readable
  | declare d l => d.Ok ∧ l.Ok
  | insert i l => i.Ok ∧ l.Ok ∧ i.rows.length < 1000
  | comment body => ¬ py"*/" <:+: py"*" ++ body

/-- The statements which may follow the definition of a table in the same file.  The reader handles the rest of the file
when it reads a table: it removes everything from `--` to the end of the line and lengths of names in parentheses, and
takes the start of the next statement for an option of the table if there is an equals sign close enough. -/
def Statement.Quiet : Statement → Prop
  | create _ _ => True
  | declare _ _ => True
  | insert i _ => (∀ r ∈ i.rows, ∀ c ∈ r, '(' ∉ c.chars ∧ NoComment c.chars) ∧
      (7 ≤ i.table.length + (i.columns.headD []).length ∨ ∀ r ∈ i.rows, ∀ c ∈ r, '=' ∉ c.chars)
  | comment body => '(' ∉ body ∧ NoComment body ∧ '=' ∉ body

/-- Is it the definition of a table? -/
def Statement.isCreate : Statement → Bool
  | create _ _ => true
  | declare _ _ => true
  | _ => false

/-- All statements are fine, and those after the definition of a table are quiet. -/
structure Readable (ss : List Statement) : Prop where
  ok : ∀ s ∈ ss, s.Ok
  quiet : ss.Pairwise (fun a b => a.isCreate = true → b.Quiet)

/-- A text which consists of the statements, with any white space around them. -/
inductive Script : Str → List Statement → Prop
  | nil {blanks : Str} : (∀ c ∈ blanks, isSpace c = true) → Script blanks []
  | cons {blanks : Str} {s : Statement} {more : Str} {ss : List Statement} : (∀ c ∈ blanks, isSpace c = true) → Script more ss →
      Script (blanks ++ s.sql ++ more) (s :: ss)

/-- Comments at the start of a file, `n` of them: to the end of the line, or blocks. -/
inductive Header : Nat → Str → Prop
  | nil : Header 0 []
  | line {blanks start body more : Str} {n : Nat} : (∀ c ∈ blanks, isSpace c = true) → start = py"#" ∨ start = py"--" → '\n' ∉ body → Header n more →
      Header (n + 1) (blanks ++ start ++ body ++ py"\n" ++ more)
  | block {blanks body more : Str} {n : Nat} : (∀ c ∈ blanks, isSpace c = true) → (¬ py"*/" <:+: py"*" ++ body) → Header n more →
      Header (n + 1) (blanks ++ py"/*" ++ body ++ py"*/" ++ more)

/-- A file: comments of any kind, and then statements.  It is empty or has something else than white space, and there are
at most ten thousand statements and comments. -/
def SourceFile (s : Str) (ss : List Statement) : Prop :=
  ∃ n header body, s = header ++ body ∧ Header n header ∧ Script body ss ∧ n + ss.length ≤ 10000 ∧ (n + ss.length = 0 → s = [])

/-- The tables of a file, in order. -/
def tablesOf (ss : List Statement) : List Table := ss.filterMap (fun | .create t _ => some t | .declare d _ => some d.table | _ => none)

/-- The `INSERT`s of a file, in order. -/
def insertsOf (ss : List Statement) : List InsertStmt := ss.filterMap (fun | .insert i _ => some i | _ => none)

/-- The `INSERT`s for a table. -/
def insertsFor (n : Str) (ss : List Statement) : List InsertStmt := (insertsOf ss).filter (fun i => i.table = n)

/-- The id of a row: the text of the value for the column `id`. -/
def InsertStmt.idOf (i : InsertStmt) (r : List Cell) : Str := (((i.columns.zip r).lookup py"id").map Cell.chars).getD []

/-- The rows which are declared for a table: under its id, each row has the values which were written for its columns. -/
def declaredRows (n : Str) (ss : List Statement) : Dict Row :=
  (insertsFor n ss).flatMap (fun i => i.rows.map (fun r => (i.idOf r, i.columns.zip (r.map Cell.value))))

/-- The rows of a schema are as they should be: they are for tables which exist, name each column once and have an id
which no other row of the table has. -/
structure GoodRows (ss : List Statement) : Prop where
  tables : ∀ i ∈ insertsOf ss, ∃ t ∈ tablesOf ss, t.name = i.table
  columns : ∀ i ∈ insertsOf ss, i.columns.Nodup
  ids : ∀ i ∈ insertsOf ss, ∀ r ∈ i.rows, i.idOf r ≠ []
  distinct : ∀ n, (declaredRows n ss).keys.Nodup

end Mygrations

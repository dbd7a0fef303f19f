import Verif.Model.Dotenv

/-!
# Specification: configuration files as people write them

A line of a `.env` file gives a key and a value.  The value is bare or in quotes; in quotes, the quote itself is written
with a backslash before it.  There may be blanks around everything and a comment at the end.
-/

namespace Mygrations

/-- No blank at either end. -/
def Trimmed (s : Str) : Prop :=
  (∀ c, s.head? = some c → isSpace c = false) ∧ (∀ c, s.getLast? = some c → isSpace c = false)

/-- Nothing but white space, within one line. -/
def Space (s : Str) : Prop := ∀ c ∈ s, isSpace c = true ∧ c ≠ '\n'

/-- In quotes, a quote is written with a backslash before it. -/
def escapeQuote (q : Char) (v : Str) : Str := v.flatMap (fun c => if c = q then ['\\', q] else [c])

/-- How a value is written: as it is, or between two quotes, with a semicolon after it or without. -/
inductive ValueStyle
  | bare
  | quoted (q : Char) (semicolon : Bool)
  deriving DecidableEq, Repr

/-- A line with a key and a value; `comment` is what stands after the `#`, if there is a comment. -/
structure EnvLine where
  key : Str
  value : Str
  written : ValueStyle := .bare
  separator : Char := '='
  comment : Option Str := none
  indent : Str := []
  afterKey : Str := []
  beforeValue : Str := []
  beforeComment : Str := []
  trailing : Str := []
  deriving DecidableEq, Repr

namespace EnvLine

/-- the value as it stands in the line -/
def valueText (l : EnvLine) : Str :=
  match l.written with
  | .bare => l.value
  | .quoted q semicolon => [q] ++ escapeQuote q l.value ++ [q] ++ (if semicolon then py";" else [])

/-- the comment as it stands in the line -/
def commentText (l : EnvLine) : Str :=
  match l.comment with
  | none => []
  | some c => l.beforeComment ++ py"#" ++ c

/-- the line -/
def text (l : EnvLine) : Str :=
  l.indent ++ l.key ++ l.afterKey ++ [l.separator] ++ l.beforeValue ++ l.valueText ++ l.commentText ++ l.trailing

/-- Lines which can be written like this. -/
structure Ok (l : EnvLine) : Prop where
  key_nonempty : l.key ≠ []
  key_trimmed : Trimmed l.key
  key_plain : '=' ∉ l.key ∧ ':' ∉ l.key ∧ '\n' ∉ l.key
  key_comment : l.key.head? ≠ some '#'
  separator : l.separator = '=' ∨ l.separator = ':'
  blanks : Space l.indent ∧ Space l.afterKey ∧ Space l.beforeValue ∧ Space l.beforeComment ∧ Space l.trailing
  one_line : '\n' ∉ l.value ∧ ∀ c, l.comment = some c → '\n' ∉ c
  comment_end : ∀ c, l.comment = some c → ∀ x, c.getLast? = some x → isSpace x = false
  value_nonempty : l.value ≠ []
  /-- a bare value has no blanks around it, no quotes and no `#` -/
  bare : l.written = .bare → Trimmed l.value ∧ '\'' ∉ l.value ∧ '"' ∉ l.value ∧ '#' ∉ l.value
  /-- a value in quotes does not end in a backslash -/
  quoted : ∀ q s, l.written = .quoted q s → (q = '\'' ∨ q = '"') ∧ l.value.getLast? ≠ some '\\'

end EnvLine

/-- What a configuration file consists of. -/
inductive EnvItem
  | entry (l : EnvLine)
  | blank (s : Str)
  | remark (indent : Str) (s : Str)
  deriving DecidableEq, Repr

namespace EnvItem

def text : EnvItem → Str
  | .entry l => l.text
  | .blank s => s
  | .remark i s => i ++ py"#" ++ s

/-- the lines which give a value, in order -/
def entries (is : List EnvItem) : List (Str × Str) :=
  is.filterMap (fun | .entry l => some (l.key, l.value) | _ => none)

/-- Items which can stand in a file, as they are read.  An entry in quotes which starts with a blank has no comment.  No
key begins like a JSON document (`{`, `[` or `"`). -/
def Ok : EnvItem → Prop
  | .entry l => l.Ok ∧ (l.written ≠ .bare → l.comment ≠ none → ∀ c, l.value.head? = some c → isSpace c = false) ∧
    l.key.head? ≠ some '"' ∧ l.key.head? ≠ some '{' ∧ l.key.head? ≠ some '['
  | .blank s => Space s
  | .remark i s => Space i ∧ '\n' ∉ s

end EnvItem

/-- A name which can be a key. -/
def EnvKey (k : Str) : Prop := k ≠ [] ∧ Trimmed k ∧ '=' ∉ k ∧ ':' ∉ k ∧ k.head? ≠ some '#'

/-- the file -/
def envText (is : List EnvItem) : Str := join py"\n" (is.map EnvItem.text)

/-- The value of a key: the last one given. -/
def lastValue (es : List (Str × Str)) (k : Str) : Option Str := (es.reverse.find? (fun e => e.1 = k)).map Prod.snd

end Mygrations

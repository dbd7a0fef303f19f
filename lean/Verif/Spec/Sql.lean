import Verif.Py.Basic

/-!
# Specification: how MySQL reads string literals, and splits a text into tokens

MySQL reference manual, "String Literals" (with the default SQL mode: backslash escapes are on) and
"Schema Object Names".  Comments and double-quoted strings are not treated specially.
-/

namespace Mygrations
namespace Sql

/-- What `\c` stands for in a string literal. -/
def unescape (c : Char) : Str :=
  if c = '0' then ['\x00']
  else if c = 'b' then ['\x08']
  else if c = 'n' then ['\n']
  else if c = 'r' then ['\r']
  else if c = 't' then ['\t']
  else if c = 'Z' then ['\x1a']
  else if c = '%' then ['\\', '%']
  else if c = '_' then ['\\', '_']
  else [c]

/-- Reads a string literal, after its opening quote: its value and the text after the closing quote.
Two quotes in a row stand for one. -/
def lexString : Str → Option (Str × Str)
  | [] => none
  | '\\' :: c :: r => (lexString r).map (fun (v, rest) => (unescape c ++ v, rest))
  | '\'' :: '\'' :: r => (lexString r).map (fun (v, rest) => ('\'' :: v, rest))
  | '\'' :: r => some ([], r)
  | c :: r => (lexString r).map (fun (v, rest) => (c :: v, rest))

/-! ## Tokens -/

/-- A token: a word (keyword, unquoted name or number), a quoted name, a string or a symbol. -/
inductive Tok
  | word (s : Str)
  | ident (s : Str)
  | str (s : Str)
  | sym (c : Char)
  deriving DecidableEq, Repr

/-- Where the tokenizer is: outside, in a word, in a quoted name (or after a backtick in it), in a string
(or after a backslash or a quote in it). -/
inductive State
  | out
  | word (a : Str)
  | ident (a : Str)
  | identTick (a : Str)
  | str (a : Str)
  | strEsc (a : Str)
  | strQuote (a : Str)
  deriving DecidableEq, Repr

/-- characters of words -/
def wordChar (c : Char) : Bool := isWord c || c == '$' || c.toNat ≥ 0x80

/-- a character outside -/
def stepOut (c : Char) : List Tok × State :=
  if c = '\'' then ([], .str [])
  else if c = '`' then ([], .ident [])
  else if wordChar c then ([], .word [c])
  else if isSpace c then ([], .out)
  else ([.sym c], .out)

/-- One character: the tokens which are complete now, and the new state. -/
def step : State → Char → List Tok × State
  | .out, c => stepOut c
  | .word a, c => if wordChar c then ([], .word (a ++ [c])) else (.word a :: (stepOut c).1, (stepOut c).2)
  | .ident a, c => if c = '`' then ([], .identTick a) else ([], .ident (a ++ [c]))
  | .identTick a, c => if c = '`' then ([], .ident (a ++ [c])) else (.ident a :: (stepOut c).1, (stepOut c).2)
  | .str a, c => if c = '\\' then ([], .strEsc a) else if c = '\'' then ([], .strQuote a) else ([], .str (a ++ [c]))
  | .strEsc a, c => ([], .str (a ++ unescape c))
  | .strQuote a, c => if c = '\'' then ([], .str (a ++ [c])) else (.str a :: (stepOut c).1, (stepOut c).2)

/-- All characters of a text. -/
def run : State → Str → List Tok × State
  | s, [] => ([], s)
  | s, c :: r =>
    let (t, s') := step s c
    let (ts, s'') := run s' r
    (t ++ ts, s'')

/-- The end of the text. -/
def finish : State → Option (List Tok)
  | .out => some []
  | .word a => some [.word a]
  | .identTick a => some [.ident a]
  | .strQuote a => some [.str a]
  | _ => none

/-- The tokens of a text, unless a string or a quoted name is not closed. -/
def tokens (s : Str) : Option (List Tok) :=
  let (ts, st) := run .out s
  (finish st).map (ts ++ ·)

/-- Tokens separated by commas. -/
def commas : List (List Tok) → List Tok
  | [] => []
  | [t] => t
  | t :: t' :: ts => t ++ .sym ',' :: commas (t' :: ts)

/-- A value: `NULL` or a string. -/
def valueTok : Option Str → Tok
  | none => .word py"NULL"
  | some s => .str s

end Sql
end Mygrations

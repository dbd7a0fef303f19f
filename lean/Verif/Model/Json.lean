import Verif.Py.Basic

/-!
# Model of `json.loads`

`dotenv.parse` (dotenv.py:67-72) gives every text to Python's `json.loads` before it looks at the lines.  This is the
decoder of the standard library (`json/decoder.py`, `json/scanner.py`), which is not part of /repo: `loads text = none` is
a `JSONDecodeError`.  Not modelled: the limits of Python on the depth of the nesting and on the number of digits.
-/

namespace Mygrations

/-- What `json.loads` returns.  A number is kept as it is written. -/
inductive Json
  | null
  | bool (b : Bool)
  | num (text : Str)
  | str (s : Str)
  | arr (items : List Json)
  | obj (members : List (Str × Json))

namespace Json

/-- the white space of JSON: space, tab and line ends only (called from dotenv.py:70) -/
def isBlank (c : Char) : Bool := c = ' ' || c = '\t' || c = '\n' || c = '\r'

/-- skip white space (called from dotenv.py:70) -/
def skip (s : Str) : Str := s.dropWhile isBlank

/-- the value of a hexadecimal digit (called from dotenv.py:70) -/
def hexDigit (c : Char) : Option Nat :=
  let n := c.toNat
  if 48 ≤ n ∧ n ≤ 57 then some (n - 48)
  else if 65 ≤ n ∧ n ≤ 70 then some (n - 55)
  else if 97 ≤ n ∧ n ≤ 102 then some (n - 87)
  else none

/-- the four digits after `\u` (called from dotenv.py:70) -/
def hexFour : Str → Option (Nat × Str)
  | a :: b :: c :: d :: r =>
    match hexDigit a, hexDigit b, hexDigit c, hexDigit d with
    | some a, some b, some c, some d => some (((a * 16 + b) * 16 + c) * 16 + d, r)
    | _, _, _, _ => none
  | _ => none

/-- the character after a backslash, for all escapes but `\u` (called from dotenv.py:70) -/
def shortEscape : Char → Option Char
  | '"' => some '"'
  | '\\' => some '\\'
  | '/' => some '/'
  | 'b' => some '\x08'
  | 'f' => some '\x0c'
  | 'n' => some '\n'
  | 'r' => some '\r'
  | 't' => some '\t'
  | _ => none

/-- the character of `\uXXXX`, where `n` is the number and `r` what follows: two surrogates which belong together make one
character (called from dotenv.py:70).  Simplification: a surrogate alone, which Python keeps, is U+FFFD here. -/
def unicode (n : Nat) (r : Str) : Char × Str :=
  if 0xD800 ≤ n ∧ n ≤ 0xDFFF then
    match r with
    | '\\' :: 'u' :: r' =>
      match hexFour r' with
      | some (m, r'') =>
        if n ≤ 0xDBFF ∧ 0xDC00 ≤ m ∧ m ≤ 0xDFFF then (Char.ofNat (0x10000 + (n - 0xD800) * 0x400 + (m - 0xDC00)), r'')
        else ('�', r)
      | none => ('�', r)
    | _ => ('�', r)
  else (Char.ofNat n, r)

/-- a string after its opening quote: its value and what follows the closing quote (called from dotenv.py:70).  Control
characters are refused.  `fuel` is at least the number of characters. -/
def strBody : Nat → Str → Option (Str × Str)
  | 0, _ => none
  | _ + 1, [] => none
  | fuel + 1, c :: r =>
    if c = '"' then some ([], r)
    else if c = '\\' then
      match r with
      | [] => none
      | e :: r =>
        if e = 'u' then
          match hexFour r with
          | none => none
          | some (n, r) => (strBody fuel (unicode n r).2).map (fun p => ((unicode n r).1 :: p.1, p.2))
        else
          match shortEscape e with
          | none => none
          | some x => (strBody fuel r).map (fun p => (x :: p.1, p.2))
    else if c.toNat < 0x20 then none
    else (strBody fuel r).map (fun p => (c :: p.1, p.2))

/-- `s` without `p` at its beginning -/
def dropPrefix : Str → Str → Option Str
  | [], s => some s
  | _ :: _, [] => none
  | a :: p, b :: s => if a = b then dropPrefix p s else none

/-- the digits at the beginning of `s` and the rest; `none` if there are none -/
def digits (s : Str) : Option (Str × Str) :=
  match s.takeWhile isDigit with
  | [] => none
  | ds => some (ds, s.dropWhile isDigit)

/-- `(?:0|[1-9][0-9]*)` -/
def whole : Str → Option (Str × Str)
  | [] => none
  | c :: r => if c = '0' then some (['0'], r) else digits (c :: r)

/-- `(\.[0-9]+)?` -/
def fraction : Str → Str × Str
  | '.' :: r =>
    match digits r with
    | some (ds, r') => ('.' :: ds, r')
    | none => ([], '.' :: r)
  | s => ([], s)

/-- `[-+]?` -/
def sign : Str → Str × Str
  | [] => ([], [])
  | c :: r => if c = '+' ∨ c = '-' then ([c], r) else ([], c :: r)

/-- `([eE][-+]?[0-9]+)?` -/
def exponent : Str → Str × Str
  | [] => ([], [])
  | c :: r =>
    if c = 'e' ∨ c = 'E' then
      match digits (sign r).2 with
      | some (ds, r') => (c :: (sign r).1 ++ ds, r')
      | none => ([], c :: r)
    else ([], c :: r)

/-- `-?` -/
def minus : Str → Str × Str
  | [] => ([], [])
  | c :: r => if c = '-' then (['-'], r) else ([], c :: r)

/-- `NUMBER_RE` (called from dotenv.py:70) -/
def number (s : Str) : Option (Json × Str) :=
  match whole (minus s).2 with
  | none => none
  | some (ds, r) =>
    some (.num ((minus s).1 ++ ds ++ (fraction r).1 ++ (exponent (fraction r).2).1), (exponent (fraction r).2).2)

/-- the words JSON and Python's decoder know -/
def literals : List (Str × Json) :=
  [(py"null", .null), (py"true", .bool true), (py"false", .bool false), (py"NaN", .num py"NaN"), (py"Infinity", .num py"Infinity"),
   (py"-Infinity", .num py"-Infinity")]

/-- a value which is no string, array or object (called from dotenv.py:70).  No word begins like a number, except
`-Infinity`, which is no number, so the order does not matter. -/
def scalar (s : Str) : Option (Json × Str) :=
  match literals.findSome? (fun l => (dropPrefix l.1 s).map (fun r => (l.2, r))) with
  | some x => some x
  | none => number s

mutual
/-- a value at the beginning of the text, and the rest (called from dotenv.py:70).  `fuel` is at least the number of
characters. -/
def value : Nat → Str → Option (Json × Str)
  | 0, _ => none
  | _ + 1, [] => none
  | fuel + 1, c :: r =>
    if c = '"' then (strBody (r.length + 1) r).map (fun p => (.str p.1, p.2))
    else if c = '{' then
      match skip r with
      | '}' :: r' => some (.obj [], r')
      | r' => (members fuel r').map (fun p => (.obj p.1, p.2))
    else if c = '[' then
      match skip r with
      | ']' :: r' => some (.arr [], r')
      | r' => (elements fuel r').map (fun p => (.arr p.1, p.2))
    else scalar (c :: r)
/-- the members of an object up to its end (called from dotenv.py:70) -/
def members : Nat → Str → Option (List (Str × Json) × Str)
  | 0, _ => none
  | _ + 1, [] => none
  | fuel + 1, c :: r =>
    if c ≠ '"' then none
    else match strBody (r.length + 1) r with
      | none => none
      | some (k, r) =>
        match skip r with
        | ':' :: r =>
          match value fuel (skip r) with
          | none => none
          | some (v, r) =>
            match skip r with
            | '}' :: r => some ([(k, v)], r)
            | ',' :: r => (members fuel (skip r)).map (fun p => ((k, v) :: p.1, p.2))
            | _ => none
        | _ => none
/-- the elements of an array up to its end (called from dotenv.py:70) -/
def elements : Nat → Str → Option (List Json × Str)
  | 0, _ => none
  | fuel + 1, s =>
    match value fuel s with
    | none => none
    | some (v, r) =>
      match skip r with
      | ']' :: r => some ([v], r)
      | ',' :: r => (elements fuel (skip r)).map (fun p => (v :: p.1, p.2))
      | _ => none
end

/-- `json.loads` (called from dotenv.py:70): one value with white space around it, and nothing else -/
def loads (text : Str) : Option Json :=
  match value (2 * text.length + 2) (skip text) with
  | none => none
  | some (j, r) => if skip r = [] then some j else none

/-- `if parsed:` (dotenv.py:75).  Simplification: a number is zero if all digits before its exponent are. -/
def truthy : Json → Bool
  | .null => false
  | .bool b => b
  | .num t => t.any (fun c => c = 'N' || c = 'I') || (t.takeWhile (fun c => c ≠ 'e' ∧ c ≠ 'E')).any (fun c => isDigit c && c ≠ '0')
  | .str s => s ≠ []
  | .arr items => !items.isEmpty
  | .obj members => !members.isEmpty

/-- the members of an object of strings -/
def texts : List (Str × Json) → Option (List (Str × Str))
  | [] => some []
  | (k, .str v) :: ms => (texts ms).map (fun es => (k, v) :: es)
  | _ => none

end Json
end Mygrations

/-!
# Python basics used by the model

Strings are lists of characters, dictionaries are insertion-ordered association lists, exceptions
are values.  Nothing in this file models a particular function of `/repo`; it models the parts of
Python's standard library which the code uses.
-/
namespace Mygrations

/-- A Python `str`, as the list of its code points. -/
abbrev Str := List Char

open Lean in
/-- `py"abc"` is the character list `['a','b','c']` (fully expanded, so that it computes by `decide`). -/
syntax:max (name := pyStr) "py" noWs str : term

open Lean in
macro_rules
  | `(py$s:str) => do
    let cs := s.getString.toList.map (fun c => Syntax.mkCharLit c)
    `(([$[$(cs.toArray)],*] : List Char))

/-- The Python exceptions which the modelled code can raise.  Messages are kept where the model
needs them (they are strings shown to the user). -/
inductive PyErr
  | valueError (msg : Str)
  | keyError (key : Str)
  | indexError
  | attributeError (attr : Str)
  | typeError
  | syntaxError (msg : Str)
  | importError (what : Str)
  | unboundLocal (var : Str)
  | nameError (name : Str)
  deriving DecidableEq, Repr

deriving instance DecidableEq for Except

/-- `c.isspace()`, which is also what `\s` matches in a `str` pattern and what `str.strip()` removes. -/
def isSpace (c : Char) : Bool :=
  let n := c.toNat
  (0x09 ≤ n && n ≤ 0x0D) || (0x1C ≤ n && n ≤ 0x20) || n == 0x85 || n == 0xA0 || n == 0x1680 ||
  (0x2000 ≤ n && n ≤ 0x200A) || n == 0x2028 || n == 0x2029 || n == 0x202F || n == 0x205F || n == 0x3000

/-- `\d`.  Simplification: ASCII digits only (Python's `\d` also matches other decimal digits). -/
def isDigit (c : Char) : Bool := '0' ≤ c && c ≤ '9'

/-- `\w`.  Simplification: ASCII letters, digits and `_` only. -/
def isWord (c : Char) : Bool :=
  ('a' ≤ c && c ≤ 'z') || ('A' ≤ c && c ≤ 'Z') || isDigit c || c == '_'

/-- `s.lower()`.  Simplification: ASCII. -/
def lower (s : Str) : Str := s.map Char.toLower

/-- `s.upper()`.  Simplification: ASCII. -/
def upper (s : Str) : Str := s.map Char.toUpper

/-- `s.lstrip()` -/
def lstrip (s : Str) : Str := s.dropWhile isSpace

/-- `s.rstrip()` -/
def rstrip (s : Str) : Str := (s.reverse.dropWhile isSpace).reverse

/-- `s.strip()` -/
def strip (s : Str) : Str := rstrip (lstrip s)

/-- `s.strip(chars)` -/
def stripChars (p : Char → Bool) (s : Str) : Str :=
  ((s.dropWhile p).reverse.dropWhile p).reverse

/-- `re.sub("\s+", " ", s)`: the flag says that the previous character was white space. -/
def collapseAux : Bool → Str → Str
  | _, [] => []
  | true, c :: cs => if isSpace c then collapseAux true cs else c :: collapseAux false cs
  | false, c :: cs => if isSpace c then ' ' :: collapseAux true cs else c :: collapseAux false cs

/-- `re.sub("\s+", " ", s)` -/
def collapse (s : Str) : Str := collapseAux false s

/-- `sep.join(parts)` -/
def join (sep : Str) : List Str → Str
  | [] => []
  | [p] => p
  | p :: q :: ps => p ++ sep ++ join sep (q :: ps)

/-- `s.startswith(p)` -/
def startsWith (p s : Str) : Bool := p.isPrefixOf s

/-- `s.isnumeric()`.  Simplification: ASCII digits only. -/
def isNumeric (s : Str) : Bool := !s.isEmpty && s.all isDigit

/-- `s.split(sep)` for a one-character separator. -/
def splitOn (sep : Char) : Str → List Str
  | [] => [[]]
  | c :: cs =>
    if c = sep then [] :: splitOn sep cs
    else match splitOn sep cs with
      | [] => [[c]]
      | w :: ws => (c :: w) :: ws

/-- `s.replace(c, r)` for a one-character pattern. -/
def replaceChar (c : Char) (r : Str) : Str → Str
  | [] => []
  | x :: xs => if x = c then r ++ replaceChar c r xs else x :: replaceChar c r xs

/-- `s.replace(ab, r)` for a two-character pattern (leftmost, non-overlapping). -/
def replacePair (a b : Char) (r : Str) : Str → Str
  | [] => []
  | [x] => [x]
  | x :: y :: ys =>
    if x = a ∧ y = b then r ++ replacePair a b r ys else x :: replacePair a b r (y :: ys)

/-- `"c" in s` -/
def hasChar (c : Char) (s : Str) : Bool := s.any (· == c)

/-! ## Dictionaries -/

/-- An insertion-ordered dictionary with string keys (`dict` or `OrderedDict`). -/
abbrev Dict (V : Type) := List (Str × V)

namespace Dict
variable {V : Type}

/-- `list(d.keys())` -/
def keys (d : Dict V) : List Str := d.map Prod.fst

/-- `list(d.values())` -/
def values (d : Dict V) : List V := d.map Prod.snd

/-- `k in d` -/
def has (d : Dict V) (k : Str) : Bool := d.any (fun e => e.1 == k)

/-- `d.get(k)` -/
def get? : Dict V → Str → Option V
  | [], _ => none
  | (k', v) :: d, k => if k' = k then some v else get? d k

/-- `d[k] = v`: an existing key keeps its position. -/
def set : Dict V → Str → V → Dict V
  | [], k, v => [(k, v)]
  | (k', v') :: d, k, v => if k' = k then (k, v) :: d else (k', v') :: set d k v

/-- `d.pop(k, None)` -/
def erase : Dict V → Str → Dict V
  | [], _ => []
  | (k', v') :: d, k => if k' = k then d else (k', v') :: erase d k

end Dict

end Mygrations

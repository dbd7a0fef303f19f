import Verif.Model.Reader
import Verif.Model.Dotenv

/-!
# Model of how the files are found
(`mygrations/formats/mysql/file_reader/{database,reader}.py`, with `glob` and `fnmatch` of Python)
-/

namespace Mygrations

/-- What the program sees of files and directories.  `listdir` are the names in a directory, in the order of the file
system, if it is one. -/
structure Disk extends Files where
  listdir : Str → Option (List Str)

namespace Glob

/-- a piece of a pattern of `fnmatch` -/
inductive Tok
  | star
  | any
  | lit (c : Char)
  | set (negated : Bool) (items : List (Char × Char))
  deriving DecidableEq, Repr

/-- what is between the brackets of `[...]`: characters and ranges -/
def items : Str → List (Char × Char)
  | a :: '-' :: b :: cs => (a, b) :: items cs
  | a :: cs => (a, a) :: items cs
  | [] => []

/-- the text up to the closing bracket, and the text after it; a bracket which comes first (after `!`) is an ordinary
character -/
def closeSet : Str → Option (Str × Str)
  | '!' :: ']' :: cs => match cs.span (· ≠ ']') with | (a, _ :: b) => some ('!' :: ']' :: a, b) | (_, []) => none
  | ']' :: cs => match cs.span (· ≠ ']') with | (a, _ :: b) => some (']' :: a, b) | (_, []) => none
  | cs => match cs.span (· ≠ ']') with | (a, _ :: b) => some (a, b) | (_, []) => none

/-- `fnmatch.translate`; `fuel` is at least the length of the pattern -/
def translate : Nat → Str → List Tok
  | 0, _ => []
  | _, [] => []
  | n + 1, c :: cs =>
    if c = '*' then .star :: translate n cs
    else if c = '?' then .any :: translate n cs
    else if c = '[' then
      match closeSet cs with
      | none => .lit '[' :: translate n cs
      | some (stuff, rest) =>
        (match stuff with
         | '!' :: stuff => .set true (items stuff)
         | stuff => .set false (items stuff)) :: translate n rest
    else .lit c :: translate n cs

/-- what is left of a text after any number of its characters -/
def tails : Str → List Str
  | [] => [[]]
  | c :: cs => (c :: cs) :: tails cs

/-- does the text match? -/
def matches? : List Tok → Str → Bool
  | [], s => s.isEmpty
  | .star :: ts, s => (tails s).any (matches? ts)
  | .any :: ts, s => match s with | [] => false | _ :: s => matches? ts s
  | .lit c :: ts, s => match s with | [] => false | x :: s => x == c && matches? ts s
  | .set neg is :: ts, s => match s with
    | [] => false
    | x :: s => (neg != is.any (fun r => decide (r.1.toNat ≤ x.toNat) && decide (x.toNat ≤ r.2.toNat))) && matches? ts s

/-- `fnmatch.fnmatchcase(name, pattern)` -/
def fnmatch (name pattern : Str) : Bool := matches? (translate pattern.length pattern) name

/-- `glob.has_magic` -/
def hasMagic (s : Str) : Bool := s.any (fun c => c == '*' || c == '?' || c == '[')

/-- `os.path.split` -/
def splitPath (p : Str) : Str × Str :=
  let head := (p.reverse.dropWhile (· ≠ '/')).reverse
  let tail := (p.reverse.takeWhile (· ≠ '/')).reverse
  (if head.all (· = '/') then head else (head.reverse.dropWhile (· = '/')).reverse, tail)

/-- `os.path.join` with a name -/
def joinPath (dir name : Str) : Str := if dir = [] ∨ dir.getLast? = some '/' then dir ++ name else dir ++ py"/" ++ name

/-- `glob._ishidden` -/
def hidden (name : Str) : Bool := name.head? = some '.'

end Glob

namespace Disk
open Glob

/-- `os.path.isdir` -/
def isDir (disk : Disk) (p : Str) : Bool := (disk.listdir p).isSome

/-- `os.path.lexists` -/
def exists? (disk : Disk) (p : Str) : Bool := disk.isFile p || disk.isDir p

/-- `glob._glob1`: the names in the directory which match -/
def glob1 (disk : Disk) (dir pattern : Str) (dirsOnly : Bool) : List Str :=
  ((disk.listdir dir).getD []).filter (fun n =>
    (!dirsOnly || disk.isDir (joinPath dir n)) && (hidden pattern || !hidden n) && fnmatch n pattern)

/-- `glob._glob0`: the name, if it is there -/
def glob0 (disk : Disk) (dir name : Str) : List Str :=
  if name = [] then if disk.isDir dir then [name] else []
  else if disk.exists? (joinPath dir name) then [name] else []

/-- `glob._iglob`; `fuel` is more than the length of the path: the directory of a path is shorter than the path.
Simplification: names which are looked up in the working directory are listed as those of `.`. -/
def iglob (disk : Disk) : Nat → Str → Bool → List Str
  | 0, _, _ => []
  | n + 1, p, dirsOnly =>
    let (dir, base) := splitPath p
    if !hasMagic p then
      if base ≠ [] then (if disk.exists? p then [p] else []) else if disk.isDir dir then [p] else []
    else if dir = [] then disk.glob1 py"." base dirsOnly
    else
      let dirs := if dir ≠ p ∧ hasMagic dir = true then iglob disk n dir true else [dir]
      dirs.flatMap (fun d => (if hasMagic base then disk.glob1 d base dirsOnly else disk.glob0 d base).map (joinPath d))

/-- `glob.glob` -/
def glob (disk : Disk) (pattern : Str) : List Str := disk.iglob (pattern.length + 1) pattern false

/-- `_unpack` (reader.py:123-149) for a string: the contents of the file of that name, or the string itself -/
def unpack (disk : Disk) (s : Str) : Str := (disk.contents s).getD s

/-- `process` and `_process_directory` (file_reader/database.py:37-68): the texts which are parsed for one string, in order.
Simplification: the empty string is not the name of a directory. -/
def process (disk : Disk) (s : Str) : List Str :=
  if disk.isDir s then
    let s := if s.getLast? = some '/' then s else s ++ py"/"
    (disk.glob (s ++ py"*.sql")).map disk.unpack
  else [disk.unpack s]

/-- `Database(strings)` (file_reader/database.py:6-35) -/
def database [PyNum] (disk : Disk) (strings : List Str) : Except PyErr Database := FileDatabase.new (strings.flatMap disk.process)

end Disk

end Mygrations

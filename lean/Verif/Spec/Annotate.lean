import Verif.Spec.Script

/-!
# Specification: comments and lengths of prefixes

`C82` is about what the reader leaves out of a `CREATE TABLE`: comments to the end of the line, wherever they are, and the
number of characters of a column which a key is to use.
-/

namespace Mygrations

/-- `raw` is `clean` with two kinds of additions: comments from `--` to the end of the line; and numbers in parentheses after
the name of a column at the start of a list or after a comma, such as the `10` in ``(`name`(10), `city`(5))``. -/
inductive Annotated : Str → Str → Prop
  /-- the end of the text -/
  | nil : Annotated [] []
  /-- a comment which ends the text -/
  | last {text : Str} : '\n' ∉ text → Annotated (py"--" ++ text) []
  /-- the same character in both (it is not a dash right before a dash) -/
  | char {c : Char} {raw clean : Str} : ¬ (c = '-' ∧ raw.head? = some '-') → Annotated raw clean → Annotated (c :: raw) (c :: clean)
  /-- a comment and the end of its line -/
  | comment {text raw clean : Str} : '\n' ∉ text → Annotated raw clean → Annotated (py"--" ++ text ++ '\n' :: raw) ('\n' :: clean)
  /-- a name, with or without backticks, and a number -/
  | length {c : Char} {blanks open_ name close digits raw clean : Str} : c = '(' ∨ c = ',' → (∀ x ∈ blanks, isSpace x = true) →
      open_ = [] ∨ open_ = py"`" → name ≠ [] → (∀ x ∈ name, isWord x = true) → close = [] ∨ close = py"`" → digits ≠ [] → (∀ x ∈ digits, isDigit x = true) →
      Annotated raw clean →
      Annotated (c :: (blanks ++ open_ ++ name ++ close ++ (py"(" ++ digits ++ py")" ++ raw))) (c :: (blanks ++ open_ ++ name ++ close ++ clean))

/-- A text without such additions. -/
def Unannotated (clean : Str) : Prop := NoComment clean ∧ ∀ x, Annotated clean x → x = clean

/-- A file with additions: after any comments, it starts with a table, and it is annotated from there on. -/
def AnnotatedFile (file : Str) (ss : List Statement) : Prop :=
  ∃ n header blanks body s more rest, file = header ++ (blanks ++ body) ∧ ss = s :: rest ∧ Header n header ∧ (∀ c ∈ blanks, isSpace c = true) ∧
    s.isCreate = true ∧ Annotated body (s.sql ++ more) ∧ Script more rest ∧ n + ss.length ≤ 10000

end Mygrations

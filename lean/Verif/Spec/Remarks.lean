import Verif.Spec.Script

/-!
# Specification: remarks on the way defaults are written

`C83` and `C84` are about them.
-/

namespace Mygrations

/-- The warning about missing quotes. -/
def missingQuotes (name v : Str) : Str := py"Default value of \"" ++ v ++ py"\" should have quotes for field " ++ name

/-- The warning about quotes around a number. -/
def needlessQuotes (name : Str) : Str := py"Column '" ++ name ++ py"' has a numeric type but its default value is a string"

/-- The remarks on a column which is written in this style.  The default of a type with two numbers in parentheses should not have quotes, that of
other types should, unless it is a number.  Nothing is said about a type without parentheses which has no character set and no collation, nor
about unsigned and automatically counted columns.  A default with a blank in it (a date with a time) is always remarked upon. -/
def Column.remarks (c : Column) (s : Style) : List Str :=
  match c.default with
  | none => []
  | some v =>
    if v.contains ' ' then [missingQuotes c.name v]
    else if c.len.absent then
      if (c.characterSet.isSome || c.collate.isSome) && s.bare v && !isNumeric v then [missingQuotes c.name v] else []
    else if hasChar ',' c.len.format then
      if s.bare v then [] else [needlessQuotes c.name]
    else if c.isUnsigned || c.isAutoInc then []
    else if s.bare v && !isNumeric v then [missingQuotes c.name v] else []

/-- The remarks on a definition, with the name of its column. -/
def Src.remarks? : Src → Option (Str × List Str)
  | .column c s => some (c.name, c.remarks s)
  | _ => none

/-- The remarks on a statement: the name of the table, and the remarks on its columns in their order. -/
def Statement.remarks? : Statement → Option (Str × Dict (List Str))
  | .create t _ => some (t.name, t.columns.map (fun e => (e.1, e.2.remarks .usual)))
  | .declare d _ => some (d.name, d.defs.filterMap Src.remarks?)
  | _ => none

/-- The remarks on the tables of a file, in their order. -/
def remarksOf (ss : List Statement) : List (Str × Dict (List Str)) := ss.filterMap Statement.remarks?

end Mygrations

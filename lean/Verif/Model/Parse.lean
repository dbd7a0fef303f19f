import Verif.Py.Basic

/-!
# Model of the parsing engine (`mygrations/core/parse`)
-/

namespace Mygrations

/-- The regular expressions that occur in the rules of the file reader.
* `cls pre p max post` is `PRE([p]{1,max})POST`: a literal prefix (matched ignoring case), a greedy
  run of at least one character satisfying `p` (at most `max` if given), then a literal suffix.
  The value is the run (group 0 if the expression has no group, since then prefix and suffix are
  empty; group 1 otherwise).
* `alt a b` is `(A)|(B)`; its value is group 1, so `None` if `B` matched.

`re.match` with these patterns is deterministic: no run can be shortened to make the suffix match,
because the suffix character never belongs to the run (`DEFAULT '([^']+)'`). -/
inductive Regex
  | cls (pre : Str) (p : Char → Bool) (max : Option Nat) (post : Str)
  | alt (a b : Str)

/-- What a rule stores in `_values`. -/
inductive PVal
  | none
  | str (s : Str)
  | list (l : List Str)
  deriving DecidableEq, Repr

/-- Result of one rule: its value and what is left. -/
abbrev RuleOut := Option (PVal × Str)

/-- case-insensitive test that `s` starts with the literal `lit`
(core/parse/rule_literal.py:47-48, and the literal parts of the regular expressions with `re.IGNORECASE`). -/
def startsWithCI (lit s : Str) : Bool := lower (s.take lit.length) == lower lit

/-- `RuleLiteral.parse` (core/parse/rule_literal.py:44-56). -/
def literalParse (lit s : Str) : RuleOut :=
  if startsWithCI lit s then some (.str lit, strip (s.drop lit.length)) else none

/-- The greedy run: at most `max` characters satisfying `p`. -/
def takeRun (p : Char → Bool) : Option Nat → Str → Str
  | _, [] => []
  | some 0, _ :: _ => []
  | some (n + 1), c :: cs => if p c then c :: takeRun p (some n) cs else []
  | none, c :: cs => if p c then c :: takeRun p none cs else []

/-- `RuleRegexp.parse` (core/parse/rule_regexp.py:38-58) for the patterns of `Regex`. -/
def regexParse (r : Regex) (s : Str) : RuleOut :=
  match r with
  | .cls pre p max post =>
    if startsWithCI pre s then
      let run := takeRun p max (s.drop pre.length)
      if run = [] then none
      else
        let rest := s.drop (pre.length + run.length)
        if startsWithCI post rest then some (.str run, strip (rest.drop post.length)) else none
    else none
  | .alt a b =>
    if startsWithCI a s then some (.str (s.take a.length), strip (s.drop a.length))
    else if startsWithCI b s then some (.none, strip (s.drop b.length))
    else none

/-- State of the loop of `RuleDelimited.parse`. -/
structure DelimState where
  hasWord : Bool := false
  vals : List Str := []
  current : Str := []
  inQuote : Bool := false
  deriving DecidableEq, Repr

/-- `vals.append(current)` if there is a pending word. -/
def DelimState.flush (st : DelimState) : DelimState :=
  if st.hasWord then { st with vals := st.vals ++ [st.current], hasWord := false } else st

/-- The character loop of `RuleDelimited.parse` (core/parse/rule_delimited.py:85-140).
Returns the final state and, if the loop was left by `break`, the string from that index on. -/
def delimLoop (endLit : Str) (sep quote : Char) : Str → DelimState → DelimState × Option Str
  | [], st => (st, none)
  | c :: cs, st =>
    if c = quote then
      if st.inQuote then
        delimLoop endLit sep quote cs { st with vals := st.vals ++ [st.current], hasWord := false, inQuote := false }
      else
        delimLoop endLit sep quote cs { st with hasWord := true, inQuote := true, current := [] }
    else if st.inQuote then
      delimLoop endLit sep quote cs { st with current := st.current ++ [c] }
    else if startsWithCI endLit (c :: cs) then (st.flush, some (c :: cs))
    else if c = sep then delimLoop endLit sep quote cs { st.flush with current := [] }
    else if c = ' ' then delimLoop endLit sep quote cs { st.flush with current := [] }
    else delimLoop endLit sep quote cs { st with hasWord := true, current := st.current ++ [c] }

/-- `RuleDelimited.parse` (core/parse/rule_delimited.py:75-157).  If the end marker never occurs the
leftover is the last character (`string[index:]` with the last value of `index`). -/
def delimParse (endLit : Str) (sep quote : Char) (s : Str) : Except PyErr RuleOut :=
  let (st, brk) := delimLoop endLit sep quote s {}
  if st.inQuote then .error (.syntaxError (py"Opening quote without closing quote at " ++ s))
  else if st.vals = [] then .ok none
  else .ok (some (.list st.vals, brk.getD (s.drop (s.length - 1))))

/-- The simple rule kinds.  A `delimited` rule carries the value of the literal rule which follows it
(core/parse/rule_delimited.py:47-57,77), which is how the engine reads `next_rule`. -/
inductive Kind
  | literal (value : Str)
  | regexp (r : Regex)
  | delimited (sep quote : Char) (endLit : Str)

/-- A rule dictionary (`type`/`value`, `name`, `optional`). -/
structure Rule (K : Type) where
  kind : K
  name : Str
  optional : Bool := false

/-- `rule_parser.parse(string)` for the simple kinds. -/
def Kind.parse (k : Kind) (s : Str) : Except PyErr RuleOut :=
  match k with
  | .literal v => .ok (literalParse v s)
  | .regexp r => .ok (regexParse r s)
  | .delimited sep quote endLit => delimParse endLit sep quote s

/-- What `Parser.parse` leaves behind: `matched`, `_values` and the returned string. -/
structure ParseResult (V : Type) where
  matched : Bool
  values : Dict V
  rest : Str
  deriving DecidableEq, Repr

/-- The loop over the rules in `Parser.parse` (core/parse/parser.py:74-114), generic in the kind of
rules.  `process()` is called by the users of this function when `matched` is true. -/
def runRules {K V : Type} (parseKind : K → Str → Except PyErr (Option (V × Str))) :
    List (Rule K) → Dict V → Str → Except PyErr (ParseResult V)
  | [], vals, s => .ok ⟨true, vals, s⟩
  | r :: rs, vals, s =>
    match parseKind r.kind s with
    | .error e => .error e
    | .ok none => if r.optional then runRules parseKind rs vals s else .ok ⟨false, vals, s⟩
    | .ok (some (v, s')) =>
      if s' = [] then .ok ⟨rs.all (·.optional), vals.set r.name v, s'⟩
      else runRules parseKind rs (vals.set r.name v) s'

/-- `re.sub("\s+", " ", string).strip()` (core/parse/parser.py:70). -/
def normalize (s : Str) : Str := strip (collapse s)

/-- `Parser.parse` (core/parse/parser.py:66-114) for a parser whose rules are all simple. -/
def simpleParse (rules : List (Rule Kind)) (s : Str) : Except PyErr (ParseResult PVal) :=
  runRules Kind.parse rules [] (normalize s)

/-- A parser class used as a child: its rules and what `process()` makes of the values. -/
structure ChildClass (α : Type) where
  rules : List (Rule Kind)
  process : Dict PVal → α

/-- `child_parser = child(); leftover = child_parser.parse(string)`: the parsed object and the
leftover if it matched (core/parse/rule_children.py:69-75). -/
def ChildClass.tryParse {α : Type} (c : ChildClass α) (s : Str) : Except PyErr (Option (α × Str)) :=
  match simpleParse c.rules s with
  | .error e => .error e
  | .ok r => if r.matched then .ok (some (c.process r.values, r.rest)) else .ok none

/-- The loop over the child classes: the shortest leftover wins, first come first served
(core/parse/rule_children.py:67-88). -/
def bestChild {α : Type} : List (ChildClass α) → Str → Option (α × Str) → Except PyErr (Option (α × Str))
  | [], _, best => .ok best
  | c :: cs, s, best =>
    match c.tryParse s with
    | .error e => .error e
    | .ok none => bestChild cs s best
    | .ok (some (m, rest)) =>
      match best with
      | none => bestChild cs s (some (m, rest))
      | some (bm, brest) =>
        if rest.length < brest.length then bestChild cs s (some (m, rest)) else bestChild cs s (some (bm, brest))

/-- The `while string` loop of `RuleChildren.parse`; `fuel` is `1000 - c`
(core/parse/rule_children.py:55-109). -/
def childrenLoop {α : Type} (classes : List (ChildClass α)) :
    Nat → Str → List α → Except PyErr (Option (List α × Str))
  | 0, s, done =>
    if s = [] then .ok (some (done, [])) else .error (.valueError py"Max depth reached")
  | n + 1, s, done =>
    if s = [] then .ok (some (done, []))
    else match bestChild classes s none with
      | .error e => .error e
      | .ok (some (m, rest)) => childrenLoop classes n rest (done ++ [m])
      | .ok none => if done.isEmpty then .ok none else .ok (some (done, s))

/-- `RuleChildren.parse` (core/parse/rule_children.py:49-109). -/
def childrenParse {α : Type} (classes : List (ChildClass α)) (s : Str) : Except PyErr (Option (List α × Str)) :=
  childrenLoop classes 1000 s []

/-- Values of a top-level parser: simple values or the list of child objects. -/
inductive TVal (α : Type)
  | simple (v : PVal)
  | nodes (l : List α)

/-- Rule kinds of the top-level parsers (`CreateParser`, `InsertParser`). -/
inductive TopKind (α : Type)
  | simple (k : Kind)
  | children (classes : List (ChildClass α))

/-- `rule_parser.parse(string)` for the rules of a top-level parser. -/
def TopKind.parse {α : Type} (k : TopKind α) (s : Str) : Except PyErr (Option (TVal α × Str)) :=
  match k with
  | .simple k =>
    match k.parse s with
    | .error e => .error e
    | .ok none => .ok none
    | .ok (some (v, rest)) => .ok (some (.simple v, rest))
  | .children classes =>
    match childrenParse classes s with
    | .error e => .error e
    | .ok none => .ok none
    | .ok (some (l, rest)) => .ok (some (.nodes l, rest))

/-- `Parser.parse` (core/parse/parser.py:66-114) for a top-level parser. -/
def topParse {α : Type} (rules : List (Rule (TopKind α))) (s : Str) : Except PyErr (ParseResult (TVal α)) :=
  runRules TopKind.parse rules [] (normalize s)

end Mygrations

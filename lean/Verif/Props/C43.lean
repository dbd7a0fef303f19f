import Verif.Proofs.Engine
import Verif.Proofs.Nodes

/-!
# C43 and C44: what the rule engine consumes, and which alternative it takes

`simpleParse rules s` is `Parser.parse` for any list of rules; `r.rest` is what it returns and `r.matched` says whether the
text matched.  `normalize s` is the text with every run of white space replaced by one blank and stripped.
-/

namespace Mygrations

/-- **C43.**  Whatever the rules are and whatever the text is, the text left over is an end piece of the normalised
input: nothing is invented or reordered, and it is never longer than the input. -/
theorem C43_rest_is_suffix (rules : List (Rule Kind)) (s : Str) (r : ParseResult PVal) (h : simpleParse rules s = .ok r) :
    r.rest <:+ normalize s ∧ r.rest.length ≤ s.length :=
  ⟨simpleParse_suffix h, Nat.le_trans (simpleParse_suffix h).length_le (normalize_length s)⟩

/-- an index, in a text with runs of white space, and text after it -/
example : simpleParse indexKey.rules py"KEY  by_name\n  (`a`, `b`),  rest   of it" =
    .ok { matched := true
          values := [(py"index_name", .str py"KEY"), (py"name", .str py"by_name"), (py"(", .str py"("), (py"columns", .list [py"a", py"b"]),
            (py")", .str py")"), (py"ending_comma", .str py",")]
          rest := py"rest of it" } := by decide

/-- **C43.**  A match is complete: whatever the rules and the text are, every rule which is not optional has a value. -/
theorem C43_required (rules : List (Rule Kind)) (s : Str) (r : ParseResult PVal) (h : simpleParse rules s = .ok r) (hm : r.matched = true) :
    ∀ x ∈ rules, x.optional = false → ∃ v, r.values.get? x.name = some v := by
  intro x hx ho
  exact Dict.exists_get? ((runRules_required rules [] (normalize s) r h hm).2 x hx ho)

/-- the example above matched, and has values for the five required parts of an index -/
example : (indexKey.rules.filter (!·.optional)).map Rule.name = [py"index_name", py"name", py"(", py"columns", py")"] := by decide

/-- **C43.**  Reading a `CREATE TABLE` or an `INSERT` never leaves more text than there was. -/
theorem C43_statements (s : Str) :
    (∀ t rest, parseCreate s = .ok (t, rest) → rest <:+ normalize (cleanCreate s) ∧ rest.length ≤ s.length) ∧
    (∀ rows rest, parseInsert s = .ok (rows, rest) → rest <:+ normalize s ∧ rest.length ≤ s.length) := by
  constructor
  · intro t rest h
    unfold parseCreate at h
    split at h
    · cases h
    · rename_i r hr
      have hsuf := topParse_suffix createRules_eat hr
      have hlen := Nat.le_trans hsuf.length_le (Nat.le_trans (normalize_length _) (cleanCreate_length s))
      split at h
      · split at h
        · cases h
        · cases h
          exact ⟨hsuf, hlen⟩
      · cases h
        exact ⟨hsuf, hlen⟩
  · intro rows rest h
    unfold parseInsert at h
    split at h
    · cases h
    · rename_i r hr
      have hsuf := topParse_suffix insertRules_eat hr
      have hlen := Nat.le_trans hsuf.length_le (normalize_length _)
      split at h
      · cases h
        exact ⟨hsuf, hlen⟩
      · cases h
        exact ⟨hsuf, hlen⟩

/-- **C43.**  A column, index or constraint which is matched consumes at least one character; so do a table option and a
group of values. -/
theorem C43_match_consumes (s : Str) :
    (∀ c ∈ definitionClasses, ∀ m rest, c.tryParse s = .ok (some (m, rest)) → rest.length < s.length) ∧
    (∀ m rest, tableOption.tryParse s = .ok (some (m, rest)) → rest.length < s.length) ∧
    (∀ m rest, insertValues.tryParse s = .ok (some (m, rest)) → rest.length < s.length) :=
  ⟨fun c hc _ _ h => tryParse_strict (definitionClasses_eat c hc) h, fun _ _ h => tryParse_strict tableOption_eats h,
   fun _ _ h => tryParse_strict insertValues_eats h⟩

example : ∃ m, typeNumeric.tryParse py"id int(10) unsigned not null," = .ok (some (m, [])) := ⟨_, by rfl⟩

/-- **C43.**  So repeated matching ends after at most as many matches as there are characters, and the text left over is
an end piece of the text it started from. -/
theorem C43_repeated_matching (s : Str) (l : List Definition) (rest : Str)
    (h : childrenParse definitionClasses (normalize s) = .ok (some (l, rest))) :
    rest <:+ normalize s ∧ l.length + rest.length ≤ (normalize s).length := by
  obtain ⟨h1, new, rfl, h2⟩ := childrenLoop_count definitionClasses_eat 1000 _ [] l rest (normal_normalize s).tail h
  exact ⟨h1, h2⟩

example : (childrenParse definitionClasses py"a int, b int, primary key (a), )").map (Option.map (fun x => (x.1.length, x.2))) =
    .ok (some (3, py")")) := by decide +kernel

/-- **C43.**  The same for a whole statement: a `CREATE TABLE` or `INSERT` which matched has consumed something. -/
theorem C43_statement_consumes (s : Str) :
    (∀ r, topParse createRules s = .ok r → r.matched = true → r.rest.length < s.length) ∧
    (∀ r, topParse insertRules s = .ok r → r.matched = true → r.rest.length < s.length) := by
  constructor
  · intro r h hm
    exact Nat.lt_of_lt_of_le (topParse_strict (l := py"CREATE TABLE") (fun rule hr => createRules_eat rule (List.mem_cons_of_mem _ hr))
      (by decide) h hm) (normalize_length s)
  · intro r h hm
    exact Nat.lt_of_lt_of_le (topParse_strict (l := py"INSERT INTO") (fun rule hr => insertRules_eat rule (List.mem_cons_of_mem _ hr))
      (by decide) h hm) (normalize_length s)

/-- Without a match nothing need be consumed: on this text the reader makes no progress. -/
theorem C43_no_match_no_progress : ∃ t, parseCreate py"CREATE VIEW v;" = .ok (t, py"CREATE VIEW v;") :=
  ⟨_, by rfl⟩

/-- **C44.**  Among alternatives, the one taken is the first of those which leave the least text: every alternative tried
before it which matches leaves more, every alternative tried after it which matches leaves at least as much.  (An
alternative which raises an exception ends the search.) -/
theorem C44_longest_match {α : Type} (alternatives : List (ChildClass α)) (s : Str) (m : α) (rest : Str) :
    bestChild alternatives s none = .ok (some (m, rest)) ↔
      (∀ d ∈ alternatives, ∃ o, d.tryParse s = .ok o) ∧
      ∃ before c after, alternatives = before ++ c :: after ∧ c.tryParse s = .ok (some (m, rest)) ∧
        (∀ d ∈ before, ∀ m' rest', d.tryParse s = .ok (some (m', rest')) → rest.length < rest'.length) ∧
        (∀ d ∈ after, ∀ m' rest', d.tryParse s = .ok (some (m', rest')) → rest.length ≤ rest'.length) :=
  ⟨fun h => ⟨(bestChild_chosen.mp h).total, (bestChild_chosen.mp h).split⟩, fun ⟨h1, h2⟩ => bestChild_chosen.mpr ⟨h1, h2⟩⟩

/-- **C44.**  Nothing is taken only if no alternative matches. -/
theorem C44_no_match {α : Type} (alternatives : List (ChildClass α)) (s : Str) :
    bestChild alternatives s none = .ok none ↔ ∀ c ∈ alternatives, c.tryParse s = .ok none := bestChild_none

/-- six of the twelve alternatives match this text; `TypeCharacter` is the first to leave nothing -/
example : (definitionClasses.map (fun c => (c.tryParse py"a int(10) not null").map (Option.map Prod.snd))) =
    [.ok none, .ok none, .ok none, .ok none, .ok none, .ok (some []), .ok (some []), .ok none, .ok (some []),
     .ok (some py"(10) not null"), .ok (some py"(10) not null"), .ok (some py"(10) not null")] := by decide +kernel

example : bestChild definitionClasses py"a int(10) not null" none = typeCharacter.tryParse py"a int(10) not null" := by decide +kernel

end Mygrations

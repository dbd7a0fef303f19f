import Verif.Proofs.Env

/-!
# C47: dotenv lines are read as written

`Dotenv.parseLine line '#'` is `dotenv.parse_line`, `Dotenv.parse text` is what `dotenv(text)` holds.  `EnvLine` and
`EnvItem` (Spec/Env) say what a configuration file looks like.
-/

namespace Mygrations
open Dotenv

/-- **C47.**  Every line - bare, or in single or double quotes with escaped quotes, with `=` or `:`, with any blanks, with
or without a comment - gives exactly its key and its value.  Missing: values in quotes which start with a blank, if
there is a comment after them. -/
theorem C47_line_partial (l : EnvLine) (h : l.Ok)
    (hc : l.written ≠ .bare → l.comment ≠ none → ∀ c, l.value.head? = some c → isSpace c = false) :
    parseLine l.text '#' = .ok (l.key, l.value) := by
  cases hw : l.written with
  | bare => exact h.read_bare hw
  | quoted q s => exact h.read_quoted hw (hc (by rw [hw]; simp))

/-- a bare value with blanks and a comment -/
example : parseLine py"  DB_HOST : db.example.com:3306   # the host's name " '#' = .ok (py"DB_HOST", py"db.example.com:3306") :=
  C47_line_partial
    { key := py"DB_HOST", value := py"db.example.com:3306", separator := ':', comment := some py" the host's name", indent := py"  ", afterKey := py" ",
      beforeValue := py" ", beforeComment := py"   ", trailing := py" " }
    { key_nonempty := by decide, key_trimmed := by simp [Trimmed]; decide, key_plain := by decide, key_comment := by decide, separator := by decide,
      blanks := by simp [Space]; decide, one_line := ⟨by decide, fun c h => by cases h; decide⟩,
      comment_end := fun c h x hx => by cases h; simp at hx; subst hx; decide,
      value_nonempty := by decide, bare := fun _ => by simp [Trimmed]; decide, quoted := fun q s h => by cases h } (by decide)

/-- a value in quotes, with a quote and a `#` in it -/
example : parseLine py"PASSWORD=\"a\\\"b # \\c\"; # secret" '#' = .ok (py"PASSWORD", py"a\"b # \\c") :=
  C47_line_partial
    { key := py"PASSWORD", value := py"a\"b # \\c", written := .quoted '"' true, comment := some py" secret", beforeComment := py" " }
    { key_nonempty := by decide, key_trimmed := by simp [Trimmed]; decide, key_plain := by decide, key_comment := by decide, separator := by decide,
      blanks := by simp [Space]; decide, one_line := ⟨by decide, fun c h => by cases h; decide⟩,
      comment_end := fun c h x hx => by cases h; simp at hx; subst hx; decide,
      value_nonempty := by decide, bare := fun h => (by cases h), quoted := fun q s h => by cases h; decide } (fun _ _ c h => by simp at h; subst h; decide)

/-- **C47.**  A whole file - entries, blank lines and comments in any order - gives every key the last value written for
it, and no other keys. -/
theorem C47_file_partial (is : List EnvItem) (h : ∀ i ∈ is, i.Ok) :
    ∃ d, parse (envText is) = .ok d ∧ ∀ k, d.get? k = lastValue (EnvItem.entries is) k :=
  ⟨_, parse_items is h, fun k => by rw [foldl_add]; simp [Dict.get?]⟩

namespace Examples

/-- a file with a comment, a blank line and a key which is given twice -/
def envItems : List EnvItem :=
  [.remark [] py" settings", .entry { key := py"HOST", value := py"db1" }, .blank py"  ",
   .entry { key := py"USER", value := py"it's", written := .quoted '\'' false }, .entry { key := py"HOST", value := py"db2", separator := ':' }]

theorem envItems_ok : ∀ i ∈ envItems, i.Ok := by
  intro i hi
  simp only [envItems, List.mem_cons, List.not_mem_nil, or_false] at hi
  rcases hi with rfl | rfl | rfl | rfl | rfl
  · exact ⟨by simp [Space], by decide⟩
  · refine ⟨{
      key_nonempty := by decide, key_trimmed := by simp [Trimmed]; decide, key_plain := by decide, key_comment := by decide,
      separator := by decide, blanks := by simp [Space], one_line := ⟨by decide, fun c h => by cases h⟩,
      comment_end := fun c h => (by cases h), value_nonempty := by decide, bare := fun _ => by simp [Trimmed]; decide,
      quoted := fun q s h => by cases h }, by simp⟩
  · simp [EnvItem.Ok, Space]; decide
  · refine ⟨{
      key_nonempty := by decide, key_trimmed := by simp [Trimmed]; decide, key_plain := by decide, key_comment := by decide,
      separator := by decide, blanks := by simp [Space], one_line := ⟨by decide, fun c h => by cases h⟩,
      comment_end := fun c h => (by cases h), value_nonempty := by decide, bare := fun h => (by cases h),
      quoted := fun q s h => by cases h; decide }, by simp⟩
  · refine ⟨{
      key_nonempty := by decide, key_trimmed := by simp [Trimmed]; decide, key_plain := by decide, key_comment := by decide,
      separator := by decide, blanks := by simp [Space], one_line := ⟨by decide, fun c h => by cases h⟩,
      comment_end := fun c h => (by cases h), value_nonempty := by decide, bare := fun _ => by simp [Trimmed]; decide,
      quoted := fun q s h => by cases h }, by simp⟩

end Examples

example : envText Examples.envItems = py"# settings\nHOST=db1\n  \nUSER='it\\'s'\nHOST:db2" := by decide
example : parse (envText Examples.envItems) = .ok [(py"HOST", py"db2"), (py"USER", py"it's")] := by decide

/-- **C47.**  Malformed quoting is a `DotEnvSyntaxError`: a value which opens a quote and never uses it again, a bare
value with a quote in it, and text after the closing quote.  Missing: values with escaped quotes and no closing quote. -/
theorem C47_malformed_partial (k : Str) (hk : EnvKey k) (q : Char) (hq : q = '\'' ∨ q = '"') :
    (∀ v, q ∉ v → parseLine (k ++ '=' :: q :: v) '#' = .error (.syntaxError (k ++ '=' :: q :: v))) ∧
    (∀ c v w, isSpace c = false → c ≠ '\'' → c ≠ '"' → '#' ∉ c :: v →
      parseLine (k ++ '=' :: c :: (v ++ q :: w)) '#' = .error (.syntaxError (k ++ '=' :: c :: (v ++ q :: w)))) ∧
    (∀ v w, v ≠ [] → v.getLast? ≠ some '\\' → '#' ∉ w → strip w ≠ [] → strip w ≠ py";" →
      parseLine (k ++ '=' :: q :: (escapeQuote q v ++ q :: w)) '#' = .error (.syntaxError (k ++ '=' :: q :: (escapeQuote q v ++ q :: w)))) := by
  obtain ⟨hq1, hq2, hq3⟩ := EnvLine.quote_solid hq
  have hnq : ¬ (q ≠ '\'' ∧ q ≠ '"') := by rcases hq with rfl | rfl <;> decide
  refine ⟨fun v hv => ?_, fun c v w hc h1 h2 hh => ?_, fun v w hv hl hw hw0 hw1 => ?_⟩
  · rw [parse_split hk, strip_cons_char hq1, rstrip_cons, if_neg (by rw [hq1]; simp)]
    unfold EnvLine.finish
    have hv' : q ∉ rstrip v := fun m => hv (mem_of_rstrip m)
    simp only [if_neg hnq, hasChar_not hv']
    rfl
  · have hs : strip (c :: (v ++ q :: w)) = c :: (v ++ q :: rstrip w) := by
      rw [strip_cons_char hc, show c :: (v ++ q :: w) = (c :: v ++ [q]) ++ w by simp, rstrip_append (rtrim_of_last (fun d hd => by
        rw [List.getLast?_concat] at hd; exact Option.some.inj hd ▸ hq1))]
      simp
    rw [parse_split hk, hs]
    unfold EnvLine.finish
    simp only [if_pos (And.intro h1 h2)]
    rw [if_pos]
    have hm : q ∈ (if hasChar '#' (c :: (v ++ q :: rstrip w)) = true then strip (cutAt '#' (c :: (v ++ q :: rstrip w))) else c :: (v ++ q :: rstrip w)) := by
      split
      · have e : cutAt '#' (c :: (v ++ q :: rstrip w)) = (c :: v ++ [q]) ++ cutAt '#' (rstrip w) := by
          unfold cutAt
          rw [show c :: (v ++ q :: rstrip w) = (c :: v ++ [q]) ++ rstrip w by simp, List.takeWhile_append_of_pos]
          intro x hx
          simp only [List.mem_append, List.mem_singleton] at hx
          rw [decide_eq_true_iff]
          rcases hx with hx | hx
          · exact fun e => hh (e ▸ hx)
          · exact hx ▸ hq3
        rw [e, List.cons_append, List.cons_append, strip_cons_char hc, ← List.cons_append, ← List.cons_append, rstrip_append (rtrim_of_last (fun d hd => by
          rw [List.getLast?_concat] at hd; exact Option.some.inj hd ▸ hq1))]
        simp
      · simp
    rcases hq with rfl | rfl
    · exact Or.inr (hasChar_iff.mpr hm)
    · exact Or.inl (hasChar_iff.mpr hm)
  · have hw' : rstrip w ≠ [] := fun e => hw0 (by rw [← strip_rstrip, e]; rfl)
    have hs : strip (q :: (escapeQuote q v ++ q :: w)) = q :: (escapeQuote q v ++ q :: rstrip w) := by
      rw [strip_cons_char hq1, show q :: (escapeQuote q v ++ q :: w) = (q :: escapeQuote q v ++ [q]) ++ w by simp,
        rstrip_append (rtrim_of_last (fun d hd => by rw [List.getLast?_concat] at hd; exact Option.some.inj hd ▸ hq1))]
      simp
    rw [parse_split hk, hs, EnvLine.finish, if_neg hnq, if_neg (by rw [hasChar_iff.mpr (by simp)]; simp), if_neg]
    · have hpos : 0 < (escapeQuote q v).length := List.length_pos_iff.mpr (EnvLine.escape_ne hv)
      have hlen : v.length ≤ (escapeQuote q v).length := escape_length q v
      have hfind := closing_find (comment := '#') (line := k ++ '=' :: q :: (escapeQuote q v ++ q :: w)) (key := k) (tail := rstrip w) hq2 v [] 0
        (escapeQuote q v ++ q :: rstrip w).length (Nat.le_refl 0) (by simpa using hpos) (by simp) (by simp; omega)
        (by rw [List.nil_append]; exact last_escape hq2 hv hl)
      simp only [List.nil_append] at hfind
      rw [hfind]
      unfold atClose
      have hi : index '#' (escapeQuote q v ++ q :: rstrip w) (escapeQuote q v).length = none := by
        unfold index
        rw [List.drop_left]
        refine indexFrom_miss _ _ _ (fun m => ?_)
        rcases List.mem_cons.mp m with m | m
        · exact hq3 m.symm
        · exact hw (mem_of_rstrip m)
      simp only [hi]
      rw [if_pos]
      rw [show (escapeQuote q v ++ q :: rstrip w) = (escapeQuote q v ++ [q]) ++ rstrip w by simp,
        show (escapeQuote q v).length + 1 = (escapeQuote q v ++ [q]).length by simp, List.drop_left, strip_rstrip]
      refine ⟨?_, hw1⟩
      rw [List.length_append (bs := rstrip w)]
      have := List.length_pos_iff.mpr hw'
      omega
    · intro e
      cases he : escapeQuote q v with
      | nil => exact EnvLine.escape_ne hv he
      | cons x xs =>
        rw [he] at e
        exact head_escape hq2 (by rw [he]; rfl) (Option.some.inj e)

example : parseLine py"key='a\"b" '#' = .error (.syntaxError py"key='a\"b") := by decide
example : parseLine py"key=it's" '#' = .error (.syntaxError py"key=it's") := by decide
example : parseLine py"key='a' b" '#' = .error (.syntaxError py"key='a' b") := by decide

/-- **C47 is false**: an escaped quote with no closing quote after it is a `ValueError`, for every such value. -/
theorem C47_refuted (k : Str) (hk : EnvKey k) (v : Str) (hv : '"' ∉ v) (hv0 : v ≠ []) :
    parseLine (k ++ '=' :: '"' :: (v ++ py"\\\"")) '#' = .error (.python (.valueError py"substring not found")) := by
  have hs : strip ('"' :: (v ++ py"\\\"")) = '"' :: (v ++ py"\\\"") := by
    rw [strip_cons_char (by decide)]
    have : RTrim ('"' :: (v ++ py"\\\"")) := rtrim_of_last (fun d hd => by
      rw [show '"' :: (v ++ py"\\\"") = ('"' :: v ++ ['\\']) ++ ['"'] by simp, List.getLast?_concat] at hd
      exact Option.some.inj hd ▸ (by decide))
    exact this
  have hpos : 0 < v.length := List.length_pos_iff.mpr hv0
  rw [parse_split hk, hs, EnvLine.finish, if_neg (by decide), if_neg (by rw [hasChar_iff.mpr (by simp)]; simp), if_neg]
  · rw [show (v ++ py"\\\"").length = (v.length + 1) + 1 by simp]
    have h1 : index '"' (v ++ py"\\\"") 0 ≠ none := index_some (by simp)
    have h2 : index '"' (v ++ py"\\\"") (0 + 1) = some (v.length + 1) := by
      rw [show v ++ py"\\\"" = (v ++ ['\\']) ++ '"' :: [] by simp, index_hit (by simp)]
      · simp
      · intro m
        have := List.mem_of_mem_drop m
        simp [hv] at this
    have h3 : (v ++ py"\\\"")[v.length + 1 - 1]? = some '\\' := by simp
    rw [closing, if_neg h1]
    simp only [h2, if_pos h3]
    have h4 : index '"' (v ++ py"\\\"") (v.length + 1) ≠ none := index_some (by simp [List.drop_append])
    have h5 : index '"' (v ++ py"\\\"") (v.length + 1 + 1) = none := by
      unfold index
      rw [List.drop_eq_nil_of_le (by simp)]; rfl
    rw [closing, if_neg h4]
    simp only [h5]
  · intro e
    cases v with
    | nil => exact hv0 rfl
    | cons x xs => simp at e; exact hv (e ▸ List.mem_cons_self)

/-- **C47 is false**: with a comment after it, a value in quotes which starts with blanks loses them and ends in the quote,
for every such line. -/
theorem C47_comment_refuted (l : EnvLine) (h : l.Ok) (q : Char) (hw : l.written = .quoted q false) (com : Str) (hc : l.comment = some com)
    (b v : Str) (hv : l.value = b ++ v) (hb : ∀ c ∈ b, isSpace c = true) (hb0 : b ≠ []) (hv0 : v ≠ [])
    (hv1 : ∀ c, v.head? = some c → isSpace c = false) :
    parseLine l.text '#' = .ok (l.key, v ++ [q]) ∧ v ++ [q] ≠ l.value :=
  ⟨h.read_blank hw hc hv hb hb0 hv0 hv1, fun e => by
    obtain ⟨x, xs, rfl⟩ : ∃ x xs, b = x :: xs := by
      cases b with
      | nil => exact absurd rfl hb0
      | cons x xs => exact ⟨x, xs, rfl⟩
    obtain ⟨y, ys, rfl⟩ : ∃ y ys, v = y :: ys := by
      cases v with
      | nil => exact absurd rfl hv0
      | cons y ys => exact ⟨y, ys, rfl⟩
    rw [hv] at e
    have h1 := hb x List.mem_cons_self
    have h2 := hv1 y rfl
    have : y = x := (List.cons.inj e).1
    rw [this, h1] at h2
    cases h2⟩

/-- the same line without its comment is read as it stands -/
example : parseLine py"key=\"  abc\" # comment" '#' = .ok (py"key", py"abc\"") ∧ parseLine py"key=\"  abc\"" '#' = .ok (py"key", py"  abc") :=
  ⟨(C47_comment_refuted
    { key := py"key", value := py"  abc", written := .quoted '"' false, comment := some py" comment", beforeComment := py" " }
    { key_nonempty := by decide, key_trimmed := by simp [Trimmed]; decide, key_plain := by decide, key_comment := by decide, separator := by decide,
      blanks := by simp [Space]; decide, one_line := ⟨by decide, fun c h => by cases h; decide⟩,
      comment_end := fun c h x hx => by cases h; simp at hx; subst hx; decide,
      value_nonempty := by decide, bare := fun h => (by cases h), quoted := fun q s h => by cases h; decide }
    '"' rfl py" comment" rfl py"  " py"abc" rfl (by decide) (by decide) (by decide) (fun c h => by simp at h; subst h; decide)).1, by decide⟩

/-- **C47 is false**: an entry with an empty value - nothing after the sign, or empty quotes with anything behind them -
leaves no trace in any file: the lines before and after it give what they give without it. -/
theorem C47_empty_refuted (k : Str) (hk : EnvKey k) (hj : k.head? ≠ some '"' ∧ k.head? ≠ some '{' ∧ k.head? ≠ some '[') (line : Str)
    (hl : line = k ++ ['='] ∨ ∃ q w, (q = '\'' ∨ q = '"') ∧ line = k ++ '=' :: q :: q :: w) (hn : '\n' ∉ line)
    (before after : List EnvItem) (hb : ∀ i ∈ before, i.Ok) (ha : ∀ i ∈ after, i.Ok) :
    parse (join ['\n'] (before.map EnvItem.text ++ line :: after.map EnvItem.text)) = parse (envText (before ++ after)) := by
  have hline : NoJson line := by
    rcases hl with rfl | ⟨q, w, _, rfl⟩
    · exact noJson_key (w := []) (fun _ h => by cases h) hk.1 hk.2.1 hj (Or.inl rfl)
    · exact noJson_key (w := []) (fun _ h => by cases h) hk.1 hk.2.1 hj (Or.inl rfl)
  have all : ∀ x ∈ before.map EnvItem.text ++ line :: after.map EnvItem.text, NoJson x ∧ '\n' ∉ x := by
    intro x hx
    rcases List.mem_append.mp hx with hx | hx
    · obtain ⟨i, hi, rfl⟩ := List.mem_map.mp hx
      exact ⟨item_noJson (hb i hi), item_line (hb i hi)⟩
    · rcases List.mem_cons.mp hx with rfl | hx
      · exact ⟨hline, hn⟩
      · obtain ⟨i, hi, rfl⟩ := List.mem_map.mp hx
        exact ⟨item_noJson (ha i hi), item_line (ha i hi)⟩
  have key : parseLine line '#' = .ok (k, []) := by
    rcases hl with e | ⟨q, w, hq, e⟩
    · rw [e]; exact parse_nothing hk
    · rw [e]; exact parse_empty hk hq w
  rw [parse_without key (fun x hx => (all x hx).1) (fun x hx => (all x hx).2), ← List.map_append]
  rfl

example : parse (envText (Examples.envItems ++ [.blank []]) ++ py"PASSWORD='' junk\n# end") = .ok [(py"HOST", py"db2"), (py"USER", py"it's")] :=
  (C47_empty_refuted py"PASSWORD" (by simp [EnvKey, Trimmed]; decide) (by decide) py"PASSWORD='' junk" (Or.inr ⟨'\'', py" junk", by decide, rfl⟩)
    (by decide) Examples.envItems [.remark [] py" end"] Examples.envItems_ok (by simp [EnvItem.Ok, Space])).trans (by decide)

end Mygrations

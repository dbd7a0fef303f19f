import Verif.Props.C48
import Verif.Proofs.JsonRead

/-!
# C86: configuration files in JSON

`mygrate.conf` and the `.env` file may be JSON objects of strings.  `JsonStr`, `JsonMember` and `objectText` (Spec/Json) say
how such an object is written, `ConfigFile` says what a configuration file of either kind is.
-/

namespace Mygrations
open Dotenv Config

/-- **C86.**  A JSON object of strings, with any white space in it and around it and with any escapes, gives every name the
last value written for it - also an empty one - and no other names.  Missing: the empty object. -/
theorem C86_object_partial (lead trail : Str) (ms : List JsonMember) (hl : JsonSpace lead) (ht : JsonSpace trail) (hne : ms ≠ []) (hok : ∀ m ∈ ms, m.Ok) :
    ∃ d, parse (lead ++ objectText ms ++ trail) = .ok d ∧ ∀ k, d.get? k = lastValue (ms.map (fun m => (m.key, m.value))) k :=
  parse_file (.object lead trail ms hl ht hne hok)

namespace Examples

theorem jsonStr_plain : ∀ (s : Str), (∀ c ∈ s, c ≠ '"' ∧ c ≠ '\\' ∧ 0x20 ≤ c.toNat) → JsonStr s s
  | [], _ => .nil
  | c :: s, h =>
    .cons (.raw c (h c List.mem_cons_self).1 (h c List.mem_cons_self).2.1 (h c List.mem_cons_self).2.2)
      (jsonStr_plain s (fun x hx => h x (List.mem_cons_of_mem _ hx)))

/-- an object with line breaks, an escaped quote, a snowman as an escape, a character beyond the first 65536 and an empty
value -/
def jsonMembers : List JsonMember :=
  [{ key := py"HOST", value := py"db\"1", valueText := py"db\\\"1", beforeKey := py"\n  " },
   { key := py"☃😀", value := py"", keyText := py"\\u2603\\ud83D\\ude00", beforeKey := py"\n  ", afterKey := py" ", afterValue := py"\n" },
   { key := py"HOST", value := py"db2", beforeValue := [] }]

theorem jsonMembers_ok : ∀ m ∈ jsonMembers, m.Ok := by
  intro m hm
  simp only [jsonMembers, List.mem_cons, List.not_mem_nil, or_false] at hm
  rcases hm with rfl | rfl | rfl
  · refine ⟨jsonStr_plain _ (by decide), ?_, by simp [JsonSpace]⟩
    exact .cons (.raw 'd' (by decide) (by decide) (by decide)) (.cons (.raw 'b' (by decide) (by decide) (by decide))
      (.cons (.escape '"' '"' (by decide)) (.cons (.raw '1' (by decide) (by decide) (by decide)) .nil)))
  · refine ⟨?_, .nil, by simp [JsonSpace]⟩
    refine .cons (w := py"\\u2603") (.unicode '☃' py"2603" ⟨'2', '6', '0', '3', 2, 6, 0, 3, rfl, ?_, ?_, ?_, ?_, rfl⟩)
      (.cons (w := py"\\ud83D\\ude00") (.pair '😀' py"d83D" py"de00" (by decide) ⟨'d', '8', '3', 'D', 13, 8, 3, 13, rfl, ?_, ?_, ?_, ?_, rfl⟩
        ⟨'d', 'e', '0', '0', 13, 14, 0, 0, rfl, ?_, ?_, ?_, ?_, rfl⟩) .nil) <;> first | exact Or.inl rfl | exact Or.inr rfl
  · exact ⟨jsonStr_plain _ (by decide), jsonStr_plain _ (by decide), by simp [JsonSpace]⟩

end Examples

example : objectText Examples.jsonMembers =
    py"{\n  \"HOST\": \"db\\\"1\",\n  \"\\u2603\\ud83D\\ude00\" : \"\"\n,\"HOST\":\"db2\"}" := by decide

example : parse (objectText Examples.jsonMembers ++ py"\n") = .ok [(py"HOST", py"db2"), (py"☃😀", [])] := by decide +kernel

example : ∃ d, parse (py" " ++ objectText Examples.jsonMembers ++ py"\n") = .ok d ∧
    ∀ k, d.get? k = lastValue (Examples.jsonMembers.map (fun m => (m.key, m.value))) k :=
  C86_object_partial py" " py"\n" _ (by simp [JsonSpace]) (by simp [JsonSpace]) (by decide) Examples.jsonMembers_ok

/-- **C86.**  Whichever of the two files is JSON and whichever is made of lines: the credentials are the last values given in
the `.env` file for the names given (last) in the configuration file, and the directory with the SQL files is the one given
there.  With JSON, this includes empty values.  Missing: the empty object. -/
theorem C86_credentials_partial (fs : Files) (given dir name conf env : Str) (ces ees : List (Str × Str)) (dotenvFile sqlDir : Str)
    (kh kd ku kp : Str) (c : Credentials.Creds)
    (hdir : dir.head? = some '/' ∧ ∀ c, dir.getLast? = some c → c ≠ '/') (hname : FileName name)
    (hfound : Found fs given (dir ++ py"/" ++ name))
    (hconf : fs.contents (dir ++ py"/" ++ name) = some conf) (hces : ConfigFile conf ces)
    (hsql : lastValue ces py"files_directory" = some sqlDir) (hsql0 : sqlDir ≠ [])
    (hfile : lastValue ces py"env_file" = some dotenvFile) (hfile0 : dotenvFile ≠ [])
    (henv : fs.contents (besides dir dotenvFile) = some env) (hees : ConfigFile env ees)
    (h1 : lastValue ces py"hostname_key" = some kh) (v1 : lastValue ees kh = some c.host)
    (h2 : lastValue ces py"database_key" = some kd) (v2 : lastValue ees kd = some c.database)
    (h3 : lastValue ces py"username_key" = some ku) (v3 : lastValue ees ku = some c.user)
    (h4 : lastValue ces py"password_key" = some kp) (v4 : lastValue ees kp = some c.password) :
    Config.credentials fs given = .ok c ∧ Config.sqlFiles fs given = .ok (besides dir sqlDir) := by
  obtain ⟨dc, hdc, gc⟩ := parse_file hces
  obtain ⟨de, hde, ge⟩ := parse_file hees
  have henv' : fs.dotenv (besides dir dotenvFile) = .ok de := by
    unfold Files.dotenv
    rw [henv, Option.getD_some, hde]
  have hload := load_file hdir hname hfound hconf hdc ((gc _).trans hsql) hsql0 ((gc _).trans hfile) hfile0
  constructor
  · unfold Config.credentials
    rw [hload]
    simp only [Dict.get?_set, if_true, henv']
    have hnew : Credentials.new de (Dict.set (Dict.set dc py"files_directory" (besides dir sqlDir)) py"env_file" (besides dir dotenvFile)) = .ok c := by
      rw [C49_credentials]
      refine ⟨⟨kh, ?_, ?_⟩, ⟨kd, ?_, ?_⟩, ⟨ku, ?_, ?_⟩, ⟨kp, ?_, ?_⟩⟩
      all_goals first
        | (rw [ge]; assumption)
        | (rw [Dict.get?_set, if_neg (by decide), Dict.get?_set, if_neg (by decide), gc]; assumption)
    rw [hnew]
  · unfold Config.sqlFiles
    rw [hload]
    simp only [Dict.get?_set]
    rfl

namespace Examples

/-- an empty password -/
def blankMembers : List JsonMember :=
  [{ key := py"H", value := py"db.local" }, { key := py"U", value := py"me" }, { key := py"D", value := py"shop" }, { key := py"P", value := py"" }]

theorem blankMembers_ok : ∀ m ∈ blankMembers, m.Ok := by
  intro m hm
  simp only [blankMembers, List.mem_cons, List.not_mem_nil, or_false] at hm
  rcases hm with rfl | rfl | rfl | rfl <;> exact ⟨jsonStr_plain _ (by decide), jsonStr_plain _ (by decide), by simp [JsonSpace]⟩

/-- lines in the configuration file, JSON in the `.env` file -/
def jsonServer : Files where
  cwd := py"/srv"
  contents p :=
    if p = py"/srv/mygrate.conf" then some (envText (confEntries.map plainEntry))
    else if p = py"/srv/.env" then some ([] ++ objectText blankMembers ++ py"\n") else none

end Examples

/-- with JSON, an empty password can be given (with lines it cannot: `C49_empty_refuted`) -/
example : Config.credentials Examples.jsonServer py"/srv/mygrate.conf" = .ok { host := py"db.local", database := py"shop", user := py"me", password := [] } :=
  (C86_credentials_partial Examples.jsonServer _ py"/srv" py"mygrate.conf" _ _ _ _ py".env" py"database" py"H" py"D" py"U" py"P"
    { host := py"db.local", database := py"shop", user := py"me", password := [] }
    ⟨rfl, by simp⟩ ⟨by decide, by decide⟩ (.absolute rfl rfl) rfl (.lines _ (Examples.plainEntry_ok (by decide))) (by decide) (by decide) (by decide)
    (by decide) rfl (.object [] py"\n" Examples.blankMembers (by simp [JsonSpace]) (by simp [JsonSpace]) (by decide) Examples.blankMembers_ok)
    (by decide) (by decide) (by decide) (by decide) (by decide) (by decide) (by decide) (by decide)).1

theorem mem_splitOn {sep x : Char} : ∀ {s l : Str}, l ∈ splitOn sep s → x ∈ l → x ∈ s
  | [], l, hl, hx => by
    rw [splitOn, List.mem_singleton] at hl
    rw [hl] at hx
    exact hx
  | c :: s, l, hl, hx => by
    rw [splitOn] at hl
    split at hl
    · rcases List.mem_cons.mp hl with rfl | hl
      · cases hx
      · exact List.mem_cons_of_mem _ (mem_splitOn hl hx)
    · split at hl
      · rw [List.mem_singleton] at hl
        rw [hl, List.mem_singleton] at hx
        rw [hx]; exact List.mem_cons_self
      · rename_i w ws e
        rcases List.mem_cons.mp hl with rfl | hl
        · rcases List.mem_cons.mp hx with rfl | hx
          · exact List.mem_cons_self
          · exact List.mem_cons_of_mem _ (mem_splitOn (e ▸ List.mem_cons_self) hx)
        · exact List.mem_cons_of_mem _ (mem_splitOn (e ▸ List.mem_cons_of_mem _ hl) hx)

theorem splitOn_mem {sep x : Char} (hx : x ≠ sep) : ∀ {s : Str}, x ∈ s → ∃ l ∈ splitOn sep s, x ∈ l
  | [], h => by cases h
  | c :: s, h => by
    rw [splitOn]
    split
    · rename_i e
      rcases List.mem_cons.mp h with h | h
      · exact absurd (h.trans e) hx
      · obtain ⟨l, hl, hm⟩ := splitOn_mem hx h
        exact ⟨l, List.mem_cons_of_mem _ hl, hm⟩
    · split
      · rename_i e
        rcases List.mem_cons.mp h with rfl | h
        · exact ⟨[x], List.mem_cons_self, List.mem_cons_self⟩
        · obtain ⟨l, hl, hm⟩ := splitOn_mem hx h
          rw [e] at hl; cases hl
      · rename_i w ws e
        rcases List.mem_cons.mp h with rfl | h
        · exact ⟨x :: w, List.mem_cons_self, List.mem_cons_self⟩
        · obtain ⟨l, hl, hm⟩ := splitOn_mem hx h
          rw [e] at hl
          rcases List.mem_cons.mp hl with rfl | hl
          · exact ⟨c :: l, List.mem_cons_self, List.mem_cons_of_mem _ hm⟩
          · exact ⟨l, List.mem_cons_of_mem _ hl, hm⟩

theorem mem_of_strip {x : Char} {s : Str} (h : x ∈ strip s) : x ∈ s := by
  unfold strip at h
  first
    | exact mem_of_rstrip ((List.dropWhile_sublist _).subset h)
    | exact (List.dropWhile_sublist _).subset (mem_of_rstrip h)

theorem mem_dropWhile {p : Char → Bool} {x : Char} (hx : p x = false) : ∀ {s : Str}, x ∈ s → x ∈ s.dropWhile p
  | c :: s, h => by
    rw [List.dropWhile_cons]
    split
    · rename_i hc
      rcases List.mem_cons.mp h with rfl | h
      · rw [hx] at hc; cases hc
      · exact mem_dropWhile hx h
    · exact h

theorem strip_mem_solid {x : Char} (hx : isSpace x = false) {s : Str} (h : x ∈ s) : x ∈ strip s := by
  unfold strip rstrip lstrip
  rw [List.mem_reverse]
  exact mem_dropWhile hx (List.mem_reverse.mpr (mem_dropWhile hx h))

theorem parseLines_none : ∀ (ls : List Str) (d : Dict Str), (∀ l ∈ ls, ∀ c ∈ l, c ≠ '=' ∧ c ≠ ':' ∧ c ≠ '#') →
    (∃ l ∈ ls, strip l ≠ []) → ∃ l, parseLines '#' d ls = .error (.syntaxError l)
  | [], _, _, h => by obtain ⟨l, hl, _⟩ := h; cases hl
  | l :: ls, d, hp, hn => by
    rw [parseLines]
    have hl := hp l List.mem_cons_self
    have h1 : ¬ (strip l).head? = some '#' := fun e => (hl '#' (mem_of_strip (List.mem_of_mem_head? e))).2.2 rfl
    by_cases h0 : strip l = []
    · have : parseLine l '#' = .ok ([], []) := by
        unfold parseLine
        simp only [h0, List.head?_nil]
        rfl
      rw [this]
      refine parseLines_none ls _ (fun x hx => hp x (List.mem_cons_of_mem _ hx)) ?_
      obtain ⟨x, hx, hx0⟩ := hn
      rcases List.mem_cons.mp hx with rfl | hx
      · exact absurd h0 hx0
      · exact ⟨x, hx, hx0⟩
    · have : parseLine l '#' = .error (.syntaxError l) := by
        unfold parseLine
        dsimp only
        rw [if_neg h1, if_neg h0, splitLine_plain (fun c hc => ⟨(hl c (mem_of_strip hc)).1, (hl c (mem_of_strip hc)).2.1⟩)]
      rw [this]
      exact ⟨l, rfl⟩

/-- **C86 is false** for the empty object: with any white space, it is not an empty configuration but a syntax error. -/
theorem C86_empty_refuted (lead gap trail : Str) (h1 : JsonSpace lead) (h2 : JsonSpace gap) (h3 : JsonSpace trail) :
    ∃ line, parse (lead ++ py"{" ++ gap ++ py"}" ++ trail) = .error (.syntaxError line) := by
  have e : lead ++ py"{" ++ gap ++ py"}" ++ trail = lead ++ '{' :: (gap ++ '}' :: trail) := by simp
  have hloads : Json.loads (lead ++ py"{" ++ gap ++ py"}" ++ trail) = some (.obj []) := by
    unfold Json.loads
    rw [e, Json.skip_at h1 (by decide), Json.value, if_neg (by decide), if_pos rfl, Json.skip_at h2 (by decide)]
    show (if Json.skip trail = [] then _ else _) = _
    rw [if_pos]
    have := Json.skip_space h3 []
    rw [List.append_nil] at this
    rw [this]; rfl
  unfold parse
  rw [hloads]
  show ∃ line, parseLines '#' [] (splitOn '\n' (lead ++ py"{" ++ gap ++ py"}" ++ trail)) = _
  refine parseLines_none _ _ ?_ ?_
  · intro l hl c hc
    have hm := mem_splitOn hl hc
    have blank : ∀ {w : Str}, JsonSpace w → c ∈ w → c ≠ '=' ∧ c ≠ ':' ∧ c ≠ '#' := fun hw hm => by
      rcases hw c hm with rfl | rfl | rfl | rfl <;> decide
    simp only [List.mem_append, List.mem_singleton] at hm
    rcases hm with (((hm | hm) | hm) | hm) | hm
    · exact blank h1 hm
    · rw [hm]; decide
    · exact blank h2 hm
    · rw [hm]; decide
    · exact blank h3 hm
  · obtain ⟨l, hl, hm⟩ := splitOn_mem (sep := '\n') (x := '{') (by decide) (s := lead ++ py"{" ++ gap ++ py"}" ++ trail) (by simp)
    refine ⟨l, hl, fun e => ?_⟩
    have := strip_mem_solid (x := '{') (by decide) hm
    rw [e] at this
    cases this

example : ∃ line, parse py"{ }\n" = .error (.syntaxError line) := C86_empty_refuted [] py" " py"\n" (by simp [JsonSpace]) (by simp [JsonSpace]) (by simp [JsonSpace])

end Mygrations

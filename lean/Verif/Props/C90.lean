import Verif.Props.C49Program

/-!
# C90: without a configuration the program does nothing, and says why

`Program.main m args` is a run of `mygrate.py` with the command line `args` on the machine `m`; its `events` are what it
sends to a server.
-/

namespace Mygrations
open Dotenv Config

/-! ## Specification -/

/-- a key of which the line cannot be taken for JSON -/
def PlainKey (k : Str) : Prop := EnvKey k ∧ k.head? ≠ some '"' ∧ k.head? ≠ some '{' ∧ k.head? ≠ some '['

/-- a line `key=value` whose quotes make no sense -/
inductive Misquoted : Str → Prop
  /-- the quote is never closed -/
  | unclosed {k v : Str} {q : Char} (hk : PlainKey k) (hq : q = '\'' ∨ q = '"') (hv : q ∉ v) : Misquoted (k ++ '=' :: q :: v)
  /-- a quote inside a value which does not start with one -/
  | inside {k v w : Str} {c q : Char} (hk : PlainKey k) (hq : q = '\'' ∨ q = '"') (hc : isSpace c = false ∧ c ≠ '\'' ∧ c ≠ '"')
      (hv : '#' ∉ c :: v) : Misquoted (k ++ '=' :: c :: (v ++ q :: w))
  /-- text, other than a semicolon or a comment, behind the closing quote -/
  | behind {k v w : Str} {q : Char} (hk : PlainKey k) (hq : q = '\'' ∨ q = '"') (hv : v ≠ [] ∧ v.getLast? ≠ some '\\')
      (hw : '#' ∉ w ∧ strip w ≠ [] ∧ strip w ≠ py";") : Misquoted (k ++ '=' :: q :: (escapeQuote q v ++ q :: w))

/-- The configuration cannot be used, and how the user is told. -/
inductive Unusable (disk : Disk) : Str → PyErr → Prop
  /-- no name at all -/
  | unnamed : Unusable disk [] (.valueError py"Missing path to configuration file")
  /-- an absolute path at which there is no file -/
  | absolute {p : Str} (hp : p.head? = some '/') (h : disk.contents p = none) :
      Unusable disk p (.valueError (py"Specified configuration file '" ++ p ++ py"' does not exist"))
  /-- a name, perhaps with directories before it, of which there is no file in those directories within the working directory, nor
  anywhere above -/
  | nowhere {dirs sub : List Str} {name : Str} (hcwd : disk.cwd = py"/" ++ join py"/" dirs) (hd : ∀ d ∈ dirs, FileName d)
      (hs : ∀ d ∈ sub, FileName d) (hn : FileName name) (h0 : dirs ≠ [])
      (h : ∀ n, n ≤ (dirs ++ sub).length → disk.contents (pathIn ((dirs ++ sub).take n) name) = none) :
      Unusable disk (join py"/" (sub ++ [name]))
        (.valueError (py"Could not find configuration file '" ++ join py"/" (sub ++ [name]) ++ py"' in current directory or parents"))
  /-- a file which does not say where the SQL files are -/
  | directory {given path : Str} {conf : List EnvItem} (hf : Found disk.toFiles given path) (ht : disk.contents path = some (envText conf))
      (hc : ∀ i ∈ conf, i.Ok) (h : lastValue (EnvItem.entries conf) py"files_directory" = none) :
      Unusable disk given (.valueError py"Configuration file is missing 'files_directory' configuration, which should point to the directory containing your *.sql files")
  /-- a file which does not say where the `.env` file is -/
  | environment {given path : Str} {conf : List EnvItem} (hf : Found disk.toFiles given path) (ht : disk.contents path = some (envText conf))
      (hc : ∀ i ∈ conf, i.Ok) (hs : lastValue (EnvItem.entries conf) py"files_directory" ≠ none)
      (h : lastValue (EnvItem.entries conf) py"env_file" = none) :
      Unusable disk given (.valueError py"Configuration file is missing 'env_file' configuration, which should point to the .env file for your application (so mygrations can fetch database credentials")
  /-- a file with a line whose quotes make no sense -/
  | malformed {given path line : Str} {before after : List EnvItem} (hf : Found disk.toFiles given path)
      (ht : disk.contents path = some (join py"\n" (before.map EnvItem.text ++ line :: after.map EnvItem.text)))
      (hb : ∀ i ∈ before, i.Ok) (ha : ∀ i ∈ after, i.Ok) (hl : Misquoted line) (hnl : '\n' ∉ line) :
      Unusable disk given (.syntaxError line)

/-! ## Proofs -/

theorem parseLines_stop {line : Str} {e : Err} (h : parseLine line '#' = .error e) (after : List Str) : ∀ (is : List EnvItem) (d : Dict Str),
    (∀ i ∈ is, i.Ok) → parseLines '#' d (is.map EnvItem.text ++ line :: after) = .error e := by
  have app : ∀ (ls ms : List Str) (d : Dict Str), parseLines '#' d (ls ++ ms) = match parseLines '#' d ls with
      | .error e => .error e
      | .ok d' => parseLines '#' d' ms := by
    intro ls ms
    induction ls with
    | nil => intro d; rfl
    | cons l ls ih =>
      intro d
      rw [List.cons_append, parseLines, parseLines]
      cases parseLine l '#' with
      | error e => rfl
      | ok kv => exact ih _
  intro is d his
  rw [app, parseLines_items is d his]
  simp only [parseLines, h]

theorem misquoted {line : Str} (h : Misquoted line) : NoJson line ∧ parseLine line '#' = .error (.syntaxError line) := by
  have key : ∀ {k r : Str}, PlainKey k → NoJson (k ++ '=' :: r) := fun hk =>
    noJson_key (w := []) (fun _ h => by cases h) hk.1.1 hk.1.2.1 hk.2 (Or.inl rfl)
  cases h with
  | unclosed hk hq hv => exact ⟨key hk, (C47_malformed_partial _ hk.1 _ hq).1 _ hv⟩
  | inside hk hq hc hv => exact ⟨key hk, (C47_malformed_partial _ hk.1 _ hq).2.1 _ _ _ hc.1 hc.2.1 hc.2.2 hv⟩
  | behind hk hq hv hw => exact ⟨key hk, (C47_malformed_partial _ hk.1 _ hq).2.2 _ _ hv.1 hv.2 hw.1 hw.2.1 hw.2.2⟩

theorem joined_head {sub : List Str} {name : Str} (hs : ∀ d ∈ sub, FileName d) (hn : FileName name) :
    join py"/" (sub ++ [name]) ≠ [] ∧ (join py"/" (sub ++ [name])).head? ≠ some '/' := by
  have key : ∀ (a : Str) (l : List Str), FileName a → join py"/" (a :: l) ≠ [] ∧ (join py"/" (a :: l)).head? ≠ some '/' := by
    intro a l ha
    have h := head_join (sep := py"/") (l := l) ha.1
    constructor
    · intro e
      rw [e] at h
      cases a with
      | nil => exact ha.1 rfl
      | cons _ _ => cases h
    · intro e
      rw [e] at h
      exact ha.2 (List.mem_of_mem_head? h.symm)
  cases sub with
  | nil => exact key name [] hn
  | cons a l => exact key a (l ++ [name]) (hs a List.mem_cons_self)

theorem unusable_load {disk : Disk} {given : Str} {e : PyErr} (h : Unusable disk given e) :
    ∃ e', Config.load disk.toFiles given = .error e' ∧ e'.toPy = e := by
  cases h with
  | unnamed => exact ⟨.python _, rfl, rfl⟩
  | absolute hp h =>
    cases given with
    | nil => cases hp
    | cons x xs =>
      obtain rfl : x = '/' := Option.some.inj hp
      refine ⟨.python _, ?_, rfl⟩
      unfold load
      rw [C48_absolute, if_neg (by simp [Files.isFile, h])]
  | @nowhere dirs sub name hcwd hd hs hn h0 h =>
    refine ⟨.python _, ?_, rfl⟩
    have hfile : ∀ n, n ≤ (dirs ++ sub).length → disk.toFiles.isFile (pathIn ((dirs ++ sub).take n) name) = false := fun n hle => by
      simp [Files.isFile, h n hle]
    have hno : ∀ p, resolve disk.toFiles (join py"/" (sub ++ [name])) ≠ .ok p := by
      intro p hp
      obtain ⟨up, h1, rfl, h3, _⟩ := (C48_directory_refuted disk.toFiles dirs sub name hcwd hd hs hn h0 (hfile 0 (Nat.zero_le _)) p).mp hp
      rw [hfile _ (Nat.sub_le _ _)] at h3
      cases h3
    obtain ⟨g1, g2⟩ := joined_head hs hn
    have hr := resolve_relative (fs := disk.toFiles) g1 g2
    unfold load
    split at hr
    · exact absurd hr (hno _)
    · rw [hr]
  | directory hf ht hc h =>
    refine ⟨.python _, ?_, rfl⟩
    unfold load
    rw [resolve_found hf]
    simp only [Files.dotenv, ht, Option.getD_some, parse_items _ hc, get_items, h]
  | @environment given path conf hf ht hc hs h =>
    obtain ⟨sqlDir, hs⟩ := Option.ne_none_iff_exists'.mp hs
    have h0 := lastValue_ne hc hs
    obtain ⟨d', hd'⟩ : ∃ d', relativeTo sqlDir path = .ok d' := by
      unfold relativeTo
      split
      · exact absurd rfl h0
      · exact ⟨_, rfl⟩
      · exact ⟨_, rfl⟩
    refine ⟨.python _, ?_, rfl⟩
    unfold load
    rw [resolve_found hf]
    simp only [Files.dotenv, ht, Option.getD_some, parse_items _ hc, get_items, hs, hd']
    rw [Dict.get?_set, if_neg (by decide), get_items, h]
  | @malformed _ path line before after hf ht hb ha hl hnl =>
    refine ⟨.syntaxError line, ?_, rfl⟩
    obtain ⟨hj, he⟩ := misquoted hl
    have all : ∀ x ∈ before.map EnvItem.text ++ line :: after.map EnvItem.text, NoJson x ∧ '\n' ∉ x := by
      intro x hx
      rcases List.mem_append.mp hx with hx | hx
      · obtain ⟨i, hi, rfl⟩ := List.mem_map.mp hx
        exact ⟨item_noJson (hb i hi), item_line (hb i hi)⟩
      · rcases List.mem_cons.mp hx with rfl | hx
        · exact ⟨hj, hnl⟩
        · obtain ⟨i, hi, rfl⟩ := List.mem_map.mp hx
          exact ⟨item_noJson (ha i hi), item_line (ha i hi)⟩
    have hp : Dotenv.parse (join py"\n" (before.map EnvItem.text ++ line :: after.map EnvItem.text)) = .error (.syntaxError line) := by
      rw [show py"\n" = ['\n'] from rfl, parse_join (fun x hx => (all x hx).1) (fun x hx => (all x hx).2)]
      exact parseLines_stop he _ _ _ hb
    unfold load
    rw [resolve_found hf]
    simp only [Files.dotenv, ht, Option.getD_some, hp]

/-- **C90.**  If the configuration cannot be used, `apply`, `check` and `plan` send nothing to any server, whatever the options,
and end with the error which says why.  Missing: configuration files outside the grammar of `Spec/Env` with faults other than
these. -/
theorem C90_partial [PyNum] (m : Machine) (given : Str) (e : PyErr) (h : Unusable m.disk given e) (force : Bool) :
    ∀ command ∈ [py"apply", py"check", py"plan"],
      Program.main m { command := some command, config := some given, force := force } = { events := [], result := .error e } := by
  obtain ⟨e', hl, rfl⟩ := unusable_load h
  have hw : ∀ {α : Type} (f : List Str → Run α), Program.withFiles m given f = .raise e'.toPy := by
    intro α f
    unfold Program.withFiles Config.sqlFiles
    rw [hl]
  have hb : Program.build m given force = .raise e'.toPy := hw _
  intro command hc
  simp only [List.mem_cons, List.not_mem_nil, or_false] at hc
  rcases hc with rfl | rfl | rfl
  · have : Program.main m { command := some py"apply", config := some given, force := force } =
        Run.bind (Program.apply m given force) (fun o => .pure (if o.success then 0 else 1)) := rfl
    rw [this]
    unfold Program.apply
    rw [hb]
    rfl
  · have : Program.main m { command := some py"check", config := some given, force := force } =
        Run.bind (Program.check m given) (fun o => .pure (if o.success then 0 else 1)) := rfl
    rw [this]
    unfold Program.check
    rw [hw]
    rfl
  · have : Program.main m { command := some py"plan", config := some given, force := force } =
        Run.bind (Program.plan m given force) (fun o => .pure (if o.success then 0 else 1)) := rfl
    rw [this]
    unfold Program.plan
    rw [hb]
    rfl

/-! ## Examples -/

section Examples
attribute [local instance] exactNum
open Examples

/-- a machine with one file, `/srv/mygrate.conf` -/
def oneFile (text : Str) : Machine where
  disk := { cwd := py"/srv/src", contents := fun p => if p = py"/srv/mygrate.conf" then some text else none, listdir := fun _ => none }
  connect _ := .ok (exServer fun _ _ => none)

theorem oneFile_found (text : Str) : Found (oneFile text).disk.toFiles py"mygrate.conf" py"/srv/mygrate.conf" :=
  .nearest (dirs := [py"srv", py"src"]) (by rfl) (by simp only [FileName]; decide) ⟨by decide, by decide⟩ (by decide)
    ⟨1, by decide, by rfl, by rfl, by simp [oneFile, pathIn, join, Files.isFile]⟩ (by decide)

theorem oneFile_text (text : Str) : (oneFile text).disk.contents py"/srv/mygrate.conf" = some text := by simp [oneFile]

/-- no such file -/
example : Unusable (oneFile []).disk py"/srv/other.conf" (.valueError py"Specified configuration file '/srv/other.conf' does not exist") :=
  .absolute rfl (by decide)

example : Unusable (oneFile []).disk py"other.conf" (.valueError py"Could not find configuration file 'other.conf' in current directory or parents") :=
  .nowhere (dirs := [py"srv", py"src"]) (sub := []) (name := py"other.conf") (by rfl) (by simp only [FileName]; decide) (by simp) ⟨by decide, by decide⟩
    (by decide) (by decide)

example : Unusable (oneFile []).disk py"conf/other.conf" (.valueError py"Could not find configuration file 'conf/other.conf' in current directory or parents") :=
  .nowhere (dirs := [py"srv", py"src"]) (sub := [py"conf"]) (name := py"other.conf") (by rfl) (by simp only [FileName]; decide)
    (by simp only [FileName]; decide) ⟨by decide, by decide⟩ (by decide) (by decide)

/-- a configuration without the keys -/
example : Unusable (oneFile (envText ([(py"env_file", py".env")].map plainEntry))).disk py"mygrate.conf"
    (.valueError py"Configuration file is missing 'files_directory' configuration, which should point to the directory containing your *.sql files") :=
  .directory (oneFile_found _) (oneFile_text _) (plainEntry_ok (by decide)) (by decide)

example : Unusable (oneFile (envText ([(py"files_directory", py"database")].map plainEntry))).disk py"mygrate.conf"
    (.valueError py"Configuration file is missing 'env_file' configuration, which should point to the .env file for your application (so mygrations can fetch database credentials") :=
  .environment (oneFile_found _) (oneFile_text _) (plainEntry_ok (by decide)) (by decide) (by decide)

theorem env_file_plain : PlainKey py"env_file" := ⟨by simp [EnvKey, Trimmed]; decide, by decide⟩

/-- a quote which is not closed -/
example : Program.main (oneFile (envText ([(py"files_directory", py"database")].map plainEntry ++ [.blank []]) ++ py"env_file='.env\n# end"))
    { command := some py"apply", config := some py"mygrate.conf", force := true } =
      { events := [], result := .error (.syntaxError py"env_file='.env") } :=
  C90_partial _ _ _ (.malformed (line := py"env_file='.env") (before := [(py"files_directory", py"database")].map plainEntry)
    (after := [.remark [] py" end"]) (oneFile_found _) (oneFile_text _) (plainEntry_ok (by decide)) (by simp [EnvItem.Ok, Space])
    (.unclosed (v := py".env") env_file_plain (Or.inl rfl) (by decide)) (by decide)) true _ (by decide)

example : Misquoted py"env_file=the \"env\"" := .inside (v := py"he ") (w := py"env\"") (q := '"') env_file_plain (Or.inr rfl) (by decide) (by decide)

example : Misquoted py"env_file='.env' or so" :=
  .behind (v := py".env") (w := py" or so") (q := '\'') env_file_plain (Or.inl rfl) (by decide) (by decide)

end Examples

end Mygrations

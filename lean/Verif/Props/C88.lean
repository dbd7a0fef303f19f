import Verif.Spec.Settings
import Verif.Model.Settings
import Verif.Proofs.JsonValue
import Verif.Props.C86

/-! # C88: configuration files with values of any kind -/

namespace Mygrations
open Dotenv Config

namespace Settings

/-! ## Proofs -/

theorem foldl_member : ∀ (es : List (Str × Json)) (d : Dict Json) (k : Str),
    Dict.get? (es.foldl (fun d e => d.set e.1 e.2) d) k = ((lastMember es k).or (Dict.get? d k))
  | [], d, k => rfl
  | e :: es, d, k => by
    rw [List.foldl_cons, foldl_member es]
    unfold lastMember
    rw [List.reverse_cons, List.find?_append]
    cases hf : List.find? (fun e => decide (e.1 = k)) es.reverse with
    | some v => simp
    | none =>
      simp only [Option.map_none, Option.none_or]
      rw [Dict.get?_set]
      by_cases hk : e.1 = k
      · subst hk; simp
      · simp [hk]

theorem get_ofTexts (d : Dict Str) (k : Str) : (ofTexts d).get? k = (d.get? k).map Json.str :=
  Dict.get?_map_val (fun _ v => Json.str v) d k

theorem keys_ofTexts (d : Dict Str) : (ofTexts d).keys = d.keys := by
  unfold ofTexts Dict.keys
  rw [List.map_map]
  rfl

theorem has_ofTexts (d : Dict Str) (k : Str) : (ofTexts d).has k = d.has k := by
  rw [Dict.has_eq_decide, Dict.has_eq_decide, keys_ofTexts]

theorem set_ofTexts : ∀ (d : Dict Str) (k v : Str), (ofTexts d).set k (.str v) = ofTexts (d.set k v)
  | [], k, v => rfl
  | e :: d, k, v => by
    have ih := set_ofTexts d k v
    unfold ofTexts at ih ⊢
    rw [List.map_cons, Dict.set, Dict.set]
    split
    · rfl
    · rw [ih]; rfl

theorem lastMember_texts (es : List (Str × Str)) (k : Str) :
    lastMember (es.map (fun e => (e.1, Json.str e.2))) k = (lastValue es k).map Json.str := by
  unfold lastMember lastValue
  rw [← List.map_reverse, List.find?_map]
  simp [Function.comp_def]

theorem texts_some : ∀ {ms : List (Str × Json)} {es : List (Str × Str)}, Json.texts ms = some es → ms = es.map (fun e => (e.1, Json.str e.2))
  | [], es, h => by cases h; rfl
  | (k, v) :: ms, es, h => by
    cases v with
    | str s =>
      rw [Json.texts] at h
      obtain ⟨es', h1, rfl⟩ := Option.map_eq_some_iff.mp h
      rw [texts_some h1]
      rfl
    | _ => simp [Json.texts] at h

theorem foldl_texts : ∀ (es : List (Str × Str)) (d : Dict Str),
    (es.map (fun e => (e.1, Json.str e.2))).foldl (fun d e => d.set e.1 e.2) (ofTexts d) = ofTexts (es.foldl (fun d e => d.set e.1 e.2) d)
  | [], _ => rfl
  | e :: es, d => by
    rw [List.map_cons, List.foldl_cons, List.foldl_cons, set_ofTexts, foldl_texts es]

theorem ofJson_same {j : Json} (h : Dotenv.ofJson j ≠ .error .notText) : ofJson j = (Dotenv.ofJson j).map ofTexts := by
  cases j with
  | obj ms =>
    unfold Dotenv.ofJson at h ⊢
    cases ht : Json.texts ms with
    | none => simp only [ht] at h; exact absurd rfl h
    | some es =>
      have hms := texts_some ht
      subst hms
      simp only [ht]
      exact congrArg Except.ok (foldl_texts es [])
  | arr _ => exact absurd rfl h
  | _ => rfl

theorem parse_same {text : Str} (h : Dotenv.parse text ≠ .error .notText) : parse text = (Dotenv.parse text).map ofTexts := by
  unfold Dotenv.parse at h ⊢
  unfold parse
  cases hj : Json.loads text with
  | none => rfl
  | some j =>
    rw [hj] at h
    simp only at h ⊢
    split
    · rename_i hj
      rw [if_pos hj] at h
      exact ofJson_same h
    · rfl

theorem keys_two : ∀ (ms : List (Str × Json)) (d : Dict Json) {k v : Str}, k ≠ v → (∀ n ∈ ms.map Prod.fst, n = k ∨ n = v) →
    (d.keys = [k] ∧ v ∈ ms.map Prod.fst ∨ d.keys = [k, v]) → Dict.keys (ms.foldl (fun d e => Dict.set d e.1 e.2) d) = [k, v]
  | [], d, k, v, hne, hn, h => by
    rcases h with ⟨_, h⟩ | h
    · cases h
    · exact h
  | m :: ms, d, k, v, hne, hn, h => by
    rw [List.foldl_cons]
    refine keys_two ms _ hne (fun n h => hn n (List.mem_cons_of_mem _ h)) ?_
    rcases h with ⟨hd, hv⟩ | hd
    · rcases hn m.1 List.mem_cons_self with hm | hm
      · left
        refine ⟨by rw [Dict.keys_set_of_mem _ (by rw [hd, hm]; simp), hd], ?_⟩
        rcases List.mem_cons.mp hv with hv | hv
        · exact absurd (hm.symm.trans hv.symm) hne
        · exact hv
      · right
        rw [Dict.set_of_not_mem _ (by rw [hd, hm]; simpa using Ne.symm hne), Dict.keys_append, hd, hm]
        rfl
    · right
      rw [Dict.keys_set_of_mem _ (by rw [hd]; simpa using hn m.1 List.mem_cons_self), hd]

theorem iterated_pair {j k v : Json} (h : PairOf j k v) : iterated j = .ok [k, v] := by
  cases h with
  | array => rfl
  | text => rfl
  | object ms k v hh hne hv hn =>
    cases ms with
    | nil => cases hh
    | cons m ms =>
      have hm : m.1 = k := by simpa using hh
      have : Dict.keys ((m :: ms).foldl (fun d e => Dict.set d e.1 e.2) ([] : Dict Json)) = [k, v] := by
        rw [List.foldl_cons]
        refine keys_two ms _ hne (fun n h => hn n (List.mem_cons_of_mem _ h)) (.inl ⟨by rw [← hm]; rfl, ?_⟩)
        rcases List.mem_cons.mp hv with hv | hv
        · exact absurd (hm.symm.trans hv.symm) hne
        · exact hv
      simp only [iterated, this]
      rfl

theorem ofItems_pairs {js : List Json} {ms : List (Str × Json)} (h : PairsOf js ms) : ∀ (i : Nat) (d : Dict Json),
    ofItems i d js = .ok (ms.foldl (fun d e => Dict.set d e.1 e.2) d) := by
  induction h with
  | nil => intro i d; rfl
  | named hj _ ih =>
    intro i d
    rw [ofItems, iterated_pair hj]
    exact ih _ _
  | other hj hk _ ih =>
    intro i d
    rw [ofItems, iterated_pair hj]
    rcases hk with rfl | ⟨b, rfl⟩ | ⟨n, rfl⟩ <;> exact ih _ _

theorem dotenv_same {fs : Files} {name : Str} (h : fs.dotenv name ≠ .error .notText) : dotenv fs (.str name) = (fs.dotenv name).map ofTexts :=
  parse_same h

theorem load_same {fs : Files} {path : Str} (h : Config.load fs path ≠ .error .notText) : load fs path = (Config.load fs path).map ofTexts := by
  unfold Config.load at h ⊢
  unfold load
  cases hr : resolve fs path with
  | error e => rfl
  | ok abs =>
    rw [hr] at h
    simp only at h ⊢
    cases hd : fs.dotenv abs with
    | error e =>
      rw [hd] at h
      have := dotenv_same (fs := fs) (name := abs) (by rw [hd]; exact h)
      rw [hd] at this
      rw [this]
      rfl
    | ok config =>
      have := dotenv_same (fs := fs) (name := abs) (by rw [hd]; simp)
      rw [hd] at this
      rw [this]
      simp only [Except.map, get_ofTexts]
      cases config.get? py"files_directory" with
      | none => rfl
      | some fd =>
        simp only [Option.map_some, relativeTo]
        cases Config.relativeTo fd abs with
        | error e => rfl
        | ok fd' =>
          simp only [set_ofTexts, get_ofTexts]
          cases Dict.get? (Dict.set config py"files_directory" fd') py"env_file" with
          | none => rfl
          | some ef =>
            simp only [Option.map_some]
            cases Config.relativeTo ef abs with
            | error e => rfl
            | ok ef' => simp only [set_ofTexts]

/-- credentials which are strings -/
def Creds.ofTexts (c : Credentials.Creds) : Creds := ⟨.str c.host, .str c.database, .str c.user, .str c.password⟩

theorem fetch_same (config env : Dict Str) (key val : Str) :
    fetch (ofTexts config) (ofTexts env) key val = (Credentials.fetch config env key val).map Json.str := by
  unfold fetch Credentials.fetch
  rw [get_ofTexts]
  cases config.get? key with
  | none => rfl
  | some name =>
    simp only [Option.map_some, get_ofTexts]
    cases env.get? name <;> rfl

theorem new_same (env config : Dict Str) : new (ofTexts env) (ofTexts config) = (Credentials.new env config).map Creds.ofTexts := by
  unfold new Credentials.new
  have hm : missingKey (ofTexts config) = Credentials.missingKey config := by
    unfold missingKey Credentials.missingKey
    simp only [has_ofTexts]
  rw [hm]
  cases Credentials.missingKey config with
  | some k => rfl
  | none =>
    simp only [fetch_same]
    cases Credentials.fetch config env py"hostname_key" py"host" with
    | error e => rfl
    | ok h =>
      cases Credentials.fetch config env py"database_key" py"database" with
      | error e => rfl
      | ok d =>
        cases Credentials.fetch config env py"username_key" py"user" with
        | error e => rfl
        | ok u =>
          cases Credentials.fetch config env py"password_key" py"password" with
          | error e => rfl
          | ok p => rfl

end Settings

/-! ## The properties -/

/-- Where `Model/Dotenv.lean` follows the code (all values in JSON are strings), the two models of the configuration agree: the directory and the
credentials are the same, and so are the exceptions. -/
theorem C88_same (fs : Files) (path : Str) :
    (Config.sqlFiles fs path ≠ .error .notText → Settings.sqlFiles fs path = (Config.sqlFiles fs path).map Json.str) ∧
    (Config.credentials fs path ≠ .error .notText → Settings.credentials fs path = (Config.credentials fs path).map Settings.Creds.ofTexts) := by
  constructor
  · intro h
    unfold Config.sqlFiles at h ⊢
    unfold Settings.sqlFiles
    cases hl : Config.load fs path with
    | error e =>
      rw [hl] at h
      rw [Settings.load_same (by rw [hl]; intro he; cases he; exact h rfl), hl]
      rfl
    | ok config =>
      rw [Settings.load_same (by rw [hl]; simp), hl]
      simp only [Except.map, Settings.get_ofTexts]
      cases config.get? py"files_directory" <;> rfl
  · intro h
    unfold Config.credentials at h ⊢
    unfold Settings.credentials
    cases hl : Config.load fs path with
    | error e =>
      rw [hl] at h
      rw [Settings.load_same (by rw [hl]; intro he; cases he; exact h rfl), hl]
      rfl
    | ok config =>
      rw [hl] at h
      rw [Settings.load_same (by rw [hl]; simp), hl]
      simp only [Except.map, Settings.get_ofTexts] at h ⊢
      cases hp : config.get? py"env_file" with
      | none => rfl
      | some p =>
        rw [hp] at h
        simp only [Option.map_some] at h ⊢
        cases hd : fs.dotenv p with
        | error e =>
          rw [hd] at h
          rw [Settings.dotenv_same (by rw [hd]; intro he; cases he; exact h rfl), hd]
          rfl
        | ok env =>
          rw [Settings.dotenv_same (by rw [hd]; simp), hd]
          simp only [Except.map, Settings.new_same]
          cases Credentials.new env config <;> rfl

/-- **C88, the values.**  A configuration file gives every key the value which is given last for it, whatever kinds of values there are: strings,
numbers, booleans, `null`, arrays and objects, nested in any way. -/
theorem C88_values {text : Str} {es : List (Str × Json)} (h : SettingsFile text es) :
    ∃ d, Settings.parse text = .ok d ∧ ∀ k, d.get? k = lastMember es k := by
  cases h with
  | lines is h =>
    have hp := parse_items is h
    refine ⟨_, by rw [Settings.parse_same (by rw [hp]; simp), hp]; rfl, fun k => ?_⟩
    rw [Settings.get_ofTexts, foldl_add, Settings.lastMember_texts]
    simp [Dict.get?]
  | object lead trail t _ hl ht hne hm =>
    refine ⟨es.foldl (fun d e => d.set e.1 e.2) [], ?_, fun k => by rw [Settings.foldl_member]; simp [Dict.get?]⟩
    unfold Settings.parse
    rw [Json.loads_text hl ht hm]
    have : Json.truthy (.obj es) = true := by
      cases es with
      | nil => exact absurd rfl hne
      | cons m ms => rfl
    simp only [this, if_true]
    rfl
  | pairs lead trail t items _ hl ht hne hm hp =>
    refine ⟨es.foldl (fun d e => d.set e.1 e.2) [], ?_, fun k => by rw [Settings.foldl_member]; simp [Dict.get?]⟩
    unfold Settings.parse
    rw [Json.loads_text hl ht hm]
    have : Json.truthy (.arr items) = true := by
      cases items with
      | nil => exact absurd rfl hne
      | cons m ms => rfl
    simp only [this, if_true]
    exact Settings.ofItems_pairs hp 0 []

namespace Settings

theorem relativeTo_text {dir name : Str} (hdir : dir.head? = some '/' ∧ ∀ c, dir.getLast? = some c → c ≠ '/') (hname : FileName name) (r : Str)
    (hr : r ≠ []) : relativeTo (.str r) (dir ++ py"/" ++ name) = .ok (.str (besides dir r)) := by
  have hdne : dir ≠ [] := fun e => by rw [e] at hdir; cases hdir.1
  have : Config.relativeTo r (dir ++ py"/" ++ name) = .ok (besides dir r) := by
    unfold Config.relativeTo besides
    split
    · exact absurd rfl hr
    · rfl
    · rename_i _ hh
      rw [dirname_file hdir.2 hdne hname.2, if_neg (fun e => by
        cases r with
        | nil => exact hr rfl
        | cons x xs => exact hh xs (by rw [Option.some.inj e]))]
  unfold relativeTo
  simp only [this]

theorem fetch_ok (config env : Dict Json) (key val : Str) (v : Json) :
    fetch config env key val = .ok v ↔ ∃ k, config.get? key = some (.str k) ∧ env.get? k = some v := by
  unfold fetch
  cases hc : config.get? key with
  | none => simp
  | some j =>
    cases j with
    | str name =>
      simp only [Option.some.injEq, Json.str.injEq, exists_eq_left']
      cases env.get? name <;> simp
    | _ => simp

/-- `DbCredentials` works if and only if each of the four keys is given as a string, for which there is a value of any kind. -/
theorem new_ok (env config : Dict Json) (c : Creds) : new env config = .ok c ↔
    (∃ k, config.get? py"hostname_key" = some (.str k) ∧ env.get? k = some c.host) ∧
    (∃ k, config.get? py"database_key" = some (.str k) ∧ env.get? k = some c.database) ∧
    (∃ k, config.get? py"username_key" = some (.str k) ∧ env.get? k = some c.user) ∧
    (∃ k, config.get? py"password_key" = some (.str k) ∧ env.get? k = some c.password) := by
  rw [← fetch_ok config env py"hostname_key" py"host", ← fetch_ok config env py"database_key" py"database",
    ← fetch_ok config env py"username_key" py"user", ← fetch_ok config env py"password_key" py"password"]
  constructor
  · intro h
    unfold new at h
    split at h
    · cases h
    split at h
    · cases h
    split at h
    · cases h
    split at h
    · cases h
    split at h
    · cases h
    cases h
    refine ⟨?_, ?_, ?_, ?_⟩ <;> assumption
  · rintro ⟨h1, h2, h3, h4⟩
    have hm : missingKey config = none := by
      unfold missingKey
      rw [List.find?_eq_none]
      intro k hk
      simp only [List.mem_cons, List.not_mem_nil, or_false] at hk
      rcases hk with rfl | rfl | rfl | rfl
      · obtain ⟨s, hs, _⟩ := (fetch_ok _ _ _ _ _).mp h1
        simp [Dict.has_of_get? hs]
      · obtain ⟨s, hs, _⟩ := (fetch_ok _ _ _ _ _).mp h3
        simp [Dict.has_of_get? hs]
      · obtain ⟨s, hs, _⟩ := (fetch_ok _ _ _ _ _).mp h4
        simp [Dict.has_of_get? hs]
      · obtain ⟨s, hs, _⟩ := (fetch_ok _ _ _ _ _).mp h2
        simp [Dict.has_of_get? hs]
    unfold new
    simp only [hm, h1, h2, h3, h4]

end Settings

/-- **C88.**  Whatever other values the two files have, and whatever kinds of values they are: the credentials are the values given last in the `.env`
file for the names given last in the configuration file, as they are (a port or a password may be a number), and the directory with the SQL files is
the one given there.

What is missing (`_partial`): the file names and the names of the keys have to be strings (`C88_kinds`); documents which are arrays are not modelled;
the empty object is refused (`C86_empty_refuted`). -/
theorem C88_credentials_partial (fs : Files) (given dir name conf env : Str) (ces ees : List (Str × Json)) (dotenvFile sqlDir : Str)
    (kh kd ku kp : Str) (c : Settings.Creds)
    (hdir : dir.head? = some '/' ∧ ∀ c, dir.getLast? = some c → c ≠ '/') (hname : FileName name)
    (hfound : Found fs given (dir ++ py"/" ++ name))
    (hconf : fs.contents (dir ++ py"/" ++ name) = some conf) (hces : SettingsFile conf ces)
    (hsql : lastMember ces py"files_directory" = some (.str sqlDir)) (hsql0 : sqlDir ≠ [])
    (hfile : lastMember ces py"env_file" = some (.str dotenvFile)) (hfile0 : dotenvFile ≠ [])
    (henv : fs.contents (besides dir dotenvFile) = some env) (hees : SettingsFile env ees)
    (h1 : lastMember ces py"hostname_key" = some (.str kh)) (v1 : lastMember ees kh = some c.host)
    (h2 : lastMember ces py"database_key" = some (.str kd)) (v2 : lastMember ees kd = some c.database)
    (h3 : lastMember ces py"username_key" = some (.str ku)) (v3 : lastMember ees ku = some c.user)
    (h4 : lastMember ces py"password_key" = some (.str kp)) (v4 : lastMember ees kp = some c.password) :
    Settings.credentials fs given = .ok c ∧ Settings.sqlFiles fs given = .ok (.str (besides dir sqlDir)) := by
  obtain ⟨dc, hdc, gc⟩ := C88_values hces
  obtain ⟨de, hde, ge⟩ := C88_values hees
  have henv' : Settings.dotenv fs (.str (besides dir dotenvFile)) = .ok de := by
    simp only [Settings.dotenv, henv, Option.getD_some, hde]
  have hload : Settings.load fs given =
      .ok (Dict.set (Dict.set dc py"files_directory" (.str (besides dir sqlDir))) py"env_file" (.str (besides dir dotenvFile))) := by
    unfold Settings.load
    rw [resolve_found hfound]
    simp only [Settings.dotenv, hconf, Option.getD_some, hdc, (gc _).trans hsql, Settings.relativeTo_text hdir hname _ hsql0]
    rw [Dict.get?_set, if_neg (by decide), gc, hfile]
    simp only [Settings.relativeTo_text hdir hname _ hfile0]
  constructor
  · unfold Settings.credentials
    rw [hload]
    simp only [Dict.get?_set, if_true, henv']
    have hnew : Settings.new de (Dict.set (Dict.set dc py"files_directory" (.str (besides dir sqlDir))) py"env_file" (.str (besides dir dotenvFile))) = .ok c := by
      rw [Settings.new_ok]
      refine ⟨⟨kh, ?_, ?_⟩, ⟨kd, ?_, ?_⟩, ⟨ku, ?_, ?_⟩, ⟨kp, ?_, ?_⟩⟩
      all_goals first
        | (rw [ge]; assumption)
        | (rw [Dict.get?_set, if_neg (by decide), Dict.get?_set, if_neg (by decide), gc]; assumption)
    rw [hnew]
  · unfold Settings.sqlFiles
    rw [hload]
    simp only [Dict.get?_set]
    rfl

namespace Settings

theorem relativeTo_ok {j v : Json} {config : Str} (h : relativeTo j config = .ok v) :
    (∃ s p, j = .str s ∧ v = .str p) ∨ ∃ items, j = .arr (.str ['/'] :: items) ∧ v = j := by
  unfold relativeTo at h
  split at h
  · split at h
    · cases h
    · cases h; exact .inl ⟨_, _, rfl, rfl⟩
  · cases h
  · cases h; exact .inr ⟨_, rfl, rfl⟩
  all_goals cases h

end Settings

/-- **C88, the kinds which work.**  If credentials are found, then the `.env` file and the four keys are given as strings, and the directory is a string
or an array which begins with the string `/`.  With anything else there is an exception, and no connection is made. -/
theorem C88_kinds (fs : Files) (given path conf : Str) (ces : List (Str × Json)) (c : Settings.Creds) (hfound : Found fs given path)
    (hconf : fs.contents path = some conf) (hces : SettingsFile conf ces) (h : Settings.credentials fs given = .ok c) :
    (∀ k ∈ [py"env_file", py"hostname_key", py"database_key", py"username_key", py"password_key"], ∃ s, lastMember ces k = some (.str s)) ∧
    ((∃ s, lastMember ces py"files_directory" = some (.str s)) ∨ ∃ items, lastMember ces py"files_directory" = some (.arr (.str ['/'] :: items))) := by
  obtain ⟨dc, hdc, gc⟩ := C88_values hces
  unfold Settings.credentials Settings.load at h
  rw [resolve_found hfound] at h
  simp only [Settings.dotenv, hconf, Option.getD_some, hdc, gc] at h
  cases hfd : lastMember ces py"files_directory" with
  | none => simp only [hfd] at h; cases h
  | some fd =>
    simp only [hfd] at h
    cases hr : Settings.relativeTo fd path with
    | error e => simp only [hr] at h; cases h
    | ok fd' =>
      simp only [hr, Dict.get?_set] at h
      rw [if_neg (by decide), gc] at h
      cases hef : lastMember ces py"env_file" with
      | none => simp only [hef] at h; cases h
      | some ef =>
        simp only [hef] at h
        cases hr' : Settings.relativeTo ef path with
        | error e => simp only [hr'] at h; cases h
        | ok ef' =>
          simp only [hr', Dict.get?_set, if_true] at h
          have hdir : (∃ s, some fd = some (Json.str s)) ∨ ∃ items, some fd = some (Json.arr (.str ['/'] :: items)) := by
            rcases Settings.relativeTo_ok hr with ⟨s, p, rfl, _⟩ | ⟨items, rfl, _⟩
            · exact .inl ⟨_, rfl⟩
            · exact .inr ⟨_, rfl⟩
          refine ⟨?_, hdir⟩
          rcases Settings.relativeTo_ok hr' with ⟨s, p, rfl, rfl⟩ | ⟨items, rfl, rfl⟩
          · cases hd : Settings.dotenv fs (.str p) with
            | error e => simp only [Settings.dotenv] at hd; simp only [hd] at h; cases h
            | ok env =>
              simp only [Settings.dotenv] at hd
              simp only [hd] at h
              split at h
              · cases h
              · rename_i c' hn
                cases h
                obtain ⟨⟨k1, g1, _⟩, ⟨k2, g2, _⟩, ⟨k3, g3, _⟩, ⟨k4, g4, _⟩⟩ := (Settings.new_ok _ _ _).mp hn
                rw [Dict.get?_set, if_neg (by decide), Dict.get?_set, if_neg (by decide), gc] at g1 g2 g3 g4
                intro k hk
                simp only [List.mem_cons, List.not_mem_nil, or_false] at hk
                rcases hk with rfl | rfl | rfl | rfl | rfl
                · exact ⟨_, hef⟩
                · exact ⟨_, g1⟩
                · exact ⟨_, g2⟩
                · exact ⟨_, g3⟩
                · exact ⟨_, g4⟩
          · cases h

/-! ## Examples -/

namespace Examples

theorem noSpace : JsonSpace [] := by intro c h; cases h
theorem oneSpace : JsonSpace py" " := by intro c h; simp at h; simp [h]

/-- a member whose name has no special characters, with a blank before its value -/
theorem member {k : Str} {v : Json} {t : Str} {ms : List (Str × Json)} {ts : Str} (hk : ∀ c ∈ k, c ≠ '"' ∧ c ≠ '\\' ∧ 0x20 ≤ c.toNat) (hv : JsonText v t)
    (h : JsonMembers ms ts) : JsonMembers ((k, v) :: ms) ('"' :: (k ++ '"' :: ':' :: ' ' :: (t ++ ',' :: ts))) :=
  .more noSpace (jsonStr_plain k hk) noSpace oneSpace hv noSpace h

/-- the last member -/
theorem lastOne {k : Str} {v : Json} {t : Str} (hk : ∀ c ∈ k, c ≠ '"' ∧ c ≠ '\\' ∧ 0x20 ≤ c.toNat) (hv : JsonText v t) :
    JsonMembers [(k, v)] ('"' :: (k ++ '"' :: ':' :: ' ' :: (t ++ []))) :=
  .one noSpace (jsonStr_plain k hk) noSpace oneSpace hv noSpace

theorem plainText {s : Str} (hs : ∀ c ∈ s, c ≠ '"' ∧ c ≠ '\\' ∧ 0x20 ≤ c.toNat) : JsonText (.str s) ('"' :: (s ++ ['"'])) := .str (jsonStr_plain s hs)

/-- a number with a sign, a fraction and an exponent -/
theorem number_text : JsonText (.num py"-12.50e+3") py"-12.50e+3" :=
  .num (.mk py"-" py"12" py".50" py"e+3" (by decide) ⟨by decide, by decide⟩ (.inr (by decide)) (.inr ⟨py"50", ⟨by decide, by decide⟩, rfl⟩)
    (.inr ⟨'e', py"+", py"3", by decide, by decide, ⟨by decide, by decide⟩, rfl⟩))

theorem port_text : JsonText (.num py"3306") py"3306" :=
  .num (.mk [] py"3306" [] [] (by decide) ⟨by decide, by decide⟩ (.inr (by decide)) (.inl rfl) (.inl rfl))

/-- settings of the application which the tool does not use: an array, an object in it, and a number -/
def otherMembers : List (Str × Json) :=
  [(py"replicas", .arr [.null, .obj [(py"port", .num py"3306"), (py"tls", .bool true)], .arr []]), (py"factor", .num py"-12.50e+3")]

def settingsMembers : List (Str × Json) :=
  [(py"files_directory", .str py"database"), (py"env_file", .str py".env"), (py"hostname_key", .str py"H"), (py"username_key", .str py"U"),
   (py"database_key", .str py"D"), (py"password_key", .str py"P")] ++ otherMembers

def settingsText : Str :=
  py"{\"files_directory\": \"database\",\"env_file\": \".env\",\"hostname_key\": \"H\",\"username_key\": \"U\",\"database_key\": \"D\",\"password_key\": \"P\",\"replicas\": [null,{\"port\": 3306,\"tls\": true},[]],\"factor\": -12.50e+3}"

theorem settings_text : JsonText (.obj settingsMembers) settingsText :=
  JsonText.obj <|
    member (by decide) (plainText (by decide)) <| member (by decide) (plainText (by decide)) <| member (by decide) (plainText (by decide)) <|
    member (by decide) (plainText (by decide)) <| member (by decide) (plainText (by decide)) <| member (by decide) (plainText (by decide)) <|
    member (by decide) (.arr (.more noSpace .null noSpace (.more noSpace (.obj (member (by decide) port_text (lastOne (by decide) .yes))) noSpace
      (.one noSpace (.noItems noSpace) noSpace)))) <|
    lastOne (by decide) number_text

/-- the `.env` file, with a number as the password -/
def secretMembers : List (Str × Json) := [(py"H", .str py"db.local"), (py"U", .str py"me"), (py"D", .str py"shop"), (py"P", .num py"3306")]

def secretText : Str := py"{\"H\": \"db.local\",\"U\": \"me\",\"D\": \"shop\",\"P\": 3306}"

theorem secret_text : JsonText (.obj secretMembers) secretText :=
  JsonText.obj <|
    member (by decide) (plainText (by decide)) <| member (by decide) (plainText (by decide)) <| member (by decide) (plainText (by decide)) <|
    lastOne (by decide) port_text

def kindsServer : Files where
  cwd := py"/srv"
  contents p := if p = py"/srv/mygrate.conf" then some (settingsText ++ py"\n") else if p = py"/srv/.env" then some secretText else none

theorem settings_file : SettingsFile (settingsText ++ py"\n") settingsMembers :=
  .object [] py"\n" _ _ noSpace (by intro c h; simp at h; simp [h]) (by simp [settingsMembers]) settings_text

theorem secret_file : SettingsFile secretText secretMembers := by
  have := SettingsFile.object [] [] _ _ noSpace noSpace (by simp [secretMembers]) secret_text
  rwa [List.nil_append, List.append_nil] at this

theorem kinds_found : Found kindsServer py"/srv/mygrate.conf" (py"/srv" ++ py"/" ++ py"mygrate.conf") := .absolute rfl rfl

theorem kinds_credentials : Settings.credentials kindsServer py"/srv/mygrate.conf" =
    .ok { host := .str py"db.local", database := .str py"shop", user := .str py"me", password := .num py"3306" } :=
  (C88_credentials_partial kindsServer _ py"/srv" py"mygrate.conf" _ _ _ _ py".env" py"database" py"H" py"D" py"U" py"P"
    { host := .str py"db.local", database := .str py"shop", user := .str py"me", password := .num py"3306" }
    ⟨rfl, by simp⟩ ⟨by decide, by decide⟩ kinds_found rfl settings_file rfl (by decide) rfl (by decide) rfl secret_file
    rfl rfl rfl rfl rfl rfl rfl rfl).1

end Examples

/-- for `C88_credentials_partial` (and `C88_values`): both files are JSON, one with other settings of all kinds, and the password is a number -/
example : ∃ c, Settings.credentials Examples.kindsServer py"/srv/mygrate.conf" = .ok c ∧ c.password = .num py"3306" := ⟨_, Examples.kinds_credentials, rfl⟩

/-- for `C88_kinds` -/
example : ∃ s, lastMember Examples.settingsMembers py"password_key" = some (.str s) :=
  (C88_kinds Examples.kindsServer _ _ _ _ _ Examples.kinds_found rfl Examples.settings_file Examples.kinds_credentials).1 _ (by decide)

/-- for `C88_same`: the example of C86 -/
example : Settings.credentials Examples.jsonServer py"/srv/mygrate.conf" =
    .ok { host := .str py"db.local", database := .str py"shop", user := .str py"me", password := .str [] } := by
  have h : Config.credentials Examples.jsonServer py"/srv/mygrate.conf" = .ok { host := py"db.local", database := py"shop", user := py"me", password := [] } := by
    decide +kernel
  rw [(C88_same _ _).2 (by rw [h]; simp), h]
  rfl

end Mygrations

import Verif.Props.C47

/-!
# C48: the nearest configuration file is used; C49: credentials come from the configured keys

`Config.resolve fs name` is how the commands find their configuration file, `Config.credentials fs path` are the
credentials they connect with, `Credentials.new env config` is `DbCredentials(env, config)`.
-/

namespace Mygrations
open Dotenv Config

/-! ## Specification -/

/-- the path of a file in a directory, given by the names of the directories which lead to it -/
def pathIn (dirs : List Str) (name : Str) : Str := py"/" ++ join py"/" (dirs ++ [name])

/-- `p` is the path of the file in the nearest of the directory and its ancestors which has it (`up` steps up). -/
def Nearest (fs : Files) (dirs : List Str) (name p : Str) : Prop :=
  ∃ up, up ≤ dirs.length ∧ p = pathIn (dirs.take (dirs.length - up)) name ∧ fs.isFile p = true ∧
    ∀ less, less < up → fs.isFile (pathIn (dirs.take (dirs.length - less)) name) = false

/-- a name in a directory -/
def FileName (s : Str) : Prop := s ≠ [] ∧ '/' ∉ s

/-- The configuration file which is meant by what is given: an absolute path, or a name of which the nearest file is taken
(one in the root directory is left out). -/
inductive Found (fs : Files) : Str → Str → Prop
  | absolute {p : Str} (hp : p.head? = some '/') (h : fs.isFile p = true) : Found fs p p
  | nearest {dirs : List Str} {name p : Str} (hcwd : fs.cwd = py"/" ++ join py"/" dirs) (hd : ∀ d ∈ dirs, FileName d)
      (hn : FileName name) (h0 : dirs ≠ []) (h : Nearest fs dirs name p) (hroot : p ≠ pathIn [] name) : Found fs name p

/-- the file which a path in a configuration file means, where `dir` is the directory of the latter -/
def besides (dir path : Str) : Str := if path.head? = some '/' then path else dir ++ py"/" ++ path

/-! ## Proofs -/

theorem stripSlash {a : Str} (h1 : ∀ c, a.head? = some c → c ≠ '/') (h2 : ∀ c, a.getLast? = some c → c ≠ '/') :
    stripChars (· == '/') ('/' :: a) = a := by
  unfold stripChars
  rw [List.dropWhile_cons]
  simp only [beq_self_eq_true, if_true]
  have e1 : List.dropWhile (fun x => x == '/') a = a := dropWhile_eq_self (fun x hx => by simpa using h1 x hx)
  rw [e1, dropWhile_eq_self (fun x hx => by rw [List.head?_reverse] at hx; simpa using h2 x hx), List.reverse_reverse]

theorem join_concat (sep : Str) : ∀ (l : List Str) (x : Str), l ≠ [] → join sep (l ++ [x]) = join sep l ++ sep ++ x
  | [], _, h => absurd rfl h
  | [a], x, _ => by simp [join]
  | a :: b :: l, x, _ => by
    have := join_concat sep (b :: l) x (by simp)
    rw [List.cons_append, List.cons_append, join, ← List.cons_append, this]
    simp [join]

theorem head_join {sep : Str} : ∀ {l : List Str} {a : Str}, a ≠ [] → (join sep (a :: l)).head? = a.head?
  | [], a, _ => rfl
  | b :: l, a, h => by
    rw [join]
    cases a with
    | nil => exact absurd rfl h
    | cons c cs => simp

theorem search_parts {dirs : List Str} {name : Str} (hd : ∀ d ∈ dirs, FileName d) (hn : FileName name) (h0 : dirs ≠ []) :
    splitOn '/' (stripChars (· == '/') ((py"/" ++ join py"/" dirs) ++ py"/" ++ name)) = dirs ++ [name] := by
  have e : (py"/" ++ join py"/" dirs) ++ py"/" ++ name = '/' :: join py"/" (dirs ++ [name]) := by
    rw [join_concat _ _ _ h0]; simp
  rw [e, stripSlash]
  · cases dirs with
    | nil => exact absurd rfl h0
    | cons d ds =>
      exact splitOn_join d (ds ++ [name]) (fun x hx => by
        rcases List.mem_cons.mp hx with rfl | hx
        · exact (hd _ List.mem_cons_self).2
        · rcases List.mem_append.mp hx with hx | hx
          · exact (hd _ (List.mem_cons_of_mem _ hx)).2
          · exact (List.mem_singleton.mp hx) ▸ hn.2)
  · intro c hc
    cases dirs with
    | nil => exact absurd rfl h0
    | cons d ds =>
      rw [List.cons_append, head_join (hd d List.mem_cons_self).1] at hc
      exact fun e => (hd d List.mem_cons_self).2 (e ▸ List.mem_of_mem_head? hc)
  · intro c hc
    rw [join_concat _ _ _ h0, List.getLast?_append] at hc
    cases hl : name.getLast? with
    | none => rw [List.getLast?_eq_none_iff] at hl; exact absurd hl hn.1
    | some x =>
      rw [hl, Option.some_or] at hc
      exact fun e => hn.2 (e ▸ List.mem_of_getLast? (hl.trans hc))

theorem candidates_eq {dirs : List Str} (name : Str) :
    candidates dirs name = (List.range dirs.length).map (fun i => pathIn (dirs.take (dirs.length - i)) name) := by
  unfold candidates
  apply List.map_congr_left
  intro i hi
  have hi := List.mem_range.mp hi
  unfold pathIn
  rw [join_concat _ _ _ (fun e => by
    have := congrArg List.length e
    simp at this
    omega)]
  simp

/-- the first hit in a search by number -/
theorem find_range {α : Type} (f : Nat → α) (p : α → Bool) (x : α) : ∀ n, ((List.range n).map f).find? p = some x ↔
    ∃ i, i < n ∧ x = f i ∧ p x = true ∧ ∀ j, j < i → p (f j) = false := by
  intro n
  rw [List.find?_map]
  constructor
  · intro h
    obtain ⟨i, hi, rfl⟩ := Option.map_eq_some_iff.mp h
    rw [List.find?_range_eq_some] at hi
    obtain ⟨h1, h2, h3⟩ := hi
    exact ⟨i, List.mem_range.mp h2, rfl, h1, fun j hj => by simpa using h3 j hj⟩
  · rintro ⟨i, h1, rfl, h2, h3⟩
    rw [Option.map_eq_some_iff]
    refine ⟨i, ?_, rfl⟩
    rw [List.find?_range_eq_some]
    exact ⟨h2, List.mem_range.mpr h1, fun j hj => by simpa using h3 j hj⟩

theorem resolve_name {fs : Files} {dirs : List Str} {name : Str} (hcwd : fs.cwd = py"/" ++ join py"/" dirs) (hd : ∀ d ∈ dirs, FileName d)
    (hn : FileName name) (h0 : dirs ≠ []) : resolve fs name =
      match ((List.range dirs.length).map (fun i => pathIn (dirs.take (dirs.length - i)) name)).find? fs.isFile with
      | some p => .ok p
      | none => .error (.valueError (py"Could not find configuration file '" ++ name ++ py"' in current directory or parents")) := by
  have hp := search_parts hd hn h0
  rw [← hcwd] at hp
  unfold resolve
  split
  · exact absurd rfl hn.1
  · exact absurd List.mem_cons_self hn.2
  · simp only [hp]
    rw [List.dropLast_concat, List.getLast?_concat, Option.getD_some, candidates_eq]
    rfl

/-! ## C48 -/

/-- **C48.**  A name is looked for in the working directory and then in its ancestors, and the nearest file is taken; if
there is none, this is an error which names the file.  Missing: the root directory is not searched. -/
theorem C48_partial (fs : Files) (dirs : List Str) (name : Str) (hcwd : fs.cwd = py"/" ++ join py"/" dirs)
    (hd : ∀ d ∈ dirs, FileName d) (hn : FileName name) (h0 : dirs ≠ []) (hroot : fs.isFile (pathIn [] name) = false) :
    (∀ p, resolve fs name = .ok p ↔ Nearest fs dirs name p) ∧
    ((∀ p, ¬ Nearest fs dirs name p) → resolve fs name =
      .error (.valueError (py"Could not find configuration file '" ++ name ++ py"' in current directory or parents"))) := by
  have key : ∀ p, resolve fs name = .ok p ↔ Nearest fs dirs name p := by
    intro p
    rw [resolve_name hcwd hd hn h0]
    constructor
    · intro h
      split at h
      · rename_i q hq
        cases h
        obtain ⟨i, h1, h2, h3, h4⟩ := (find_range _ _ _ _).mp hq
        exact ⟨i, Nat.le_of_lt h1, h2, h3, h4⟩
      · cases h
    · rintro ⟨i, h1, h2, h3, h4⟩
      have hi : i < dirs.length := by
        rcases Nat.lt_or_ge i dirs.length with h | h
        · exact h
        · have : i = dirs.length := Nat.le_antisymm h1 h
          subst this
          rw [Nat.sub_self, List.take_zero] at h2
          rw [h2, hroot] at h3
          cases h3
      rw [(find_range _ _ _ _).mpr ⟨i, hi, h2, h3, h4⟩]
  refine ⟨key, fun hnone => ?_⟩
  have : ∀ p, resolve fs name ≠ .ok p := fun p e => hnone p ((key p).mp e)
  rw [resolve_name hcwd hd hn h0] at this ⊢
  split
  · rename_i p hp
    rw [hp] at this
    exact absurd rfl (this p)
  · rfl

namespace Examples

/-- a project with a configuration file in one of the ancestors of the working directory -/
def project : Files where
  cwd := py"/home/app/src/db"
  contents p := if p = py"/home/app/mygrate.conf" ∨ p = py"/home/mygrate.conf" then some [] else none

end Examples

example : resolve Examples.project py"mygrate.conf" = .ok py"/home/app/mygrate.conf" :=
  ((C48_partial Examples.project [py"home", py"app", py"src", py"db"] py"mygrate.conf" (by decide)
    (by simp only [FileName]; decide) ⟨by decide, by decide⟩ (by decide) (by decide)).1 _).mpr
    ⟨2, by decide, by decide, by decide, by decide⟩

/-- **C48.**  An absolute path is that file or an error. -/
theorem C48_absolute (fs : Files) (p : Str) : resolve fs ('/' :: p) =
    if fs.isFile ('/' :: p) then .ok ('/' :: p)
    else .error (.valueError (py"Specified configuration file '" ++ '/' :: p ++ py"' does not exist")) := rfl

/-- **C48 is false**: a file which is only in the root directory is not found, from any directory. -/
theorem C48_root_refuted (fs : Files) (dirs : List Str) (name : Str) (hcwd : fs.cwd = py"/" ++ join py"/" dirs)
    (hd : ∀ d ∈ dirs, FileName d) (hn : FileName name) (h0 : dirs ≠ []) (_hroot : fs.isFile (pathIn [] name) = true)
    (honly : ∀ n, n < dirs.length → fs.isFile (pathIn (dirs.take (n + 1)) name) = false) :
    Nearest fs dirs name (pathIn [] name) ∧ ∀ p, resolve fs name ≠ .ok p := by
  constructor
  · refine ⟨dirs.length, Nat.le_refl _, by rw [Nat.sub_self, List.take_zero], _hroot, fun j hj => ?_⟩
    have := honly (dirs.length - j - 1) (by omega)
    rwa [show dirs.length - j - 1 + 1 = dirs.length - j by omega] at this
  · intro p e
    rw [resolve_name hcwd hd hn h0] at e
    split at e
    · rename_i q hq
      obtain ⟨i, h1, h2, h3, _⟩ := (find_range _ _ _ _).mp hq
      have := honly (dirs.length - i - 1) (by omega)
      rw [show dirs.length - i - 1 + 1 = dirs.length - i by omega, ← h2, h3] at this
      cases this
    · cases e

namespace Examples

/-- the only configuration file is in the root directory -/
def rootProject : Files where
  cwd := py"/app"
  contents p := if p = py"/mygrate.conf" then some [] else none

/-- the configuration is in a directory of its own, and there is another one -/
def confProject : Files where
  cwd := py"/home/app/src"
  contents p := if p = py"/home/app/conf/mygrate.conf" ∨ p = py"/home/mygrate.conf" then some [] else none

end Examples

example : resolve Examples.rootProject py"mygrate.conf" =
    .error (.valueError py"Could not find configuration file 'mygrate.conf' in current directory or parents") := by decide

theorem join_both (sep : Str) : ∀ (a b : List Str), a ≠ [] → b ≠ [] → join sep (a ++ b) = join sep a ++ sep ++ join sep b
  | [], _, h, _ => absurd rfl h
  | [x], b, _, h => by
    cases b with
    | nil => exact absurd rfl h
    | cons y ys => simp [join]
  | x :: y :: a, b, _, h => by
    have := join_both sep (y :: a) b (by simp) h
    rw [List.cons_append, List.cons_append, join, ← List.cons_append, this]
    simp [join]

theorem resolve_relative {fs : Files} {f : Str} (h1 : f ≠ []) (h2 : f.head? ≠ some '/') : resolve fs f =
    match (candidates (splitOn '/' (stripChars (· == '/') (fs.cwd ++ py"/" ++ f))).dropLast
      ((splitOn '/' (stripChars (· == '/') (fs.cwd ++ py"/" ++ f))).getLast?.getD [])).find? fs.isFile with
    | some p => .ok p
    | none => .error (.valueError (py"Could not find configuration file '" ++ f ++ py"' in current directory or parents")) := by
  unfold resolve
  split
  · exact absurd rfl h1
  · exact absurd rfl h2
  · rfl

/-- **C48 is false** for names with directories: `conf/mygrate.conf` is not looked for in the ancestors of the working
directory.  What is looked for is `mygrate.conf`, in `conf` within the working directory and upwards from there - whatever
there is at `conf/mygrate.conf` in the ancestors. -/
theorem C48_directory_refuted (fs : Files) (dirs sub : List Str) (name : Str) (hcwd : fs.cwd = py"/" ++ join py"/" dirs)
    (hd : ∀ d ∈ dirs, FileName d) (hs : ∀ d ∈ sub, FileName d) (hn : FileName name) (h0 : dirs ≠ [])
    (hroot : fs.isFile (pathIn [] name) = false) (p : Str) :
    resolve fs (join py"/" (sub ++ [name])) = .ok p ↔ Nearest fs (dirs ++ sub) name p := by
  have hds : ∀ d ∈ dirs ++ sub, FileName d := fun d h => (List.mem_append.mp h).elim (hd d) (hs d)
  have h0' : dirs ++ sub ≠ [] := fun e => h0 (List.append_eq_nil_iff.mp e).1
  have hpath : fs.cwd ++ py"/" ++ join py"/" (sub ++ [name]) = (py"/" ++ join py"/" (dirs ++ sub)) ++ py"/" ++ name := by
    rw [hcwd]
    have h1 := join_both py"/" dirs (sub ++ [name]) h0 (by simp)
    have h2 := join_concat py"/" (dirs ++ sub) name h0'
    rw [← List.append_assoc, h2] at h1
    simp only [List.append_assoc] at h1 ⊢
    rw [h1]
  have hhead : ∃ c cs, join py"/" (sub ++ [name]) = c :: cs ∧ c ≠ '/' := by
    have : ∀ (a : Str) (l : List Str), FileName a → ∃ c cs, join py"/" (a :: l) = c :: cs ∧ c ≠ '/' := by
      intro a l ha
      cases hj : join py"/" (a :: l) with
      | nil =>
        have := head_join (sep := py"/") (l := l) ha.1
        rw [hj] at this
        cases a with
        | nil => exact absurd rfl ha.1
        | cons _ _ => cases this
      | cons c cs =>
        have := head_join (sep := py"/") (l := l) ha.1
        rw [hj] at this
        exact ⟨c, cs, rfl, fun e => ha.2 (e ▸ List.mem_of_mem_head? this.symm)⟩
    cases sub with
    | nil => exact this name [] hn
    | cons a l => exact this a (l ++ [name]) (hs a List.mem_cons_self)
  refine Iff.trans ?_ ((C48_partial { fs with cwd := py"/" ++ join py"/" (dirs ++ sub) } (dirs ++ sub) name rfl hds hn h0' hroot).1 p)
  obtain ⟨c, cs, hc, hc'⟩ := hhead
  have hx' : name.head? ≠ some '/' := fun e => hn.2 (List.mem_of_mem_head? e)
  rw [resolve_relative (by rw [hc]; simp) (by rw [hc]; simpa using hc'), resolve_relative hn.1 hx', hpath]
  show _ ↔ (match (candidates (splitOn '/' (stripChars (· == '/') ((py"/" ++ join py"/" (dirs ++ sub)) ++ py"/" ++ name))).dropLast
      ((splitOn '/' (stripChars (· == '/') ((py"/" ++ join py"/" (dirs ++ sub)) ++ py"/" ++ name))).getLast?.getD [])).find? fs.isFile with
    | some p => Except.ok p
    | none => .error (PyErr.valueError (py"Could not find configuration file '" ++ name ++ py"' in current directory or parents"))) = .ok p
  cases (candidates (splitOn '/' (stripChars (· == '/') ((py"/" ++ join py"/" (dirs ++ sub)) ++ py"/" ++ name))).dropLast
      ((splitOn '/' (stripChars (· == '/') ((py"/" ++ join py"/" (dirs ++ sub)) ++ py"/" ++ name))).getLast?.getD [])).find? fs.isFile with
  | none => exact Iff.intro (fun h => by cases h) (fun h => by cases h)
  | some q => exact Iff.rfl

/-- `conf/mygrate.conf` is in the parent of the working directory, and another file is taken -/
example : Examples.confProject.isFile py"/home/app/conf/mygrate.conf" = true ∧
    resolve Examples.confProject py"conf/mygrate.conf" = .ok py"/home/mygrate.conf" :=
  ⟨by decide, (C48_directory_refuted Examples.confProject [py"home", py"app", py"src"] [py"conf"] py"mygrate.conf" (by decide)
    (by simp only [FileName]; decide) (by simp only [FileName]; decide) ⟨by decide, by decide⟩ (by decide) (by decide) _).mpr
    ⟨3, by decide, by decide, by decide, by decide⟩⟩

/-! ## C49 -/

/-- **C49.**  The credentials are the values of the `.env` file under the keys which are named in the configuration; there
are credentials if and only if all of these exist. -/
theorem C49_credentials (env config : Dict Str) (c : Credentials.Creds) :
    Credentials.new env config = .ok c ↔
      (∃ k, config.get? py"hostname_key" = some k ∧ env.get? k = some c.host) ∧
      (∃ k, config.get? py"database_key" = some k ∧ env.get? k = some c.database) ∧
      (∃ k, config.get? py"username_key" = some k ∧ env.get? k = some c.user) ∧
      (∃ k, config.get? py"password_key" = some k ∧ env.get? k = some c.password) := by
  have hf : ∀ key val v, Credentials.fetch config env key val = .ok v ↔ ∃ k, config.get? key = some k ∧ env.get? k = some v := by
    intro key val v
    unfold Credentials.fetch
    constructor
    · intro h
      split at h
      · cases h
      · rename_i name hname
        split at h
        · cases h
        · rename_i w hw
          cases h
          exact ⟨name, hname, hw⟩
    · rintro ⟨k, h1, h2⟩
      simp only [h1, h2]
  have hm : ∀ key v, config.get? key = some v → config.has key = true := fun key v h => Dict.has_of_get? h
  rw [← hf py"hostname_key" py"host", ← hf py"database_key" py"database", ← hf py"username_key" py"user", ← hf py"password_key" py"password"]
  unfold Credentials.new
  constructor
  · intro h
    split at h
    · cases h
    · split at h
      · cases h
      · rename_i h1
        split at h
        · cases h
        · rename_i h2
          split at h
          · cases h
          · rename_i h3
            split at h
            · cases h
            · rename_i h4
              cases h
              exact ⟨h1, h2, h3, h4⟩
  · rintro ⟨h1, h2, h3, h4⟩
    obtain ⟨k1, e1, _⟩ := (hf _ _ _).mp h1
    obtain ⟨k2, e2, _⟩ := (hf _ _ _).mp h2
    obtain ⟨k3, e3, _⟩ := (hf _ _ _).mp h3
    obtain ⟨k4, e4, _⟩ := (hf _ _ _).mp h4
    have : Credentials.missingKey config = none := by
      unfold Credentials.missingKey
      rw [List.find?_eq_none]
      intro k hk
      simp only [List.mem_cons, List.not_mem_nil, or_false] at hk
      rcases hk with rfl | rfl | rfl | rfl
      · simp [hm _ _ e1]
      · simp [hm _ _ e3]
      · simp [hm _ _ e4]
      · simp [hm _ _ e2]
    rw [this]
    simp only [h1, h2, h3, h4]

/-- **C49.**  A key which is missing in the configuration is an error which names it; so is a key which is missing in the
`.env` file. -/
theorem C49_missing (env config : Dict Str) :
    (∀ k ∈ [py"hostname_key", py"username_key", py"password_key", py"database_key"], config.get? k = none →
      ∃ k' ∈ [py"hostname_key", py"username_key", py"password_key", py"database_key"], config.get? k' = none ∧
        Credentials.new env config = .error (.valueError (py"Cannot find required key " ++ k' ++ py" in mygrate.conf"))) ∧
    (∀ h u p d, config.get? py"hostname_key" = some h → config.get? py"username_key" = some u →
      config.get? py"password_key" = some p → config.get? py"database_key" = some d →
      ∀ k ∈ [h, u, p, d], env.get? k = none → ∃ k' what, k' ∈ [h, u, p, d] ∧ env.get? k' = none ∧
        Credentials.new env config = .error (.valueError (py"Failed to fulfill " ++ what ++ py": key " ++ k' ++ py" not found in .env"))) := by
  constructor
  · intro k hk hnone
    cases hm : Credentials.missingKey config with
    | none =>
      unfold Credentials.missingKey at hm
      rw [List.find?_eq_none] at hm
      have := hm k hk
      rw [Bool.not_eq_true', Bool.not_eq_false, Dict.has_iff] at this
      obtain ⟨v, hv⟩ := Dict.exists_get? this
      rw [hnone] at hv
      cases hv
    | some k' =>
      refine ⟨k', List.mem_of_find?_eq_some hm, ?_, by unfold Credentials.new; rw [hm]⟩
      have := List.find?_some hm
      rw [Bool.not_eq_true', Dict.has_eq_false] at this
      exact Dict.get?_eq_none.mpr this
  · intro h u p d e1 e2 e3 e4 k hk hnone
    have hm : Credentials.missingKey config = none := by
      unfold Credentials.missingKey
      rw [List.find?_eq_none]
      intro k hk
      simp only [List.mem_cons, List.not_mem_nil, or_false] at hk
      rcases hk with rfl | rfl | rfl | rfl
      · simp [Dict.has_of_get? e1]
      · simp [Dict.has_of_get? e2]
      · simp [Dict.has_of_get? e3]
      · simp [Dict.has_of_get? e4]
    have hf : ∀ key val name, config.get? key = some name → Credentials.fetch config env key val =
        match env.get? name with
        | none => .error (.valueError (py"Failed to fulfill " ++ val ++ py": key " ++ name ++ py" not found in .env"))
        | some v => .ok v := fun key val name e => by unfold Credentials.fetch; rw [e]; rfl
    unfold Credentials.new
    rw [hm, hf _ _ _ e1, hf _ _ _ e2, hf _ _ _ e3, hf _ _ _ e4]
    cases g1 : env.get? h with
    | none => exact ⟨h, _, by simp, g1, rfl⟩
    | some _ =>
      cases g4 : env.get? d with
      | none => exact ⟨d, _, by simp, g4, rfl⟩
      | some _ =>
        cases g2 : env.get? u with
        | none => exact ⟨u, _, by simp, g2, rfl⟩
        | some _ =>
          cases g3 : env.get? p with
          | none => exact ⟨p, _, by simp, g3, rfl⟩
          | some _ =>
            simp only [List.mem_cons, List.not_mem_nil, or_false] at hk
            rcases hk with rfl | rfl | rfl | rfl <;> simp_all

example : Credentials.new [(py"H", py"db"), (py"U", py"me"), (py"D", py"shop")]
    [(py"hostname_key", py"H"), (py"username_key", py"U"), (py"password_key", py"P"), (py"database_key", py"D")] =
    .error (.valueError py"Failed to fulfill password: key P not found in .env") := by decide

theorem dirname_file {dir name : Str} (hdir : ∀ c, dir.getLast? = some c → c ≠ '/') (hd : dir ≠ []) (hn : '/' ∉ name) :
    dirname (dir ++ py"/" ++ name) = dir := by
  have e : ((dir ++ py"/" ++ name).reverse.dropWhile (· ≠ '/')).reverse = dir ++ ['/'] := by
    rw [List.reverse_append, List.dropWhile_append_of_pos (fun x hx => by
      rw [List.mem_reverse] at hx
      rw [decide_eq_true_iff]
      exact fun e => hn (e ▸ hx))]
    rw [List.reverse_append]
    simp
  unfold dirname
  simp only [e]
  obtain ⟨w, c, rfl⟩ : ∃ w c, dir = w ++ [c] := ⟨dir.dropLast, dir.getLast hd, (List.dropLast_concat_getLast hd).symm⟩
  have hc : c ≠ '/' := hdir c (by rw [List.getLast?_concat])
  rw [if_neg (by simp [hc])]
  simp [hc]

theorem resolve_found {fs : Files} {given p : Str} (h : Found fs given p) : resolve fs given = .ok p := by
  cases h with
  | absolute hp h =>
    obtain ⟨xs, rfl⟩ : ∃ xs, given = '/' :: xs := by
      cases given with
      | nil => cases hp
      | cons x xs => exact ⟨xs, by rw [Option.some.inj hp]⟩
    rw [C48_absolute, h]; rfl
  | nearest hcwd hd hn h0 h hroot =>
    rename_i dirs
    obtain ⟨i, h1, h2, h3, h4⟩ := h
    have hi : i < dirs.length := by
      rcases Nat.lt_or_ge i dirs.length with h | h
      · exact h
      · have : i = dirs.length := Nat.le_antisymm h1 h
        subst this
        rw [Nat.sub_self, List.take_zero] at h2
        exact absurd h2 hroot
    rw [resolve_name hcwd hd hn h0, (find_range _ _ _ _).mpr ⟨i, hi, h2, h3, h4⟩]

theorem get_items (is : List EnvItem) (k : Str) : Dict.get? (is.foldl add []) k = lastValue (EnvItem.entries is) k := by
  rw [foldl_add]; simp [Dict.get?]

theorem lastValue_ne {is : List EnvItem} (his : ∀ i ∈ is, i.Ok) {k v : Str} (h : lastValue (EnvItem.entries is) k = some v) : v ≠ [] := by
  unfold lastValue at h
  obtain ⟨e, he, rfl⟩ := Option.map_eq_some_iff.mp h
  have hm := List.mem_of_find?_eq_some he
  rw [List.mem_reverse] at hm
  unfold EnvItem.entries at hm
  obtain ⟨i, hi, hie⟩ := List.mem_filterMap.mp hm
  cases i with
  | entry l => cases hie; exact (his _ hi).1.value_nonempty
  | blank s => cases hie
  | remark i s => cases hie

theorem load_file {fs : Files} {given dir name text : Str} {d : Dict Str} {dotenvFile sqlDir : Str}
    (hdir : dir.head? = some '/' ∧ ∀ c, dir.getLast? = some c → c ≠ '/') (hname : FileName name)
    (hfound : Found fs given (dir ++ py"/" ++ name))
    (hconf : fs.contents (dir ++ py"/" ++ name) = some text) (hparse : Dotenv.parse text = .ok d)
    (hsql : d.get? py"files_directory" = some sqlDir) (hsql0 : sqlDir ≠ [])
    (hfile : d.get? py"env_file" = some dotenvFile) (hfile0 : dotenvFile ≠ []) :
    load fs given = .ok (Dict.set (Dict.set d py"files_directory" (besides dir sqlDir)) py"env_file" (besides dir dotenvFile)) := by
  have hdne : dir ≠ [] := fun e => by rw [e] at hdir; cases hdir.1
  have hrelTo : ∀ r, r ≠ [] → relativeTo r (dir ++ py"/" ++ name) = .ok (besides dir r) := by
    intro r hr
    unfold relativeTo besides
    split
    · exact absurd rfl hr
    · rfl
    · rename_i _ hh
      rw [dirname_file hdir.2 hdne hname.2, if_neg (fun e => by
        cases r with
        | nil => exact hr rfl
        | cons x xs => exact hh xs (by rw [Option.some.inj e]))]
  unfold load
  rw [resolve_found hfound]
  simp only [Files.dotenv, hconf, Option.getD_some, hparse, hsql, hrelTo _ hsql0]
  rw [Dict.get?_set, if_neg (by decide), hfile]
  simp only [hrelTo _ hfile0]

theorem load_items {fs : Files} {given dir name : Str} {conf : List EnvItem} {dotenvFile sqlDir : Str}
    (hdir : dir.head? = some '/' ∧ ∀ c, dir.getLast? = some c → c ≠ '/') (hname : FileName name)
    (hfound : Found fs given (dir ++ py"/" ++ name))
    (hconf : fs.contents (dir ++ py"/" ++ name) = some (envText conf)) (hconfOk : ∀ i ∈ conf, i.Ok)
    (hsql : lastValue (EnvItem.entries conf) py"files_directory" = some sqlDir)
    (hfile : lastValue (EnvItem.entries conf) py"env_file" = some dotenvFile) :
    load fs given = .ok (Dict.set (Dict.set (conf.foldl add []) py"files_directory" (besides dir sqlDir)) py"env_file" (besides dir dotenvFile)) :=
  load_file hdir hname hfound hconf (parse_items conf hconfOk) ((get_items conf _).trans hsql) (lastValue_ne hconfOk hsql)
    ((get_items conf _).trans hfile) (lastValue_ne hconfOk hfile)

/-- **C49.**  From the files themselves: with a configuration file and a `.env` file made of entries, blank lines and
comments, the credentials are the last values written in the `.env` file for the names given (last) in the configuration
file; a relative `env_file` is found next to the configuration file. -/
theorem C49_files_partial (fs : Files) (given dir name : Str) (conf env : List EnvItem) (dotenvFile sqlDir : Str)
    (kh kd ku kp : Str) (c : Credentials.Creds)
    (hdir : dir.head? = some '/' ∧ ∀ c, dir.getLast? = some c → c ≠ '/') (hname : FileName name)
    (hfound : Found fs given (dir ++ py"/" ++ name))
    (hconf : fs.contents (dir ++ py"/" ++ name) = some (envText conf)) (hconfOk : ∀ i ∈ conf, i.Ok)
    (hsql : lastValue (EnvItem.entries conf) py"files_directory" = some sqlDir)
    (hfile : lastValue (EnvItem.entries conf) py"env_file" = some dotenvFile)
    (henv : fs.contents (besides dir dotenvFile) = some (envText env)) (henvOk : ∀ i ∈ env, i.Ok)
    (h1 : lastValue (EnvItem.entries conf) py"hostname_key" = some kh) (v1 : lastValue (EnvItem.entries env) kh = some c.host)
    (h2 : lastValue (EnvItem.entries conf) py"database_key" = some kd) (v2 : lastValue (EnvItem.entries env) kd = some c.database)
    (h3 : lastValue (EnvItem.entries conf) py"username_key" = some ku) (v3 : lastValue (EnvItem.entries env) ku = some c.user)
    (h4 : lastValue (EnvItem.entries conf) py"password_key" = some kp) (v4 : lastValue (EnvItem.entries env) kp = some c.password) :
    Config.credentials fs given = .ok c := by
  have henv' : fs.dotenv (besides dir dotenvFile) = .ok (env.foldl add []) := by
    unfold Files.dotenv
    rw [henv, Option.getD_some, parse_items env henvOk]
  unfold Config.credentials
  rw [load_items hdir hname hfound hconf hconfOk hsql hfile]
  simp only [Dict.get?_set, if_true, henv']
  have hnew : Credentials.new (env.foldl add [])
      (Dict.set (Dict.set (conf.foldl add []) py"files_directory" (besides dir sqlDir)) py"env_file" (besides dir dotenvFile)) = .ok c := by
    rw [C49_credentials]
    refine ⟨⟨kh, ?_, ?_⟩, ⟨kd, ?_, ?_⟩, ⟨ku, ?_, ?_⟩, ⟨kp, ?_, ?_⟩⟩
    all_goals first
      | (rw [get_items]; assumption)
      | (rw [Dict.get?_set, if_neg (by decide), Dict.get?_set, if_neg (by decide), get_items]; assumption)
  rw [hnew]

theorem splitLine_plain {s : Str} (h : ∀ c ∈ s, c ≠ '=' ∧ c ≠ ':') : splitLine s = none := by
  have hd : s.dropWhile (fun c => decide (c ≠ '=' ∧ c ≠ ':')) = [] := by
    have := List.dropWhile_append_of_pos (l₂ := []) (fun c hc => decide_eq_true (h c hc))
    rwa [List.append_nil] at this
  unfold splitLine
  rw [hd]
  cases s.takeWhile (fun c => decide (c ≠ '=' ∧ c ≠ ':')) <;> rfl

/-- **C49.**  If there is no `.env` file where the configuration says, there are no credentials, but an error.  Missing:
paths with line breaks, `=` or `:`. -/
theorem C49_no_file_partial (fs : Files) (given dir name : Str) (conf : List EnvItem) (dotenvFile sqlDir : Str)
    (hdir : dir.head? = some '/' ∧ ∀ c, dir.getLast? = some c → c ≠ '/') (hname : FileName name)
    (hfound : Found fs given (dir ++ py"/" ++ name))
    (hconf : fs.contents (dir ++ py"/" ++ name) = some (envText conf)) (hconfOk : ∀ i ∈ conf, i.Ok)
    (hsql : lastValue (EnvItem.entries conf) py"files_directory" = some sqlDir)
    (hfile : lastValue (EnvItem.entries conf) py"env_file" = some dotenvFile)
    (hnone : fs.contents (besides dir dotenvFile) = none)
    (hplain : ∀ c ∈ besides dir dotenvFile, c ≠ '=' ∧ c ≠ ':' ∧ c ≠ '\n') :
    Config.credentials fs given = .error (.syntaxError (besides dir dotenvFile)) := by
  have hhead : (besides dir dotenvFile).head? = some '/' := by
    unfold besides
    split
    · assumption
    · cases dir with
      | nil => cases hdir.1
      | cons x xs => exact hdir.1
  have hparse : Dotenv.parse (besides dir dotenvFile) = .error (.syntaxError (besides dir dotenvFile)) := by
    revert hplain hhead
    generalize besides dir dotenvFile = p
    intro hplain hhead
    obtain ⟨xs, rfl⟩ : ∃ xs, p = '/' :: xs := by
      cases p with
      | nil => cases hhead
      | cons x xs => exact ⟨xs, by rw [Option.some.inj hhead]⟩
    have hsplit : splitOn '\n' ('/' :: xs) = ['/' :: xs] := splitOn_line (fun m => (hplain _ m).2.2 rfl)
    have hstrip : strip ('/' :: xs) = '/' :: rstrip xs := by
      rw [strip_cons_char (by decide), rstrip_cons, if_neg (fun h => absurd h.2 (by decide))]
    have hsub : ∀ c ∈ '/' :: rstrip xs, c ∈ '/' :: xs := fun c hc => by
      rcases List.mem_cons.mp hc with rfl | hc
      · exact List.mem_cons_self
      · exact List.mem_cons_of_mem _ (mem_of_rstrip hc)
    have hnj : Json.loads ('/' :: xs) = none :=
      Json.loads_line (w := []) (c := '/') (y := '/') (fun _ h => by cases h) (by decide) (by decide) List.mem_cons_self (by decide) (by decide)
    rw [Dotenv.parse_lines hnj, hsplit]
    unfold parseLines parseLine
    simp only [hstrip]
    rw [if_neg (by simp), if_neg (by simp), splitLine_plain (fun c hc => ⟨(hplain c (hsub c hc)).1, (hplain c (hsub c hc)).2.1⟩)]
  unfold Config.credentials
  rw [load_items hdir hname hfound hconf hconfOk hsql hfile]
  simp only [Dict.get?_set, if_true, Files.dotenv, hnone, Option.getD_none, hparse]

/-- **C74.**  The directory with the SQL files is the one which the configuration file names (last); a relative one is
found next to the configuration file. -/
theorem C74_directory_partial (fs : Files) (given dir name : Str) (conf : List EnvItem) (dotenvFile sqlDir : Str)
    (hdir : dir.head? = some '/' ∧ ∀ c, dir.getLast? = some c → c ≠ '/') (hname : FileName name)
    (hfound : Found fs given (dir ++ py"/" ++ name))
    (hconf : fs.contents (dir ++ py"/" ++ name) = some (envText conf)) (hconfOk : ∀ i ∈ conf, i.Ok)
    (hsql : lastValue (EnvItem.entries conf) py"files_directory" = some sqlDir)
    (hfile : lastValue (EnvItem.entries conf) py"env_file" = some dotenvFile) :
    Config.sqlFiles fs given = .ok (besides dir sqlDir) := by
  unfold Config.sqlFiles
  rw [load_items hdir hname hfound hconf hconfOk hsql hfile]
  simp only [Dict.get?_set]
  rfl

/-- **C49 is false** for empty values: whatever the files hold otherwise, a password which is given, and empty, counts as
missing. -/
theorem C49_empty_refuted (fs : Files) (given dir name : Str) (conf before after : List EnvItem) (dotenvFile sqlDir : Str)
    (kh kd ku kp line : Str) (host database user : Str)
    (hdir : dir.head? = some '/' ∧ ∀ c, dir.getLast? = some c → c ≠ '/') (hname : FileName name)
    (hfound : Found fs given (dir ++ py"/" ++ name))
    (hconf : fs.contents (dir ++ py"/" ++ name) = some (envText conf)) (hconfOk : ∀ i ∈ conf, i.Ok)
    (hsql : lastValue (EnvItem.entries conf) py"files_directory" = some sqlDir)
    (hfile : lastValue (EnvItem.entries conf) py"env_file" = some dotenvFile)
    (henv : fs.contents (besides dir dotenvFile) = some (join py"\n" (before.map EnvItem.text ++ line :: after.map EnvItem.text)))
    (hbefore : ∀ i ∈ before, i.Ok) (hafter : ∀ i ∈ after, i.Ok)
    (hk : EnvKey kp) (hkj : kp.head? ≠ some '"' ∧ kp.head? ≠ some '{' ∧ kp.head? ≠ some '[') (hkn : '\n' ∉ kp) (hline : line = kp ++ py"=" ∨ line = kp ++ py"=''" ∨ line = kp ++ py"=\"\"")
    (h1 : lastValue (EnvItem.entries conf) py"hostname_key" = some kh) (v1 : lastValue (EnvItem.entries (before ++ after)) kh = some host)
    (h2 : lastValue (EnvItem.entries conf) py"database_key" = some kd) (v2 : lastValue (EnvItem.entries (before ++ after)) kd = some database)
    (h3 : lastValue (EnvItem.entries conf) py"username_key" = some ku) (v3 : lastValue (EnvItem.entries (before ++ after)) ku = some user)
    (h4 : lastValue (EnvItem.entries conf) py"password_key" = some kp) (v4 : lastValue (EnvItem.entries (before ++ after)) kp = none) :
    Config.credentials fs given =
      .error (.python (.valueError (py"Failed to fulfill password: key " ++ kp ++ py" not found in .env"))) := by
  have hok : ∀ i ∈ before ++ after, i.Ok := fun i hi => (List.mem_append.mp hi).elim (hbefore i) (hafter i)
  have hnl : '\n' ∉ line := by rcases hline with e | e | e <;> rw [e] <;> simp [hkn]
  have hparse : parse (join ['\n'] (before.map EnvItem.text ++ line :: after.map EnvItem.text)) = .ok ((before ++ after).foldl add []) := by
    rw [C47_empty_refuted kp hk hkj line (by
      rcases hline with e | e | e
      · exact Or.inl e
      · exact Or.inr ⟨'\'', [], Or.inl rfl, e⟩
      · exact Or.inr ⟨'"', [], Or.inr rfl, e⟩) hnl before after hbefore hafter]
    exact parse_items _ hok
  have henv' : fs.dotenv (besides dir dotenvFile) = .ok ((before ++ after).foldl add []) := by
    unfold Files.dotenv
    rw [henv, Option.getD_some]
    exact hparse
  have hget : ∀ key v, key ≠ py"files_directory" → key ≠ py"env_file" → lastValue (EnvItem.entries conf) key = some v →
      (Dict.set (Dict.set (conf.foldl add []) py"files_directory" (besides dir sqlDir)) py"env_file" (besides dir dotenvFile)).get? key = some v := by
    intro key v n1 n2 h
    rw [Dict.get?_set, if_neg (Ne.symm n2), Dict.get?_set, if_neg (Ne.symm n1), get_items]
    exact h
  unfold Config.credentials
  rw [load_items hdir hname hfound hconf hconfOk hsql hfile]
  have e1 := hget _ _ (by decide) (by decide) h1
  have e2 := hget _ _ (by decide) (by decide) h2
  have e3 := hget _ _ (by decide) (by decide) h3
  have e4 := hget _ _ (by decide) (by decide) h4
  simp only [Dict.get?_set _ py"env_file" _ py"env_file", if_true, henv']
  have hm : Credentials.missingKey (Dict.set (Dict.set (conf.foldl add []) py"files_directory" (besides dir sqlDir)) py"env_file" (besides dir dotenvFile)) = none := by
    unfold Credentials.missingKey
    rw [List.find?_eq_none]
    intro k hk
    simp only [List.mem_cons, List.not_mem_nil, or_false] at hk
    rcases hk with rfl | rfl | rfl | rfl
    · rw [Dict.has_of_get? e1]; decide
    · rw [Dict.has_of_get? e3]; decide
    · rw [Dict.has_of_get? e4]; decide
    · rw [Dict.has_of_get? e2]; decide
  unfold Credentials.new Credentials.fetch
  simp only [hm, e1, e2, e3, e4, get_items, v1, v2, v3, v4]
  rfl

namespace Examples

/-- an entry made of letters, digits and the like -/
def plainEntry (e : Str × Str) : EnvItem := .entry { key := e.1, value := e.2 }

theorem plainEntry_ok {es : List (Str × Str)}
    (h : es.all (fun e => !e.1.isEmpty && !e.2.isEmpty && e.1.all isWord && e.2.all (fun c => isWord c || c == '.')) = true) :
    ∀ i ∈ es.map plainEntry, i.Ok := by
  intro i hi
  obtain ⟨⟨k, v⟩, he, rfl⟩ := List.mem_map.mp hi
  have := List.all_eq_true.mp h _ he
  simp only [Bool.and_eq_true, Bool.not_eq_true', List.isEmpty_eq_false_iff, List.all_eq_true] at this
  obtain ⟨⟨⟨hk0, hv0⟩, hk⟩, hv⟩ := this
  have ht : ∀ (s : Str), (∀ c ∈ s, isSpace c = false) → Trimmed s := fun s h =>
    ⟨fun c hc => h c (List.mem_of_mem_head? hc), fun c hc => h c (List.mem_of_getLast? hc)⟩
  have hw : ∀ c, isWord c = true → isSpace c = false := fun c hc => by
    cases hs : isSpace c
    · rfl
    · exact absurd hc (by
        simp only [isSpace, Bool.or_eq_true, Bool.and_eq_true, decide_eq_true_eq, beq_iff_eq] at hs
        simp only [isWord, isDigit, Bool.or_eq_true, Bool.and_eq_true, decide_eq_true_eq, beq_iff_eq, Char.le_def, UInt32.le_iff_toNat_le]
        have hn : c = '_' → c.toNat = 95 := fun e => by rw [e]; rfl
        have : ∀ d : Char, d.val.toNat = d.toNat := fun _ => rfl
        simp only [this]
        have e1 : ('a').toNat = 97 := rfl
        have e2 : ('z').toNat = 122 := rfl
        have e3 : ('A').toNat = 65 := rfl
        have e4 : ('Z').toNat = 90 := rfl
        have e5 : ('0').toNat = 48 := rfl
        have e6 : ('9').toNat = 57 := rfl
        rw [e1, e2, e3, e4, e5, e6]
        intro hh
        rcases hh with ((hh | hh) | hh) | hh
        · omega
        · omega
        · omega
        · have := hn hh; omega)
  have hv' : ∀ c ∈ v, isSpace c = false := fun c hc => by
    have := hv c hc
    simp only [Bool.or_eq_true, beq_iff_eq] at this
    rcases this with h | h
    · exact hw c h
    · exact h ▸ (by decide)
  have no : ∀ (c : Char), isWord c = false → c ∉ k := fun c hc m => by rw [hk c m] at hc; cases hc
  have nov : ∀ (c : Char), (isWord c || c == '.') = false → c ∉ v := fun c hc m => by rw [hv c m] at hc; cases hc
  refine ⟨?_, by simp, fun e => no '"' (by decide) (List.mem_of_mem_head? e), fun e => no '{' (by decide) (List.mem_of_mem_head? e),
    fun e => no '[' (by decide) (List.mem_of_mem_head? e)⟩
  exact {
    key_nonempty := hk0
    key_trimmed := ht k (fun c hc => hw c (hk c hc))
    key_plain := ⟨no _ (by decide), no _ (by decide), no _ (by decide)⟩
    key_comment := fun e => no '#' (by decide) (List.mem_of_mem_head? e)
    separator := Or.inl rfl
    blanks := by simp [Space]
    one_line := ⟨nov _ (by decide), fun c h => by cases h⟩
    comment_end := fun c h => (by cases h)
    value_nonempty := hv0
    bare := fun _ => ⟨ht v hv', nov _ (by decide), nov _ (by decide), nov _ (by decide)⟩
    quoted := fun q s h => (by cases h) }

def confEntries : List (Str × Str) :=
  [(py"hostname_key", py"H"), (py"username_key", py"U"), (py"password_key", py"P"), (py"database_key", py"D"),
   (py"files_directory", py"database"), (py"env_file", py".env")]

def envEntries : List (Str × Str) := [(py"H", py"db.local"), (py"U", py"you"), (py"D", py"shop"), (py"P", py"secret"), (py"U", py"me")]

/-- a configuration file and a `.env` file -/
def server : Files where
  cwd := py"/srv"
  contents p :=
    if p = py"/srv/mygrate.conf" then some (envText (confEntries.map plainEntry))
    else if p = py"/srv/.env" then some (envText (envEntries.map plainEntry)) else none

end Examples

example : Config.credentials Examples.server py"/srv/mygrate.conf" =
    .ok { host := py"db.local", database := py"shop", user := py"me", password := py"secret" } :=
  C49_files_partial Examples.server _ py"/srv" py"mygrate.conf" _ _ py".env" py"database" py"H" py"D" py"U" py"P"
    { host := py"db.local", database := py"shop", user := py"me", password := py"secret" }
    ⟨rfl, by simp⟩ ⟨by decide, by decide⟩ (.absolute rfl rfl) rfl (Examples.plainEntry_ok (by decide)) (by decide) (by decide) rfl
    (Examples.plainEntry_ok (by decide)) (by decide) (by decide) (by decide) (by decide) (by decide) (by decide) (by decide) (by decide)

namespace Examples

/-- a `.env` file with an empty password -/
def openServer : Files where
  cwd := py"/srv"
  contents p :=
    if p = py"/srv/mygrate.conf" then some (envText (confEntries.map plainEntry))
    else if p = py"/srv/.env" then some py"H=db.local\nP=''\nU=you\nD=shop" else none

end Examples

example : Config.credentials Examples.openServer py"/srv/mygrate.conf" =
    .error (.python (.valueError py"Failed to fulfill password: key P not found in .env")) :=
  C49_empty_refuted Examples.openServer _ py"/srv" py"mygrate.conf" _ ([(py"H", py"db.local")].map Examples.plainEntry)
    ([(py"U", py"you"), (py"D", py"shop")].map Examples.plainEntry) py".env" py"database" py"H" py"D" py"U" py"P" py"P=''"
    py"db.local" py"shop" py"you"
    ⟨rfl, by simp⟩ ⟨by decide, by decide⟩ (.absolute rfl rfl) rfl (Examples.plainEntry_ok (by decide)) (by decide) (by decide) rfl
    (Examples.plainEntry_ok (by decide)) (Examples.plainEntry_ok (by decide)) (by simp [EnvKey, Trimmed]; decide) (by decide) (by decide) (by decide)
    (by decide) (by decide) (by decide) (by decide) (by decide) (by decide) (by decide) (by decide)

end Mygrations

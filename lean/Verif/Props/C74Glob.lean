import Verif.Props.C74
import Verif.Props.C64

/-!
# C74: the files of a directory whose path has brackets are not found

The path of the directory is given to `glob` as it is, so that `[x]` in it stands for `x`.
-/

namespace Mygrations
open Dotenv Config Glob

/-! ## Specification -/

/-- the path of an entry of a directory -/
def entryPath (dir name : Str) : Str := if dir = py"/" then py"/" ++ name else dir ++ py"/" ++ name

/-- `p` is the directory `top`, or a directory somewhere below it -/
inductive Below (top : Str) : Str → Prop
  | here : Below top top
  | down {p : Str} (name : Str) : Below top p → '/' ∉ name → name ≠ [] → Below top (p ++ py"/" ++ name)

/-! ## Proofs -/

theorem translate_plain : ∀ (v : Str) (n : Nat), v.length ≤ n → PlainPath v → translate n v = v.map .lit
  | [], n, _, _ => by cases n <;> rfl
  | c :: cs, n, hn, hp => by
    cases n with
    | zero => cases hn
    | succ n =>
      obtain ⟨h1, h2, h3⟩ := hp c (List.mem_cons_self ..)
      rw [translate.eq_3, if_neg h1, if_neg h2, if_neg h3, translate_plain cs n (Nat.le_of_succ_le_succ hn) (fun c hc => hp c (List.mem_cons_of_mem _ hc))]
      rfl

theorem matches_lits : ∀ (v : Str) (s : Str), matches? (v.map .lit) s = true ↔ s = v
  | [], s => by cases s <;> simp [matches?]
  | c :: cs, s => by
    cases s with
    | nil => simp [matches?]
    | cons a s =>
      simp only [List.map_cons, matches?, Bool.and_eq_true, beq_iff_eq, List.cons.injEq, matches_lits cs s]

theorem matches_append_lits : ∀ (u : Str) (ts : List Tok) (s : Str), matches? (u.map .lit ++ ts) s = true ↔ ∃ r, s = u ++ r ∧ matches? ts r = true
  | [], ts, s => by simp
  | c :: cs, ts, s => by
    cases s with
    | nil => simp [matches?]
    | cons a s =>
      simp only [List.map_cons, matches?, Bool.and_eq_true, beq_iff_eq, matches_append_lits cs ts s, List.cons_append, List.cons.injEq]
      constructor
      · rintro ⟨rfl, r, h1, h2⟩
        exact ⟨r, ⟨rfl, h1⟩, h2⟩
      · rintro ⟨r, ⟨rfl, h1⟩, h2⟩
        exact ⟨rfl, r, h1, h2⟩

theorem closeSet_one {x : Char} (h1 : x ≠ '!') (h2 : x ≠ ']') (v : Str) : closeSet (x :: ']' :: v) = some ([x], v) := by
  unfold closeSet
  split
  · rename_i h; exact absurd (List.cons.inj h).1 h1
  · rename_i h; exact absurd (List.cons.inj h).1 h2
  · simp [List.span, List.span.loop, h2]

theorem translate_append : ∀ (u : Str) (n : Nat) (s : Str), u.length ≤ n → PlainPath u → translate n (u ++ s) = u.map .lit ++ translate (n - u.length) s
  | [], n, s, _, _ => by simp
  | c :: cs, n, s, hn, hp => by
    cases n with
    | zero => cases hn
    | succ n =>
      obtain ⟨h1, h2, h3⟩ := hp c (List.mem_cons_self ..)
      rw [List.cons_append, translate.eq_3, if_neg h1, if_neg h2, if_neg h3, translate_append cs n s (Nat.le_of_succ_le_succ hn) (fun c hc => hp c (List.mem_cons_of_mem _ hc))]
      rw [List.length_cons, Nat.succ_sub_succ]
      rfl

theorem fnmatch_bracket {u v : Str} {x : Char} (hu : PlainPath u) (hv : PlainPath v) (h1 : x ≠ '!') (h2 : x ≠ ']') (n : Str) :
    fnmatch n (u ++ '[' :: x :: ']' :: v) = true ↔ n = u ++ x :: v := by
  unfold fnmatch
  rw [translate_append u _ _ (by rw [List.length_append]; omega) hu, matches_append_lits]
  have hlen : (u ++ '[' :: x :: ']' :: v).length - u.length = v.length + 2 + 1 := by
    rw [List.length_append]
    simp only [List.length_cons]
    omega
  have ht : translate (v.length + 2 + 1) ('[' :: x :: ']' :: v) = .set false [(x, x)] :: v.map .lit := by
    rw [translate.eq_3, if_neg (by decide), if_neg (by decide), if_pos rfl, closeSet_one h1 h2]
    simp only
    rw [translate_plain v _ (by omega) hv]
    congr 1
    split
    · rename_i h
      exact absurd (List.cons.inj h).1 h1
    · rfl
  rw [hlen, ht]
  constructor
  · rintro ⟨r, rfl, h⟩
    cases r with
    | nil => simp [matches?] at h
    | cons a r =>
      simp only [matches?, List.any_cons, List.any_nil, Bool.or_false, Bool.and_eq_true, bne_iff_ne, ne_eq, Bool.false_eq, Bool.not_eq_false, decide_eq_true_eq, matches_lits] at h
      rw [h.2, show a = x from Char.toNat_inj.mp (by omega)]
  · rintro rfl
    refine ⟨_, rfl, ?_⟩
    simp [matches?, matches_lits]

theorem hasMagic_of_mem {p : Str} (h : '[' ∈ p) : hasMagic p = true := by
  unfold hasMagic
  rw [List.any_eq_true]
  exact ⟨_, h, by decide⟩

theorem splitPath_entry {dir name : Str} (hd : dir = py"/" ∨ dir ≠ [] ∧ dir.getLast? ≠ some '/') (hn : '/' ∉ name) : splitPath (entryPath dir name) = (dir, name) := by
  unfold entryPath
  split
  · rename_i h
    subst h
    have h2 : (List.takeWhile (fun x => decide (x ≠ '/')) (py"/" ++ name).reverse) = name.reverse := by
      rw [List.reverse_append, List.takeWhile_append_of_pos (fun x hx => by
        rw [List.mem_reverse] at hx
        rw [decide_eq_true_iff]
        exact fun e => hn (e ▸ hx))]
      simp
    have h1 : (List.dropWhile (fun x => decide (x ≠ '/')) (py"/" ++ name).reverse) = py"/" := by
      rw [List.reverse_append, List.dropWhile_append_of_pos (fun x hx => by
        rw [List.mem_reverse] at hx
        rw [decide_eq_true_iff]
        exact fun e => hn (e ▸ hx))]
      simp
    unfold splitPath
    simp only [h1, h2]
    simp
  · rename_i h
    have := hd.resolve_left h
    exact splitPath_file this.1 this.2 hn

/-- nothing is found below a path which nothing matches -/
theorem iglob_below {disk : Disk} {p name : Str} (hm : '[' ∈ p) (hp : p ≠ []) (hl : p.getLast? ≠ some '/') (hn : '/' ∉ name)
    (h : ∀ n, disk.iglob n p true = []) (n : Nat) (b : Bool) : disk.iglob n (p ++ py"/" ++ name) b = [] := by
  cases n with
  | zero => rfl
  | succ n =>
    have hm' : hasMagic (p ++ py"/" ++ name) = true := hasMagic_of_mem (by simp [hm])
    have hne : p ≠ p ++ py"/" ++ name := by
      intro e
      have := congrArg List.length e
      simp at this
    unfold Disk.iglob
    rw [splitPath_file hp hl hn]
    simp only [hm', Bool.not_true, Bool.false_eq_true, if_false, hp]
    rw [if_pos ⟨hne, hasMagic_of_mem hm⟩, h]
    rfl

theorem iglob_bracket {disk : Disk} {parent u v : Str} {x : Char} {names : List Str} (hd : parent = py"/" ∨ parent ≠ [] ∧ parent.getLast? ≠ some '/')
    (hp : PlainPath parent) (hu : PlainPath u) (hv : PlainPath v) (hs : '/' ∉ u ++ '[' :: x :: ']' :: v) (h1 : x ≠ '!') (h2 : x ≠ ']')
    (hnames : disk.listdir parent = some names) (hno : u ++ x :: v ∉ names) (n : Nat) (b : Bool) :
    disk.iglob n (entryPath parent (u ++ '[' :: x :: ']' :: v)) b = [] := by
  cases n with
  | zero => rfl
  | succ n =>
    have hm : hasMagic (entryPath parent (u ++ '[' :: x :: ']' :: v)) = true := hasMagic_of_mem (by unfold entryPath; split <;> simp)
    have hpne : parent ≠ [] := by
      rcases hd with rfl | h
      · simp
      · exact h.1
    unfold Disk.iglob
    rw [splitPath_entry hd hs]
    simp only [hm, Bool.not_true, Bool.false_eq_true, if_false, hpne, hasMagic_plain hp, and_false, List.flatMap_cons, List.flatMap_nil, List.append_nil]
    rw [if_pos (hasMagic_of_mem (by simp))]
    unfold Disk.glob1
    rw [hnames, Option.getD_some, List.filter_eq_nil_iff.mpr]
    · rfl
    · intro y hy
      simp only [Bool.and_eq_true, not_and]
      intro _ hf
      rw [fnmatch_bracket hu hv h1 h2] at hf
      exact hno (hf ▸ hy)

theorem below_nothing {disk : Disk} {top p : Str} (hb : Below top p) (hm : '[' ∈ top) (hne : top ≠ []) (hl : top.getLast? ≠ some '/')
    (h : ∀ n b, disk.iglob n top b = []) : '[' ∈ p ∧ p ≠ [] ∧ p.getLast? ≠ some '/' ∧ ∀ n b, disk.iglob n p b = [] := by
  induction hb with
  | here => exact ⟨hm, hne, hl, h⟩
  | down name _ hs hn ih =>
    obtain ⟨i1, i2, i3, i4⟩ := ih
    refine ⟨by simp [i1], by simp, ?_, fun n b => iglob_below i1 i2 i3 hs (fun n => i4 n true) n b⟩
    rw [List.getLast?_append]
    intro e
    obtain ⟨z, hz⟩ : ∃ z, name.getLast? = some z := by
      cases hz : name.getLast? with
      | none => exact absurd (List.getLast?_eq_none_iff.mp hz) hn
      | some z => exact ⟨z, rfl⟩
    rw [hz, Option.some_or] at e
    cases e
    exact hs (List.mem_of_getLast? hz)

/-! ## Theorems -/

/-- **C74 is false** for the directories whose path has brackets with one character between them.  Let `parent` be a directory,
with an entry `u[x]v`.  Unless there is an entry `uxv` besides it, no SQL file of this directory, and of no directory below
it, is read, whatever the files are. -/
theorem C74_brackets_refuted (disk : Disk) (parent u v p : Str) (x : Char) (names : List Str)
    (hd : parent = py"/" ∨ parent ≠ [] ∧ parent.getLast? ≠ some '/') (hp : PlainPath parent) (hu : PlainPath u) (hv : PlainPath v)
    (hs : '/' ∉ u ++ '[' :: x :: ']' :: v) (h1 : x ≠ '!') (h2 : x ≠ ']')
    (hnames : disk.listdir parent = some names) (hno : u ++ x :: v ∉ names)
    (hb : Below (entryPath parent (u ++ '[' :: x :: ']' :: v)) p) (hdir : disk.isDir p = true) :
    disk.process p = [] := by
  have htop := iglob_bracket hd hp hu hv hs h1 h2 hnames hno
  obtain ⟨b1, b2, b3, b4⟩ := below_nothing hb (by unfold entryPath; split <;> simp) (by unfold entryPath; split <;> simp)
    (by
      have hlast : ∃ z, (u ++ '[' :: x :: ']' :: v).getLast? = some z ∧ z ≠ '/' := by
        cases hz : (u ++ '[' :: x :: ']' :: v).getLast? with
        | none => rw [List.getLast?_eq_none_iff] at hz; simp at hz
        | some z => exact ⟨z, rfl, fun e => hs (e ▸ List.mem_of_getLast? hz)⟩
      obtain ⟨z, hz, hzs⟩ := hlast
      unfold entryPath
      split <;> rw [List.getLast?_append, hz, Option.some_or] <;> exact fun e => hzs (Option.some.inj e))
    htop
  unfold Disk.process
  rw [if_pos hdir]
  simp only [if_neg b3]
  unfold Disk.glob
  rw [iglob_below b1 b2 b3 (by decide) (fun n => b4 n true)]
  rfl

/-- **C74 is false**: if no file of the configured directory is found, then `check` reports nothing, and the plan drops every
table of the server and does nothing else to the tables: when it is executed, there is none. -/
theorem C74_dropped_refuted [PyNum] (m : Machine) (given p : Str) (c : Credentials.Creds) (srv : Server) (live : Database) (ops : List Op) (force : Bool)
    (hp : Config.sqlFiles m.disk.toFiles given = .ok p) (hc : Config.credentials m.disk.toFiles given = .ok c) (hs : m.connect c = .ok srv)
    (hnone : m.disk.process p = []) (hl : (LiveDatabase.new srv).result = .ok live) (hops : (Program.build m given force).result = .ok ops) :
    (Program.check m given).result = .ok ⟨[], true⟩ ∧ (∀ n, .removeTable n ∈ ops ↔ n ∈ live.tables.keys) ∧ namesExecAll live.tables.keys ops = some [] := by
  have hn : FileDatabase.new [] = .ok {} := rfl
  have he : ({} : Database).errors.1 = .ok [] := rfl
  have hclean : ¬ Faulty [] := by
    rintro ⟨files, errs, h1, h2, h3⟩
    rw [hn] at h1
    cases h1
    rw [he] at h2
    cases h2
    exact h3 rfl
  rw [build_eq force hp hc hs, hnone] at hops
  obtain ⟨_, h2, names, h3, h4⟩ := C64 srv [] force ops {} live hclean hn hl hops
  refine ⟨?_, ?_, ?_⟩
  · unfold Program.check Program.withFiles
    rw [hp]
    simp only [hnone]
    rfl
  · intro n
    rw [h2]
    exact and_iff_left (List.not_mem_nil)
  · rw [h3]
    cases names with
    | nil => rfl
    | cons a l => exact absurd ((h4 a).mp (List.mem_cons_self ..)) (List.not_mem_nil)

/-! ## Examples -/

section Examples
attribute [local instance] exactNum
open Examples

/-- a project in the directory `/srv[1]`, which is beside `/home` and `/srv` -/
def bracketed : Machine :=
  let m := machineAt py"/srv[1]" listing
  { m with disk := { m.disk with listdir := fun p => if p = py"/" then some [py"home", py"srv", py"srv[1]"] else m.disk.listdir p } }

theorem bracketed_none : bracketed.disk.process py"/srv[1]/database" = [] :=
  C74_brackets_refuted bracketed.disk py"/" py"srv" [] py"/srv[1]/database" '1' [py"home", py"srv", py"srv[1]"] (.inl rfl) (by unfold PlainPath; decide)
    (by unfold PlainPath; decide) (by unfold PlainPath; decide) (by decide) (by decide) (by decide) rfl (by decide) (.down py"database" .here (by decide) (by decide)) rfl

/-- there are files, and a table of the server which they declare is dropped -/
example : sqlTexts bracketed.disk py"/srv[1]/database" listing = exSources ∧ ∃ ops, (Program.build bracketed py"mygrate.conf" false).result = .ok ops ∧
    Op.removeTable py"roles" ∈ ops ∧ py"roles" ∈ exFiles.tables.keys := by
  refine ⟨by decide +kernel, ?_⟩
  obtain ⟨ops, hops⟩ : ∃ ops, (Program.build bracketed py"mygrate.conf" false).result = .ok ops := ⟨_, by rfl⟩
  have hl : (LiveDatabase.new (exServer fun _ _ => none)).result = .ok exLive := exLive_eq
  exact ⟨ops, hops, ((C74_dropped_refuted bracketed py"mygrate.conf" py"/srv[1]/database" { host := py"db.local", database := py"shop", user := py"me", password := py"secret" }
    (exServer fun _ _ => none) exLive ops false (by decide +kernel) (by decide +kernel) rfl bracketed_none hl hops).2.1 py"roles").mpr (by decide +kernel), by decide +kernel⟩

end Examples

end Mygrations

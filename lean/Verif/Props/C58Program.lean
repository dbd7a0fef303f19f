import Verif.Props.C74

/-!
# C46 and C58 for the program: what a run of `mygrate.py` does to the server, on any machine

`Program.main m args` is a run of `mygrate.py` with the command line `args` on the machine `m`.  Nothing is assumed here of the
configuration, the files or the server.
-/

namespace Mygrations

open Driver (Reads)

theorem withDriver_all {P : Event → Prop} {α : Type} (m : Machine) (given : Str) {f : Server → Run α} (h : ∀ srv, (f srv).All P) :
    (Program.withDriver m given f).All P := by
  unfold Program.withDriver
  split
  · exact Run.all_raise _
  · split
    · exact Run.all_raise _
    · exact h _

theorem withFiles_all {P : Event → Prop} {α : Type} (m : Machine) (given : Str) {f : List Str → Run α} (h : ∀ s, (f s).All P) :
    (Program.withFiles m given f).All P := by
  unfold Program.withFiles
  split
  · exact Run.all_raise _
  · exact h _

theorem build_reads [PyNum] (m : Machine) (given : Str) (force : Bool) : (Program.build m given force).All Reads := by
  refine withFiles_all m given fun sources => ?_
  split
  · exact Run.all_raise _
  · split
    · exact Run.all_raise _
    · split
      · exact Run.all_pure _
      · exact withDriver_all m given fun srv => Command.buildCommands_reads srv sources force

theorem check_quiet [PyNum] {P : Event → Prop} (s : List Str) : (Command.check s).All P := by
  unfold Command.check
  split
  · exact Run.all_raise _
  · exact Run.all_pure _

theorem modules_apply {command : Str} (h : Dict.get? Command.modules command = some py"apply") : command = py"apply" := by
  have := Dict.mem_of_get? h
  simp only [Command.modules, List.mem_cons, Prod.mk.injEq, List.not_mem_nil, or_false] at this
  rcases this with h | h | h | h | h | h <;> first | exact h.1 | exact absurd h.2 (by decide)

theorem execute_reads [PyNum] (m : Machine) (given : Str) (force : Bool) {command : Str} (h : command ≠ py"apply") :
    (Program.execute m given force command).All Reads := by
  unfold Program.execute
  split
  · exact Run.all_raise _
  · rename_i mod hm
    split
    · exact Run.all_raise _
    · rw [if_neg (show ¬ mod = py"apply" from fun e => h (modules_apply (by rw [hm, e])))]
      split
      · exact withFiles_all m given fun s => check_quiet s
      · exact Run.all_bind (build_reads m given force) fun _ => Run.all_pure _

/-- **C58**, for the program: unless the command is `apply`, whatever is sent to the server is a `SHOW` or a `SELECT`, and nothing
is committed, whether the run comes to its end or not. -/
theorem C58_program [PyNum] (m : Machine) (args : Program.Args) (h : args.command ≠ some py"apply" ∨ args.version = true) :
    ∀ e ∈ (Program.main m args).events, OnlyReads e := by
  have run : ∀ c, c ≠ py"apply" → ∀ g f, (if Dict.has Command.modules c then
      Run.bind (Program.execute m g f c) fun o => .pure (if o.success then 0 else 1) else
      (.raise (.valueError (py"Unknown command " ++ c)) : Run Nat)).All Reads := by
    intro c hc g f
    split
    · exact Run.all_bind (execute_reads m g f hc) fun _ => Run.all_pure _
    · exact Run.all_raise _
  have key : (Program.main m args).All Reads := by
    unfold Program.main
    simp only
    split
    · refine run _ ?_ _ _
      split
      · decide
      · rename_i hv
        split
        · decide
        · intro e
          rcases h with h | h
          · cases hc : args.command with
            | none => rw [hc] at e; revert e; decide
            | some c => rw [hc] at e h; exact h (congrArg some e)
          · exact hv h
    · exact Run.all_pure _
  exact fun e he => reads_spec (key e he)

/-- **C58**, for the program: `check` does not talk to any server. -/
theorem C58_program_check [PyNum] (m : Machine) (given : Option Str) (force : Bool) :
    (Program.main m { command := some py"check", config := given, force := force }).events = [] := by
  have h : Program.main m { command := some py"check", config := given, force := force } =
      Run.bind (Program.check m (given.getD py"mygrate.conf")) (fun o => .pure (if o.success then 0 else 1)) := rfl
  have key : (Program.main m { command := some py"check", config := given, force := force }).All (fun _ => False) := by
    rw [h]
    exact Run.all_bind (withFiles_all m _ fun s => check_quiet s) fun _ => Run.all_pure _
  exact List.eq_nil_iff_forall_not_mem.mpr key

/-- **C46**, for the program: if `apply` comes to its end, it has sent what `plan` sends (reading), then the statements which
`plan` prints, in their order and each once, and has then committed, once; if it ends with an error, nothing is committed. -/
theorem C46_program [PyNum] (m : Machine) (given : Option Str) (force : Bool) :
    (∀ n, (Program.main m { command := some py"apply", config := given, force := force }).result = .ok n →
      n = 0 ∧ (Program.main m { command := some py"plan", config := given, force := force }).result = .ok 0 ∧
      ∃ o, (Program.plan m (given.getD py"mygrate.conf") force).result = .ok o ∧ (Program.main m { command := some py"apply", config := given, force := force }).events =
        (Program.main m { command := some py"plan", config := given, force := force }).events ++ o.output.map .sent ++ [.committed]) ∧
    (∀ e, (Program.main m { command := some py"apply", config := given, force := force }).result = .error e →
      .committed ∉ (Program.main m { command := some py"apply", config := given, force := force }).events) := by
  have ha : Program.main m { command := some py"apply", config := given, force := force } =
      Run.bind (Program.apply m (given.getD py"mygrate.conf") force) (fun o => .pure (if o.success then 0 else 1)) := rfl
  have hp : Program.main m { command := some py"plan", config := given, force := force } =
      Run.bind (Program.plan m (given.getD py"mygrate.conf") force) (fun o => .pure (if o.success then 0 else 1)) := rfl
  rw [ha, hp]
  generalize given.getD py"mygrate.conf" = g
  have hreads := build_reads m g force
  have hno : Event.committed ∉ (Program.build m g force).events := fun he => (hreads _ he).elim
  unfold Program.apply Program.plan
  cases hb : (Program.build m g force).result with
  | error e =>
    simp only [Run.bind_error hb]
    simp [Run.bind, hno]
  | ok ops =>
    simp only [Run.bind_ok hb]
    unfold Program.withDriver
    cases Config.credentials m.disk.toFiles g with
    | error e => simp [Run.bind, Run.raise, hno]
    | ok c =>
      simp only
      cases m.connect c with
      | error e => simp [Run.bind, Run.raise, hno]
      | ok srv =>
        simp only
        rcases Driver.sendAll_events srv (ops.map Op.render) [] with ⟨e, k, h1, _, _, _, h5⟩ | ⟨h1, _, h3⟩
        · simp only [Driver.execute, Run.bind_error h1]
          simp only [Run.bind, h5]
          refine ⟨fun n hn => (by cases hn), fun _ _ he => ?_⟩
          rcases List.mem_append.mp he with he | he
          · exact hno he
          · obtain ⟨x, _, hx⟩ := List.mem_map.mp he
            cases hx
        · simp only [Driver.execute, Run.bind_ok h1, h3]
          simp only [Run.bind, Run.pure]
          refine ⟨fun n hn => ⟨?_, ?_, ⟨ops.map Op.render, true⟩, ?_, ?_⟩, fun e he => ?_⟩
          · cases hn; rfl
          · rfl
          · rfl
          · simp
          · cases he

/-! ## Examples -/

section Examples
attribute [local instance] exactNum
open Examples

/-- a run of `plan` which does ask the server -/
example : (Program.main (machineAt py"/srv" listing) { command := some py"plan" }).events =
      [.sent py"SHOW TABLES", .sent py"SHOW CREATE TABLE logs", .sent py"SHOW CREATE TABLE roles", .sent py"SELECT * FROM roles"] ∧
    ∀ e ∈ (Program.main (machineAt py"/srv" listing) { command := some py"plan" }).events, OnlyReads e :=
  ⟨by decide +kernel, C58_program _ _ (Or.inl (by decide))⟩

/-- a run of `apply` which comes to its end -/
example : ∃ o, (Program.plan (machineAt py"/srv" listing) py"mygrate.conf" false).result = .ok o ∧
    (Program.main (machineAt py"/srv" listing) { command := some py"apply" }).events =
      (Program.main (machineAt py"/srv" listing) { command := some py"plan" }).events ++ o.output.map .sent ++ [.committed] :=
  ((C46_program (machineAt py"/srv" listing) none false).1 0 (by decide +kernel)).2.2

end Examples

end Mygrations

import Verif.Proofs.Run
import Verif.Proofs.CheckRun
import Verif.Spec.Plan
import Verif.Py.Num

/-!
# C45, C46, C50, C58-C61: the commands

`Command.plan srv sources force`, `Command.apply ...` and `Command.check sources` are the commands, run against the server
`srv` with files whose contents are `sources`; `events` are the statements which the server receives and the commits,
`result` is what the command returns (`output`: what it prints; `success`: whether it says that it succeeded).
-/

namespace Mygrations
open Command

/-! ## Specification -/

/-- the text of a statement which switches the checks off or on -/
def isToggleText (s : Str) : Bool := s = py"SET FOREIGN_KEY_CHECKS=0;" || s = py"SET FOREIGN_KEY_CHECKS=1;"

/-- The declared schema, as read from the files, has errors. -/
def Faulty [PyNum] (sources : List Str) : Prop :=
  ∃ files errs, FileDatabase.new sources = .ok files ∧ files.errors.1 = .ok errs ∧ errs ≠ []

/-- A query which only reads. -/
def OnlyReads (e : Event) : Prop := ∃ s, e = .sent s ∧ (startsWith py"SHOW " s = true ∨ startsWith py"SELECT " s = true)

/-! ## Proofs -/

theorem process_no_toggle [PyNum] {t : Dict Table} {from? : Option (Dict Table)} {ops : List Op}
    (h : Mygration.process t from? false = .ok ops) : ∀ o ∈ ops, o.isToggle = false := by
  unfold Mygration.process at h
  simp only at h
  split at h
  · cases h
  · cases h
    intro o ho
    simp only [List.mem_append, List.mem_map, List.mem_filterMap, Bool.false_eq_true, if_false, List.not_mem_nil, false_or, or_false] at ho
    rcases ho with ((((⟨n, _, hn⟩ | ⟨a, _, rfl⟩) | ⟨a, _, rfl⟩) | ⟨a, _, rfl⟩) | ⟨a, _, rfl⟩) | ⟨a, _, rfl⟩
    · obtain ⟨x, _, rfl⟩ := Option.map_eq_some_iff.mp hn
      rfl
    all_goals rfl

theorem toRows_rows {t : Table} {from? : Option Table} {ops : List Op} (h : t.toRows from? = .ok ops) :
    ∀ o ∈ ops, o.isToggle = false ∧ o.isCreate = false ∧ o.isAlter = false ∧ o.isDrop = false := by
  have hu : ∀ (new old : Dict Row) (ks : List Str) (us : List Op), Table.rowUpdates t.name new old ks = .ok us →
      ∀ o ∈ us, o.isToggle = false ∧ o.isCreate = false ∧ o.isAlter = false ∧ o.isDrop = false := by
    intro new old ks
    induction ks with
    | nil => intro us h; cases h; intro o ho; cases ho
    | cons k ks ih =>
      intro us h
      unfold Table.rowUpdates at h
      split at h
      · split at h
        · split at h
          · cases hr : Table.rowUpdates t.name new old ks with
            | error e => rw [hr] at h; cases h
            | ok vs =>
              rw [hr] at h
              cases h
              intro o ho
              rcases List.mem_cons.mp ho with rfl | ho
              · exact ⟨rfl, rfl, rfl, rfl⟩
              · exact ih vs hr o ho
          · cases h
        · exact ih us h
      · cases h
  have hi : ∀ (ks : List Str) (f : Str → Option Row) (o : Op), o ∈ ks.filterMap (fun k => (f k).map (Op.rowInsert t.name)) →
      o.isToggle = false ∧ o.isCreate = false ∧ o.isAlter = false ∧ o.isDrop = false := by
    intro ks f o ho
    obtain ⟨k, _, hk⟩ := List.mem_filterMap.mp ho
    obtain ⟨r, _, rfl⟩ := Option.map_eq_some_iff.mp hk
    exact ⟨rfl, rfl, rfl, rfl⟩
  unfold Table.toRows at h
  split at h
  · split at h
    · cases h
    · split at h
      · split at h
        · cases h
        · rename_i upd hupd
          cases h
          intro o ho
          rcases List.mem_append.mp ho with ho | ho
          · rcases List.mem_append.mp ho with ho | ho
            · exact hi _ _ o ho
            · obtain ⟨k, _, rfl⟩ := List.mem_map.mp ho
              exact ⟨rfl, rfl, rfl, rfl⟩
          · exact hu _ _ _ _ hupd o ho
      · cases h
  · split at h
    · cases h
      intro o ho
      exact hi _ _ o ho
    · cases h

theorem rowMygration_rows {to : Database} {from? : Option Database} {ops : List Op} (h : RowMygration.new to from? = .ok ops) :
    ∀ o ∈ ops, o.isToggle = false ∧ o.isCreate = false ∧ o.isAlter = false ∧ o.isDrop = false := by
  have hl : ∀ (ns : List Str) (ops : List Op), RowMygration.processLoop to.tables (from?.map Database.tables) ns = .ok ops →
      ∀ o ∈ ops, o.isToggle = false ∧ o.isCreate = false ∧ o.isAlter = false ∧ o.isDrop = false := by
    intro ns
    induction ns with
    | nil => intro ops h; cases h; intro o ho; cases ho
    | cons n ns ih =>
      intro ops h
      unfold RowMygration.processLoop at h
      split at h
      · cases h
      · split at h
        · cases h
        · rename_i ops1 h1
          cases hr : RowMygration.processLoop to.tables (from?.map Database.tables) ns with
          | error e => rw [hr] at h; cases h
          | ok more =>
            rw [hr] at h
            cases h
            intro o ho
            rcases List.mem_append.mp ho with ho | ho
            · exact toRows_rows h1 o ho
            · exact ih more hr o ho
  exact hl _ _ h

theorem allOps_cases [PyNum] {files live : Database} {ops : List Op} (h : allOps files live = .ok ops) :
    ∃ p rows, Mygration.new files (some live) false = .ok p ∧ RowMygration.new files (some live) = .ok rows ∧ ops = p.operations.getD [] ++ rows := by
  unfold allOps at h
  split at h
  · cases h
  · rename_i p hp
    split at h
    · cases h
    · rename_i rows hr
      cases h
      exact ⟨p, rows, hp, hr, rfl⟩

theorem mygration_no_toggle [PyNum] {to : Database} {from? : Option Database} {p : Mygration.Plan} (h : Mygration.new to from? false = .ok p) :
    ∀ o ∈ p.operations.getD [], o.isToggle = false := by
  unfold Mygration.new at h
  split at h
  · cases h
  · cases h; intro o ho; cases ho
  · split at h
    · cases h
    · rename_i ops hops
      cases h
      exact process_no_toggle hops

/-- the stages of a plan -/
theorem buildCommands_cases [PyNum] {srv : Server} {sources : List Str} {force : Bool} {ops : List Op}
    (h : (buildCommands srv sources force).result = .ok ops) :
    ∃ files files' errs, FileDatabase.new sources = .ok files ∧ files.errors = (.ok errs, files') ∧
      ((errs ≠ [] ∧ force = false ∧ ops = [] ∧ buildCommands srv sources force = .pure []) ∨
       ((errs = [] ∨ force = true) ∧ ∃ live live' all, (LiveDatabase.new srv).result = .ok live ∧
          (readTracked srv live files'.tables.values).result = .ok live' ∧ allOps files' live' = .ok all ∧
          ops = if all = [] then [] else .disableChecks :: all ++ [.enableChecks])) := by
  unfold buildCommands at h ⊢
  split at h
  · cases h
  · rename_i files hfiles
    split at h
    · cases h
    · rename_i errs files' herrs
      refine ⟨files, files', errs, hfiles, herrs, ?_⟩
      by_cases hc : errs ≠ [] ∧ (!force) = true
      · rw [if_pos hc] at h
        cases h
        left
        exact ⟨hc.1, by simpa using hc.2, rfl, by rw [if_pos hc]⟩
      · rw [if_neg hc] at h
        right
        obtain ⟨live, hlive, h⟩ := Run.bind_result h
        obtain ⟨live', hlive', h⟩ := Run.bind_result h
        refine ⟨?_, live, live', ?_⟩
        · cases force
          · left
            cases errs with
            | nil => rfl
            | cons e es => exact absurd ⟨by simp, rfl⟩ hc
          · exact Or.inr rfl
        · split at h
          · cases h
          · rename_i ha
            cases h
            exact ⟨[], hlive, hlive', ha, rfl⟩
          · rename_i op ops' ha
            cases h
            exact ⟨op :: ops', hlive, hlive', ha, rfl⟩

theorem render_head (o : Op) (h : o.isToggle = false) : isToggleText o.render = false := by
  have : ∀ s : Str, s.head? ≠ some 'S' → isToggleText s = false := by
    intro s hs
    unfold isToggleText
    cases s with
    | nil => rfl
    | cons c cs =>
      have hc : c ≠ 'S' := fun e => hs (e ▸ rfl)
      simp [hc]
  apply this
  cases o with
  | disableChecks => cases h
  | enableChecks => cases h
  | createTable t =>
    simp only [Op.render, Table.renderCreate]
    simp
  | alter a => simp only [Op.render, Alter.render]; simp
  | removeTable n => simp [Op.render]
  | rowInsert t r => simp only [Op.render, renderInsert]; simp
  | rowDelete t i => simp only [Op.render, renderDelete]; simp
  | rowUpdate t r => simp only [Op.render, renderUpdate]; simp

/-! ## C45 -/

/-- **C45.**  What `plan` prints is nothing at all, or it starts with `SET FOREIGN_KEY_CHECKS=0;`, ends with
`SET FOREIGN_KEY_CHECKS=1;`, and there is something in between, but no other such statement. -/
theorem C45 [PyNum] (srv : Server) (sources : List Str) (force : Bool) (o : Outcome)
    (h : (plan srv sources force).result = .ok o) :
    o.output = [] ∨ ∃ mid, mid ≠ [] ∧ o.output = py"SET FOREIGN_KEY_CHECKS=0;" :: mid ++ [py"SET FOREIGN_KEY_CHECKS=1;"] ∧
      ∀ s ∈ mid, isToggleText s = false := by
  obtain ⟨ops, hops, h⟩ := Run.bind_result h
  cases h
  obtain ⟨files, files', errs, _, _, hcase⟩ := buildCommands_cases hops
  rcases hcase with ⟨_, _, rfl, _⟩ | ⟨_, live, live', all, _, _, hall, hops⟩
  · exact Or.inl rfl
  · obtain ⟨p, rows, hp, hrows, rfl⟩ := allOps_cases hall
    by_cases hn : p.operations.getD [] ++ rows = []
    · rw [if_pos hn] at hops
      subst hops
      exact Or.inl rfl
    · rw [if_neg hn] at hops
      subst hops
      right
      refine ⟨(p.operations.getD [] ++ rows).map Op.render, by simpa using hn, by simp [Op.render], ?_⟩
      intro s hs
      obtain ⟨x, hx, rfl⟩ := List.mem_map.mp hs
      apply render_head
      rcases List.mem_append.mp hx with hx | hx
      · exact mygration_no_toggle hp x hx
      · exact (rowMygration_rows hrows x hx).1

/-- **C45.**  With errors in the files and without `force` the plan is empty, and the server is not even asked. -/
theorem C45_refused [PyNum] (srv : Server) (sources : List Str) (h : Faulty sources) :
    (plan srv sources false).result = .ok ⟨[], true⟩ ∧ (plan srv sources false).events = [] := by
  obtain ⟨files, errs, h1, h2, h3⟩ := h
  have hb : buildCommands srv sources false = .pure [] := by
    unfold buildCommands
    rw [h1]
    cases he : files.errors with
    | mk r files' =>
      rw [he] at h2
      cases h2
      simp only [he]
      rw [if_pos ⟨h3, rfl⟩]
  unfold plan
  rw [hb]
  exact ⟨rfl, rfl⟩

theorem new_operations [PyNum] {d d' live : Database} {errs : List Str} (he : d.errors = (.ok errs, d')) {p : Mygration.Plan}
    (h : Mygration.new d' (some live) false = .ok p) : if errs = [] then p.operations.isSome else p.operations = none := by
  have ha := (Database.errors_again he).1
  unfold Mygration.new at h
  cases hd : d'.errors with
  | mk r d'' =>
    rw [hd] at h ha
    cases ha
    cases errs with
    | nil =>
      simp only at h
      split at h
      · cases h
      · cases h; rfl
    | cons e es => cases h; rfl

/-- **C45.**  Without errors in the files the plan is empty only if neither migration has anything to do. -/
theorem C45_complete [PyNum] (srv : Server) (sources : List Str) (force : Bool) (hclean : ¬ Faulty sources)
    (h : (plan srv sources force).result = .ok ⟨[], true⟩) :
    ∃ files live, (Mygration.new files (some live) false).map Mygration.Plan.operations = .ok (some []) ∧
      RowMygration.new files (some live) = .ok [] ∧ (FileDatabase.new sources).map Database.tables = .ok files.tables ∧
      ∃ live0, (LiveDatabase.new srv).result = .ok live0 ∧ (readTracked srv live0 files.tables.values).result = .ok live := by
  obtain ⟨ops, hops, h⟩ := Run.bind_result h
  obtain ⟨files, files', errs, hf, he, hcase⟩ := buildCommands_cases hops
  have hn : errs = [] := Classical.byContradiction fun hne => hclean ⟨files, errs, hf, by rw [he], hne⟩
  subst hn
  rcases hcase with ⟨hne, _⟩ | ⟨_, live, live', all, hl, hl', hall, hops⟩
  · exact absurd rfl hne
  · obtain ⟨p, rows, hp, hrows, rfl⟩ := allOps_cases hall
    have hz : ops = [] := by
      simp only [Run.pure] at h
      injection h with h
      injection h with h
      simpa using h
    by_cases hn : p.operations.getD [] ++ rows = []
    · obtain ⟨h1, h2⟩ := List.append_eq_nil_iff.mp hn
      subst h2
      have hs := new_operations he hp
      rw [if_pos rfl] at hs
      obtain ⟨o, ho⟩ := Option.isSome_iff_exists.mp hs
      rw [ho] at h1
      simp only [Option.getD_some] at h1
      subst h1
      refine ⟨files', live', by rw [hp]; simp only [Except.map, ho], hrows, ?_, live, hl, hl'⟩
      rw [hf]
      simp only [Except.map, (Database.errors_again he).2]
    · rw [if_neg hn, hz] at hops
      cases hops

/-! ## C46 -/

/-- **C46.**  When `apply` comes to its end, what it has sent to the server is what `plan` sends (reading) followed by
exactly what `plan` prints, in that order and each once, and then it has committed once; and it prints it too. -/
theorem C46 [PyNum] (srv : Server) (sources : List Str) (force : Bool) (o : Outcome)
    (h : (Command.apply srv sources force).result = .ok o) :
    (plan srv sources force).result = .ok o ∧
    (Command.apply srv sources force).events = (plan srv sources force).events ++ o.output.map .sent ++ [.committed] := by
  obtain ⟨ops, hops, h'⟩ := Run.bind_result h
  obtain ⟨u, hu, h'⟩ := Run.bind_result h'
  have ho : (⟨ops.map Op.render, true⟩ : Outcome) = o := by
    simp only [Run.pure] at h'
    injection h'
  subst ho
  unfold Command.apply plan
  rw [Run.bind_ok hops, Run.bind_ok hops]
  refine ⟨rfl, ?_⟩
  obtain ⟨u', hu', _⟩ := Run.bind_result hu
  rcases Driver.sendAll_events srv (ops.map Op.render) [] with ⟨e, k, h1, _⟩ | ⟨h1, _, h3⟩
  · rw [h1] at hu'; cases hu'
  · simp only [Driver.execute, Run.bind_ok h1, h3]
    rw [Run.bind_ok (a := ()) rfl]
    simp [Run.pure]

/-- **C46.**  When `plan` would succeed but `apply` does not, the server has failed on a statement of the plan, say the
`k`-th; every statement before it was sent and executed, it was sent itself, nothing after it was, the failure is what
`apply` ends with and there is no commit. -/
theorem C46_failure [PyNum] (srv : Server) (sources : List Str) (force : Bool) (o : Outcome) (e : PyErr)
    (hp : (plan srv sources force).result = .ok o) (h : (Command.apply srv sources force).result = .error e) :
    ∃ before q after, o.output = before ++ q :: after ∧ srv.fails before q = some e ∧
      (∀ j x, before[j]? = some x → srv.fails (before.take j) x = none) ∧
      (Command.apply srv sources force).events = (plan srv sources force).events ++ (before ++ [q]).map .sent ∧
      .committed ∉ (Command.apply srv sources force).events := by
  have hreads := buildCommands_reads srv sources force
  obtain ⟨ops, hops, hp⟩ := Run.bind_result hp
  have ho : (⟨ops.map Op.render, true⟩ : Outcome) = o := by
    simp only [Run.pure] at hp
    injection hp
  subst ho
  unfold Command.apply plan at *
  rw [Run.bind_ok hops] at h ⊢
  rw [Run.bind_ok hops]
  rcases Driver.sendAll_events srv (ops.map Op.render) [] with ⟨e', k, h1, h2, h3, ⟨q, h4, h5⟩, h6⟩ | ⟨h1, _, h3⟩
  · have hev : Driver.execute srv (ops.map Op.render) = ⟨((ops.map Op.render).take (k + 1)).map .sent, .error e'⟩ := by
      unfold Driver.execute
      rw [Run.bind_error h1, h6]
    rw [hev] at h ⊢
    have hee : e' = e := by
      have : (Except.error e' : Except PyErr Outcome) = .error e := h
      injection this
    subst hee
    have hq : (ops.map Op.render).take (k + 1) = (ops.map Op.render).take k ++ [q] := by
      rw [List.take_add_one, h4]; rfl
    have hsplit : ops.map Op.render = (ops.map Op.render).take k ++ q :: (ops.map Op.render).drop (k + 1) := by
      have := List.take_append_drop (k + 1) (ops.map Op.render)
      rw [hq] at this
      simpa using this.symm
    refine ⟨(ops.map Op.render).take k, q, (ops.map Op.render).drop (k + 1), hsplit, by simpa using h5, ?_, ?_, ?_⟩
    · intro j x hx
      have hj : j < k := by
        have := (List.getElem?_eq_some_iff.mp hx).1
        rw [List.length_take] at this
        omega
      have := h3 j hj x (by rw [List.getElem?_take_of_lt hj] at hx; exact hx)
      rw [List.take_take, Nat.min_eq_left (by omega)]
      simpa using this
    · simp only [Run.bind, hq, Run.pure, List.append_nil]
    · simp only [Run.bind]
      intro hm
      rcases List.mem_append.mp hm with hm | hm
      · exact hreads _ hm
      · obtain ⟨s, _, hs⟩ := List.mem_map.mp hm
        cases hs
  · have : (Driver.execute srv (ops.map Op.render)).result = .ok () := by
      simp only [Driver.execute, Run.bind_ok h1]
    rw [Run.bind_ok this] at h
    cases h

/-- **C46.**  When `plan` raises, `apply` raises the same, after the same queries. -/
theorem C46_raises [PyNum] (srv : Server) (sources : List Str) (force : Bool) (e : PyErr)
    (hp : (plan srv sources force).result = .error e) :
    (Command.apply srv sources force).result = .error e ∧ (Command.apply srv sources force).events = (plan srv sources force).events := by
  unfold Command.apply plan at *
  cases hb : (buildCommands srv sources force).result with
  | ok ops => rw [Run.bind_ok hb] at hp; cases hp
  | error e' =>
    rw [Run.bind_error hb] at hp
    cases hp
    rw [Run.bind_error hb, Run.bind_error hb]
    exact ⟨rfl, rfl⟩

/-! ## C58 -/

theorem reads_spec {e : Event} (h : Driver.Reads e) : OnlyReads e := by
  cases e with
  | sent s => exact ⟨s, rfl, h⟩
  | committed => exact h.elim

/-- **C58.**  `plan` only reads: every statement it sends is a `SHOW` or a `SELECT`, and it never commits, whether it comes
to its end or not; `check` does not talk to the server at all. -/
theorem C58 [PyNum] (srv : Server) (sources : List Str) (force : Bool) :
    (∀ e ∈ (plan srv sources force).events, OnlyReads e) ∧ (check sources).events = [] := by
  constructor
  · exact fun e he => reads_spec (Run.all_bind (buildCommands_reads srv sources force) (fun _ => Run.all_pure _) e he)
  · unfold check
    split <;> rfl

/-! ## C59-C61 -/

/-- **C59 is false**: `plan` and `apply` which refuse to do anything because the files have errors say that they have
succeeded (the exit status is 0), whatever the files and the server are; and `apply` commits. -/
theorem C59_refuted [PyNum] (srv : Server) (sources : List Str) (h : Faulty sources) :
    (mygrate srv sources false false py"plan").result = .ok 0 ∧ (mygrate srv sources false false py"apply").result = .ok 0 ∧
    (mygrate srv sources false false py"apply").events = [.committed] := by
  obtain ⟨hp, he⟩ := C45_refused srv sources h
  obtain ⟨files, errs, h1, h2, h3⟩ := h
  have hb : buildCommands srv sources false = .pure [] := by
    unfold buildCommands
    rw [h1]
    cases he : files.errors with
    | mk r files' =>
      rw [he] at h2
      cases h2
      simp only [he]
      rw [if_pos ⟨h3, rfl⟩]
  have hex : execute srv sources false py"plan" = plan srv sources false := rfl
  have hax : execute srv sources false py"apply" = Command.apply srv sources false := rfl
  have ha : Command.apply srv sources false = ⟨[.committed], .ok ⟨[], true⟩⟩ := by
    unfold Command.apply
    rw [hb]
    rfl
  have hm : ∀ c, Dict.has modules c = true → c ≠ [] →
      mygrate srv sources false false c = Run.bind (execute srv sources false c) fun o => .pure (if o.success then 0 else 1) := by
    intro c hc hne
    unfold mygrate
    simp only [Bool.false_eq_true, if_false, hne, hc, if_true]
  rw [hm py"plan" rfl (by decide), hm py"apply" rfl (by decide), hex, hax, ha, Run.bind_ok hp]
  exact ⟨rfl, rfl, rfl⟩

/-- **C60 is false**: with `force`, if the files have errors, no table is created, altered or dropped by the plan, whatever
the files and the server are; only rows are. -/
theorem C60_refuted [PyNum] (srv : Server) (sources : List Str) (h : Faulty sources) (ops : List Op)
    (hops : (buildCommands srv sources true).result = .ok ops) :
    ∀ o ∈ ops, o.isCreate = false ∧ o.isAlter = false ∧ o.isDrop = false := by
  obtain ⟨files, files', errs, hf, he, hcase⟩ := buildCommands_cases hops
  obtain ⟨files2, errs2, h1, h2, h3⟩ := h
  rw [hf] at h1
  cases h1
  rw [he] at h2
  cases h2
  rcases hcase with ⟨_, hc, _⟩ | ⟨_, live, live', all, _, _, hall, hops⟩
  · cases hc
  · obtain ⟨p, rows, hp, hrows, rfl⟩ := allOps_cases hall
    have hs := new_operations he hp
    rw [if_neg h3] at hs
    rw [hs] at hops
    simp only [Option.getD_none, List.nil_append] at hops
    intro o ho
    split at hops
    · subst hops; cases ho
    · subst hops
      rcases List.mem_append.mp ho with ho | ho
      · rcases List.mem_cons.mp ho with rfl | ho
        · exact ⟨rfl, rfl, rfl⟩
        · exact (rowMygration_rows hrows o ho).2
      · rcases List.mem_cons.mp ho with rfl | ho
        · exact ⟨rfl, rfl, rfl⟩
        · cases ho

/-- **C61.**  `check` says that it has failed exactly if the files have errors, that is exactly if `plan` without `force`
is refused; and then it prints all of them. -/
theorem C61 [PyNum] (sources : List Str) (o : Outcome) (h : (check sources).result = .ok o) :
    (o.success = false ↔ Faulty sources) ∧
    ∀ files errs, FileDatabase.new sources = .ok files → files.errors.1 = .ok errs → ∀ e ∈ errs, e ∈ o.output := by
  obtain ⟨files, files', errs, warns, hf, he, _, rfl⟩ := of_check h
  have herrs : files.errors.1 = .ok errs := by rw [he]
  refine ⟨⟨fun hs => ⟨files, errs, hf, herrs, fun hn => ?_⟩, ?_⟩, ?_⟩
  · subst hn
    cases hs
  · rintro ⟨files2, errs2, h1, h2, h3⟩
    rw [hf] at h1
    cases h1
    rw [herrs] at h2
    cases h2
    cases errs with
    | nil => exact absurd rfl h3
    | cons e es => rfl
  · intro files2 errs2 h1 h2 e he
    rw [hf] at h1
    cases h1
    rw [herrs] at h2
    cases h2
    exact mem_headed.mpr (.inl he)

/-- **C61.**  The exit status of `check`. -/
theorem C61_exit [PyNum] (srv : Server) (sources : List Str) (force : Bool) (n : Nat)
    (h : (mygrate srv sources force false py"check").result = .ok n) : n = 0 ↔ ¬ Faulty sources := by
  have hm : mygrate srv sources force false py"check" = Run.bind (check sources) fun o => .pure (if o.success then 0 else 1) := rfl
  rw [hm] at h
  obtain ⟨o, ho, h⟩ := Run.bind_result h
  have hc := (C61 sources o ho).1
  have hn : (if o.success then 0 else 1) = n := by
    simp only [Run.pure] at h
    injection h
  rw [← hc]
  subst hn
  cases o.success <;> decide

/-! ## C50 -/

/-- **C50 is false**: the commands `import`, `plan_export` and `version` are offered, but cannot be loaded; and so
`-v` fails. -/
theorem C50_refuted [PyNum] (srv : Server) (sources : List Str) (force : Bool) :
    (∀ c ∈ [py"import", py"plan_export", py"version"], Dict.has modules c = true ∧
      ∃ m, (mygrate srv sources force false c).result = .error (.importError m)) ∧
    ∀ c, ∃ m, (mygrate srv sources force true c).result = .error (.importError m) := by
  refine ⟨?_, fun c => ⟨_, rfl⟩⟩
  intro c hc
  simp only [List.mem_cons, List.not_mem_nil, or_false] at hc
  rcases hc with rfl | rfl | rfl
  · exact ⟨rfl, _, rfl⟩
  · exact ⟨rfl, _, rfl⟩
  · exact ⟨rfl, _, rfl⟩

/-- **C50** for the others: `apply`, `check` and `plan` are loaded and run. -/
theorem C50_partial [PyNum] (srv : Server) (sources : List Str) (force : Bool) :
    execute srv sources force py"apply" = Command.apply srv sources force ∧
    execute srv sources force py"check" = check sources ∧
    execute srv sources force py"plan" = plan srv sources force := ⟨rfl, rfl, rfl⟩

/-- **C50.**  An empty command is `check`. -/
theorem C50_empty [PyNum] (srv : Server) (sources : List Str) (force : Bool) :
    mygrate srv sources force false [] = Run.bind (check sources) fun o => .pure (if o.success then 0 else 1) := rfl

/-- **C50**, the rest of the command line: what is no command is refused without anything being done. -/
theorem C50_unknown [PyNum] (srv : Server) (sources : List Str) (force : Bool) (c : Str) (hne : c ≠ []) (h : Dict.has modules c = false) :
    mygrate srv sources force false c = ⟨[], .error (.valueError (py"Unknown command " ++ c))⟩ := by
  unfold mygrate
  simp only [Bool.false_eq_true, if_false, hne, h]
  rfl

/-! ## Examples -/

section Examples
attribute [local instance] exactNum

/-- a server with two tables; `fails` is `c`'s choice -/
def exServer (c : List Str → Str → Option PyErr) : Server where
  tableNames := [py"logs", py"roles"]
  createText n :=
    if n = py"logs" then .ok (some py"CREATE TABLE `logs` (`id` int NOT NULL);")
    else if n = py"roles" then .ok (some py"CREATE TABLE `roles` (`id` int NOT NULL, `name` varchar(20) NOT NULL, PRIMARY KEY (`id`));")
    else .ok none
  select n := if n = py"roles" then .ok [[(py"id", .int 1), (py"name", .str py"admin")]] else .ok []
  fails := c

/-- the files: `roles` with its rows and without `logs`, and `users` is new -/
def exSources : List Str :=
  [py"CREATE TABLE roles (id INT NOT NULL, name VARCHAR(20) NOT NULL, PRIMARY KEY (id)); INSERT INTO roles (id, name) VALUES (1, 'root'), (2, 'guest');",
   py"CREATE TABLE users (id INT NOT NULL, PRIMARY KEY (id));"]

/-- what is planned for them -/
def exPlan : List Str :=
  [py"SET FOREIGN_KEY_CHECKS=0;", py"CREATE TABLE `users` (`id` INT NOT NULL,\nPRIMARY KEY (`id`));", py"DROP TABLE logs;",
   py"INSERT INTO `roles` (`id`, `name`) VALUES ('2', 'guest');", py"UPDATE `roles` SET `name`='root' WHERE id='1';", py"SET FOREIGN_KEY_CHECKS=1;"]

/-- for `C45`, `C45_complete` and `C46`: a plan with six statements is printed, and `apply` sends them -/
example : (plan (exServer fun _ _ => none) exSources false).result = .ok ⟨exPlan, true⟩ := by decide +kernel

example : (Command.apply (exServer fun _ _ => none) exSources false).result = .ok ⟨exPlan, true⟩ ∧
    (Command.apply (exServer fun _ _ => none) exSources false).events =
      [.sent py"SHOW TABLES", .sent py"SHOW CREATE TABLE logs", .sent py"SHOW CREATE TABLE roles", .sent py"SELECT * FROM roles"] ++
      exPlan.map .sent ++ [.committed] := by
  refine ⟨?_, ?_⟩ <;> decide +kernel

/-- for `C46_failure`: the server fails on the `UPDATE` -/
def exFailing : Server := exServer fun _ s => if startsWith py"UPDATE" s then some (.valueError py"lock timeout") else none

example : (plan exFailing exSources false).result = .ok ⟨exPlan, true⟩ ∧
    (Command.apply exFailing exSources false).result = .error (.valueError py"lock timeout") ∧
    (Command.apply exFailing exSources false).events =
      [.sent py"SHOW TABLES", .sent py"SHOW CREATE TABLE logs", .sent py"SHOW CREATE TABLE roles", .sent py"SELECT * FROM roles"] ++
      (exPlan.take 5).map .sent := by
  refine ⟨?_, ?_, ?_⟩ <;> decide +kernel

/-- for `C45_complete`: the files declare just what there is -/
example : let files := [py"CREATE TABLE logs (id INT NOT NULL);", py"CREATE TABLE roles (id INT NOT NULL, name VARCHAR(20) NOT NULL, PRIMARY KEY (id));"]
    (plan (exServer fun _ _ => none) files false).result = .ok ⟨[], true⟩ ∧ (check files).result = .ok ⟨[], true⟩ := by
  refine ⟨?_, ?_⟩ <;> decide +kernel

/-- for `C46_raises`: a table disappears while the database is read -/
example : (plan { exServer (fun _ _ => none) with tableNames := [py"logs", py"ghost"] } exSources false).result =
    .error (.valueError py"Failed to execute SHOW CREATE TABLE command on table ghost") := by decide +kernel

/-- files with an error, for `C45_refused`, `C59_refuted`, `C60_refuted` and `C61` -/
def exFaulty : List Str := exSources ++ [py"CREATE TABLE posts (user_id INT, CONSTRAINT k FOREIGN KEY (user_id) REFERENCES people (id) ON DELETE CASCADE ON UPDATE CASCADE);"]

theorem exFaulty_faulty : Faulty exFaulty := by
  have h : (match FileDatabase.new exFaulty with
      | .error _ => false
      | .ok db => match db.errors.1 with | .ok (_ :: _) => true | _ => false) = true := by decide +kernel
  split at h
  · cases h
  · rename_i db hdb
    split at h
    · rename_i e es he
      exact ⟨db, e :: es, hdb, he, by simp⟩
    · cases h

/-- with `force`, the rows are written, but neither `users` nor `posts` is created, nor `logs` dropped -/
example : (plan (exServer fun _ _ => none) exFaulty true).result =
    .ok ⟨[py"SET FOREIGN_KEY_CHECKS=0;", py"INSERT INTO `roles` (`id`, `name`) VALUES ('2', 'guest');",
      py"UPDATE `roles` SET `name`='root' WHERE id='1';", py"SET FOREIGN_KEY_CHECKS=1;"], true⟩ := by decide +kernel

example : ((check exFaulty).result.map (fun o => (o.success, o.output.length))) = .ok (false, 2) := by decide +kernel

end Examples

end Mygrations

import Verif.Model.Commands

/-! # Runs of commands -/

namespace Mygrations

namespace Run
variable {α β : Type}

theorem bind_ok {x : Run α} {a : α} (h : x.result = .ok a) (f : α → Run β) : x.bind f = ⟨x.events ++ (f a).events, (f a).result⟩ := by
  unfold bind
  rw [h]

theorem bind_error {x : Run α} {e : PyErr} (h : x.result = .error e) (f : α → Run β) : x.bind f = ⟨x.events, .error e⟩ := by
  unfold bind
  rw [h]

theorem bind_result {x : Run α} {f : α → Run β} {b : β} (h : (x.bind f).result = .ok b) : ∃ a, x.result = .ok a ∧ (f a).result = .ok b := by
  cases hx : x.result with
  | error e => rw [bind_error hx] at h; cases h
  | ok a => rw [bind_ok hx] at h; exact ⟨a, rfl, h⟩

/-- a property of all events -/
def All (P : Event → Prop) (x : Run α) : Prop := ∀ e ∈ x.events, P e

theorem all_bind {P : Event → Prop} {x : Run α} {f : α → Run β} (h : x.All P) (hf : ∀ a, (f a).All P) : (x.bind f).All P := by
  intro e he
  cases hx : x.result with
  | error e => rw [bind_error hx] at he; exact h _ he
  | ok a =>
    rw [bind_ok hx] at he
    rcases List.mem_append.mp he with he | he
    · exact h _ he
    · exact hf a _ he

theorem all_pure {P : Event → Prop} (a : α) : (pure a).All P := fun _ h => by cases h
theorem all_raise {P : Event → Prop} (e : PyErr) : (raise e : Run α).All P := fun _ h => by cases h
theorem all_of {P : Event → Prop} (r : Except PyErr α) : (of r).All P := fun _ h => by cases h

end Run

namespace Driver

theorem sendAll_events (srv : Server) : ∀ (qs done : List Str),
    (∃ e k, (sendAll srv done qs).result = .error e ∧ k < qs.length ∧ (∀ j, j < k → ∀ q, qs[j]? = some q → srv.fails (done ++ qs.take j) q = none) ∧
      (∃ q, qs[k]? = some q ∧ srv.fails (done ++ qs.take k) q = some e) ∧ (sendAll srv done qs).events = (qs.take (k + 1)).map .sent) ∨
    ((sendAll srv done qs).result = .ok () ∧ (∀ j q, qs[j]? = some q → srv.fails (done ++ qs.take j) q = none) ∧
      (sendAll srv done qs).events = qs.map .sent)
  | [], done => by
    right
    exact ⟨rfl, fun j q h => (by simp at h), rfl⟩
  | q :: qs, done => by
    unfold sendAll
    cases hf : srv.fails done q with
    | some e =>
      left
      refine ⟨e, 0, ?_, by simp, fun j hj => (by omega), ⟨q, by simp, by simpa using hf⟩, ?_⟩
      · rw [Run.bind_error (e := e) rfl]
      · rw [Run.bind_error (e := e) rfl]; simp
    | none =>
      rw [Run.bind_ok (a := ()) rfl]
      have assoc : ∀ j, done ++ [q] ++ qs.take j = done ++ (q :: qs).take (j + 1) := fun j => by simp
      rcases sendAll_events srv qs (done ++ [q]) with ⟨e, k, h1, h2, h3, ⟨q', h4, h5⟩, h6⟩ | ⟨h1, h2, h3⟩
      · left
        refine ⟨e, k + 1, h1, by simp; omega, ?_, ⟨q', by simpa using h4, by rw [← assoc]; exact h5⟩, ?_⟩
        · intro j hj x hx
          cases j with
          | zero => simp at hx; subst hx; simpa using hf
          | succ j => rw [← assoc]; exact h3 j (by omega) x (by simpa using hx)
        · simp [h6]
      · right
        refine ⟨h1, ?_, by simp [h3]⟩
        intro j x hx
        cases j with
        | zero => simp at hx; subst hx; simpa using hf
        | succ j => rw [← assoc]; exact h2 j x (by simpa using hx)

/-- a query which only reads -/
def Reads : Event → Prop
  | .sent s => startsWith py"SHOW " s = true ∨ startsWith py"SELECT " s = true
  | .committed => False

theorem showCreates_reads (srv : Server) : ∀ ns, (showCreates srv ns).All Reads
  | [] => Run.all_pure _
  | n :: ns => by
    unfold showCreates
    refine Run.all_bind (fun e he => ?_) (fun a => ?_)
    · simp only [List.mem_singleton] at he
      subst he
      exact Or.inl rfl
    · split
      · exact Run.all_raise _
      · exact Run.all_bind (showCreates_reads srv ns) (fun _ => Run.all_pure _)

theorem tables_reads (srv : Server) : (tables srv).All Reads :=
  Run.all_bind (fun e he => by simp only [List.mem_singleton] at he; subst he; exact Or.inl rfl) (fun _ => showCreates_reads srv _)

theorem rows_reads (srv : Server) (t : Str) : (rows srv t).All Reads := fun e he => by
  have he : e ∈ [Event.sent (py"SELECT * FROM " ++ t)] := he
  simp only [List.mem_singleton] at he
  subst he
  exact Or.inr rfl

theorem showCreates_result (srv : Server) : ∀ (ns : List Str) (d : Dict Str), (showCreates srv ns).result = .ok d ↔
    d.keys = ns ∧ ∀ n text, (n, text) ∈ d → srv.createText n = .ok (some text)
  | [], d => by
    constructor
    · intro h; cases h; exact ⟨rfl, fun n t h => by cases h⟩
    · rintro ⟨h, _⟩
      cases d with
      | nil => rfl
      | cons x xs => cases h
  | n :: ns, d => by
    unfold showCreates
    constructor
    · intro h
      obtain ⟨a, ha, h⟩ := Run.bind_result h
      cases a with
      | none => cases h
      | some text =>
        obtain ⟨more, hm, h⟩ := Run.bind_result h
        cases h
        obtain ⟨h1, h2⟩ := (showCreates_result srv ns more).mp hm
        refine ⟨by simp only [Dict.keys, List.map_cons] at h1 ⊢; rw [h1], fun m t hmt => ?_⟩
        rcases List.mem_cons.mp hmt with e | e
        · cases e; exact ha
        · exact h2 m t e
    · rintro ⟨h1, h2⟩
      cases d with
      | nil => cases h1
      | cons x xs =>
        obtain ⟨m, text⟩ := x
        simp only [Dict.keys, List.map_cons, List.cons.injEq] at h1
        obtain ⟨rfl, h1⟩ := h1
        rw [Run.bind_ok (a := some text) (h2 m text List.mem_cons_self)]
        have := (showCreates_result srv ns xs).mpr ⟨h1, fun n t h => h2 n t (List.mem_cons_of_mem _ h)⟩
        simp only
        rw [Run.bind_ok this]
        rfl

end Driver

namespace LiveDatabase

theorem new_reads (srv : Server) : (new srv).All Driver.Reads := Run.all_bind (Driver.tables_reads srv) (fun _ => Run.all_of _)

theorem readRows_reads (srv : Server) (d : Database) (n : Str) : (readRows srv d n).All Driver.Reads := by
  unfold readRows
  split
  · exact Run.all_raise _
  · refine Run.all_bind (Driver.rows_reads srv _) (fun _ => ?_)
    split
    · exact Run.all_raise _
    · exact Run.all_pure _

end LiveDatabase

namespace Command

theorem readTracked_reads (srv : Server) : ∀ (ts : List Table) (live : Database), (readTracked srv live ts).All Driver.Reads
  | [], _ => Run.all_pure _
  | t :: ts, live => by
    unfold readTracked
    split
    · exact Run.all_bind (LiveDatabase.readRows_reads srv _ _) (fun _ => readTracked_reads srv ts _)
    · exact readTracked_reads srv ts live

theorem buildCommands_reads [PyNum] (srv : Server) (sources : List Str) (force : Bool) : (buildCommands srv sources force).All Driver.Reads := by
  unfold buildCommands
  split
  · exact Run.all_raise _
  · split
    · exact Run.all_raise _
    · split
      · exact Run.all_pure _
      · refine Run.all_bind (LiveDatabase.new_reads srv) (fun _ => Run.all_bind (readTracked_reads srv _ _) (fun _ => ?_))
        split
        · exact Run.all_raise _
        · exact Run.all_pure _
        · exact Run.all_pure _

end Command

/-- Asked again, the errors are the same. -/
theorem Database.errors_again [PyNum] {d d' : Database} {errs : List Str} (h : d.errors = (.ok errs, d')) : d'.errors.1 = .ok errs ∧ d'.tables = d.tables := by
  unfold Database.errors at h
  split at h
  · cases h
  · rename_i s d₁ hs
    split at h
    · cases h
    · rename_i p d₂ hp
      cases h
      have k1 : d₁.schemaCache = some s ∧ d₁.tables = d.tables ∧ d₁.globalErrors = d.globalErrors := by
        unfold Database.findSchemaErrors at hs
        split at hs
        · rename_i l hl; cases hs; exact ⟨hl, rfl, rfl⟩
        · split at hs
          · cases hs
          · split at hs
            · cases hs
            · split at hs
              · cases hs
              · cases hs; exact ⟨rfl, rfl, rfl⟩
      have k2 : d'.parsingCache = some p ∧ d'.tables = d₁.tables ∧ d'.globalErrors = d₁.globalErrors ∧ d'.schemaCache = d₁.schemaCache := by
        unfold Database.findParsingErrors at hp
        split at hp
        · rename_i l hl; cases hp; exact ⟨hl, rfl, rfl, rfl⟩
        · split at hp
          · cases hp
          · cases hp; exact ⟨rfl, rfl, rfl, rfl⟩
      refine ⟨?_, k2.2.1.trans k1.2.1⟩
      unfold Database.errors Database.findSchemaErrors
      rw [k2.2.2.2, k1.1]
      simp only [Database.findParsingErrors, k2.1, k2.2.2.1, k1.2.2]

end Mygrations

import Verif.Proofs.Reading
import Verif.Props.C14

/-! # C53: a migration which was interrupted can be resumed -/

namespace Mygrations
open Table MySQL Mygration

section
variable [PyNum]

/-- what the server has after some first statements of a plan -/
theorem prefix_runs {c : Bool} {f t : Dict Table} (hf : Accepted c f) (ht : Accepted true t) (hu : Untroubled f t) {pre post : List Op}
    (h : process t (some f) true = .ok (pre ++ post)) {db : SDb} (hdb : Describes f db) :
    ∃ N w db', Setup c f t N ∧ w.Ordered f t ∧ db.execAll pre = some db' ∧ db'.tables.keys.Nodup ∧ ∀ n, db'.tables.get? n = tabsAt f t N w n := by
  obtain ⟨N, hN, hops, hrun⟩ := process_runs hf ht hu h
  have hstart := start_at (t := t) (N := N) hf hdb
  simp only [if_true, List.append_assoc] at hops
  cases pre with
  | nil => exact ⟨N, _, db, hN, ordered_low _ _ _ (by simp), rfl, hstart.nodup, hstart.get⟩
  | cons o pre =>
    simp only [List.cons_append, List.nil_append, List.cons.injEq] at hops
    obtain ⟨rfl, hops⟩ := hops
    have exec : ∀ p, SDb.execAll db (Op.disableChecks :: p) = SDb.execAll { db with checks := false } p := by
      intro p
      simp only [SDb.execAll, List.foldlM_cons, SDb.exec, Option.bind_eq_bind, Option.bind_some]
    rw [exec]
    rcases List.append_eq_append_iff.mp hops with ⟨q, hq, _⟩ | ⟨q, hq, hq'⟩
    · -- within the statements between the two which switch the checks
      obtain ⟨σ, hr, _⟩ := hrun.split hq
      obtain ⟨db', hex, hat⟩ := hr.exec _ hstart
      obtain ⟨w, hw, rfl⟩ := hr.last
      exact ⟨N, w, db', hN, hw, hex, hat.nodup, hat.get⟩
    · cases q with
      | nil =>
        simp only [List.append_nil] at hq
        rw [hq]
        obtain ⟨db', hex, hat⟩ := hrun.exec _ hstart
        obtain ⟨w, hw, hweq⟩ := hrun.last
        exact ⟨N, w, db', hN, hw, hex, hat.nodup, fun n => by rw [hat.get, hweq]⟩
      | cons x q =>
        simp only [List.cons_append, List.cons.injEq] at hq'
        obtain ⟨rfl, hq'⟩ := hq'
        obtain ⟨rfl, rfl⟩ := List.append_eq_nil_iff.mp hq'.symm
        obtain ⟨db', hex, hat⟩ := hrun.exec _ hstart
        obtain ⟨w, hw, hweq⟩ := hrun.last
        refine ⟨N, w, { db' with checks := true }, hN, hw, ?_, hat.nodup, fun n => by rw [← hweq]; exact hat.get n⟩
        rw [hq]
        simp only [SDb.execAll, List.foldlM_append] at hex ⊢
        rw [hex]
        rfl

theorem describes_checks {d : Dict Table} {db : SDb} (h : Describes d db) (c : Bool) : Describes d { db with checks := c } := ⟨h.nodup, h.get⟩

/-- after attempts which were interrupted, everything which C14 needs holds again -/
theorem attempts_ready {c : Bool} {f t d : Dict Table} {db db' : SDb} (ht : Accepted true t) (ha : Attempts t f db d db') :
    Accepted c f → Untroubled f t → Describes f db → (∃ ops, process t (some f) true = .ok ops) →
    (∃ c', Accepted c' d) ∧ Untroubled d t ∧ Describes d db' ∧ ∃ ops, process t (some d) true = .ok ops := by
  intro hf hu hdb hp
  induction ha with
  | start => exact ⟨⟨c, hf⟩, hu, hdb, hp⟩
  | @again d d' db db' db'' pre post checks _ plan exec read ih =>
    obtain ⟨⟨c', hc⟩, hud, hdd, _⟩ := ih hdb
    obtain ⟨N, w, db₁, hN, hw, hex, _, hget⟩ := prefix_runs hc ht hud plan (describes_checks hdd checks)
    rw [exec] at hex
    cases hex
    have hmid := mid_of_reading hN hw hget read
    exact ⟨⟨false, hmid.accepted⟩, hmid.untroubled, read.describes, hmid.plan plan⟩

/-- **C53** (partial: for migrations which are `Untroubled`, as C14).  However often a migration was interrupted, each time after any of
its statements: the next plan can be made, all of its statements execute, after each of them the server's tables can be read again, and
after the last one the database is as declared. -/
theorem C53_partial (f t : Dict Table) (c : Bool) (hf : Accepted c f) (ht : Accepted true t) (hu : Untroubled f t)
    (db : SDb) (hdb : Describes f db) (hp : ∃ ops, process t (some f) true = .ok ops) (d : Dict Table) (db' : SDb) (ha : Attempts t f db d db') :
    (∃ ops, process t (some d) true = .ok ops) ∧
    ∀ ops, process t (some d) true = .ok ops → ∀ checks pre post, ops = pre ++ post →
      ∃ db'', SDb.execAll { db' with checks := checks } pre = some db'' ∧ (∃ d', Reading d db'' d') ∧ (post = [] → Migrated d t db'') := by
  obtain ⟨⟨c', hc⟩, hud, hdd, hpd⟩ := attempts_ready ht ha hf hu hdb hp
  refine ⟨hpd, ?_⟩
  intro ops hops checks pre post he
  rw [he] at hops
  obtain ⟨N, w, db'', hN, _, hex, hnd, hget⟩ := prefix_runs hc ht hud hops (describes_checks hdd checks)
  refine ⟨db'', hex, reading_exists hN hnd hget, ?_⟩
  rintro rfl
  obtain ⟨db₁, h1, h2⟩ := C14_partial d t (some d) rfl c' hc ht hud _ hops _ (describes_checks hdd checks)
  rw [List.append_nil, hex] at h1
  cases h1
  exact h2

/-- **C53, exactly**: the migration is `Untroubled` if and only if it can be completed after every history of interrupted attempts
(the empty one included): the next plan executes as a whole, and then the database is as declared. -/
theorem C53_iff (f t : Dict Table) (c : Bool) (hf : Accepted c f) (ht : Accepted true t)
    (db : SDb) (hdb : Describes f db) (hp : ∃ ops, process t (some f) true = .ok ops) :
    (∀ d db', Attempts t f db d db' → ∃ ops, process t (some d) true = .ok ops ∧
      ∀ checks, ∃ db'', SDb.execAll { db' with checks := checks } ops = some db'' ∧ Migrated d t db'') ↔ Untroubled f t := by
  constructor
  · intro h
    obtain ⟨ops, hops, hex⟩ := h f db .start
    obtain ⟨db'', h1, h2⟩ := hex true
    exact (C14_iff f t (some f) rfl c hf ht ops hops _ (describes_checks hdb true)).mp ⟨db'', h1, h2⟩
  · intro hu d db' ha
    obtain ⟨⟨ops, hops⟩, hall⟩ := C53_partial f t c hf ht hu db hdb hp d db' ha
    refine ⟨ops, hops, fun checks => ?_⟩
    obtain ⟨db'', h1, _, h2⟩ := hall ops hops checks ops [] (by simp)
    exact ⟨db'', h1, h2 rfl⟩

/-- **C53 is false whenever the migration is not `Untroubled`**: every attempt stops at a statement which the server refuses, whichever
server has the tables `f`. -/
theorem C53_refuted (f t : Dict Table) (c : Bool) (hf : Accepted c f) (ht : Accepted true t) (hu : ¬ Untroubled f t) (ops : List Op)
    (h : process t (some f) true = .ok ops) (db : SDb) (hdb : Describes f db) :
    ∃ pre o post db', ops = pre ++ o :: post ∧ db.execAll pre = some db' ∧ db'.exec o = none := by
  have hn := C14_refuted f t (some f) rfl c hf ht hu ops h db hdb
  clear h hdb
  induction ops generalizing db with
  | nil => simp [SDb.execAll] at hn
  | cons o ops ih =>
    cases ho : db.exec o with
    | none => exact ⟨[], o, ops, db, rfl, rfl, ho⟩
    | some db₁ =>
      have : db₁.execAll ops = none := by simpa [SDb.execAll, ho] using hn
      obtain ⟨pre, o', post, db₂, rfl, h1, h2⟩ := ih db₁ this
      refine ⟨o :: pre, o', post, db₂, rfl, ?_, h2⟩
      simpa [SDb.execAll, ho] using h1

end

/-! ## Examples -/

namespace Examples
attribute [local instance] exactNum

/-- the server after the first four statements of `livePlan`: `users` is updated, `comments` is not -/
def halfway : SDb := (SDb.execAll ⟨true, ofTables live⟩ (livePlan.take 4)).getD ⟨true, []⟩

/-- what the tool reads then: `users` is updated, `comments` has lost its foreign key, `tags` is there, and `old` is still there -/
def halfwayTables : Dict Table := db [users py"BIGINT", freeComments py"INT", mk py"old" [idCol] [pk] [], tags]

theorem halfway_reading : Reading live halfway halfwayTables := by
  have hk : KeyedTables halfwayTables := keyedTables_of_check (by decide) (by decide)
  have he : halfway.tables = ofTables halfwayTables := by decide +kernel
  refine ⟨hk, ⟨?_, ?_⟩, ?_⟩
  · rw [he, ofTables_keys]; exact hk.nodup
  · intro n
    rw [he, ofTables_get?]
  · intro x y hb _ _
    have : halfwayTables.keys = live.keys ++ [py"tags"] := by decide
    rw [this]
    exact before_append_left hb

/-- the migration from `live` to `declared` is interrupted between the updates of the two tables -/
theorem halfway_attempt : Attempts declared live ⟨true, ofTables live⟩ halfwayTables halfway := by
  refine .again (pre := livePlan.take 4) (post := livePlan.drop 4) (checks := true) .start ?_ ?_ halfway_reading
  · rw [List.take_append_drop]; exact livePlan_ok
  · decide +kernel

/-- C53 speaks about such a history: the next plan takes up where the first one stopped -/
example : ∃ ops, process declared (some halfwayTables) true = .ok ops ∧
    ∃ db', SDb.execAll { halfway with checks := true } ops = some db' ∧ Migrated halfwayTables declared db' := by
  obtain ⟨⟨ops, h1⟩, h2⟩ := C53_partial live declared true live_accepted declared_accepted live_untroubled _ (describes_ofTables live_keyed true)
    ⟨_, livePlan_ok⟩ _ _ halfway_attempt
  obtain ⟨db', h3, _, h4⟩ := h2 ops h1 true ops [] (by simp)
  exact ⟨ops, h1, db', h3, h4 rfl⟩

/-- **C53 is false in general**: a plan which fails fails again when it is made again (`comments` loses its foreign key, and the column
it refers to changes its type; see C14) -/
theorem C53_counterexample : ∃ pre o post db', process freed (some live) true = .ok (pre ++ o :: post) ∧
    SDb.execAll ⟨true, ofTables live⟩ pre = some db' ∧ db'.exec o = none ∧ Reading live db' live := by
  have hp : ∃ ops, process freed (some live) true = .ok ops ∧ ops = ops.take 1 ++ .alter ⟨py"users", (match ops[1]? with | some (Op.alter a) => a.ops | _ => [])⟩ :: ops.drop 2 ∧
      SDb.execAll ⟨true, ofTables live⟩ (ops.take 1) = some ⟨false, ofTables live⟩ ∧
      SDb.exec ⟨false, ofTables live⟩ (.alter ⟨py"users", (match ops[1]? with | some (Op.alter a) => a.ops | _ => [])⟩) = none := by
    refine ⟨match process freed (some live) true with | .ok ops => ops | .error _ => [], ?_, ?_, ?_, ?_⟩ <;> decide +kernel
  obtain ⟨ops, h1, h2, h3, h4⟩ := hp
  exact ⟨_, _, _, _, h2 ▸ h1, h3, h4, live_keyed, describes_ofTables live_keyed false, fun x y h _ _ => h⟩

/-- C53_refuted speaks about this migration, on every server which has the tables of `live` -/
example (db : SDb) (hdb : Describes live db) (ops : List Op) (h : process freed (some live) true = .ok ops) :
    ∃ pre o post db', ops = pre ++ o :: post ∧ db.execAll pre = some db' ∧ db'.exec o = none :=
  C53_refuted live freed true live_accepted (accepted_of_check C14_counterexample_leaving.tgt) C14_counterexample_leaving.troubled ops h db hdb

end Examples

end Mygrations

import Verif.Proofs.PlanFks
import Verif.Model.Database
import Verif.Props.C01

/-! # C09, C10, C11, C12, C13, C16: migration plans -/

namespace Mygrations
open Table MySQL Mygration

/-! ## C09 -/

theorem typeDiffers_irrefl (a : Column) : ¬ a.TypeDiffers a := by simp [Column.TypeDiffers]

theorem typeChanges_self {f : Dict Table} {n c : Str} : ¬ TypeChanges f f n c := by
  rintro ⟨s, d, a, b, hs, hd, ha, hb, hab⟩
  rw [hs] at hd; cases hd
  rw [ha] at hb; cases hb
  exact typeDiffers_irrefl a hab

theorem cycles_self {f : Dict Table} (hf : KeyedTables f) : cycles (some f) f = [] := by
  rw [List.eq_nil_iff_forall_not_mem]
  intro x hx
  obtain ⟨s, _, _, hi, _⟩ := mem_fksToCycle hx
  obtain ⟨m, c, h, _⟩ := (involves_iff hf).mp hi
  exact typeChanges_self h

theorem updateTables_self [PyNum] (f : Dict Table) : ∀ ns, (∀ n ∈ ns, n ∈ f.keys) → updateTables [] f f ns = .ok ([], []) := by
  intro ns
  induction ns with
  | nil => intro _; rfl
  | cons n ns ih =>
    intro h
    obtain ⟨s, hs⟩ := Dict.exists_get? (h n List.mem_cons_self)
    simp only [updateTables, hs, updateTable, C01_split, ih (fun m hm => h m (List.mem_cons_of_mem _ hm))]
    simp [stripCycled, alterIf]

/-- **C09**.  The migration of a database to itself consists of nothing but the toggles of the foreign-key checks. -/
theorem C09 [PyNum] (d : Database) (hd : KeyedTables d.tables) (checks : Bool) (he : d.errors.1 = .ok []) :
    Mygration.new d (some d) checks =
      .ok ⟨[], some (if checks then [.disableChecks, .enableChecks] else [])⟩ := by
  simp only [Mygration.new, he, Option.map_some, process, Option.getD_some, cycles_self hd]
  rw [show cycledNames [] = [] from rfl, updateTables_self d.tables _ (fun n hn => (mem_overlap.mp hn).1)]
  simp only [added_self, removed_self]
  cases checks <;> rfl

/-! ## Examples -/

namespace Examples

/-- `users(id, email)` with an id column of the given width and type -/
def users (ctype : Str) : Table := mk py"users"
  [{ idCol with ctype := ctype }, textCol py"email" py"200"] [pk, key py"email" [py"email"]] []

/-- `comments`, with a foreign key to `users` -/
def comments (ctype : Str) : Table := mk py"comments"
  [idCol, { intCol py"user_id" with ctype := ctype }] [pk, key py"user_id" [py"user_id"]]
  [fk py"comments_user_fk" py"user_id" py"users" py"id"]

/-- a new table -/
def tags : Table := mk py"tags" [idCol, textCol py"tag" py"20"] [pk] []

/-- tables, stored under their names -/
def db (ts : List Table) : Dict Table := ts.map (fun t => (t.name, t))

/-- the live database -/
def live : Dict Table := db [users py"INT", comments py"INT", mk py"old" [idCol] [pk] []]

/-- the declared database: ids are `BIGINT` now, `old` is gone, `tags` is new -/
def declared : Dict Table := db [users py"BIGINT", comments py"BIGINT", tags]

theorem keyedTables_of_check {d : Dict Table} (h1 : d.keys.Nodup) (h2 : d.all (fun e => e.2.name == e.1 && e.2.validB) = true) :
    KeyedTables d := by
  simp only [List.all_eq_true, Bool.and_eq_true, beq_iff_eq] at h2
  exact ⟨h1, fun k t h => (h2 _ h).1, fun k t h => (Table.valid_of_check (h2 _ h).2).toKeyed⟩

theorem live_keyed : KeyedTables live := keyedTables_of_check (by decide) (by decide)
theorem declared_keyed : KeyedTables declared := keyedTables_of_check (by decide) (by decide)

attribute [local instance] exactNum

/-- the hypotheses of C09 hold of a database with foreign keys -/
example : Mygration.new { tables := live } (some { tables := live }) true = .ok ⟨[], some [.disableChecks, .enableChecks]⟩ :=
  C09 { tables := live } live_keyed true (by decide)

end Examples

/-! ## C10 -/

/-- **C10**.  The plan creates exactly the declared tables that are missing (each once), drops exactly the
tables that are not declared (each once), and apart from these it only alters tables that exist and are declared -
except that a table about to be dropped may lose foreign keys before. -/
theorem C10 [PyNum] (t : Dict Table) (from? : Option (Dict Table)) (checks : Bool) (ops : List Op)
    (ht : KeyedTables t) (hf : KeyedTables (from?.getD [])) (h : Mygration.process t from? checks = .ok ops) :
    let f := from?.getD []
    (∀ d, .createTable d ∈ ops ↔ ∃ n, t.get? n = some d ∧ n ∉ f.keys) ∧
    (∀ n, .removeTable n ∈ ops ↔ n ∈ f.keys ∧ n ∉ t.keys) ∧
    (ops.filter Op.isCreate).Nodup ∧ (ops.filter Op.isDrop).Nodup ∧
    (∀ a, .alter a ∈ ops → a.table ∈ f.keys ∧
      (a.table ∈ t.keys ∨ (Op.alter a).changesColumnsOrKeys = false ∧ (Op.alter a).addsFk = [])) ∧
    (∀ o ∈ ops, o.isToggle ∨ o.isCreate ∨ o.isAlter ∨ o.isDrop) := by
  intro f
  obtain ⟨he, hdiff⟩ := process_eq hf h
  have hcyc : ∀ x ∈ cycles from? t, CycleOk f t x := by
    intro x hx
    cases from? with
    | none => simp [cycles] at hx
    | some f' => exact cycleOk hf ht hx
  have hnow : ∀ a ∈ (overlap f t).flatMap (nowOf (cycledNames (cycles from? t)) f t), a.table ∈ overlap f t := by
    intro a ha
    obtain ⟨n, hn, ha⟩ := List.mem_flatMap.mp ha
    simp only [nowOf, alterIf, List.mem_append] at ha
    rcases ha with ha | ha <;> split at ha <;> simp at ha <;> rw [ha] <;> exact hn
  have hlater : ∀ a ∈ (overlap f t).flatMap (laterOf (cycledNames (cycles from? t)) f t), a.table ∈ overlap f t := by
    intro a ha
    obtain ⟨n, hn, ha⟩ := List.mem_flatMap.mp ha
    simp only [laterOf, alterIf] at ha
    split at ha <;> simp at ha
    rw [ha]; exact hn
  refine ⟨?_, ?_, ?_, ?_, ?_, ?_⟩
  · intro d
    rw [he]
    cases checks <;> simp [mem_added, f] <;> constructor <;>
      first
      | (rintro ⟨n, ⟨_, h2⟩, h3⟩; exact ⟨n, h3, h2⟩)
      | (rintro ⟨n, h3, h2⟩; exact ⟨n, ⟨Dict.mem_keys_of_get? h3, h2⟩, h3⟩)
  · intro n
    rw [he]
    cases checks <;> simp [mem_removed, f]
  · rw [he]
    simp only [List.filter_append]
    have h1 : ∀ l : List Alter, (l.map Op.alter).filter Op.isCreate = [] := by
      intro l; rw [List.filter_eq_nil_iff]; simp [Op.isCreate]
    have h2 : ∀ l : List Str, (l.map Op.removeTable).filter Op.isCreate = [] := by
      intro l; rw [List.filter_eq_nil_iff]; simp [Op.isCreate]
    have h3 : (if checks then [Op.disableChecks] else []).filter Op.isCreate = [] := by cases checks <;> rfl
    have h4 : (if checks then [Op.enableChecks] else []).filter Op.isCreate = [] := by cases checks <;> rfl
    rw [h1, h1, h1, h1, h2, h3, h4]
    simp only [List.append_nil, List.nil_append]
    refine List.Nodup.sublist List.filter_sublist ?_
    apply nodup_filterMap
    · intro a _ b _ x ha hb
      cases hga : t.get? a with
      | none => simp [hga] at ha
      | some ta =>
        cases hgb : t.get? b with
        | none => simp [hgb] at hb
        | some tb =>
          simp only [hga, hgb, Option.map_some, Option.some.injEq] at ha hb
          rw [← hb] at ha
          cases ha
          exact (ht.name _ _ (Dict.mem_of_get? hga)).symm.trans (ht.name _ _ (Dict.mem_of_get? hgb))
    · exact added_nodup ht.nodup
  · rw [he]
    simp only [List.filter_append]
    have h1 : ∀ l : List Alter, (l.map Op.alter).filter Op.isDrop = [] := by
      intro l; rw [List.filter_eq_nil_iff]; simp [Op.isDrop]
    have h2 : ∀ l : List Str, (l.filterMap (fun n => (t.get? n).map Op.createTable)).filter Op.isDrop = [] := by
      intro l; rw [List.filter_eq_nil_iff]
      intro o ho
      obtain ⟨n, _, hn⟩ := List.mem_filterMap.mp ho
      cases hg : t.get? n with
      | none => simp [hg] at hn
      | some d => simp only [hg, Option.map_some, Option.some.injEq] at hn; rw [← hn]; simp [Op.isDrop]
    have h3 : (if checks then [Op.disableChecks] else []).filter Op.isDrop = [] := by cases checks <;> rfl
    have h4 : (if checks then [Op.enableChecks] else []).filter Op.isDrop = [] := by cases checks <;> rfl
    rw [h1, h1, h1, h1, h2, h3, h4]
    simp only [List.append_nil, List.nil_append]
    refine List.Nodup.sublist List.filter_sublist ?_
    exact nodup_map_on (fun a _ b _ h => by simpa using h) (removed_nodup hf.nodup)
  · intro a ha
    have hcases : a ∈ groupAlters (cycleDrops (cycles from? t)) ∨ a.table ∈ overlap f t ∨
        a ∈ groupAlters (cycleAdds (cycles from? t) []) := by
      rw [he] at ha
      simp only [List.mem_append, List.mem_map, Op.alter.injEq, exists_eq_right, List.mem_filterMap] at ha
      rcases ha with ((((((ha | ⟨m, _, ha⟩) | ha) | ha) | ha) | ha) | ⟨_, _, ha⟩) | ha
      · cases checks <;> simp at ha
      · cases hg : t.get? m <;> simp [hg] at ha
      · exact .inl ha
      · exact .inr (.inl (hnow a ha))
      · exact .inr (.inl (hlater a ha))
      · exact .inr (.inr ha)
      · cases ha
      · cases checks <;> simp at ha
    have htab : ∀ l : List (Str × AlterOp), a ∈ groupAlters l → a.table ∈ l.map Prod.fst := by
      intro l hl
      have : a.table ∈ (groupAlters l).map Alter.table := List.mem_map_of_mem hl
      rw [groupAlters_tables] at this
      exact mem_groups_keys.mp this
    rcases hcases with hc | hc | hc
    · have hops := mem_groupAlters hc
      have := htab _ hc
      simp only [cycleDrops, List.map_map, List.mem_map, Function.comp] at this
      obtain ⟨x, hx, hxt⟩ := this
      obtain ⟨⟨s, hs, _⟩, _, _⟩ := hcyc x hx
      refine ⟨hxt ▸ Dict.mem_keys_of_get? hs, .inr ?_⟩
      have : a.ops = (((cycles from? t).filter (fun x => x.table = a.table)).map Cycle.source).map AlterOp.removeConstraint := by
        rw [hops, cycleDrops, List.filter_map, List.map_map, List.map_map]; rfl
      obtain ⟨⟨h1, h2, h3, h4, h5⟩, h6, h7⟩ := removeConstraint_clauses (((cycles from? t).filter (fun x => x.table = a.table)).map Cycle.source)
      rw [← this] at h1 h2 h3 h4 h5 h6 h7
      simp [Op.changesColumnsOrKeys, Op.alterClauses, Op.addsFk, h1, h2, h3, h4, h5, h7]
    · rw [mem_overlap] at hc
      exact ⟨hc.1, .inl hc.2⟩
    · have := htab _ hc
      simp only [List.mem_map] at this
      obtain ⟨e, he', het⟩ := this
      obtain ⟨x, hx, k, n, h1, h2, _⟩ := mem_cycleAdds he'
      obtain ⟨⟨s, hs, _⟩, _, htg⟩ := hcyc x hx
      rw [h2] at het
      simp only at het
      rcases htg with ⟨h3, _⟩ | ⟨d, k', h3, _⟩
      · rw [h1] at h3; cases h3
      · exact ⟨het ▸ Dict.mem_keys_of_get? hs, .inl (het ▸ Dict.mem_keys_of_get? h3)⟩
  · intro o ho
    rw [he] at ho
    simp only [List.mem_append, List.mem_map, List.mem_filterMap] at ho
    rcases ho with ((((((ho | ⟨n, _, ho⟩) | ⟨_, _, ho⟩) | ⟨_, _, ho⟩) | ⟨_, _, ho⟩) | ⟨_, _, ho⟩) | ⟨_, _, ho⟩) | ho
    · cases checks <;> simp at ho; simp [ho, Op.isToggle]
    · cases hg : t.get? n with
      | none => simp [hg] at ho
      | some d => simp only [hg, Option.map_some, Option.some.injEq] at ho; simp [← ho, Op.isCreate]
    · simp [← ho, Op.isAlter]
    · simp [← ho, Op.isAlter]
    · simp [← ho, Op.isAlter]
    · simp [← ho, Op.isAlter]
    · simp [← ho, Op.isDrop]
    · cases checks <;> simp at ho; simp [ho, Op.isToggle]

end Mygrations

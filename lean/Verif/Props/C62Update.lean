import Verif.Props.C62
import Verif.Proofs.ReadUpdate

/-!
# C62: columns which MySQL updates

`Server.HasUpdated` and `TableDecl.updatedText` are in `Spec/Updated.lean`.
-/

namespace Mygrations
open Command

/-- **C62** for servers of which columns may be `ON UPDATE CURRENT_TIMESTAMP`: a table of the server is found, and then with its definition,
exactly if none of its columns is.  So `C62` is false of every table with such a column, if a column, the primary key or nothing follows. -/
theorem C62_updates_iff {srv : Server} {ds : List TableDecl} {marks : Str → List Bool} (h : srv.HasUpdated ds marks) :
    ∃ live, (LiveDatabase.new srv).result = .ok live ∧
      (∀ d ∈ ds, d.name ∈ live.tables.keys ↔ ∀ b ∈ marks d.name, b = false) ∧
      (∀ d ∈ ds, (∀ b ∈ marks d.name, b = false) → ∃ t, live.tables.get? d.name = some t ∧ SameTable d.table t) := by
  obtain ⟨live, h1, h2, _⟩ := live_updated h
  refine ⟨live, h1, fun d hd => ?_, fun d hd hn => ?_⟩
  · rcases h2 d hd with ⟨h3, t, h4, _⟩ | ⟨hc, h4⟩
    · refine ⟨fun _ b hb => ?_, fun _ => Dict.mem_keys_of_get? h4⟩
      cases b with
      | false => rfl
      | true => exact absurd hb h3
    · refine ⟨fun hk => ?_, fun hn => ?_⟩
      · exact absurd hk (Dict.get?_eq_none.mp h4)
      · cases hn _ hc
  · rcases h2 d hd with ⟨_, h4⟩ | ⟨hc, _⟩
    · exact h4
    · cases hn _ hc

/-- **C62 and C65 are false** of every server with such a column: if the files declare the table as well, then the plan creates it although it
exists, and drops a table without a name (`DROP TABLE ;`). -/
theorem C62_update_refuted [PyNum] {srv : Server} {ds : List TableDecl} {marks : Str → List Bool} (h : srv.HasUpdated ds marks)
    (d : TableDecl) (hd : d ∈ ds) (hc : true ∈ marks d.name) (sources : List Str) (force : Bool) (ops : List Op) (files : Database) (t : Table)
    (hclean : ¬ Faulty sources) (hf : FileDatabase.new sources = .ok files) (ht : files.tables.get? d.name = some t) (hn : [] ∉ files.tables.keys)
    (hops : (buildCommands srv sources force).result = .ok ops) : .createTable t ∈ ops ∧ .removeTable [] ∈ ops := by
  obtain ⟨live, h1, h2, h3⟩ := live_updated h
  obtain ⟨c1, c2, _⟩ := C64 srv sources force ops files live hclean hf h1 hops
  refine ⟨(c1 t).mpr ⟨d.name, ht, ?_⟩, (c2 []).mpr ⟨Dict.mem_keys_of_get? (h3 ⟨d, hd, hc⟩), hn⟩⟩
  rcases h2 d hd with ⟨h4, _⟩ | ⟨_, h4⟩
  · exact absurd hc h4
  · exact Dict.get?_eq_none.mp h4

open Examples in
section
attribute [local instance] exactNum

namespace Examples

/-- `at TIMESTAMP NOT NULL DEFAULT CURRENT_TIMESTAMP` -/
def stampAt : Column := { cls := .date, name := py"at", ctype := py"TIMESTAMP", null := false, hasDefault := true, default := some py"CURRENT_TIMESTAMP" }

/-- another -/
def stampLast : Column := { stampAt with name := py"last" }

/-- a table with two such columns -/
def stampTable : TableDecl :=
  { name := py"visits", first := .column liveId (.server false),
    others := [.column stampAt (.server false), .column liveName (.server false), .column stampLast (.server false), .index livePrimary py"KEY"],
    options := [⟨py"ENGINE", py"InnoDB"⟩] }

/-- the server: the columns `at` and `last` of `visits` are updated -/
def stampServer : Server :=
  { liveServer with
    tableNames := [py"visits", py"roles"]
    createText := fun n =>
      if n = py"visits" then .ok (some py"CREATE TABLE `visits` (\n  `id` int NOT NULL AUTO_INCREMENT,\n  `at` timestamp NOT NULL DEFAULT CURRENT_TIMESTAMP ON UPDATE CURRENT_TIMESTAMP,\n  `name` varchar(20) NOT NULL DEFAULT 'guest',\n  `last` timestamp NOT NULL DEFAULT CURRENT_TIMESTAMP ON UPDATE CURRENT_TIMESTAMP,\n  PRIMARY KEY (`id`)\n) ENGINE=InnoDB")
      else liveServer.createText n }

/-- which definitions are updated -/
def stampMarks (n : Str) : List Bool := if n = py"visits" then [false, true, false, true, false] else [false, false, false]

theorem stampAt_plain : stampAt.Plain := by
  refine ⟨by decide, by decide, rfl, ⟨_, .none, by decide, ?_⟩, by decide, ?_, ?_⟩ <;> intro v hv <;> cases hv
  exact ⟨.inl ⟨by decide, by decide⟩, by decide⟩
theorem stampLast_plain : stampLast.Plain := by
  refine ⟨by decide, by decide, rfl, ⟨_, .none, by decide, ?_⟩, by decide, ?_, ?_⟩ <;> intro v hv <;> cases hv
  exact ⟨.inl ⟨by decide, by decide⟩, by decide⟩

theorem stampTable_ok : stampTable.Ok := by
  refine ⟨by decide, ?_, ?_, ⟨_, _, rfl⟩, ?_, by decide, by decide, by decide, by decide, by decide⟩
  · intro x hx
    simp only [stampTable, TableDecl.defs, List.mem_cons, List.not_mem_nil, or_false] at hx
    rcases hx with rfl | rfl | rfl | rfl | rfl
    · exact ⟨liveId_plain, server_fits _ _⟩
    · exact ⟨stampAt_plain, server_fits _ _⟩
    · exact ⟨liveName_plain, server_fits _ _⟩
    · exact ⟨stampLast_plain, server_fits _ _⟩
    · exact ⟨⟨by decide, by decide⟩, .inl (by decide)⟩
  · intro x hx
    simp only [stampTable, TableDecl.defs, List.mem_cons, List.not_mem_nil, or_false] at hx
    rcases hx with rfl | rfl | rfl | rfl | rfl
    · rintro v (h | h | h) <;> cases h
    · rintro v (h | h | h) <;> cases h
      unfold NoComment; decide
    · rintro v (h | h | h) <;> cases h
      unfold NoComment; decide
    · rintro v (h | h | h) <;> cases h
      unfold NoComment; decide
    · trivial
  · intro o ho
    simp only [stampTable, List.mem_cons, List.not_mem_nil, or_false] at ho
    subst ho
    exact ⟨by decide, by decide, by decide, by decide, by unfold NoComment; decide⟩

theorem stampServer_has : stampServer.HasUpdated [stampTable, liveRoles] stampMarks := by
  have two : ∀ {P : TableDecl → Prop}, P stampTable → P liveRoles → ∀ d ∈ [stampTable, liveRoles], P d := by
    intro P h1 h2 d hd
    simp only [List.mem_cons, List.not_mem_nil, or_false] at hd
    rcases hd with rfl | rfl
    · exact h1
    · exact h2
  refine ⟨rfl, by decide, two stampTable_ok liveRoles_ok, two (by decide) (by decide), two rfl rfl, two ?_ ?_,
    two ⟨liveLayout, ?_, by decide, by decide +kernel⟩ ⟨liveLayout, ?_, by decide, by decide +kernel⟩⟩
  · intro i hi x hx
    match i, hi, hx with
    | 0, hi, _ => exact absurd hi (by decide)
    | 1, _, hx => cases hx; exact Or.inl ⟨_, _, rfl⟩
    | 2, hi, _ => exact absurd hi (by decide)
    | 3, _, hx => cases hx; exact Or.inr ⟨_, _, rfl, by decide⟩
    | 4, hi, _ => exact absurd hi (by decide)
    | n + 5, hi, _ => simp [stampMarks, stampTable] at hi
  · intro i hi
    match i, hi with
    | 0, hi => exact absurd hi (by decide)
    | 1, hi => exact absurd hi (by decide)
    | 2, hi => exact absurd hi (by decide)
    | n + 3, hi => simp [stampMarks, liveRoles] at hi
  · exact ⟨by decide, by decide, by decide⟩
  · exact ⟨by decide, by decide, by decide⟩

end Examples

/-- for `C62_updates_iff`: one of the two tables has such columns, one of which is followed by a column and one by the primary key -/
example : stampServer.HasUpdated [stampTable, liveRoles] stampMarks ∧ true ∈ stampMarks stampTable.name ∧ (∀ b ∈ stampMarks liveRoles.name, b = false) :=
  ⟨stampServer_has, by decide, by decide⟩

/-- for `C62_update_refuted`: the files declare the table -/
example : let source := py"CREATE TABLE visits (id INT NOT NULL AUTO_INCREMENT, PRIMARY KEY (id));"
    ¬ Faulty [source] ∧ (FileDatabase.new [source]).map (fun d => d.tables.keys) = .ok [py"visits"] ∧
    (plan stampServer [source] false).result = .ok ⟨[py"SET FOREIGN_KEY_CHECKS=0;",
      py"CREATE TABLE `visits` (`id` INT NOT NULL AUTO_INCREMENT,\nPRIMARY KEY (`id`));",
      py"DROP TABLE ;", py"DROP TABLE roles;", py"SET FOREIGN_KEY_CHECKS=1;"], true⟩ := by
  refine ⟨?_, by decide +kernel, by decide +kernel⟩
  rintro ⟨files, errs, h1, h2, h3⟩
  have : ((FileDatabase.new [py"CREATE TABLE visits (id INT NOT NULL AUTO_INCREMENT, PRIMARY KEY (id));"]).bind fun d => d.errors.1) = .ok [] := by decide +kernel
  rw [h1] at this
  simp only [Except.bind] at this
  rw [h2] at this
  exact h3 (Except.ok.inj this)

/-- **C62 fails in another way** if a unique key follows such a column: the text is read to its end, but there is no class for a column of type
`UPDATE`, so that the table is not found and there is no table without a name either. -/
theorem C62_update_unique_refuted :
    let srv : Server := { tableNames := [py"t"], createText := (fun _ => .ok (some py"CREATE TABLE `t` (\n  `at` timestamp NOT NULL DEFAULT CURRENT_TIMESTAMP ON UPDATE CURRENT_TIMESTAMP,\n  UNIQUE KEY `once` (`at`)\n) ENGINE=InnoDB")), select := (fun _ => .ok []), fails := (fun _ _ => none) }
    (LiveDatabase.new srv).result.map (fun d => d.tables.keys) = .ok [] ∧
    (plan srv [py"CREATE TABLE t (at TIMESTAMP NOT NULL);"] false).result =
      .ok ⟨[py"SET FOREIGN_KEY_CHECKS=0;", py"CREATE TABLE `t` (`at` TIMESTAMP NOT NULL);", py"SET FOREIGN_KEY_CHECKS=1;"], true⟩ := by
  refine ⟨?_, ?_⟩ <;> decide +kernel

end

end Mygrations

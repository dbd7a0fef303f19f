import Verif.Props.C64
import Verif.Props.C65
import Verif.Proofs.ReadComment

/-!
# C62: comments of columns and keys

`Server.HasCommented` and `TableDecl.commentedText` are in `Spec/Live.lean`.
-/

namespace Mygrations
open Command

/-- **C62** for servers of which columns and keys may have comments: a table of the server is found, and then with its definition, exactly if
none of its columns and keys has a comment.  So `C62` is false of every table with a comment. -/
theorem C62_comments_iff {srv : Server} {ds : List TableDecl} {notes : Str → List (Option Str)} (h : srv.HasCommented ds notes) :
    ∃ live, (LiveDatabase.new srv).result = .ok live ∧
      (∀ d ∈ ds, d.name ∈ live.tables.keys ↔ ∀ n ∈ notes d.name, n = none) ∧
      (∀ d ∈ ds, (∀ n ∈ notes d.name, n = none) → ∃ t, live.tables.get? d.name = some t ∧ SameTable d.table t) := by
  obtain ⟨live, h1, h2, _⟩ := live_commented h
  refine ⟨live, h1, fun d hd => ?_, fun d hd hn => ?_⟩
  · rcases h2 d hd with ⟨h3, t, h4, _⟩ | ⟨⟨c, hc⟩, h4⟩
    · refine ⟨fun _ n hn => ?_, fun _ => Dict.mem_keys_of_get? h4⟩
      cases n with
      | none => rfl
      | some c => exact absurd hn (h3 c)
    · refine ⟨fun hk => ?_, fun hn => ?_⟩
      · exact absurd hk (Dict.get?_eq_none.mp h4)
      · cases hn _ hc
  · rcases h2 d hd with ⟨_, h4⟩ | ⟨⟨c, hc⟩, _⟩
    · exact h4
    · cases hn _ hc

/-- **C62 and C65 are false** of every server with a comment: if the files declare the table as well, then the plan creates it although it
exists, and drops a table without a name (`DROP TABLE ;`). -/
theorem C62_comment_refuted [PyNum] {srv : Server} {ds : List TableDecl} {notes : Str → List (Option Str)} (h : srv.HasCommented ds notes)
    (d : TableDecl) (hd : d ∈ ds) (c : Str) (hc : some c ∈ notes d.name) (sources : List Str) (force : Bool) (ops : List Op) (files : Database) (t : Table)
    (hclean : ¬ Faulty sources) (hf : FileDatabase.new sources = .ok files) (ht : files.tables.get? d.name = some t) (hn : [] ∉ files.tables.keys)
    (hops : (buildCommands srv sources force).result = .ok ops) : .createTable t ∈ ops ∧ .removeTable [] ∈ ops := by
  obtain ⟨live, h1, h2, h3⟩ := live_commented h
  obtain ⟨c1, c2, _⟩ := C64 srv sources force ops files live hclean hf h1 hops
  refine ⟨(c1 t).mpr ⟨d.name, ht, ?_⟩, (c2 []).mpr ⟨Dict.mem_keys_of_get? (h3 ⟨d, hd, c, hc⟩), hn⟩⟩
  rcases h2 d hd with ⟨h4, _⟩ | ⟨_, h4⟩
  · exact absurd hc (h4 c)
  · exact Dict.get?_eq_none.mp h4

open Examples in
section
attribute [local instance] exactNum

namespace Examples

/-- the server of `C65`, but a column of `grants` and its key have comments -/
def commentedServer : Server :=
  { liveServer with createText := fun n =>
      if n = py"grants" then .ok (some py"CREATE TABLE `grants` (\n  `id` int NOT NULL AUTO_INCREMENT,\n  `role_id` int DEFAULT NULL COMMENT 'may be  missing',\n  PRIMARY KEY (`id`),\n  KEY `by_role` (`role_id`) COMMENT 'for reports',\n  CONSTRAINT `grants_role` FOREIGN KEY (`role_id`) REFERENCES `roles` (`id`) ON DELETE CASCADE\n) ENGINE=InnoDB")
      else liveServer.createText n }

/-- the comments -/
def liveNotes (n : Str) : List (Option Str) :=
  if n = py"grants" then [none, some py"may be  missing", none, some py"for reports", none] else [none, none, none]

theorem commentedServer_has : commentedServer.HasCommented [liveGrants, liveRoles] liveNotes := by
  have two : ∀ {P : TableDecl → Prop}, P liveGrants → P liveRoles → ∀ d ∈ [liveGrants, liveRoles], P d := by
    intro P h1 h2 d hd
    simp only [List.mem_cons, List.not_mem_nil, or_false] at hd
    rcases hd with rfl | rfl
    · exact h1
    · exact h2
  refine ⟨rfl, by decide, two liveGrants_ok liveRoles_ok, two rfl rfl, two ?_ ?_, two ⟨liveLayout, ?_, by decide +kernel⟩ ⟨liveLayout, ?_, by decide +kernel⟩⟩
  · intro c hc
    have : c = py"may be  missing" ∨ c = py"for reports" := by simpa [liveNotes, liveGrants] using hc
    rcases this with rfl | rfl
    · exact ⟨by decide, by unfold NoComment; decide⟩
    · exact ⟨by decide, by unfold NoComment; decide⟩
  · intro c hc
    simp [liveNotes, liveRoles] at hc
  · exact ⟨by decide, by decide, by decide⟩
  · exact ⟨by decide, by decide, by decide⟩

end Examples

/-- for `C62_comments_iff`: one of the two tables has comments -/
example : commentedServer.HasCommented [liveGrants, liveRoles] liveNotes ∧ (∃ c, some c ∈ liveNotes liveGrants.name) ∧ (∀ n ∈ liveNotes liveRoles.name, n = none) :=
  ⟨commentedServer_has, ⟨py"for reports", by decide⟩, by decide⟩

/-- for `C62_comment_refuted`: the files declare both tables, and nothing else is to be done -/
example : ¬ Faulty [liveFile] ∧ (FileDatabase.new [liveFile]).map (fun d => d.tables.keys) = .ok [py"roles", py"grants"] ∧
    (plan commentedServer [liveFile] false).result = .ok ⟨[py"SET FOREIGN_KEY_CHECKS=0;",
      py"CREATE TABLE `grants` (`id` INT NOT NULL AUTO_INCREMENT,\n`role_id` INT,\nKEY `by_role` (`role_id`),\nPRIMARY KEY (`id`),\nCONSTRAINT `grants_role` FOREIGN KEY (`role_id`) REFERENCES `roles` (`id`) ON DELETE CASCADE ON UPDATE RESTRICT);",
      py"DROP TABLE ;", py"SET FOREIGN_KEY_CHECKS=1;"], true⟩ := by
  refine ⟨?_, by decide +kernel, by decide +kernel⟩
  rintro ⟨files, errs, h1, h2, h3⟩
  have : ((FileDatabase.new [liveFile]).bind fun d => d.errors.1) = .ok [] := by decide +kernel
  rw [h1] at this
  simp only [Except.bind] at this
  rw [h2] at this
  exact h3 (Except.ok.inj this)

end

end Mygrations

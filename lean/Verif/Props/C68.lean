import Verif.Proofs.Refused
import Verif.Props.C14
import Verif.Props.C66

/-! # C68: the texts of a plan, sent to a server, bring its structure in line with the declarations -/

namespace Mygrations
open Sql MySQL Mygration

/-- **C68** (partial: only for migrations which are `Untroubled`, see C14, between tables which MySQL can read, see C66).  The texts of the statements of a
plan are sent to a server which has the tables `f` (in whatever order, and whatever `FOREIGN_KEY_CHECKS` is).  MySQL reads and
executes all of them, and in the end its database is as declared. -/
theorem C68_partial [PyNum] (f t : Dict Table) (from? : Option (Dict Table)) (hfrom : from?.getD [] = f) (c : Bool) (hf : Accepted c f)
    (ht : Accepted true t) (hu : Untroubled f t) (hts : ∀ x ∈ t.values, x.Sound) (hfs : ∀ x ∈ f.values, x.Named)
    (htables : ∀ n ∈ f.keys, n ∉ t.keys → Sql.bareName n = true)
    (hcolumns : ∀ n a b, f.get? n = some a → t.get? n = some b → ∀ c ∈ a.columns.keys, c ∉ b.columns.keys → Sql.bareName c = true)
    (ops : List Op) (h : process t from? true = .ok ops) (db : SDb) (hdb : Describes f db) :
    ∃ db', db.sql.sendAll (ops.map Op.render) = some db'.sql ∧ Migrated f t db' := by
  obtain ⟨db', hex, hm⟩ := C14_partial f t from? hfrom c hf ht hu ops h db hdb
  subst hfrom
  exact ⟨db', sql_sendAll (C66_plan_partial t from? true ops ht.toKeyedTables hf.toKeyedTables hts hfs htables hcolumns h) hex, hm⟩

theorem sendAll_none {s : Str} (hs : readStatement s = none) : ∀ {texts : List Str} (db : DbSql), s ∈ texts → db.sendAll texts = none
  | x :: texts, db, h => by
    simp only [DbSql.sendAll, List.foldlM_cons, Option.bind_eq_bind, Option.bind_eq_none_iff]
    intro db' hdb'
    rcases List.mem_cons.mp h with rfl | h
    · simp [DbSql.send, hs] at hdb'
    · exact sendAll_none hs db' h

/-- **C68 is false** of plans which drop a table whose name is a reserved word: no server executes all of their texts. -/
theorem C68_refuted [PyNum] (t : Dict Table) (from? : Option (Dict Table)) (checks : Bool) (ops : List Op) (hf : KeyedTables (from?.getD []))
    (n : Str) (hn : n ∈ (from?.getD []).keys) (hgone : n ∉ t.keys) (hi : Ident n) (hr : Sql.bareName n = false)
    (h : process t from? checks = .ok ops) (db : DbSql) : db.sendAll (ops.map Op.render) = none := by
  obtain ⟨h1, h2⟩ := C66_plan_refuted t from? checks ops hf n hn hgone hi hr h
  exact sendAll_none h2 db (List.mem_map_of_mem h1)

/-- **C68 is false** of migrations which are not `Untroubled`: the server refuses one of the texts, whichever server has the tables `f`.
(Lengths are texts, as the parsers make them.) -/
theorem C68_troubled [PyNum] (f t : Dict Table) (from? : Option (Dict Table)) (hfrom : from?.getD [] = f) (c : Bool) (hf : Accepted c f)
    (ht : Accepted true t) (hu : ¬ Untroubled f t) (hts : ∀ x ∈ t.values, x.Sound) (hfs : ∀ x ∈ f.values, x.Named)
    (htl : ∀ x ∈ t.values, ∀ c ∈ x.columns.values, c.Measured) (hfl : ∀ x ∈ f.values, ∀ c ∈ x.columns.values, c.Measured)
    (ops : List Op) (h : process t from? true = .ok ops) (db : SDb) (hdb : Describes f db) : db.sql.sendAll (ops.map Op.render) = none := by
  have hn := C14_refuted f t from? hfrom c hf ht hu ops h db hdb
  subst hfrom
  by_cases hall : ∀ op ∈ ops, ∃ st, readStatement op.render = some st ∧ op.Means st
  · rw [sendAll_sql hall (plan_measured hf.toKeyedTables htl h) (describes_measured hdb hfl), hn]
    rfl
  · cases hs : db.sql.sendAll (ops.map Op.render) with
    | none => rfl
    | some x =>
      exfalso
      refine hall ((C66_plan_iff t from? true ops ht.toKeyedTables hf.toKeyedTables hts hfs h).mpr ⟨?_, ?_⟩)
      · intro n hn' hgone
        cases hr : Sql.bareName n with
        | true => rfl
        | false =>
          obtain ⟨a, ha⟩ := Dict.exists_get? hn'
          have hi : Ident n := hf.name n a (Dict.mem_of_get? ha) ▸ (hfs a (values_of_get? ha)).name
          rw [C68_refuted t from? true ops hf.toKeyedTables n hn' hgone hi hr h db.sql] at hs
          cases hs
      · intro n a b ha hb k hk hgone
        cases hr : Sql.bareName k with
        | true => rfl
        | false =>
          obtain ⟨op, h1, h2⟩ := C66_plan_column_refuted t from? true ops ht.toKeyedTables hf.toKeyedTables hts hfs n a b ha hb k hk hgone hr h
          rw [sendAll_none h2 db.sql (List.mem_map_of_mem h1)] at hs
          cases hs

/-- **C68, exactly**, between tables which MySQL can read: the texts of a plan, sent to a server which has the tables `f`, are all executed and
bring about what is declared if and only if the migration is `Untroubled`, and no table and no column whose name is a reserved word has to
be dropped. -/
theorem C68_iff [PyNum] (f t : Dict Table) (from? : Option (Dict Table)) (hfrom : from?.getD [] = f) (c : Bool) (hf : Accepted c f)
    (ht : Accepted true t) (hts : ∀ x ∈ t.values, x.Sound) (hfs : ∀ x ∈ f.values, x.Named)
    (htl : ∀ x ∈ t.values, ∀ c ∈ x.columns.values, c.Measured) (hfl : ∀ x ∈ f.values, ∀ c ∈ x.columns.values, c.Measured)
    (ops : List Op) (h : process t from? true = .ok ops) (db : SDb) (hdb : Describes f db) :
    (∃ db', db.sql.sendAll (ops.map Op.render) = some db'.sql ∧ Migrated f t db') ↔
      Untroubled f t ∧ (∀ n ∈ f.keys, n ∉ t.keys → Sql.bareName n = true) ∧
      ∀ n a b, f.get? n = some a → t.get? n = some b → ∀ c ∈ a.columns.keys, c ∉ b.columns.keys → Sql.bareName c = true := by
  constructor
  · rintro ⟨db', hs, _⟩
    refine ⟨?_, ?_, ?_⟩
    · apply Classical.byContradiction
      intro hu
      rw [C68_troubled f t from? hfrom c hf ht hu hts hfs htl hfl ops h db hdb] at hs
      cases hs
    · intro n hn hgone
      subst hfrom
      cases hr : Sql.bareName n with
      | true => rfl
      | false =>
        obtain ⟨a, ha⟩ := Dict.exists_get? hn
        have hi : Ident n := hf.name n a (Dict.mem_of_get? ha) ▸ (hfs a (values_of_get? ha)).name
        rw [C68_refuted t from? true ops hf.toKeyedTables n hn hgone hi hr h db.sql] at hs
        cases hs
    · intro n a b ha hb k hk hgone
      subst hfrom
      cases hr : Sql.bareName k with
      | true => rfl
      | false =>
        obtain ⟨op, h1, h2⟩ := C66_plan_column_refuted t from? true ops ht.toKeyedTables hf.toKeyedTables hts hfs n a b ha hb k hk hgone hr h
        rw [sendAll_none h2 db.sql (List.mem_map_of_mem h1)] at hs
        cases hs
  · rintro ⟨hu, h1, h2⟩
    exact C68_partial f t from? hfrom c hf ht hu hts hfs h1 h2 ops h db hdb

/-! ## Examples -/

namespace Examples
attribute [local instance] exactNum

/-- C68 speaks about the plan of C14, whose texts are listed in C66 -/
example : ∃ db, DbSql.sendAll (SDb.sql ⟨true, ofTables live⟩) (livePlan.map Op.render) = some db.sql ∧ Migrated live declared db := by
  refine C68_partial live declared (some live) rfl true live_accepted declared_accepted live_untroubled ?_ ?_ (by decide +kernel) ?_ livePlan livePlan_ok _
    (describes_ofTables live_keyed true)
  · have : ∀ x ∈ declared.values, easyTable x = true := by decide +kernel
    exact fun x hx => (sound_of_easyTable (this x hx)).1
  · have : ∀ x ∈ live.values, easyTable x = true := by decide +kernel
    exact fun x hx => (sound_of_easyTable (this x hx)).2
  · have : ∀ x ∈ live, ∀ c ∈ x.2.columns.keys, Sql.bareName c = true := by decide +kernel
    intro n a b ha _ c hc _
    exact this (n, a) (Dict.mem_of_get? ha) c hc

/-- the server which is sent texts refuses what MySQL refuses: the type of a column below a foreign key, a table twice, a column which is
not there, a foreign key to a column of another type; and it knows how to add columns, keys and foreign keys -/
example :
    let db : DbSql := SDb.sql ⟨true, ofTables live⟩
    db.send py"ALTER TABLE `users` CHANGE `id` `id` BIGINT(10) UNSIGNED NOT NULL AUTO_INCREMENT;" = none ∧
    db.send py"CREATE TABLE `users` (`id` INT(10) NOT NULL, PRIMARY KEY (`id`));" = none ∧
    db.send py"ALTER TABLE `users` DROP nobody;" = none ∧
    db.sendAll [py"CREATE TABLE `pets` (`id` INT(10) NOT NULL, PRIMARY KEY (`id`));",
      py"ALTER TABLE `pets` ADD `owner` BIGINT(10) UNSIGNED, ADD KEY `owner` (`owner`), ADD CONSTRAINT `owner_fk` FOREIGN KEY (`owner`) REFERENCES `users` (`id`) ON DELETE CASCADE ON UPDATE CASCADE;"] = none ∧
    ((db.sendAll [py"CREATE TABLE `pets` (`id` INT(10) NOT NULL, PRIMARY KEY (`id`));",
      py"ALTER TABLE `pets` ADD `owner` INT(10) UNSIGNED FIRST, ADD KEY `owner` (`owner`), ADD CONSTRAINT `owner_fk` FOREIGN KEY (`owner`) REFERENCES `users` (`id`) ON DELETE CASCADE ON UPDATE CASCADE;"]).bind
        (·.tables.get? py"pets")).map (fun t => (t.cols.keys, t.keys.keys, t.fks.keys)) =
      some ([py"owner", py"id"], [py"PRIMARY", py"owner"], [py"owner_fk"]) := by
  refine ⟨?_, ?_, ?_, ?_, ?_⟩ <;> decide +kernel

/-- a table called `groups` is to be dropped -/
example (db' : DbSql) : ∀ ops, process declared (some (db [mk py"groups" [idCol] [pk] []])) true = .ok ops → db'.sendAll (ops.map Op.render) = none :=
  fun ops h => C68_refuted declared (some (db [mk py"groups" [idCol] [pk] []])) true ops
    (keyedTables_of_check (by decide) (by decide)) py"groups" (by decide) (by decide) (by decide) (by decide +kernel) h db'

/-- the lengths of these tables are texts -/
theorem measured_of_check {d : Dict Table} (h : d.values.all (fun x => x.columns.values.all (fun c => match c.len with | .str _ => true | _ => false)) = true) :
    ∀ x ∈ d.values, ∀ c ∈ x.columns.values, c.Measured := by
  intro x hx c hc
  have := List.all_eq_true.mp (List.all_eq_true.mp h x hx) c hc
  split at this
  · rename_i s hs; exact ⟨s, hs⟩
  · cases this

/-- C68_troubled speaks about the plan which changes the type of a column below a foreign key that goes away -/
example (db' : SDb) (hdb : Describes live db') (ops : List Op) (h : process freed (some live) true = .ok ops) :
    db'.sql.sendAll (ops.map Op.render) = none := by
  refine C68_troubled live freed (some live) rfl true live_accepted (accepted_of_check C14_counterexample_leaving.tgt) C14_counterexample_leaving.troubled
    ?_ ?_ (measured_of_check (by decide +kernel)) (measured_of_check (by decide +kernel)) ops h db' hdb
  · have : ∀ x ∈ freed.values, easyTable x = true := by decide +kernel
    exact fun x hx => (sound_of_easyTable (this x hx)).1
  · have : ∀ x ∈ live.values, easyTable x = true := by decide +kernel
    exact fun x hx => (sound_of_easyTable (this x hx)).2

end Examples

end Mygrations

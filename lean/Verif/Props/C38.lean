import Verif.Proofs.Same
import Verif.Spec.Dump

/-!
# C38: CREATE TABLE round-trips

`FileDatabase.new files` is what `Database([contents, contents, ...])` of the file reader does.  `Dump nice file tables` says that
`file` consists of the `CREATE TABLE` statements which the library generates for `tables`, with any white space around them.
-/

namespace Mygrations

/-- **C38.**  A schema is written to files, each with at least one `CREATE TABLE` and at most ten thousand.  Reading these files
raises nothing and gives exactly the tables which were written, in the order in which they were written: each under its own name,
with the same columns, indexes and foreign keys in the same order and the same options (other than `AUTO_INCREMENT`), and nothing
is reported about any of them. -/
theorem C38_dump_roundtrip_partial [PyNum] {nice : Bool} (files : List Str) (schema : List (List Table)) (hf : Paired (Dump nice) files schema)
    (hn : ∀ ts ∈ schema, ts ≠ [] ∧ ts.length ≤ 10000) (hr : ∀ t ∈ schema.flatten, t.Readable) (hd : (schema.flatten.map (·.name)).Nodup) :
    ∃ new : Dict Table, FileDatabase.new files = .ok { tables := new } ∧
      Paired (fun t e => e.1 = t.name ∧ SameTable t e.2 ∧ e.2.JustRead) schema.flatten new := by
  obtain ⟨new, h1, h2⟩ := dump_new files schema hf hn hr hd
  exact ⟨new, h2, h1⟩

theorem sameTables_of_dump {d : Dict Table} {ts : List Table} {new : Dict Table} (hk : KeyedTables d)
    (h : Paired (fun t e => e.1 = t.name ∧ SameTable t e.2 ∧ e.2.JustRead) ts new) (hts : ts = Dict.values d) : SameTables d new := by
  have hname : ∀ e ∈ d, e.2.name = e.1 := fun e he => hk.name e.1 e.2 he
  clear hk
  induction h generalizing d with
  | nil =>
    cases d with
    | nil => exact .nil
    | cons x d => simp [Dict.values] at hts
  | cons hx _ ih =>
    cases d with
    | nil => simp [Dict.values] at hts
    | cons x d =>
      simp only [Dict.values, List.map_cons, List.cons.injEq] at hts
      obtain ⟨rfl, hts⟩ := hts
      refine .cons ⟨?_, hx.2.1⟩ (ih hts (fun e he => hname e (List.mem_cons_of_mem _ he)))
      rw [hx.1, hname x List.mem_cons_self]

/-- **C38, no changes.**  If the schema of a live database is exported like this and the files are read, then the migration from
the live database to the files does nothing: its plan consists of at most the switches of the foreign-key checks. -/
theorem C38_exported_schema_unchanged_partial [PyNum] {nice : Bool} (live : Database) (files : List Str) (schema : List (List Table))
    (hk : KeyedTables live.tables) (hl : ∀ t ∈ live.tables.values, ∀ e ∈ t.columns, e.2.UsualLength) (hs : schema.flatten = live.tables.values)
    (hf : Paired (Dump nice) files schema) (hn : ∀ ts ∈ schema, ts ≠ [] ∧ ts.length ≤ 10000) (hr : ∀ t ∈ live.tables.values, t.Readable) :
    ∃ db, FileDatabase.new files = .ok db ∧ ∀ checks, db.errors.1 = .ok [] →
      Mygration.new db (some live) checks = .ok ⟨[], some (if checks then [.disableChecks, .enableChecks] else [])⟩ := by
  have hnames : (schema.flatten.map (·.name)).Nodup := by
    rw [hs]
    have : live.tables.values.map (·.name) = live.tables.keys := by
      simp only [Dict.values, Dict.keys, List.map_map]
      exact List.map_congr_left (fun e he => hk.name e.1 e.2 he)
    rw [this]
    exact hk.nodup
  obtain ⟨new, h1, h2⟩ := C38_dump_roundtrip_partial files schema hf hn (by rw [hs]; exact hr) hnames
  refine ⟨_, h1, fun checks he => ?_⟩
  have hsame := sameTables_of_dump hk h2 hs
  have hjust : ∀ {ts : List Table} {new : Dict Table}, Paired (fun t e => e.1 = t.name ∧ SameTable t e.2 ∧ e.2.JustRead) ts new →
      ∀ t ∈ Dict.values new, t.JustRead := by
    intro ts new h
    induction h with
    | nil => intro t ht; cases ht
    | cons hx _ ih =>
      intro t ht
      rcases List.mem_cons.mp (show t ∈ _ :: _ from ht) with rfl | ht
      · exact hx.2.2
      · exact ih t ht
  simp only [Mygration.new, he, Option.map_some]
  rw [same_process hsame (fun s hs => (hr s hs).keyed) hl (fun s hs => (hjust h2 s hs).lengths)]

/-! ## An example -/

namespace Examples

/-- `users`, with a default, a character set and options -/
def dumpUsers : Table :=
  { name := py"users"
    columns := [(py"id", { cls := .numeric, name := py"id", ctype := py"INT", len := .str py"10", null := false, unsigned := some true, autoInc := some true }),
      (py"name", { cls := .string, name := py"name", ctype := py"VARCHAR", len := .str py"255", null := false, hasDefault := true, default := some [], charset := some py"utf8mb4" })]
    indexes := [(py"id", { columns := [py"id"], itype := py"primary" }), (py"by_name", { rawName := py"by_name", columns := [py"name", py"id"], itype := py"unique" })]
    options := [⟨py"ENGINE", py"InnoDB"⟩, ⟨py"AUTO_INCREMENT", py"7"⟩, ⟨py"DEFAULT CHARSET", py"utf8"⟩] }

/-- `posts`, with a foreign key to `users` and a date -/
def dumpPosts : Table :=
  { name := py"posts"
    columns := [(py"user_id", { cls := .numeric, name := py"user_id", ctype := py"INT", len := .str py"10", unsigned := some true }),
      (py"at", { cls := .date, name := py"at", ctype := py"DATETIME", null := false, hasDefault := true, default := some py"2020-01-01 00:00:00" })]
    indexes := [(py"posts_user_fk", { rawName := py"posts_user_fk", columns := [py"user_id"], itype := py"index" })]
    constraints := [(py"posts_user_fk", ⟨py"posts_user_fk", py"user_id", py"users", py"id", py"CASCADE", py"NO ACTION", []⟩)] }

theorem dumpUsers_readable : dumpUsers.Readable := by
  refine ⟨by decide, Table.keyed_of_check (by decide), by decide, ?_, ?_, ?_, ?_, ?_, by decide, by decide⟩
  · intro c hc
    simp only [dumpUsers, Dict.values, List.map_cons, List.map_nil, List.mem_cons, List.not_mem_nil, or_false] at hc
    rcases hc with rfl | rfl
    · refine ⟨by decide, by decide, rfl, ⟨_, .one (by decide), by decide, ?_⟩, by decide, ?_, ?_⟩ <;> intro v hv <;> cases hv
    · refine ⟨by decide, by decide, rfl, ⟨_, .one (by decide), by decide, ?_⟩, by decide, ?_, ?_⟩ <;> intro v hv <;> cases hv
      · exact ⟨Or.inl ⟨by decide, by decide⟩, by decide⟩
      · exact ⟨rfl, by decide, by decide⟩
  · intro c hc v hv
    simp only [dumpUsers, Dict.values, List.map_cons, List.map_nil, List.mem_cons, List.not_mem_nil, or_false] at hc
    rcases hc with rfl | rfl <;> rcases hv with hv | hv | hv <;> cases hv <;> unfold NoComment <;> decide
  · intro i hi
    simp only [dumpUsers, Dict.values, List.map_cons, List.map_nil, List.mem_cons, List.not_mem_nil, or_false] at hi
    rcases hi with rfl | rfl <;> exact ⟨by decide, by decide⟩
  · intro k hk; cases hk
  · intro o ho
    simp only [dumpUsers, List.mem_cons, List.not_mem_nil, or_false] at ho
    rcases ho with rfl | rfl | rfl <;> exact ⟨by decide, by decide, by decide, by decide, by unfold NoComment; decide⟩

theorem dumpPosts_readable : dumpPosts.Readable := by
  refine ⟨by decide, Table.keyed_of_check (by decide), by decide, ?_, ?_, ?_, ?_, ?_, by decide, by decide⟩
  · intro c hc
    simp only [dumpPosts, Dict.values, List.map_cons, List.map_nil, List.mem_cons, List.not_mem_nil, or_false] at hc
    rcases hc with rfl | rfl
    · refine ⟨by decide, by decide, rfl, ⟨_, .one (by decide), by decide, ?_⟩, by decide, ?_, ?_⟩ <;> intro v hv <;> cases hv
    · refine ⟨by decide, by decide, rfl, ⟨_, .none, by decide, ?_⟩, by decide, ?_, ?_⟩ <;> intro v hv <;> cases hv
      exact ⟨Or.inr ⟨rfl, py"2020-01-01", '0', py"0:00:00", rfl, by decide, by decide, by decide⟩, by decide⟩
  · intro c hc v hv
    simp only [dumpPosts, Dict.values, List.map_cons, List.map_nil, List.mem_cons, List.not_mem_nil, or_false] at hc
    rcases hc with rfl | rfl <;> rcases hv with hv | hv | hv <;> cases hv <;> unfold NoComment <;> decide
  · intro i hi
    simp only [dumpPosts, Dict.values, List.map_cons, List.map_nil, List.mem_cons, List.not_mem_nil, or_false] at hi
    rcases hi with rfl <;> exact ⟨by decide, by decide⟩
  · intro k hk
    simp only [dumpPosts, Dict.values, List.map_cons, List.map_nil, List.mem_cons, List.not_mem_nil, or_false] at hk
    subst hk
    exact ⟨by decide, by decide, by decide, by decide, by decide, by decide⟩
  · intro o ho; cases ho

end Examples

open Examples in
/-- two files: one with both tables and blank lines around them -/
example : let db : Database := { tables := [(py"users", dumpUsers), (py"posts", dumpPosts)] }
    KeyedTables db.tables ∧ (∀ t ∈ db.tables.values, ∀ e ∈ t.columns, e.2.UsualLength) ∧ (∀ t ∈ db.tables.values, t.Readable) ∧
    Paired (Dump true) [py"\n\n" ++ dumpUsers.renderCreate true ++ (py"\n\n" ++ dumpPosts.renderCreate true ++ py"\n")] [[dumpUsers, dumpPosts]] := by
  refine ⟨⟨by decide, ?_, ?_⟩, ?_, ?_, .cons (.cons (by decide) (.cons (by decide) (.nil (by decide)))) .nil⟩
  · intro k t h
    simp only [List.mem_cons, List.not_mem_nil, or_false, Prod.mk.injEq] at h
    rcases h with ⟨rfl, rfl⟩ | ⟨rfl, rfl⟩ <;> rfl
  · intro k t h
    simp only [List.mem_cons, List.not_mem_nil, or_false, Prod.mk.injEq] at h
    rcases h with ⟨rfl, rfl⟩ | ⟨rfl, rfl⟩
    · exact dumpUsers_readable.keyed
    · exact dumpPosts_readable.keyed
  · intro t h
    simp only [Dict.values, List.map_cons, List.map_nil, List.mem_cons, List.not_mem_nil, or_false] at h
    rcases h with rfl | rfl <;> unfold Column.UsualLength <;> decide
  · intro t h
    simp only [Dict.values, List.map_cons, List.map_nil, List.mem_cons, List.not_mem_nil, or_false] at h
    rcases h with rfl | rfl
    · exact dumpUsers_readable
    · exact dumpPosts_readable

/-! ## What is not read back -/

/-- a table with a default which contains two dashes -/
def Examples.dashed : Table :=
  { name := py"t", columns := [(py"a", { cls := .string, name := py"a", ctype := py"VARCHAR", len := .str py"10", hasDefault := true, default := some py"x--y" })] }

open Examples in
/-- **C38 fails for two dashes in a default.**  The text from the dashes to the end of the line is removed as a comment, although it
is in quotes: on several lines the table is read with another default, on one line it is not read at all and a table without a
name and without columns takes its place.  Nothing is raised. -/
theorem C38_dashes_refuted :
    dashed.renderCreate true = py"CREATE TABLE `t` (\n  `a` VARCHAR(10) DEFAULT 'x--y'\n);" ∧
    (readSource (dashed.renderCreate true)).2 = none ∧
    (readSource (dashed.renderCreate true)).1.tables.map (fun e => (e.1, e.2.columns.map (fun c => (c.1, c.2.default)))) = [(py"t", [(py"a", some py"'x")])] ∧
    (readSource (dashed.renderCreate false)).2 = none ∧
    (readSource (dashed.renderCreate false)).1.tables.map (fun e => (e.1, e.2.columns)) = [([], [])] :=
  ⟨by decide +kernel, by decide +kernel, by decide +kernel, by decide +kernel, by decide +kernel⟩

end Mygrations

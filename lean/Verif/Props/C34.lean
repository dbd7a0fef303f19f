import Verif.Proofs.ReadReach
import Verif.Proofs.Outline
import Verif.Proofs.Kept
import Verif.Props.C55
import Verif.Model.Commands
import Verif.Props.Examples

/-!
# C31, C32, C34: are problems with the files reported?

`FileDatabase.new files` is what `Database([contents, contents, ...])` of the file reader does; `db.errors.1` is what `db.errors`
returns.
-/

namespace Mygrations
open Database

section
variable [PyNum]

theorem askTables_found {part : Table.Found → List Str} : ∀ {checked : List Str} {ts : Dict Table} {l : List Str}, (askTables part checked ts).1 = .ok l →
    ∀ e ∈ ts, e.2.findAll.raised = none → ∀ m ∈ part e.2.findAll, m ∈ l
  | _, [], _, _, e, he => by cases he
  | checked, (n, t) :: rest, l, h, e, he => by
    intro hr m hm
    simp only [askTables] at h
    cases ha : askTable part checked n t with
    | error x => simp only [ha] at h; cases h
    | ok errs =>
      simp only [ha] at h
      cases hb : (askTables part (Table.setAdd checked n) rest).1 with
      | error x => simp only [hb, Except.map] at h; cases h
      | ok more =>
        simp only [hb, Except.map, Except.ok.injEq] at h
        subst h
        rcases List.mem_cons.mp he with rfl | he
        · refine List.mem_append_left _ ?_
          simp only [askTable, hr] at ha
          split at ha <;> cases ha <;> exact hm
        · exact List.mem_append_right _ (askTables_found hb e he hr m hm)

theorem errors_of_global {d : Database} {l : List Str} (h : d.errors.1 = .ok l) : ∀ m ∈ d.globalErrors, m ∈ l := by
  intro m hm
  unfold Database.errors at h
  split at h
  · cases h
  · split at h
    · cases h
    · simp only [Except.ok.injEq] at h
      rw [← h]
      exact List.mem_append_left _ (List.mem_append_left _ hm)

theorem errors_of_table {d : Database} {l : List Str} (h : d.errors.1 = .ok l) (hc : d.schemaCache = none) : ∀ e ∈ d.tables, e.2.findAll.raised = none →
    ∀ m ∈ e.2.findAll.schema, m ∈ l := by
  intro e he hr m hm
  unfold Database.errors at h
  split at h
  · cases h
  · rename_i s d1 hs
    split at h
    · cases h
    · simp only [Except.ok.injEq] at h
      rw [← h]
      refine List.mem_append_right _ ?_
      unfold Database.findSchemaErrors at hs
      simp only [hc] at hs
      split at hs
      · cases hs
      · split at hs
        · cases hs
        · rename_i te checked ht
          split at hs
          · cases hs
          · simp only [Prod.mk.injEq, Except.ok.injEq] at hs
            rw [← hs.1]
            exact List.mem_append_left _ (List.mem_append_right _ (askTables_found (by rw [ht]) e he hr m hm))

/-! ## C34 -/

/-- **C34** (partial).  No two files define a table of the same name, and nothing was raised while they were read: neither by the
constructor, nor a `ValueError` (which is only printed).  If `errors` is empty, then every statement which the reader gets to is a
`CREATE TABLE` which was understood and whose table is in the database under its name, or an `INSERT` which was understood and
whose table is in the database, or a comment; in particular, the reader did not stop before the end of a file.  (A nameless table
stands for a `CREATE TABLE` which was not understood; the theorem supposes that nobody declares a table of this name.)

What is missing: files for which a `ValueError` is printed, and tables in several files; see the refutations. -/
theorem C34_reported_partial {files : List Str} {db : Database} (h : FileDatabase.new files = .ok db) (hq : ∀ f ∈ files, (readSource f).2 = none)
    (hn : (files.flatMap (fun f => (readSource f).1.tables.keys)).Nodup) (hnameless : ∀ t, db.tables.get? [] = some t → t.columns = [])
    (he : db.errors.1 = .ok []) {file : Str} (hf : file ∈ files) {data : Str} (hd : Reaches file data) :
    (∃ t rest, parseCreate data = .ok (t, rest) ∧ t.name ≠ [] ∧ db.tables.has t.name = true) ∨
    (∃ r rest, parseInsert data = .ok (r, rest) ∧ r.table ≠ [] ∧ db.tables.has r.table = true) ∨
    startsComment data = true := by
  obtain ⟨rows, h1, _, h2, h4⟩ := readAll_apart files {} hq (by simpa using hn)
  have h4 := h4 List.nodup_nil
  unfold FileDatabase.new at h
  simp only [h1] at h
  obtain ⟨k1, k2, k3, k4, k5⟩ := combine_keeps _ h
  have hrows := h2 (by intro e he; cases he)
  have hnoname : [] ∉ Dict.keys db.tables := by
    intro hm
    obtain ⟨t, ht⟩ := Dict.exists_get? hm
    have hcol := hnameless t ht
    have hname : t.name = [] := by
      obtain ⟨u, hu, h5, _⟩ := k1.tables _ _ ht
      rw [h5]
      have hu' := Dict.mem_of_get? hu
      simp only [List.nil_append] at hu'
      obtain ⟨g, hg, hug⟩ := List.mem_flatMap.mp hu'
      exact (loop_names 10000 {} g ⟨List.nodup_nil, fun e he => by cases he⟩).2 _ hug
    have hr : t.findAll.raised = none := by
      unfold Table.findAll
      simp only [hcol, Dict.values, List.map_nil, Table.columnErrors]
    have hmsg : py"Table missing name" ∈ t.findAll.schema := by
      unfold Table.findAll
      simp only [hcol, Dict.values, List.map_nil, Table.columnErrors, hname, if_true]
      simp
    have := errors_of_table he (by rw [k3]) ([], t) (Dict.mem_of_get? ht) hr _ hmsg
    cases this
  have hst : readSource file = ((readSource file).1, none) := by rw [← hq file hf]
  obtain ⟨hne, hall⟩ := loop_reaches hd 10000 {} _ hst
  cases hc : startsComment data with
  | true => exact Or.inr (Or.inr rfl)
  | false =>
    obtain ⟨hcr, hin, hun⟩ := hall hc
    by_cases h6 : lower (data.take 6) = py"create"
    · left
      obtain ⟨t, rest, hp, hk⟩ := hcr h6
      have hmem : t.name ∈ Dict.keys db.tables := by
        rw [k1.keys]
        simp only [List.nil_append]
        obtain ⟨u, hu⟩ := Dict.exists_get? hk
        exact List.mem_map.mpr ⟨(t.name, u), List.mem_flatMap.mpr ⟨file, hf, Dict.mem_of_get? hu⟩, rfl⟩
      exact ⟨t, rest, hp, fun hz => hnoname (by rw [← hz]; exact hmem), Dict.has_iff.mpr hmem⟩
    · by_cases h6' : lower (data.take 6) = py"insert"
      · right; left
        obtain ⟨r, rest, hp, hk⟩ := hin h6'
        obtain ⟨x, hx, hrx⟩ := h4 file hf r hk
        have hmem := k5 x hx (hrows x hx).1
        rw [← (hrows x hx).2 r hrx] at hmem
        have hmem' : r.table ∈ Dict.keys db.tables := by rw [k1.keys]; exact hmem
        exact ⟨r, rest, hp, fun hz => hnoname (by rw [← hz]; exact hmem'), Dict.has_iff.mpr hmem'⟩
      · exfalso
        have hm := hun h6 h6'
        have hm' : py"Unrecognized MySQL command: " ++ data ∈ db.globalErrors := by
          refine k2 _ ?_
          simp only [List.nil_append]
          exact List.mem_flatMap.mpr ⟨file, hf, hm⟩
        have := errors_of_global he _ hm'
        cases this

/-- Whatever else happens, a statement which the reader gets to and does not know is reported, with everything that follows it. -/
theorem C34_unknown {files : List Str} {db : Database} (h : FileDatabase.new files = .ok db) (hq : ∀ f ∈ files, (readSource f).2 = none)
    (hn : (files.flatMap (fun f => (readSource f).1.tables.keys)).Nodup) {file : Str} (hf : file ∈ files) {data : Str} (hd : Reaches file data)
    (hc : startsComment data = false) (h6 : lower (data.take 6) ≠ py"create") (h6' : lower (data.take 6) ≠ py"insert") {l : List Str}
    (he : db.errors.1 = .ok l) : py"Unrecognized MySQL command: " ++ data ∈ l := by
  obtain ⟨rows, h1, _⟩ := readAll_apart files {} hq (by simpa using hn)
  unfold FileDatabase.new at h
  simp only [h1] at h
  have k2 := (combine_keeps _ h).2.1
  have hst : readSource file = ((readSource file).1, none) := by rw [← hq file hf]
  refine errors_of_global he _ (k2 _ ?_)
  simp only [List.nil_append]
  exact List.mem_flatMap.mpr ⟨file, hf, ((loop_reaches hd 10000 {} _ hst).2 hc).2.2 h6 h6'⟩

theorem errors_rows {d : Database} {l : List Str} (h : d.errors.1 = .ok l) (hc : d.parsingCache = none) : ∀ e ∈ d.rows, ∀ r ∈ e.2, ∀ m ∈ r.parsingErrors, m ∈ l := by
  intro e he r hr m hm
  unfold Database.errors at h
  split at h
  · cases h
  · rename_i s d1 hs
    have h1 : d1.parsingCache = none ∧ d1.rows = d.rows := by
      unfold Database.findSchemaErrors at hs
      split at hs
      · cases hs; exact ⟨hc, rfl⟩
      · split at hs
        · cases hs
        · split at hs
          · cases hs
          · split at hs
            · cases hs
            · cases hs; exact ⟨hc, rfl⟩
    split at h
    · cases h
    · rename_i p d2 hp
      simp only [Except.ok.injEq] at h
      rw [← h]
      refine List.mem_append_left _ (List.mem_append_right _ ?_)
      unfold Database.findParsingErrors at hp
      simp only [h1.1] at hp
      split at hp
      · cases hp
      · simp only [Prod.mk.injEq, Except.ok.injEq] at hp
        rw [← hp.1, h1.2]
        refine List.mem_append_right _ ?_
        exact List.mem_flatMap.mpr ⟨(e.1, r), List.mem_flatMap.mpr ⟨e, he, List.mem_map.mpr ⟨r, hr, rfl⟩⟩, hm⟩

/-- **C32** (partial).  What is noted while an `INSERT` is read (a row with the wrong number of values) is in `errors`, for every
`INSERT` which the reader gets to.  What is missing: everything which is noted about a table, see `C32_refuted`. -/
theorem C32_rows_partial {files : List Str} {db : Database} (h : FileDatabase.new files = .ok db) (hq : ∀ f ∈ files, (readSource f).2 = none)
    (hn : (files.flatMap (fun f => (readSource f).1.tables.keys)).Nodup) {file : Str} (hf : file ∈ files) {data : Str} (hd : Reaches file data)
    (hc : startsComment data = false) (h6 : lower (data.take 6) = py"insert") {l : List Str} (he : db.errors.1 = .ok l) :
    ∃ r rest, parseInsert data = .ok (r, rest) ∧ ∀ m ∈ r.parsingErrors, m ∈ l := by
  obtain ⟨rows, h1, _, _, h4⟩ := readAll_apart files {} hq (by simpa using hn)
  have h4 := h4 List.nodup_nil
  unfold FileDatabase.new at h
  simp only [h1] at h
  have hst : readSource file = ((readSource file).1, none) := by rw [← hq file hf]
  obtain ⟨r, rest, hp, hr⟩ := ((loop_reaches hd 10000 {} _ hst).2 hc).2.1 h6
  obtain ⟨k1, k2⟩ := combine_rows _ h
  obtain ⟨x, hx, hrx⟩ := h4 file hf r hr
  exact ⟨r, rest, hp, errors_rows he (by rw [k2]) x (by rw [k1]; exact hx) r hrx⟩

end

/-! ## C32 -/

/-- forget what was noted while the table was read -/
def Table.unnoted (t : Table) : Table := { t with globalErrors := [], globalWarnings := [] }

/-- forget it for all tables -/
def Database.unnoted (d : Database) : Database := { d with tables := d.tables.map (fun e => (e.1, e.2.unnoted)) }

section
variable [PyNum]

/-- **C32 fails** for every database: what is noted while a table is read or its rows are added (a missing semicolon, a second
column, key or foreign key of the same name, a row without an id, a second row of the same id) never has an effect on `errors`. -/
theorem C32_refuted (d : Database) : d.unnoted.errors.1 = d.errors.1 := by
  rw [← Database.outline_errors d, ← Database.outline_errors d.unnoted]
  have : d.unnoted.outline = d.outline := by
    unfold Database.unnoted Database.outline
    simp only [List.map_map]
    rfl
  rw [this]

end

attribute [local instance] exactNum

/-- what `Database(files)` has: the names of its tables, what was noted while they were read, and `errors` -/
def readFiles (files : List Str) : Option (List (Str × List Str) × Except PyErr (List Str)) :=
  match FileDatabase.new files with
  | .error _ => none
  | .ok db => some (db.tables.map (fun e => (e.1, e.2.globalErrors)), db.errors.1)

/-- Problems which are noted, but not in `errors`: a missing semicolon, two columns of the same name, two keys of the same name,
two rows of the same id. -/
theorem C32_examples :
    readFiles [py"CREATE TABLE t (id INT)"] = some ([(py"t", [py"Missing ending semicolon for table t"])], .ok []) ∧
    readFiles [py"CREATE TABLE t (id INT, id CHAR(3));"] = some ([(py"t", [py"Table 't' has two columns named 'id'"])], .ok []) ∧
    readFiles [py"CREATE TABLE t (id INT, KEY a (id), KEY a (id));"] = some ([(py"t", [py"Table 't' has two indexes named 'a'"])], .ok []) ∧
    (readFiles [py"CREATE TABLE t (id INT); INSERT INTO t (id) VALUES (1), (1);"]).map (fun x => (x.1.map (fun e => e.2.length), x.2)) = some ([1], .ok []) := by
  refine ⟨?_, ?_, ?_, ?_⟩ <;> decide +kernel

/-- a row with too few values is reported -/
example : (readFiles [py"CREATE TABLE t (id INT, a INT); INSERT INTO t (id, a) VALUES (1), (2, 3);"]).map (fun x => x.2) =
    some (.ok [py"Insert values has different number of columns and values for <InsertValues>"]) := by
  decide +kernel

/-! ## C34, continued -/

/-- a file with two tables, rows and a comment meets the hypotheses of `C34_reported_partial`; the reader gets to the second table -/
example : let files := [py"/* users */ CREATE TABLE users (id INT, name VARCHAR(255)); INSERT INTO users (id, name) VALUES (1, 'x'); CREATE TABLE posts (id INT);"]
    (∃ db, FileDatabase.new files = .ok db ∧ db.tables.get? [] = none ∧ db.errors.1 = .ok []) ∧ (∀ f ∈ files, (readSource f).2 = none) ∧
    (files.flatMap (fun f => (readSource f).1.tables.keys)).Nodup ∧ (∀ f ∈ files, Reaches f py"CREATE TABLE posts (id INT);") := by
  refine ⟨?_, by decide +kernel, by decide +kernel, ?_⟩
  · have h : (match FileDatabase.new [py"/* users */ CREATE TABLE users (id INT, name VARCHAR(255)); INSERT INTO users (id, name) VALUES (1, 'x'); CREATE TABLE posts (id INT);"] with
        | .error _ => false
        | .ok db => decide (db.tables.get? [] = none ∧ db.errors.1 = .ok [])) = true := by decide +kernel
    split at h
    · cases h
    · rename_i db hdb
      exact ⟨db, hdb, of_decide_eq_true h⟩
  · intro f hf
    rw [List.mem_singleton] at hf
    subst hf
    refine .comment (by decide +kernel) ?_
    have h1 : parseComment (strip py"/* users */ CREATE TABLE users (id INT, name VARCHAR(255)); INSERT INTO users (id, name) VALUES (1, 'x'); CREATE TABLE posts (id INT);") =
        py"CREATE TABLE users (id INT, name VARCHAR(255)); INSERT INTO users (id, name) VALUES (1, 'x'); CREATE TABLE posts (id INT);" := by decide +kernel
    rw [h1]
    have h2 : ((parseCreate (strip py"CREATE TABLE users (id INT, name VARCHAR(255)); INSERT INTO users (id, name) VALUES (1, 'x'); CREATE TABLE posts (id INT);")).map (·.2)) =
        .ok py"INSERT INTO users (id, name) VALUES (1, 'x'); CREATE TABLE posts (id INT);" := by decide +kernel
    cases h3 : parseCreate (strip py"CREATE TABLE users (id INT, name VARCHAR(255)); INSERT INTO users (id, name) VALUES (1, 'x'); CREATE TABLE posts (id INT);") with
    | error e => rw [h3] at h2; cases h2
    | ok x =>
      rw [h3] at h2
      obtain ⟨t, rest⟩ := x
      have h2' : rest = py"INSERT INTO users (id, name) VALUES (1, 'x'); CREATE TABLE posts (id INT);" := by cases h2; rfl
      refine .create (by decide +kernel) (by decide +kernel) h3 ?_
      rw [h2']
      have h4 : ((parseInsert (strip py"INSERT INTO users (id, name) VALUES (1, 'x'); CREATE TABLE posts (id INT);")).map (·.2)) =
          .ok py"CREATE TABLE posts (id INT);" := by decide +kernel
      cases h5 : parseInsert (strip py"INSERT INTO users (id, name) VALUES (1, 'x'); CREATE TABLE posts (id INT);") with
      | error e => rw [h5] at h4; cases h4
      | ok y =>
        rw [h5] at h4
        obtain ⟨r, rest'⟩ := y
        have h4' : rest' = py"CREATE TABLE posts (id INT);" := by cases h4; rfl
        refine .insert (by decide +kernel) (by decide +kernel) h5 ?_
        rw [h4']
        exact .here (by decide)

/-! ### Tables which are lost -/

/-- A statement which MySQL has nothing against: it can be written down, and it gives no name twice, but a key is called like the first column of the primary key,
which comes later. -/
structure TableDecl.Clash (d : TableDecl) : Prop where
  name : Ident d.name
  plain : ∀ x ∈ d.defs, x.Plain
  quiet : ∀ x ∈ d.defs, x.Quiet
  column : ∃ c s, d.first = .column c s
  options : ∀ o ∈ d.options, o.Plain
  few : d.defs.length < 1000
  fewOptions : d.options.length < 1000
  clash : ∃ before i v j w after, d.defs = before ++ Src.index j w :: after ∧ Src.index i v ∈ before ∧ j.rawName = [] ∧ i.name = j.columns.headD [] ∧
    (Dict.keys (before.filterMap Src.column?)).Nodup ∧ (Dict.keys (indexesOf d.defs [] before)).Nodup ∧
    (Dict.keys (before.filterMap (Src.constraint? d.name))).Nodup

theorem clash_process {d : TableDecl} (hd : d.Clash) {xs : List Definition} (hxs : AllRead d.defs xs) :
    ∃ m, createProcess (createVals d.name xs d.options) = .error (.valueError m) := by
  have hdefs : (topNodes (createVals d.name xs d.options) py"definitions").filterMap CreateNode.toDefinition = xs := by
    have : topNodes (createVals d.name xs d.options) py"definitions" = xs.map .definition := rfl
    rw [this, filterMap_definitions]
  have hname : stripTicks (topText (createVals d.name xs d.options) py"name") = d.name := quoted_strip hd.name
  obtain ⟨before, i, v, j, w, after, he, hi, hj, hij, h1, h2, h3⟩ := hd.clash
  have hxs' := hxs
  rw [he] at hxs'
  obtain ⟨ys, zs, rfl, hy, hz⟩ := allRead_split hxs'
  cases hz with
  | @cons _ x _ zs hx hr =>
    have hsub : ∀ y ∈ before, y ∈ d.defs := fun y hy => by rw [he]; exact List.mem_append_left _ hy
    have main : ∀ t0 : Table, Partly d.name d.defs [] t0 → ∃ m, addDefinitions (ys ++ x :: zs) t0 (ys ++ x :: zs) = .error (.valueError m) := by
      intro t0 ht0
      obtain ⟨t', ha, hp⟩ := add_upto hxs hd.plain hsub h1 h2 h3 before ys [] t0 hy rfl ht0
      rw [addDefinitions_append _ ha]
      cases hx
      have hkeys : Dict.keys t'.indexes = Dict.keys (indexesOf d.defs [] before) := hp.indexes.keysEq
      have hin : j.columns.headD [] ∈ Dict.keys t'.indexes := by
        rw [hkeys, ← hij]
        obtain ⟨b1, b2, rfl⟩ := List.append_of_mem hi
        rw [indexesOf_append, Dict.keys_append]
        refine List.mem_append_right _ ?_
        simp [indexesOf, Src.keys, Dict.keys]
      have hne : ∀ k ∈ Dict.keys t'.indexes, k ≠ [] := by
        intro key hkey
        rw [hkeys] at hkey
        obtain ⟨e, he, rfl⟩ := List.mem_map.mp hkey
        rcases indexesOf_mem d.defs _ _ e he with ⟨⟨v, h1⟩, h2⟩ | ⟨k, w, h1, h2, _⟩
        · rw [h2]
          exact plain_keyNe (hd.plain _ (hsub _ h1)).1
        · rw [h2]
          have : ({ k with name := py"name" } : Constraint).Plain := (hd.plain _ (hsub _ h1)).1
          exact this.column.1
      have hraw : Dict.has t'.indexes j.rawName = false := by
        rw [hj, Dict.has_eq_false]
        exact fun h => hne _ h rfl
      have hjn : ∀ ty, Index.name { rawName := j.rawName, columns := j.columns, itype := ty } = j.columns.headD [] := by
        intro ty
        unfold Index.name
        rw [if_neg (by simp [hj])]
      have hhas : Dict.has t'.indexes (j.columns.headD []) = true := (Dict.has_iff ..).mpr hin
      refine ⟨py"Cannot add index " ++ j.columns.headD [] ++ py" because index " ++ j.columns.headD [] ++ py" already exists", ?_⟩
      simp only [addDefinitions, addDefinition, hraw, Bool.false_eq_true, if_false, Table.addIndex, hjn, hhas, if_true]
    obtain ⟨m, hm⟩ := main { name := d.name, options :=
      (((topNodes (createVals d.name (ys ++ x :: zs) d.options) py"table_options").filterMap CreateNode.toOption).filter (fun o => o.name ≠ py"AUTO_INCREMENT")) } ⟨rfl, .nil, (fun e he => by cases he), rfl, .nil, .nil, rfl, rfl, rfl, rfl⟩
    refine ⟨m, ?_⟩
    unfold createProcess
    simp only [hdefs, hname]
    rw [hm]

/-- **C34 fails for every such table**, because the `ValueError` which it leads to is only printed.  A file begins with the table; whatever follows in the file, none of it
is read, and nothing is noted: the database is what it was before. -/
theorem C34_key_refuted [PyNum] (d : TableDecl) (hd : d.Clash) (l : Layout) (hl : l.Ok) (more : Str) (ss : List Statement) (hs : Script more ss) (hr : Readable ss)
    (hq : ∀ x ∈ ss, x.Quiet) : (∃ m, readSource (d.sql l ++ more) = ({}, some (.valueError m))) ∧ ∀ db, FileDatabase.read db (d.sql l ++ more) = .ok db := by
  have hx : d.stmt.Ok := ⟨hd.name, hd.plain, hd.quiet, hd.column, hd.options, hd.few, hd.fewOptions⟩
  obtain ⟨is, hp, ht⟩ := hs.text hr.ok
  have hquiet : ∀ i ∈ is, i.quiet := by
    clear ht hs hr
    induction hp with
    | nil => intro i hi; cases hi
    | cons h1 _ ih =>
      intro i hi
      rcases List.mem_cons.mp hi with rfl | hi
      · exact h1.quiet (hq _ List.mem_cons_self)
      · exact ih (fun x hx => hq x (List.mem_cons_of_mem _ hx)) i hi
  have ht' := ht.rstrip
  obtain ⟨xs, hxs, hparse⟩ := Stmt.read hx hl (ht'.tame hquiet) (ht'.trimmed.far hquiet)
  obtain ⟨m, hm⟩ := clash_process hd hxs
  have hpc : parseCreate (d.stmt.text l (rstrip more)) = .error (.valueError m) := by
    unfold parseCreate
    rw [hparse]
    simp only [if_true]
    have : createProcess (createVals d.stmt.name xs d.stmt.os) = .error (.valueError m) := hm
    rw [this]
  have hstrip : strip (d.sql l ++ more) = d.stmt.text l (rstrip more) := by
    rw [d.sql_text, ← d.stmt.text_split, ← Stmt.rstrip_text]
    obtain ⟨cs, hcs⟩ := d.stmt.text_head l more
    rw [hcs]
    exact strip_cons_char (by decide) cs
  have hread : readSource (d.sql l ++ more) = ({}, some (.valueError m)) := by
    unfold readSource
    have h1 : d.sql l ++ more ≠ [] := by simp [TableDecl.sql]
    rw [show (10000 : Nat) = 9999 + 1 from rfl, readLoop_succ 9999 {} h1, hstrip]
    simp only [readStep, start_ne, if_false, d.stmt.comment l _, Bool.false_eq_true, d.stmt.create l _, if_true, hpc]
  refine ⟨⟨m, hread⟩, ?_⟩
  intro db
  unfold FileDatabase.read
  rw [hread]
  simp only [Option.filter_some, PyErr.isValueError, Bool.not_true, Bool.false_eq_true, if_false]
  simp [FileDatabase.storeTables, FileDatabase.storeRows, Dict.values]

theorem new_skip [PyNum] {f : Str} (h : ∀ db, FileDatabase.read db f = .ok db) (before after : List Str) :
    FileDatabase.new (before ++ f :: after) = FileDatabase.new (before ++ after) := by
  have : ∀ (before : List Str) (db : Database), FileDatabase.readAll db (before ++ f :: after) = FileDatabase.readAll db (before ++ after) := by
    intro before
    induction before with
    | nil => intro db; simp only [List.nil_append, FileDatabase.readAll, h]
    | cons x before ih =>
      intro db
      simp only [List.cons_append, FileDatabase.readAll]
      cases FileDatabase.read db x with
      | error e => rfl
      | ok db' => exact ih db'
  unfold FileDatabase.new
  rw [this]

/-- **C34 fails for every such file**: `check`, `plan` and `apply` do what they would do if the file were not there.  In particular its tables are dropped, if they are
on the server. -/
theorem C34_lost_refuted [PyNum] (d : TableDecl) (hd : d.Clash) (l : Layout) (hl : l.Ok) (more : Str) (ss : List Statement) (hs : Script more ss) (hr : Readable ss)
    (hq : ∀ x ∈ ss, x.Quiet) (before after : List Str) (srv : Server) (force : Bool) :
    Command.check (before ++ (d.sql l ++ more) :: after) = Command.check (before ++ after) ∧
    Command.plan srv (before ++ (d.sql l ++ more) :: after) force = Command.plan srv (before ++ after) force ∧
    Command.apply srv (before ++ (d.sql l ++ more) :: after) force = Command.apply srv (before ++ after) force := by
  have h := new_skip (C34_key_refuted d hd l hl more ss hs hr hq).2 before after
  simp only [Command.check, Command.problems, Command.plan, Command.apply, Command.buildCommands, h]
  exact ⟨trivial, trivial, trivial⟩

/-- The same for a file with a thousand rows or more in one `INSERT`. -/
theorem C40_lost_refuted [PyNum] (i : InsertStmt) (l : InsertLayout) (hi : i.Ok) (hl : l.Ok) (hn : 1000 ≤ i.rows.length) (before after : List Str) (srv : Server)
    (force : Bool) :
    Command.check (before ++ i.sql l :: after) = Command.check (before ++ after) ∧
    Command.plan srv (before ++ i.sql l :: after) force = Command.plan srv (before ++ after) force ∧
    Command.apply srv (before ++ i.sql l :: after) force = Command.apply srv (before ++ after) force := by
  have h := new_skip (C40_refuted i l hi hl hn).2 before after
  simp only [Command.check, Command.problems, Command.plan, Command.apply, Command.buildCommands, h]
  exact ⟨trivial, trivial, trivial⟩

namespace Examples

/-- a table with a key which is called like the first column of its primary key -/
def clashing : TableDecl :=
  { name := py"things"
    first := .column (intCol py"id") .usual
    others := [.index (key py"id" [py"id"]) py"KEY", .index pk py"KEY"]
    options := [] }

theorem clashing_clash : clashing.Clash := by
  refine ⟨by decide, ?_, ?_, ⟨_, _, rfl⟩, nofun, by decide, by decide, [.column (intCol py"id") .usual, .index (key py"id" [py"id"]) py"KEY"], _, _, pk, _, [], rfl,
    List.mem_cons_of_mem _ List.mem_cons_self, rfl, by decide, by decide, by decide, by decide⟩
  · intro x hx
    simp only [clashing, TableDecl.defs, List.mem_cons, List.not_mem_nil, or_false] at hx
    rcases hx with rfl | rfl | rfl
    · refine ⟨⟨by decide, by decide, rfl, ⟨_, .one (by decide), by decide, ?_⟩, by decide, ?_, ?_⟩, usual_fits⟩ <;> intro v hv <;> cases hv
    · exact ⟨⟨by decide, by decide⟩, by unfold Index.Spelled; decide⟩
    · exact ⟨⟨by decide, by decide⟩, by unfold Index.Spelled; decide⟩
  · intro x hx
    simp only [clashing, TableDecl.defs, List.mem_cons, List.not_mem_nil, or_false] at hx
    rcases hx with rfl | rfl | rfl
    · rintro v (h | h | h) <;> cases h
    · trivial
    · trivial

/-- its text -/
example : clashing.sql ⟨[], py" ", []⟩ = py"CREATE TABLE `things` (`id` INT(10) UNSIGNED, KEY `id` (`id`), PRIMARY KEY (`id`));" := by decide +kernel

/-- the hypotheses of `C34_lost_refuted` hold for it, with another table in the same file -/
example [PyNum] : Command.check [clashing.sql ⟨[], py" ", []⟩ ++ py"\n\n" ++ likes.sql ⟨py"\n", py" ", []⟩] = Command.check [] := by
  have h := Script.cons (blanks := py"\n\n") (s := .declare likes ⟨py"\n", py" ", []⟩) (by decide) (.nil (blanks := []) (by decide))
  rw [List.append_nil] at h
  rw [List.append_assoc]
  refine (C34_lost_refuted clashing clashing_clash ⟨[], py" ", []⟩ ⟨by decide, by decide, by decide⟩ _ _ h ⟨?_, by simp⟩ ?_ [] [] ⟨[], fun _ => .ok none, fun _ => .ok [], fun _ _ => none⟩ false).1
  · intro s hs
    rw [List.mem_singleton] at hs
    subst hs
    exact ⟨likes_ok, by decide, by decide, by decide⟩
  · intro s hs
    rw [List.mem_singleton] at hs
    subst hs
    trivial

end Examples

/-- **C34 fails** if a `ValueError` is raised, because it is only printed.  Here the second table has a key which is called like the first
column of its primary key.  It and everything after it is lost, `errors` is empty, and the plan for a live database with the tables
which were declared drops two of them. -/
theorem C34_refuted :
    let files := [py"CREATE TABLE a (id INT); CREATE TABLE t (id INT, KEY id (id), PRIMARY KEY (id)); CREATE TABLE u (id INT);"]
    let live : Database := { tables := [(py"a", { name := py"a", columns := [(py"id", { cls := .numeric, name := py"id", ctype := py"INT" })] }),
      (py"t", { name := py"t", columns := [(py"id", { cls := .numeric, name := py"id", ctype := py"INT" })] }),
      (py"u", { name := py"u", columns := [(py"id", { cls := .numeric, name := py"id", ctype := py"INT" })] })] }
    readFiles files = some ([(py"a", [])], .ok []) ∧
    (match FileDatabase.new files with
      | .error _ => none
      | .ok db => some (Mygration.new db (some live) false)) = some (.ok ⟨[], some [.removeTable py"t", .removeTable py"u"]⟩) := by
  decide +kernel

/-! ## C31 -/

/-- **C31 fails** within a file, for all files: whatever tables it defines, however often, no error is noted, and the last definition of a
table is the one which counts. -/
theorem C31_refuted {file : Str} {ss : List Statement} (h : SourceFile file ss) (hr : Readable ss) :
    ∃ st, readSource file = (st, none) ∧ st.globalErrors = [] ∧ ∀ pre s post t, ss = pre ++ s :: post → tablesOf [s] = [t] → (∀ u ∈ tablesOf post, u.name ≠ t.name) →
      ∃ t', st.tables.get? t.name = some t' ∧ SameTable t t' ∧ t'.globalErrors = [] := by
  obtain ⟨st, h1, h2⟩ := file_read h hr
  refine ⟨st, h1, h2.errors, ?_⟩
  rintro pre s post t rfl hs hp
  have hl := lastNamed_of_split (pre := pre) hs hp
  rcases h2.tables t.name with ⟨h3, _⟩ | ⟨u, u', h3, h4, h5, h6⟩
  · rw [hl] at h3; cases h3
  · rw [hl] at h3; cases h3
    exact ⟨u', h4, h5, h6.noErrors⟩

/-- `CREATE TABLE t (id INT); CREATE TABLE t (a INT);` in one file and in two files: nothing is reported. -/
theorem C31_examples :
    readFiles [py"CREATE TABLE t (id INT); CREATE TABLE t (a INT);"] = some ([(py"t", [])], .ok []) ∧
    readFiles [py"CREATE TABLE t (id INT);", py"CREATE TABLE t (a INT);"] = some ([(py"t", [])], .ok []) := by
  refine ⟨?_, ?_⟩ <;> decide +kernel

/-! ### A second definition in another file -/

section
variable [PyNum]

/-- the errors have been asked for -/
def Asked (d : Database) (p s : List Str) : Prop := d.parsingCache = some p ∧ d.schemaCache = some s

theorem asked_errors {d : Database} {p s : List Str} (h : Asked d p s) : d.errors = (.ok (d.globalErrors ++ p ++ s), d) := by
  unfold Database.errors findSchemaErrors
  simp only [h.2]
  unfold findParsingErrors
  simp only [h.1]

theorem errors_asked {d d' : Database} {l : List Str} (h : d.errors = (.ok l, d')) : ∃ p s, Asked d' p s := by
  unfold Database.errors at h
  split at h
  · cases h
  · rename_i s d₁ h1
    have hs : d₁.schemaCache = some s := by
      unfold findSchemaErrors at h1
      split at h1
      · rename_i hc
        cases h1
        exact hc
      · split at h1
        · cases h1
        · split at h1
          · cases h1
          · split at h1
            · cases h1
            · cases h1
              rfl
    split at h
    · cases h
    · rename_i p d₂ h2
      cases h
      unfold findParsingErrors at h2
      split at h2
      · rename_i hc
        cases h2
        exact ⟨_, _, hc, hs⟩
      · split at h2
        · cases h2
        · cases h2
          exact ⟨_, _, rfl, hs⟩

theorem asked_storeTables {p s : List Str} : ∀ (ts : List Table) {d d' : Database}, Asked d p s → FileDatabase.storeTables d ts = .ok d' → Asked d' p s
  | [], _, _, h, he => by cases he; exact h
  | t :: ts, d, d', h, he => by
    unfold FileDatabase.storeTables at he
    split at he
    · rw [asked_errors h] at he
      exact asked_storeTables ts (d := { d with tables := d.tables.set t.name t, checked := d.checked.filter (· ≠ t.name) }) h he
    · exact asked_storeTables ts (d := { d with tables := d.tables.set t.name t }) h he

/-- a second definition of a table, wherever it is in the list -/
theorem storeTables_asked : ∀ (ts : List Table) {d d' : Database}, (∃ t ∈ ts, t.name ∈ d.tables.keys) → FileDatabase.storeTables d ts = .ok d' → ∃ p s, Asked d' p s
  | [], _, _, ⟨_, h, _⟩, _ => by cases h
  | u :: ts, d, d', ⟨t, ht, hk⟩, he => by
    unfold FileDatabase.storeTables at he
    split at he
    · split at he
      · cases he
      · rename_i d₁ h1
        obtain ⟨p, s, h2⟩ := errors_asked h1
        exact ⟨p, s, asked_storeTables ts (d := { d₁ with tables := d₁.tables.set u.name u, checked := d₁.checked.filter (· ≠ u.name) }) h2 he⟩
    · rename_i hh
      rcases List.mem_cons.mp ht with rfl | ht
      · exact absurd (Dict.has_iff.mpr hk) hh
      · exact storeTables_asked ts (d := { d with tables := d.tables.set u.name u }) ⟨t, ht, Dict.mem_keys_set.mpr (.inr hk)⟩ he

theorem asked_read {p s : List Str} {d d' : Database} {f : Str} (h : Asked d p s) (he : FileDatabase.read d f = .ok d') : Asked d' p s := by
  unfold FileDatabase.read at he
  split at he
  split at he
  · cases he
  · split at he
    · cases he
    · rename_i h1
      cases he
      have := asked_storeTables _ h h1
      exact ⟨this.1, this.2⟩

theorem asked_readAll {p s : List Str} : ∀ (fs : List Str) {d d' : Database}, Asked d p s → FileDatabase.readAll d fs = .ok d' → Asked d' p s
  | [], _, _, h, he => by cases he; exact h
  | f :: fs, d, d', h, he => by
    unfold FileDatabase.readAll at he
    split at he
    · cases he
    · rename_i h1
      exact asked_readAll fs (asked_read h h1) he

omit [PyNum] in
theorem asked_combine {p s : List Str} : ∀ (l : List (Str × List Rows)) {d d' : Database}, Asked d p s → FileDatabase.combine d l = .ok d' → Asked d' p s
  | [], _, _, h, he => by cases he; exact h
  | (n, rs) :: l, d, d', h, he => by
    unfold FileDatabase.combine at he
    dsimp only at he
    split at he
    · cases he
    · refine asked_combine l ?_ he
      unfold Asked
      dsimp only
      split
      · exact h
      · exact h

theorem readAll_append : ∀ (a b : List Str) (d : Database), FileDatabase.readAll d (a ++ b) =
    (match FileDatabase.readAll d a with | .error e => .error e | .ok d' => FileDatabase.readAll d' b)
  | [], _, _ => rfl
  | f :: a, b, d => by
    show (match FileDatabase.read d f with | .error e => Except.error e | .ok d' => FileDatabase.readAll d' (a ++ b)) =
      (match (match FileDatabase.read d f with | .error e => Except.error e | .ok d' => FileDatabase.readAll d' a) with
        | .error e => .error e | .ok d' => FileDatabase.readAll d' b)
    cases FileDatabase.read d f with
    | error e => rfl
    | ok d' => exact readAll_append a b d'

theorem storeTables_names : ∀ (ts : List Table) {d d' : Database}, FileDatabase.storeTables d ts = .ok d' →
    ∀ n, n ∈ d.tables.keys ∨ n ∈ ts.map (·.name) → n ∈ d'.tables.keys
  | [], _, _, he, n, h => by
    cases he
    exact h.resolve_right (by simp)
  | t :: ts, d, d', he, n, h => by
    have key : ∀ x : Database, x.tables = d.tables.set t.name t → n ∈ x.tables.keys ∨ n ∈ ts.map (·.name) := by
      intro x hx
      rw [hx, Dict.mem_keys_set]
      rcases h with h | h
      · exact .inl (.inr h)
      · rcases List.mem_cons.mp h with h | h
        · exact .inl (.inl h)
        · exact .inr h
    unfold FileDatabase.storeTables at he
    split at he
    · split at he
      · cases he
      · rename_i d₁ h1
        have e : d₁.tables = d.tables := by
          have := Database.errors_tables d
          rw [h1] at this
          exact this
        exact storeTables_names ts he n (key _ (by simp only [e]))
    · exact storeTables_names ts he n (key _ rfl)

theorem read_names {d d' : Database} {f : Str} (he : FileDatabase.read d f = .ok d') (n : Str)
    (h : n ∈ d.tables.keys ∨ n ∈ (readSource f).1.tables.keys) : n ∈ d'.tables.keys := by
  unfold FileDatabase.read at he
  split at he
  rename_i hst
  split at he
  · cases he
  · split at he
    · cases he
    · rename_i h1
      cases he
      refine storeTables_names _ h1 n (h.imp_right (fun h => ?_))
      obtain ⟨e, hm, rfl⟩ := List.mem_map.mp h
      have := (readSource_kept f).1.name e.1 e.2 hm
      rw [hst] at hm
      exact List.mem_map.mpr ⟨e.2, List.mem_map.mpr ⟨e, hm, rfl⟩, this⟩

theorem readAll_names : ∀ (fs : List Str) {d d' : Database}, FileDatabase.readAll d fs = .ok d' →
    ∀ n, n ∈ d.tables.keys ∨ (∃ f ∈ fs, n ∈ (readSource f).1.tables.keys) → n ∈ d'.tables.keys
  | [], _, _, he, n, h => by
    cases he
    exact h.resolve_right (fun ⟨_, hf, _⟩ => by cases hf)
  | f :: fs, d, d', he, n, h => by
    unfold FileDatabase.readAll at he
    split at he
    · cases he
    · rename_i h1
      refine readAll_names fs he n ?_
      rcases h with h | ⟨g, hg, h⟩
      · exact .inl (read_names h1 n (.inl h))
      · rcases List.mem_cons.mp hg with rfl | hg
        · exact .inl (read_names h1 n (.inr h))
        · exact .inr ⟨g, hg, h⟩

/-- the errors of files are settled when a file defines a table of an earlier one -/
theorem new_asked {pre : List Str} {f n : Str} (hpre : ∃ g ∈ pre, n ∈ (readSource g).1.tables.keys) (hf : n ∈ (readSource f).1.tables.keys) :
    ∃ p s, ∀ post d, FileDatabase.new (pre ++ f :: post) = .ok d → Asked d p s := by
  have hsplit : ∀ post, pre ++ f :: post = (pre ++ [f]) ++ post := fun post => by simp
  cases h0 : FileDatabase.readAll {} (pre ++ [f]) with
  | error e =>
    refine ⟨[], [], fun post d hd => ?_⟩
    unfold FileDatabase.new at hd
    rw [hsplit, readAll_append, h0] at hd
    cases hd
  | ok d₁ =>
    have h1 := h0
    rw [readAll_append] at h1
    split at h1
    · cases h1
    · rename_i d₀ h2
      have hk : n ∈ d₀.tables.keys := readAll_names pre h2 n (.inr hpre)
      obtain ⟨p, s, hask⟩ : ∃ p s, Asked d₁ p s := by
        unfold FileDatabase.readAll at h1
        split at h1
        · cases h1
        · rename_i h3
          cases h1
          unfold FileDatabase.read at h3
          split at h3
          rename_i hst
          split at h3
          · cases h3
          · split at h3
            · cases h3
            · rename_i h4
              cases h3
              obtain ⟨e, hm, rfl⟩ := List.mem_map.mp hf
              have hname := (readSource_kept f).1.name e.1 e.2 hm
              rw [hst] at hm
              obtain ⟨p, s, h5⟩ := storeTables_asked _ ⟨e.2, List.mem_map.mpr ⟨e, hm, rfl⟩, by rw [hname]; exact hk⟩ h4
              exact ⟨p, s, h5.1, h5.2⟩
      refine ⟨p, s, fun post d hd => ?_⟩
      unfold FileDatabase.new at hd
      rw [hsplit, readAll_append, h0] at hd
      dsimp only at hd
      split at hd
      · cases hd
      · rename_i h6
        exact asked_combine _ (asked_readAll post hask h6) hd

/-- **C31 fails** in a second way, whatever the files are.  If a file defines a table which an earlier file has defined, then nothing
which is read after it is checked: for whatever files `post` come after it, the errors are the same, but for statements which are
not recognised and rows without a table (`globalErrors`). -/
theorem C31_unchecked_refuted (pre : List Str) (f n : Str) (hpre : ∃ g ∈ pre, n ∈ (readSource g).1.tables.keys) (hf : n ∈ (readSource f).1.tables.keys) :
    ∃ errs, ∀ post d, FileDatabase.new (pre ++ f :: post) = .ok d → d.errors.1 = .ok (d.globalErrors ++ errs) := by
  obtain ⟨p, s, h⟩ := new_asked hpre hf
  refine ⟨p ++ s, fun post d hd => ?_⟩
  rw [asked_errors (h post d hd), List.append_assoc]

/-- **C31 fails** for `check`: it says yes to every list of files which begins with such files, if it says yes to these. -/
theorem C31_check_refuted (pre : List Str) (f n : Str) (hpre : ∃ g ∈ pre, n ∈ (readSource g).1.tables.keys) (hf : n ∈ (readSource f).1.tables.keys)
    (hok : (Command.check (pre ++ [f])).result = .ok ⟨[], true⟩) (post : List Str) (d : Database) (hd : FileDatabase.new (pre ++ f :: post) = .ok d)
    (hg : d.globalErrors = []) : d.errors.1 = .ok [] ∧ ∀ o, (Command.check (pre ++ f :: post)).result = .ok o → o = ⟨[], true⟩ := by
  obtain ⟨errs, h⟩ := C31_unchecked_refuted pre f n hpre hf
  have h0 : errs = [] := by
    unfold Command.check at hok
    split at hok
    · cases hok
    · rename_i errs' _ hp
      unfold Command.problems at hp
      split at hp
      · cases hp
      · rename_i d₀ h1
        have h2 := h [] d₀ h1
        split at hp
        · cases hp
        · rename_i h3
          rw [h3] at h2
          cases h2
          split at hp
          · cases hp
          · cases hp
            have h4 : (d₀.globalErrors ++ errs).isEmpty = true := congrArg Command.Outcome.success (Except.ok.inj hok)
            exact (List.append_eq_nil_iff.mp (List.isEmpty_iff.mp h4)).2
  subst h0
  have h5 := h post d hd
  rw [hg] at h5
  refine ⟨h5, fun o ho => ?_⟩
  unfold Command.check at ho
  split at ho
  · cases ho
  · rename_i hp
    unfold Command.problems at hp
    rw [hd] at hp
    dsimp only at hp
    split at hp
    · cases hp
    · rename_i h3
      rw [h3] at h5
      cases h5
      split at hp
      · cases hp
      · cases hp
        cases ho
        rfl

end

/-- **C31 fails** in a second way: two definitions of a table in different files hide the errors of the tables which are read later.  The
foreign key of the third file refers to a table which does not exist. -/
theorem C31_hides_refuted :
    readFiles [py"CREATE TABLE t (id INT);", py"CREATE TABLE t (id INT);",
      py"CREATE TABLE u (a INT, KEY a (a), CONSTRAINT k FOREIGN KEY (a) REFERENCES v (id) ON DELETE CASCADE ON UPDATE CASCADE);"] =
      some ([(py"t", []), (py"u", [])], .ok []) ∧
    readFiles [py"CREATE TABLE t (id INT);",
      py"CREATE TABLE u (a INT, KEY a (a), CONSTRAINT k FOREIGN KEY (a) REFERENCES v (id) ON DELETE CASCADE ON UPDATE CASCADE);"] =
      some ([(py"t", []), (py"u", [])],
        .ok [py"Constraint error for foreign key `k`: `u`.`a` references `v`.`id`, but table `v` does not exist"]) := by
  refine ⟨?_, ?_⟩ <;> decide +kernel

/-- the file with the foreign key to a table which does not exist -/
def danglingFile : Str := py"CREATE TABLE u (a INT, KEY a (a), CONSTRAINT k FOREIGN KEY (a) REFERENCES v (id) ON DELETE CASCADE ON UPDATE CASCADE);"

/-- the hypotheses of `C31_check_refuted` hold for the files above -/
example : ∀ o, (Command.check [py"CREATE TABLE t (id INT);", py"CREATE TABLE t (id INT);", danglingFile]).result = .ok o → o = ⟨[], true⟩ := by
  have h := C31_check_refuted [py"CREATE TABLE t (id INT);"] py"CREATE TABLE t (id INT);" py"t" ⟨_, List.mem_singleton.mpr rfl, by decide +kernel⟩ (by decide +kernel)
    (by decide +kernel) [danglingFile] (match FileDatabase.new [py"CREATE TABLE t (id INT);", py"CREATE TABLE t (id INT);", danglingFile] with | .ok d => d | .error _ => {})
    (by decide +kernel) (by decide +kernel)
  exact h.2

end Mygrations

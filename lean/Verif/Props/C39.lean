import Verif.Proofs.ReadRows
import Verif.Props.C24
import Verif.Props.C38

/-!
# C39, C40, C57: what is in the files is what is read

`FileDatabase.new files` is what `Database([contents, contents, ...])` of the file reader does.  `SourceFile file statements` says
that `file` consists of these statements, with any white space around them, after any comments.
-/

namespace Mygrations
open Sql

/-! ## C57 -/

/-- **C57** (partial).  Files with tables, rows and comments are read as they are meant.  Nothing is raised and nothing is reported.
The tables are those of the files, in order, each under its name with the columns, indexes, foreign keys and options which were
written.  A table for which there is an `INSERT` is tracked, and its rows are exactly those in the `INSERT`s, in order, each under
its id with the values which were written; the other tables are not tracked.

What is missing: files which are not `Readable`, see the refutations below. -/
theorem C57_files_partial [PyNum] (files : List Str) (contents : List (List Statement)) (hf : Paired SourceFile files contents)
    (hr : ∀ ss ∈ contents, Readable ss) (hn : ((tablesOf contents.flatten).map (·.name)).Nodup) (hg : GoodRows contents.flatten) :
    ∃ db, FileDatabase.new files = .ok db ∧ db.globalErrors = [] ∧
      Paired (fun t e => e.1 = t.name ∧ SameTable t e.2 ∧ e.2.globalErrors = [] ∧
          (insertsFor t.name contents.flatten = [] → e.2.tracking = false ∧ e.2.rows = none) ∧
          (insertsFor t.name contents.flatten ≠ [] → e.2.tracking = true ∧ e.2.rows = some (declaredRows t.name contents.flatten)))
        (tablesOf contents.flatten) db.tables := by
  obtain ⟨ts, rows, h1, h2⟩ := files_new files contents hf hr hn hg
  refine ⟨_, h1, rfl, ?_⟩
  generalize contents.flatten = ss at h2
  generalize tablesOf ss = l at h2
  show Paired _ l ts
  clear h1
  induction h2 with
  | nil => exact .nil
  | cons hx _ ih =>
    refine .cons ⟨hx.name, hx.same, hx.noErrors, ?_, ?_⟩ ih
    · intro hz
      have h3 := hx.tracking
      have h4 := hx.rows
      simp only [hz, List.isEmpty_nil, Bool.not_true, Bool.false_eq_true, if_false] at h3 h4
      exact ⟨h3, h4⟩
    · intro hz
      have hz' : (insertsFor _ ss).isEmpty = false := List.isEmpty_eq_false_iff.mpr hz
      have h3 := hx.tracking
      have h4 := hx.rows
      simp only [hz', Bool.not_false, if_true] at h3 h4
      exact ⟨h3, h4⟩

/-! ## C39 -/

/-- MySQL reads the literal of a text cell as the text, whatever follows (other than another quote). -/
theorem C39_literal (x rest : Str) (h : '\'' ∉ x) (hr : rest.head? ≠ some '\'') : ∃ tail, (Cell.text x).sql ++ rest = '\'' :: tail ∧
    lexString tail = some (x, rest) := by
  refine ⟨doubled x ++ '\'' :: rest, by simp [Cell.sql], ?_⟩
  induction x with
  | nil => exact lexString_end hr
  | cons c x ih =>
    rw [List.mem_cons, not_or] at h
    have ih := ih h.2
    by_cases hc : c = '\\'
    · subst hc
      show lexString ('\\' :: '\\' :: (doubled x ++ '\'' :: rest)) = _
      rw [lexString_esc, ih]; rfl
    · have hc' : c ≠ '\'' := fun e => h.1 e.symm
      have : doubled (c :: x) = c :: doubled x := by simp [doubled, hc]
      rw [this, List.cons_append, lexString_other hc hc', ih]; rfl

theorem lookup_table {R : Table → Str × Table → Prop} {n : Str} {ts : List Table} {d : Dict Table} (h : Paired R ts d) (hk : ∀ t e, R t e → e.1 = t.name)
    (hn : (ts.map (·.name)).Nodup) {t : Table} (ht : t ∈ ts) (htn : t.name = n) : ∃ e, Dict.get? d n = some e ∧ R t (n, e) := by
  induction h with
  | nil => cases ht
  | @cons a b as bs hx _ ih =>
    obtain ⟨k, e⟩ := b
    rw [List.map_cons, List.nodup_cons] at hn
    have hkx : k = a.name := hk a (k, e) hx
    rcases List.mem_cons.mp ht with rfl | ht
    · have : k = n := hkx.trans htn
      subst this
      exact ⟨e, by simp [Dict.get?_cons], hx⟩
    · obtain ⟨e', h1, h2⟩ := ih hn.2 ht
      refine ⟨e', ?_, h2⟩
      rw [Dict.get?_cons, if_neg]
      · exact h1
      · intro he
        apply hn.1
        rw [← hkx, he, ← htn]
        exact List.mem_map_of_mem ht

/-- **C39** (partial).  Every value which the files declare is stored, under its table, id and column, as the value which was
written (`C39_literal`: the value which MySQL would store).  What is missing: texts with quotes or runs of white space, the text
`NULL`, and backslashes which are not written twice; see the refutations. -/
theorem C39_values_partial [PyNum] (files : List Str) (contents : List (List Statement)) (hf : Paired SourceFile files contents)
    (hr : ∀ ss ∈ contents, Readable ss) (hn : ((tablesOf contents.flatten).map (·.name)).Nodup) (hg : GoodRows contents.flatten) :
    ∃ db, FileDatabase.new files = .ok db ∧
      ∀ ss ∈ contents, ∀ i l, Statement.insert i l ∈ ss → ∀ row ∈ i.rows, ∀ (k : Nat) (column : Str) (cell : Cell), i.columns[k]? = some column → row[k]? = some cell →
        ∃ table rows stored, db.tables.get? i.table = some table ∧ table.rows = some rows ∧ rows.get? (i.idOf row) = some stored ∧
          Dict.get? stored column = some cell.value := by
  obtain ⟨db, h1, _, h2⟩ := C57_files_partial files contents hf hr hn hg
  refine ⟨db, h1, ?_⟩
  intro ss hss i l hi row hrow k column cell hcol hcell
  have himem : i ∈ insertsOf contents.flatten := List.mem_filterMap.mpr ⟨_, List.mem_flatten.mpr ⟨ss, hss, hi⟩, rfl⟩
  have hiok : i.Ok := ((hr ss hss).ok _ hi).1
  obtain ⟨t, ht, htn⟩ := hg.tables i himem
  obtain ⟨e, hget, hre⟩ := lookup_table h2 (fun _ _ h => h.1) hn ht htn
  have hfor : i ∈ insertsFor t.name contents.flatten := List.mem_filter.mpr ⟨himem, by simp [htn]⟩
  have hrows := (hre.2.2.2.2 (by intro hz; rw [hz] at hfor; cases hfor)).2
  refine ⟨e, _, _, hget, hrows, Dict.get?_of_mem (hg.distinct t.name) (v := i.columns.zip (row.map Cell.value)) ?_, ?_⟩
  · exact List.mem_flatMap.mpr ⟨i, hfor, List.mem_map.mpr ⟨row, hrow, rfl⟩⟩
  · refine Dict.get?_of_mem ?_ ?_
    · have hl := hiok.square row hrow
      have : Dict.keys (i.columns.zip (row.map Cell.value)) = i.columns := zip_keys (by simpa using hl)
      rw [this]
      exact hg.columns i himem
    · rw [List.mem_iff_getElem?]
      exact ⟨k, by rw [List.getElem?_zip_eq_some]; exact ⟨hcol, by simp [hcell]⟩⟩

/-! ## An example -/

namespace Examples

/-- the usual white space -/
def layout1 : InsertLayout := ⟨py" ", py" ", py" ", py" ", py" ", py" ", py" ", []⟩
/-- a lot of white space, or none at all -/
def layout2 : InsertLayout := ⟨py"\n  ", [], [], py"\n", py"\n  ", py"\t", py"\n  ", py"\n"⟩

/-- two rows with a number, a text with a backslash, and `NULL` -/
def insert1 : InsertStmt := ⟨py"users", [py"id", py"name"], [[.bare py"1", .text py"a; b, c\\d"], [.bare py"2", .null]]⟩
/-- one more, with the id in quotes -/
def insert2 : InsertStmt := ⟨py"users", [py"name", py"id"], [[.text py"x", .text py"7"]]⟩

/-- a file with tables, rows and comments -/
def script1 : List Statement := [.insert insert2 layout2, .create dumpUsers true, .comment py" note ", .insert insert1 layout1]
/-- another file -/
def script2 : List Statement := [.comment py"*", .create dumpPosts false]

/-- the text of the first file: a header, and blank lines between statements -/
def file1 : Str := py"-- users and posts\n# second line\n/* x */" ++ (py"\n" ++ insert2.sql layout2 ++ (py"\n\n" ++ dumpUsers.renderCreate true ++
  (py" " ++ py"/* note */" ++ (py"\n" ++ insert1.sql layout1 ++ py"\n"))))
/-- the text of the second file -/
def file2 : Str := py"/***/" ++ dumpPosts.renderCreate false

theorem insert1_ok : insert1.Ok := ⟨by decide, ⟨by decide, by decide⟩, by decide, by decide, by decide⟩
theorem insert2_ok : insert2.Ok := ⟨by decide, ⟨by decide, by decide⟩, by decide, by decide, by decide⟩
theorem layout1_ok : layout1.Ok := ⟨by decide, by decide, by decide, by decide, by decide, by decide, by decide, by decide⟩
theorem layout2_ok : layout2.Ok := ⟨by decide, by decide, by decide, by decide, by decide, by decide, by decide, by decide⟩

theorem file1_ok : SourceFile file1 script1 := by
  refine ⟨3, py"-- users and posts\n# second line\n/* x */", _, rfl, ?_, ?_, by decide, by intro h; cases h⟩
  · have h0 := Header.nil
    have h1 := Header.block (blanks := []) (body := py" x ") (by decide) (by decide) h0
    have h2 := Header.line (blanks := []) (start := py"#") (body := py" second line") (by decide) (Or.inl rfl) (by decide) h1
    exact Header.line (blanks := []) (start := py"--") (body := py" users and posts") (by decide) (Or.inr rfl) (by decide) h2
  · have h1 := Script.cons (blanks := py"\n") (s := .insert insert1 layout1) (by decide) (.nil (blanks := py"\n") (by decide))
    have h2 := Script.cons (blanks := py" ") (s := .comment py" note ") (by decide) h1
    have h3 := Script.cons (blanks := py"\n\n") (s := .create dumpUsers true) (by decide) h2
    exact Script.cons (blanks := py"\n") (s := .insert insert2 layout2) (by decide) h3

theorem file2_ok : SourceFile file2 script2 := by
  refine ⟨0, [], file2, rfl, .nil, ?_, by decide, by intro h; cases h⟩
  have h1 : Script (dumpPosts.renderCreate false) [.create dumpPosts false] := by
    have := Script.cons (blanks := []) (s := .create dumpPosts false) (more := []) (ss := []) (by decide) (.nil (by decide))
    simpa [Statement.sql] using this
  exact Script.cons (blanks := []) (s := .comment py"*") (by decide) h1

theorem script1_readable : Readable script1 := by
  refine ⟨?_, ?_⟩
  · intro s hs
    simp only [script1, List.mem_cons, List.not_mem_nil, or_false] at hs
    rcases hs with rfl | rfl | rfl | rfl
    · exact ⟨insert2_ok, layout2_ok, by decide⟩
    · exact dumpUsers_readable
    · show ¬ py"*/" <:+: py"*" ++ py" note "; decide
    · exact ⟨insert1_ok, layout1_ok, by decide⟩
  · unfold script1
    simp only [List.pairwise_cons, List.mem_cons, List.not_mem_nil, or_false, forall_eq_or_imp, forall_eq, Statement.isCreate, Bool.false_eq_true,
      false_implies, implies_true, true_implies, and_true, true_and, List.Pairwise.nil]
    refine ⟨⟨by decide, by unfold NoComment; decide, by decide⟩, ?_, Or.inr (by decide)⟩
    unfold NoComment
    decide

theorem script2_readable : Readable script2 := by
  refine ⟨?_, ?_⟩
  · intro s hs
    simp only [script2, List.mem_cons, List.not_mem_nil, or_false] at hs
    rcases hs with rfl | rfl
    · show ¬ py"*/" <:+: py"*" ++ py"*"; decide
    · exact dumpPosts_readable
  · unfold script2
    simp [Statement.isCreate]

theorem scripts_rows : GoodRows [script1, script2].flatten := by
  refine ⟨?_, by decide, by decide, ?_⟩
  · intro i hi
    have : i = insert2 ∨ i = insert1 := by simpa [insertsOf, script1, script2] using hi
    refine ⟨dumpUsers, by simp [tablesOf, script1, script2], ?_⟩
    rcases this with rfl | rfl <;> rfl
  · intro n
    by_cases h : n = py"users"
    · subst h; decide
    · have : insertsFor n [script1, script2].flatten = [] := by
        simp only [insertsFor, insertsOf, script1, script2, List.flatten_cons, List.flatten_nil, List.append_nil, List.cons_append, List.nil_append,
          List.filterMap_cons, List.filterMap_nil, List.filter_eq_nil_iff, List.mem_cons, List.not_mem_nil, or_false]
        rintro i (rfl | rfl) <;> exact fun e => h (of_decide_eq_true e).symm
      unfold declaredRows
      rw [this]
      exact List.nodup_nil

end Examples

open Examples in
example : Paired SourceFile [file1, file2] [script1, script2] ∧ (∀ ss ∈ [script1, script2], Readable ss) ∧
    ((tablesOf [script1, script2].flatten).map (·.name)).Nodup ∧ GoodRows [script1, script2].flatten ∧
    declaredRows py"users" [script1, script2].flatten =
      [(py"7", [(py"name", .str py"x"), (py"id", .str py"7")]), (py"1", [(py"id", .str py"1"), (py"name", .str py"a; b, c\\d")]),
       (py"2", [(py"id", .str py"2"), (py"name", .none)])] := by
  refine ⟨.cons file1_ok (.cons file2_ok .nil), ?_, by decide, scripts_rows, by decide⟩
  intro ss hss
  simp only [List.mem_cons, List.not_mem_nil, or_false] at hss
  rcases hss with rfl | rfl
  · exact script1_readable
  · exact script2_readable

/-! ## Values which are not preserved -/

/-- **C39 fails** for runs of white space, line breaks, the text `NULL` in quotes and escape sequences: the values stored are another
text, `NULL`, and the escape sequence as it is written. -/
theorem C39_values_refuted :
    (readSource py"INSERT INTO t (id, v) VALUES (1, 'a  b'), (2, 'a\nb'), (3, 'NULL'), (4, 'a\\nb');").1.rows =
      [(py"t", [{ table := py"t", columns := [py"id", py"v"], numExplicit := 2, rawRows := [[.str py"1", .str py"a b"], [.str py"2", .str py"a b"],
        [.str py"3", .none], [.str py"4", .str py"a\\nb"]] }])] ∧
    lexString py"a  b'" = some (py"a  b", []) ∧ lexString py"a\nb'" = some (py"a\nb", []) ∧ lexString py"NULL'" = some (py"NULL", []) ∧
    lexString py"a\\nb'" = some (py"a\nb", []) :=
  ⟨by decide +kernel, by decide +kernel, by decide +kernel, by decide +kernel, by decide +kernel⟩

/-- **C39 fails** for quotes.  A quote which is written twice makes the whole row disappear (the complaint ends up where nobody looks, see C32); one which is escaped
with a backslash ends the reading with an exception. -/
theorem C39_quotes_refuted :
    (readSource py"INSERT INTO t (id, v) VALUES (1, 'it''s');").2 = none ∧
    (readSource py"INSERT INTO t (id, v) VALUES (1, 'it''s');").1.globalErrors = [] ∧
    (readSource py"INSERT INTO t (id, v) VALUES (1, 'it''s');").1.rows.map (fun e => (e.1, e.2.map (fun r => (r.rawRows, r.parsingErrors)))) =
      [(py"t", [([], [py"Insert values has different number of columns and values for <InsertValues>"])])] ∧
    lexString py"it''s'" = some (py"it's", []) ∧
    readSource py"INSERT INTO t (id, v) VALUES (1, 'it\\'s');" = ({}, some (.syntaxError py"Opening quote without closing quote at 1, 'it\\'s');")) ∧
    lexString py"it\\'s'" = some (py"it's", []) :=
  ⟨by decide +kernel, by decide +kernel, by decide +kernel, by decide +kernel, by decide +kernel, by decide +kernel⟩

/-- **C57 fails** for files where something which looks like part of a `CREATE TABLE` follows one.  An equals sign in the next
statement makes the statement an option of the table; a length in parentheses is removed from a value; two dashes in a value
remove the rest of the line. -/
theorem C57_following_refuted :
    (readSource py"CREATE TABLE t (id INT) ENGINE=InnoDB; INSERT INTO a (b) VALUES ('x=1');").1.tables.map (fun e => (e.1, e.2.options)) =
      [(py"t", [⟨py"ENGINE", py"InnoDB"⟩, ⟨py"; INSERT INTO a (b) VALUES ('x", py"1')"⟩])] ∧
    (readSource py"CREATE TABLE t (id INT) ENGINE=InnoDB; INSERT INTO a (b) VALUES ('x=1');").1.rows = [] ∧
    (readSource py"CREATE TABLE t (id INT) ENGINE=InnoDB; INSERT INTO a (b) VALUES ('x=1');").1.globalErrors = [] ∧
    (readSource py"CREATE TABLE t (id INT) ENGINE=InnoDB; INSERT INTO a (b) VALUES ('x=1');").2 = none ∧
    (readSource py"CREATE TABLE t (id INT); INSERT INTO t (id) VALUES (',f(3)');").1.rows =
      [(py"t", [{ table := py"t", columns := [py"id"], rawRows := [[.str py",f"]], numExplicit := 1 }])] ∧
    (readSource py"CREATE TABLE t (id INT); INSERT INTO t (id) VALUES ('a--b');").2 = some (.syntaxError py"Opening quote without closing quote at 'a") :=
  ⟨by decide +kernel, by decide +kernel, by decide +kernel, by decide +kernel, by decide +kernel, by decide +kernel⟩

/-! ## C40 -/

/-- **C40** (partial): an `INSERT` with fewer than 1000 rows is read completely. -/
theorem C40_small_partial (i : InsertStmt) (l : InsertLayout) (hi : i.Ok) (hl : l.Ok) (hn : i.rows.length < 1000) :
    readSource (i.sql l) = ({ rows := [(i.table, [i.meaning])] }, none) := by
  obtain ⟨is, h1, h2⟩ : ∃ is, Paired ItemOf [Statement.insert i l] is ∧ Text (i.sql l) is := by
    have := Script.cons (blanks := []) (s := .insert i l) (more := []) (ss := []) (fun _ h => by cases h) (.nil (fun _ h => by cases h))
    have h3 : Script (i.sql l) [.insert i l] := by simpa [Statement.sql] using this
    exact h3.text (by intro s hs; simp at hs; subst hs; exact ⟨hi, hl, hn⟩)
  obtain ⟨st', he, hloop⟩ := Text.loop is (i.sql l) (10000 - is.length) {} h2 (by intro hz; rw [hz] at h1; cases h1) (items_pairwise h1 (by simp))
  have hlen := h1.length
  simp at hlen
  unfold readSource
  rw [show (10000 : Nat) = 10000 - is.length + is.length by omega, hloop]
  cases h1 with
  | cons hx hp =>
    cases hp
    cases he with
    | cons he hr =>
      cases hr
      have := hx.eff he
      simp only [StmtEff] at this
      rw [this]
      rfl

/-- **C40 fails** from 1000 rows on, however they are written: none of the rows is read.  `Database` only prints the exception, so
that the file is the same to it as an empty one. -/
theorem C40_refuted [PyNum] (i : InsertStmt) (l : InsertLayout) (hi : i.Ok) (hl : l.Ok) (hn : 1000 ≤ i.rows.length) :
    readSource (i.sql l) = ({}, some (.valueError py"Max depth reached")) ∧ ∀ db, FileDatabase.read db (i.sql l) = .ok db := by
  obtain ⟨r, rs, he⟩ := rows_split hi
  have hsql : i.sql l = insertText l i.table i.columns r rs [] := by
    have := insert_sql i l he []
    rwa [List.append_nil] at this
  have hnorm := normalize_insert hl hi.table hi.columns (insert_cells he hi.cells) []
  have hparse := insert_many l.squeeze_gaps hi.table hi.columns (insert_cells he hi.cells) (flat_trimmed_insert hnorm) (by
      have := congrArg List.length he
      simp at this
      omega) hnorm
  have hp : parseInsert (i.sql l) = .error (.valueError py"Max depth reached") := by
    unfold parseInsert
    rw [hsql, hparse]
  have hstrip : strip (i.sql l) = i.sql l := by
    rw [hsql]
    obtain ⟨b, hb⟩ := insertText_end l i.table i.columns r rs
    obtain ⟨cs, hcs⟩ : ∃ cs, insertText l i.table i.columns r rs [] = 'I' :: cs := ⟨_, rfl⟩
    have h1 : strip (insertText l i.table i.columns r rs []) = rstrip (insertText l i.table i.columns r rs []) := by
      rw [hcs]; exact strip_cons_char (by decide) cs
    rw [h1, hb]
    exact rtrim_append (by rfl) (by simp)
  have hread : readSource (i.sql l) = ({}, some (.valueError py"Max depth reached")) := by
    unfold readSource
    have h1 : i.sql l ≠ [] := by rw [hsql]; simp [insertText]
    have h2 : startsComment (i.sql l) = false := by rw [hsql]; rfl
    have h3 : lower ((i.sql l).take 6) = py"insert" := by
      rw [hsql]
      show lower py"INSERT" = py"insert"
      decide
    have h4 : py"insert" ≠ py"create" := by decide
    rw [show (10000 : Nat) = 9999 + 1 from rfl, readLoop_succ 9999 {} h1, hstrip]
    simp only [readStep, h1, if_false, h2, Bool.false_eq_true, h3, h4, if_true, hp]
  refine ⟨hread, ?_⟩
  intro db
  unfold FileDatabase.read
  rw [hread]
  simp only [Option.filter_some, PyErr.isValueError, Bool.not_true, Bool.false_eq_true, if_false]
  simp [FileDatabase.storeTables, FileDatabase.storeRows, Dict.values]

/-- many rows -/
def Examples.manyRows (n : Nat) : InsertStmt := ⟨py"t", [py"id", py"v"], List.replicate n [.bare py"1", .text py"x"]⟩

open Examples in
example : (manyRows 1000).Ok ∧ 1000 ≤ (manyRows 1000).rows.length ∧ (manyRows 999).Ok ∧ (manyRows 999).rows.length < 1000 := by
  have h : ∀ n, n ≠ 0 → (manyRows n).Ok := by
    intro n hn
    refine ⟨show Ident py"t" by decide, show [py"id", py"v"] ≠ [] ∧ ∀ c ∈ [py"id", py"v"], Ident c by decide, by simpa [manyRows] using hn, ?_, ?_⟩
    · intro r hr
      have := (List.mem_replicate.mp hr).2
      subst this; rfl
    · intro r hr
      have := (List.mem_replicate.mp hr).2
      subst this; decide
  have hl : ∀ n, (manyRows n).rows.length = n := fun n => List.length_replicate
  exact ⟨h _ (by decide), by rw [hl]; decide, h _ (by decide), by rw [hl]; decide⟩

end Mygrations

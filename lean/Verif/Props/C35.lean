import Verif.Proofs.ReadText

/-!
# C35, C36 and C37: foreign keys, indexes and columns round-trip

`bestChild definitionClasses text none` is one round of the reader inside the parentheses of a `CREATE TABLE`: it tries every
class of definitions on `text` and returns the definition of the best match and the text which is left.  `Follows e rest` says
that `e` is nothing, a comma and any text at all, or a closing parenthesis and any text at all.
-/

namespace Mygrations

/-- **C35.**  The SQL text of a foreign key, followed by nothing, by a comma and any text, or by a closing parenthesis and any
text, is read as exactly that foreign key: its name, its column, the table and the column it references and both actions. -/
theorem C35_foreign_key_roundtrip (k : Constraint) (hk : k.Plain) (e rest : Str) (he : Follows e rest) :
    bestChild definitionClasses (k.render ++ e) none = .ok (some (.constraint { k with parsingErrors := [] } false, rest)) := by
  obtain ⟨e', h1, _, h3, h4⟩ := follows_closing he
  have hw : Actions.both.Fits k := ⟨by simp [Actions.both], by simp [Actions.both]⟩
  rw [← constraint_both, bestChild_follows (constraint_flat .both hk) h4, constraint_read hk hw h1, h3]

/-- **C35, with actions left out.**  A foreign key of which one or both actions are not written down is read with `RESTRICT`
for those. -/
theorem C35_foreign_key_actions (k : Constraint) (w : Actions) (hk : k.Plain) (hw : w.Fits k) (e rest : Str) (he : Follows e rest) :
    bestChild definitionClasses (py"CONSTRAINT `" ++ k.name ++ py"` " ++ k.body w ++ e) none =
      .ok (some (.constraint { k with parsingErrors := [] } false, rest)) := by
  obtain ⟨e', h1, _, h3, h4⟩ := follows_closing he
  rw [bestChild_follows (constraint_flat w hk) h4, constraint_read hk hw h1, h3]

/-- a foreign key with one action -/
example : Actions.Fits ⟨true, false⟩ ⟨py"posts_author", py"author_id", py"authors", py"id", py"CASCADE", py"RESTRICT", []⟩ ∧
    Constraint.body ⟨py"posts_author", py"author_id", py"authors", py"id", py"CASCADE", py"RESTRICT", []⟩ ⟨true, false⟩ =
      py"FOREIGN KEY (`author_id`) REFERENCES `authors` (`id`) ON DELETE CASCADE" :=
  ⟨⟨by simp, by simp⟩, by decide⟩

/-- a foreign key which is followed by an index on another line -/
example : Constraint.Plain ⟨py"posts_author", py"author_id", py"authors", py"id", py"SET NULL", py"NO ACTION", []⟩ ∧
    Follows py",\n  KEY `by` (`a`)" py"KEY `by` (`a`)" :=
  ⟨⟨by decide, by decide, by decide, by decide, by decide, by decide⟩, Follows.comma py"\n  KEY `by` (`a`)"⟩

/-- **C36**, for every way to write an index: as `KEY` or `INDEX`, in capital or small letters, and for a unique key also
without either word. -/
theorem C36_written_partial (i : Index) (hi : i.Plain) (w : Str) (hw : i.Spelled w) (e rest : Str) (he : Follows e rest) :
    ∃ j, bestChild definitionClasses (i.written w ++ e) none = .ok (some (.index j, rest)) ∧ SameIndex i j := by
  obtain ⟨e', h1, _, h3, h4⟩ := follows_closing he
  have h := written_read hi hw h1
  rw [h3, ← bestChild_follows (written_flat hi hw) h4] at h
  refine ⟨_, h, rfl, rfl, ?_⟩
  show upper (lower i.indexType) = i.indexType
  rcases hi.type with ⟨h, _⟩ | ⟨h, _⟩ | ⟨h, _⟩ <;> rw [h] <;> decide

/-- an index with the word in small letters, a unique key with the other word and one without a word or a name -/
example : ({ rawName := py"by", columns := [py"a", py"b"], itype := py"index" } : Index).written py"index" = py"index `by` (`a`,`b`)" ∧
    ({ rawName := py"by", columns := [py"a"], itype := py"unique" } : Index).written py"INDEX" = py"UNIQUE INDEX `by` (`a`)" ∧
    ({ rawName := [], columns := [py"a"], itype := py"unique" } : Index).written [] = py"UNIQUE (`a`)" ∧
    ({ rawName := [], columns := [py"a"], itype := py"unique" } : Index).Spelled [] ∧
    Index.Plain { rawName := py"by", columns := [py"a", py"b"], itype := py"index" } ∧
    ({ rawName := py"by", columns := [py"a", py"b"], itype := py"index" } : Index).Spelled py"index" :=
  ⟨by decide, by decide, by decide, .inr ⟨rfl, by decide⟩, ⟨by decide, by decide⟩, .inl (by decide)⟩

/-- **C36.**  The SQL text of an index, followed by nothing, a comma and any text, or a closing parenthesis and any text, is
read as an index with the same type, the same name and the same columns in the same order. -/
theorem C36_index_roundtrip_partial (i : Index) (hi : i.Plain) (e rest : Str) (he : Follows e rest) :
    ∃ j, bestChild definitionClasses (i.render ++ e) none = .ok (some (.index j, rest)) ∧ SameIndex i j := by
  obtain ⟨e', h1, _, h3, h4⟩ := follows_closing he
  have h := index_read hi h1
  rw [h3, ← bestChild_follows (index_flat hi) h4] at h
  refine ⟨_, h, rfl, rfl, ?_⟩
  show upper (lower i.indexType) = i.indexType
  rcases hi.type with ⟨h, _⟩ | ⟨h, _⟩ | ⟨h, _⟩ <;> rw [h] <;> decide

/-- a unique key on two columns, at the end of the definitions -/
example : Index.Plain { rawName := py"by_name", columns := [py"last_name", py"first_name"], itype := py"unique" } ∧
    Follows py"\n) ENGINE=InnoDB;" py") ENGINE=InnoDB;" :=
  ⟨⟨by decide, by decide⟩, Follows.close py"\n" py" ENGINE=InnoDB;" (by decide)⟩

/-- a keyword and an opening parenthesis are no definition: the name of the key is missing -/
theorem definitions_unnamed {s : Str} (hs : flat true ('(' :: s) = true) : bestChild definitionClasses (py"KEY " ++ '(' :: s) none = .ok none := by
  have hall : flat true (py"KEY" ++ ' ' :: '(' :: s) = true := pre_flat (by decide) (by decide) hs
  rw [show py"KEY " ++ '(' :: s = py"KEY" ++ ' ' :: '(' :: s from rfl, bestChild_none]
  intro c hc
  simp only [definitionClasses, List.mem_cons, List.not_mem_nil, or_false] at hc
  have hcol : c ∈ [typeCharacter, typeNumeric, typeDecimal, typeEnum, typePlain, typeText, typeDateTime] →
      c.tryParse (py"KEY" ++ ' ' :: '(' :: s) = .ok none := by
    intro h
    obtain ⟨rs, hrs, hcr⟩ := columnClass_tail c h
    refine try_none (vals := [(py"name", .str py"KEY")]) (rest := '(' :: s) ?_
    unfold simpleParse
    rw [hcr, normalize_normal (Or.inr hall)]
    simp only [columnHead, List.cons_append, List.nil_append]
    have h1 := name_hit (pre := py"KEY") (by decide) (by decide) hs py"name"
    rw [show 'K' :: 'E' :: 'Y' :: ' ' :: '(' :: s = py"KEY" ++ ' ' :: '(' :: s from rfl, run_step _ h1]
    · apply run_fail _ rfl
      show Except.ok (regexParse _ _) = _
      simp [regexParse, startsWithCI_nil, takeRun, show isWord '(' = false from by decide]
    · intro r hr
      rcases List.mem_cons.mp hr with rfl | hr
      · rfl
      · exact columnTails_idle rs hrs r hr
  rcases hc with rfl | rfl | rfl | rfl | rfl | h
  · exact try_miss rfl hall (by decide)
  · refine try_none (vals := [(py"index_name", .str py"KEY")]) (rest := '(' :: s) ?_
    unfold simpleParse
    rw [normalize_normal (Or.inr hall)]
    have idle : ∀ r ∈ nameRule py"name" :: indexTail, r.kind.Idle := by
      intro r hr
      rcases List.mem_cons.mp hr with rfl | hr
      · rfl
      · exact index_tail_idle r hr
    have h1 := key_run (vals := []) (s := '(' :: s) idle hs false
    refine h1.trans ?_
    apply run_fail _ rfl
    show Except.ok (regexParse _ _) = _
    simp [regexParse, startsWithCI_nil, takeRun, show nameChar '(' = false from by decide]
  · exact try_miss rfl hall (by decide)
  · exact try_miss rfl hall (by decide)
  · exact try_miss rfl hall (by decide)
  · exact hcol (by simpa using h)

/-- **C36 fails without a name.**  MySQL allows a key without a name; the text generated for one, whatever its columns and
whatever follows, is not read as an index, nor as anything else. -/
theorem C36_unnamed_refuted (i : Index) (ht : i.indexType = py"INDEX") (hn : i.rawName = []) (hne : i.columns ≠ [])
    (hc : ∀ c ∈ i.columns, Ident c) (e rest : Str) (he : Follows e rest) :
    bestChild definitionClasses (i.render ++ e) none = .ok none := by
  obtain ⟨e', h1, _, _, h4⟩ := follows_closing he
  have hr : ∀ x, i.render ++ x = py"KEY " ++ '(' :: colList i.columns x := by
    intro x
    rw [← ticked_join i.columns hne x]
    unfold Index.render
    simp [ht, hn, join]
  have hf : flat true i.render = true := by
    have := pre_flat (pre := py"KEY") (by decide) (by decide) (paren_flat (colList_flat hc (e := []) (Or.inl rfl)))
    rw [← List.append_nil i.render, hr]
    exact this
  rw [bestChild_follows hf h4, hr]
  exact definitions_unnamed (paren_flat (colList_flat hc h1))

/-- a key without a name on two columns, in front of a further definition -/
example : ∃ i : Index, i.indexType = py"INDEX" ∧ i.rawName = [] ∧ i.columns = [py"a", py"b"] ∧ (∀ c ∈ i.columns, Ident c) ∧
    i.render = py"KEY (`a`,`b`)" ∧ Follows py", c INT)" py"c INT)" :=
  ⟨{ rawName := [], columns := [py"a", py"b"], itype := py"index" }, by decide, rfl, rfl, by decide, by decide, Follows.comma py" c INT)"⟩

/-- **C37.**  The SQL text of a column, followed by nothing, a comma and any text, or a closing parenthesis and any text, is
read as a column with the same name, type, length, nullability, default, sign, `AUTO_INCREMENT`, character set and collation;
its text is the same again, and reading it raises nothing and reports nothing. -/
theorem C37_column_roundtrip_partial (c : Column) (hc : c.Plain) (e rest : Str) (he : Follows e rest) :
    ∃ pc c', bestChild definitionClasses (c.render ++ e) none = .ok (some (.column pc, rest)) ∧ pc.asDefinition = .ok c' ∧
      SameColumn c c' ∧ c'.render = c.render ∧ c'.parsingErrors = [] ∧ pc.isPrimaryKey = false := by
  obtain ⟨e', h1, h2, h3, h4⟩ := follows_closing he
  obtain ⟨pc, c', hb, hd, hs, _, hp, _, hk, _⟩ := column_read hc usual_fits h1 h2
  rw [← written_usual hc]
  exact ⟨pc, c', by rw [bestChild_follows (column_flat hc usual_fits) h4, hb, h3], hd, hs, by rw [sameColumn_render hs, written_usual hc], hp, hk⟩

/-- **C37, however the column is written.**  Types, keywords, character set and collation in capital or small letters,
defaults with or without quotes, `NULL` and `DEFAULT NULL` written down or not, character set and collation in front of
`NOT NULL` or at the end and with or without quotes: the column which is read is the same. -/
theorem C37_column_text_partial (c : Column) (s : Style) (hc : c.Plain) (hs : s.Fits c) (e rest : Str) (he : Follows e rest) :
    ∃ pc c', bestChild definitionClasses (c.written s ++ e) none = .ok (some (.column pc, rest)) ∧ pc.asDefinition = .ok c' ∧
      SameColumn c c' ∧ c'.render = c.render ∧ c'.parsingErrors = [] ∧ pc.isPrimaryKey = false := by
  obtain ⟨e', h1, h2, h3, h4⟩ := follows_closing he
  obtain ⟨pc, c', hb, hd, hsame, _, hp, _, hk, _⟩ := column_read hc hs h1 h2
  exact ⟨pc, c', by rw [bestChild_follows (column_flat hc hs) h4, hb, h3], hd, hsame, sameColumn_render hsame, hp, hk⟩

/-- every column fits the way the server writes them -/
example (n : Bool) (c : Column) : (Style.server n).Fits c := server_fits n c

/-- a column as the server writes it -/
example : Column.written { cls := .string, name := py"name", ctype := py"VARCHAR", len := .str py"255", null := false, hasDefault := true, default := some py"x"
                           charset := some py"latin1", collation := some py"latin1_bin" } (.server true) =
      py"`name` varchar(255) CHARACTER SET latin1 COLLATE latin1_bin NOT NULL DEFAULT 'x'" ∧
    Column.written { cls := .numeric, name := py"n", ctype := py"INT", len := .str py"10", unsigned := some true } (.server true) =
      py"`n` int(10) unsigned DEFAULT NULL" := by
  constructor <;> decide

/-- columns of each class, with the attributes they can have -/
example :
    Column.Plain { cls := .numeric, name := py"price", ctype := py"decimal", len := .str py"10,2", null := false, hasDefault := true
                   default := some py"0.00", unsigned := some true } ∧
    Column.Plain { cls := .numeric, name := py"id", ctype := py"INT", len := .str py"10", null := false, unsigned := some true, autoInc := some true } ∧
    Column.Plain { cls := .string, name := py"name", ctype := py"VARCHAR", len := .str py"255", hasDefault := true, default := some []
                   charset := some py"utf8mb4", collation := some py"utf8mb4_bin" } ∧
    Column.Plain { cls := .date, name := py"at", ctype := py"DATETIME", null := false, hasDefault := true
                   default := some py"2020-01-01 00:00:00" } ∧
    Follows py",`b` INT" py"`b` INT" := by
  refine ⟨⟨by decide, by decide, rfl, ⟨_, .two (a := py"10") (b := py"2") (by decide) (by decide), by decide, ?_⟩, by decide, ?_, ?_⟩,
    ⟨by decide, by decide, rfl, ⟨_, .one (by decide), by decide, ?_⟩, by decide, ?_, ?_⟩,
    ⟨by decide, by decide, rfl, ⟨_, .one (by decide), by decide, ?_⟩, by decide, ?_, ?_⟩,
    ⟨by decide, by decide, rfl, ⟨_, .none, by decide, ?_⟩, by decide, ?_, ?_⟩, Follows.comma _⟩
  all_goals intro v hv
  all_goals cases hv
  · exact ⟨Or.inl ⟨by decide, by decide⟩, by decide⟩
  · exact ⟨Or.inl ⟨by decide, by decide⟩, by decide⟩
  · exact ⟨rfl, by decide, by decide⟩
  · exact ⟨rfl, by decide, by decide⟩
  · exact ⟨Or.inr ⟨rfl, py"2020-01-01", '0', py"0:00:00", rfl, by decide, by decide, by decide⟩, by decide⟩

/-- **C37 fails for a default with a blank** when the column has a length: the default is cut at the blank and the rest of it is
left to be read as the next definition. -/
theorem C37_blank_default_refuted : ∃ (c : Column) (pc : ParsedColumn) (rest : Str), c.render = py"`title` VARCHAR(20) DEFAULT 'a b'" ∧ c.default = some py"a b" ∧
    bestChild definitionClasses c.render none = .ok (some (.column pc, rest)) ∧ pc.default = some py"'a" ∧ rest = py"b'" :=
  ⟨{ cls := .string, name := py"title", ctype := py"VARCHAR", len := .str py"20", hasDefault := true, default := some py"a b" },
    { name := py"title", ctype := py"VARCHAR", len := .str py"20", null := true, hasDefault := true, default := some py"'a",
      parsingWarnings := [quotesText py"'a" py"title"] }, _,
    by decide, rfl, by decide +kernel, rfl, rfl⟩

/-- The same for the blank itself: of `DEFAULT ' '` only the first quote is taken, as it is, with a warning. -/
theorem C37_single_blank_refuted : ∃ (c : Column) (pc : ParsedColumn) (rest : Str), c.render = py"`title` VARCHAR(20) DEFAULT ' '" ∧ c.default = some py" " ∧
    bestChild definitionClasses c.render none = .ok (some (.column pc, rest)) ∧ pc.default = some py"'" ∧ pc.parsingWarnings ≠ [] ∧ rest = py"'" :=
  ⟨{ cls := .string, name := py"title", ctype := py"VARCHAR", len := .str py"20", hasDefault := true, default := some py" " },
    { name := py"title", ctype := py"VARCHAR", len := .str py"20", null := true, hasDefault := true, default := some py"'",
      parsingWarnings := [quotesText py"'" py"title"] }, _,
    by decide, rfl, by decide +kernel, rfl, by decide, rfl⟩

/-- **C37 fails for `INTEGER` and `BOOL`**: they are read as other types, so the columns differ from the ones written down. -/
theorem C37_renamed_types_refuted :
    (∃ (c : Column) (pc : ParsedColumn), c.render = py"`n` INTEGER(11)" ∧ bestChild definitionClasses c.render none = .ok (some (.column pc, [])) ∧ pc.ctype = py"int" ∧
      c.columnType = py"INTEGER") ∧
    (∃ (c : Column) (pc : ParsedColumn), c.render = py"`n` BOOL" ∧ bestChild definitionClasses c.render none = .ok (some (.column pc, [])) ∧ pc.ctype = py"TINYINT" ∧
      pc.len = .str py"1") :=
  ⟨⟨{ cls := .numeric, name := py"n", ctype := py"INTEGER", len := .str py"11" },
    { name := py"n", ctype := py"int", len := .str py"11", null := true }, by decide, by decide +kernel, rfl, by decide⟩,
   ⟨{ cls := .numeric, name := py"n", ctype := py"BOOL" },
    { name := py"n", ctype := py"TINYINT", len := .str py"1", null := true, unsigned := some false, autoInc := some false }, by decide, by decide +kernel, rfl, rfl⟩⟩

end Mygrations

import Verif.Proofs.Annotate
import Verif.Props.C39

/-!
# C82: comments and lengths of prefixes do not change what is read

`Annotated raw clean` (`Spec/Annotate`) says that `raw` is `clean` with comments to the end of the line and with lengths of prefixes
of columns in keys.
-/

namespace Mygrations
open Sql

/-- **C82**.  A text which starts with `CREATE` is read as if the comments to the end of the line and the lengths of prefixes
were not there: the tables, the rows and the complaints are the same, and so is the exception, if there is one.  `clean` is any
text without such additions, readable or not. -/
theorem C82 (raw clean : Str) (h : Annotated raw clean) (hs : py"CREATE" <+: clean) (hc : Unannotated clean) : readSource raw = readSource clean := by
  obtain ⟨s, rfl⟩ := hs
  exact annotated_loop h (unannotated_of hc).1 (unannotated_of hc).2 _ _

/-- **C82** for the whole schema.  Each of the files is either as in C57, or it starts (after any comments) with a table and has additions from
there on.  Nothing is raised and nothing is reported, and the tables and rows are those which were written, exactly as in C57. -/
theorem C82_files [PyNum] (files : List Str) (contents : List (List Statement)) (hf : Paired (fun f ss => SourceFile f ss ∨ AnnotatedFile f ss) files contents)
    (hr : ∀ ss ∈ contents, Readable ss) (hn : ((tablesOf contents.flatten).map (·.name)).Nodup) (hg : GoodRows contents.flatten) :
    ∃ db, FileDatabase.new files = .ok db ∧ db.globalErrors = [] ∧
      Paired (fun t e => e.1 = t.name ∧ SameTable t e.2 ∧ e.2.globalErrors = [] ∧
          (insertsFor t.name contents.flatten = [] → e.2.tracking = false ∧ e.2.rows = none) ∧
          (insertsFor t.name contents.flatten ≠ [] → e.2.tracking = true ∧ e.2.rows = some (declaredRows t.name contents.flatten)))
        (tablesOf contents.flatten) db.tables := by
  have : ∃ plain, Paired SourceFile plain contents ∧ Paired (fun a b => readSource a = readSource b) files plain := by
    clear hn hg
    induction hf with
    | nil => exact ⟨[], .nil, .nil⟩
    | @cons f ss fs sss hx _ ih =>
      obtain ⟨plain, h1, h2⟩ := ih (fun y hy => hr y (List.mem_cons_of_mem _ hy))
      rcases hx with hx | hx
      · exact ⟨f :: plain, .cons hx h1, .cons rfl h2⟩
      · obtain ⟨p, h3, h4⟩ := annotatedFile_read hx (hr ss List.mem_cons_self)
        exact ⟨p :: plain, .cons h3 h1, .cons h4 h2⟩
  obtain ⟨plain, h1, h2⟩ := this
  rw [fileNew_congr h2]
  exact C57_files_partial plain contents h1 hr hn hg

/-- What this costs: the length of a prefix is lost.  Two schemas which differ only in lengths of prefixes (and in comments) are the same
schema to mygrations, and so are two databases: no plan ever changes the length of a prefix.  (`LiveDatabase.loadTables` reads what
`SHOW CREATE TABLE` says.) -/
theorem C82_lengths_lost [PyNum] (files files' : List Str)
    (h : Paired (fun f f' => ∃ clean, Annotated f clean ∧ Annotated f' clean ∧ py"CREATE" <+: clean ∧ Unannotated clean) files files') :
    FileDatabase.new files = FileDatabase.new files' ∧ LiveDatabase.loadTables {} files = LiveDatabase.loadTables {} files' := by
  have : Paired (fun a b => readSource a = readSource b) files files' := by
    induction h with
    | nil => exact .nil
    | cons hx _ ih =>
      obtain ⟨clean, h1, h2, h3, h4⟩ := hx
      exact .cons ((C82 _ clean h1 h3 h4).trans (C82 _ clean h2 h3 h4).symm) ih
  exact ⟨fileNew_congr this, liveNew_congr this _⟩

theorem cleanIndexColumn_length {x d : Str} (hx : ∀ c ∈ x, isSpace c = false) (hd : ∀ c ∈ d, isDigit c = true) (hne : d ≠ []) :
    cleanIndexColumn (x ++ '(' :: (d ++ [')'])) = x := by
  have hs : ∀ c ∈ x ++ '(' :: (d ++ [')']), isSpace c = false := by
    intro c hc
    simp only [List.mem_append, List.mem_cons, List.not_mem_nil, or_false] at hc
    rcases hc with h | rfl | h | rfl
    · exact hx c h
    · decide
    · exact nameChar_noSpace (word_nameChar (digit_word (hd c h)))
    · decide
  have hr : (x ++ '(' :: (d ++ [')'])).reverse = ')' :: (d.reverse ++ '(' :: x.reverse) := by simp
  have hdr : ∀ c ∈ d.reverse, isDigit c = true := fun c hc => hd c (List.mem_reverse.mp hc)
  have h1 : (d.reverse ++ '(' :: x.reverse).dropWhile isDigit = '(' :: x.reverse := by
    rw [List.dropWhile_append_of_pos hdr]
    rfl
  have h2 : ((d.reverse ++ '(' :: x.reverse).takeWhile isDigit).isEmpty = false := by
    cases hq : d.reverse with
    | nil => exact absurd (List.reverse_eq_nil_iff.mp hq) hne
    | cons a as =>
      rw [hq] at hdr
      rw [List.cons_append, List.takeWhile_cons_of_pos (hdr a List.mem_cons_self)]
      rfl
  unfold cleanIndexColumn
  simp only [strip_flat (flat_noSpace hs true (by simp)), hr, h1, h2, Bool.false_eq_true, if_false, List.reverse_reverse]

/-- **Names which look like prefixes are read wrongly.**  MySQL takes what is between backticks as the name of the column; mygrations
takes a number in parentheses at its end for the length of a prefix, and reads the key as one of another column. -/
theorem C82_name_refuted (x d : Str) (hx : ∀ c ∈ x, isSpace c = false ∧ c ≠ '`') (hd : ∀ c ∈ d, isDigit c = true) (hne : d ≠ []) :
    indexPrimary.tryParse (py"PRIMARY KEY (`" ++ (x ++ '(' :: (d ++ [')'])) ++ py"`)") =
      .ok (some (.index { rawName := [], columns := [x], itype := py"primary" }, [])) := by
  have hn : ∀ c ∈ x ++ '(' :: (d ++ [')']), isSpace c = false ∧ c ≠ '`' := by
    intro c hc
    simp only [List.mem_append, List.mem_cons, List.not_mem_nil, or_false] at hc
    rcases hc with h | rfl | h | rfl
    · exact hx c h
    · decide
    · refine ⟨nameChar_noSpace (word_nameChar (digit_word (hd c h))), ?_⟩
      rintro rfl
      exact absurd (hd _ h) (by decide)
    · decide
  have hclean := cleanIndexColumn_length (fun c hc => (hx c hc).1) hd hne
  generalize x ++ '(' :: (d ++ [')']) = n at hn hclean
  have hlist : ∀ c ∈ quoted '`' n ++ [')'], isSpace c = false := by
    intro c hc
    simp only [quoted, List.mem_append, List.mem_cons, List.not_mem_nil, or_false] at hc
    rcases hc with (rfl | h | rfl) | rfl
    · decide
    · exact (hn c h).1
    · decide
    · decide
  have hf : flat true (quoted '`' n ++ [')']) = true := flat_noSpace hlist true (by simp)
  have hpf := paren_flat hf
  have hall : flat true (py"PRIMARY KEY" ++ ' ' :: '(' :: (quoted '`' n ++ [')'])) = true := by
    rw [flat_space (by decide)]; exact hpf
  have htext : py"PRIMARY KEY (`" ++ n ++ py"`)" = py"PRIMARY KEY" ++ ' ' :: '(' :: (quoted '`' n ++ [')']) := by simp [quoted]
  rw [htext]
  unfold ChildClass.tryParse simpleParse
  rw [normalize_normal (Or.inr hall)]
  have h1 : (lit py"PRIMARY KEY").kind.parse (py"PRIMARY KEY" ++ ' ' :: '(' :: (quoted '`' n ++ [')'])) =
      .ok (some (.str py"PRIMARY KEY", '(' :: (quoted '`' n ++ [')']))) := by
    show Except.ok (literalParse py"PRIMARY KEY" _) = _
    rw [literal_hit, strip_space hpf]
  have idle := index_tail_idle
  have idle1 : ∀ r ∈ [delimited py"columns" '`' py")", lit py")", endingComma], r.kind.Idle := fun r hr => idle r (List.mem_cons_of_mem _ hr)
  have idle2 : ∀ r ∈ [lit py")", endingComma], r.kind.Idle := fun r hr => idle1 r (List.mem_cons_of_mem _ hr)
  have idle3 : ∀ r ∈ [endingComma], r.kind.Idle := fun r hr => idle2 r (List.mem_cons_of_mem _ hr)
  have h2 : (lit py"(").kind.parse ('(' :: (quoted '`' n ++ [')'])) = .ok (some (.str py"(", quoted '`' n ++ [')'])) := lit_hit py"(" hf
  have h3 : (delimited py"columns" '`' py")").kind.parse (quoted '`' n ++ [')']) = .ok (some (.list [n], [')'])) := by
    obtain ⟨cur, h⟩ := delim_list (q := '`') (by decide) (by decide) (by decide) (Or.inl rfl) [] n [] {} rfl (fun y hy c hc => by
      rw [List.mem_singleton] at hy
      subst hy
      exact (hn c hc).2)
    have : join py"," ([n].map (quoted '`')) = quoted '`' n := rfl
    rw [this] at h
    have h' : (delimited py"columns" '`' py")").kind.parse (quoted '`' n ++ [')']) = delimParse py")" ',' '`' (quoted '`' n ++ [')']) := rfl
    rw [h']
    unfold delimParse
    rw [h]
    simp
  have h4 : (lit py")").kind.parse [')'] = .ok (some (.str py")", wordsText [] [])) := close_hit (ws := []) (.inl rfl) (by simp)
  have h5 : indexPrimary.rules = lit py"PRIMARY KEY" :: indexTail := rfl
  rw [h5, run_step index_tail_idle h1]
  unfold indexTail
  rw [run_step idle1 h2, run_step idle2 h3, run_step idle3 h4, run_comma _ (.inl rfl) (by simp)]
  show Except.ok (some (Definition.index { rawName := [], columns := [cleanIndexColumn n], itype := py"primary" }, strip [])) = _
  rw [hclean]
  rfl

/-! ## Examples -/

namespace Examples

theorem annotated_append {raw clean : Str} : ∀ {a : Str}, '-' ∉ a → Annotated raw clean → Annotated (a ++ raw) (a ++ clean)
  | [], _, h => h
  | c :: a, ha, h => by
    rw [List.mem_cons, not_or] at ha
    exact .char (fun hh => ha.1 hh.1.symm) (annotated_append ha.2 h)

def prefixClean : Str := py"CREATE TABLE `t` (`a` VARCHAR(50) NOT NULL, \n KEY `k` (`a`, b));\n"

def prefixRaw (n : Str) : Str :=
  py"CREATE TABLE `t` (`a` VARCHAR(50) NOT NULL, " ++ (py"--" ++ py" the `name`(3), -- of it" ++ '\n' ::
    (py" KEY `k` " ++ '(' :: ([] ++ py"`" ++ py"a" ++ py"`" ++ (py"(" ++ n ++ py")" ++
      (',' :: (py" " ++ [] ++ py"b" ++ [] ++ (py"(" ++ py"7" ++ py")" ++ (py"));\n" ++ (py"--" ++ py" end")))))))))

theorem prefixRaw_ok {n : Str} (hn : n ≠ []) (hd : ∀ x ∈ n, isDigit x = true) : Annotated (prefixRaw n) prefixClean := by
  have h1 : Annotated (py"));\n" ++ (py"--" ++ py" end")) (py"));\n" ++ []) := annotated_append (by decide) (.last (by decide))
  have h2 := Annotated.length (c := ',') (blanks := py" ") (open_ := []) (name := py"b") (close := []) (digits := py"7") (.inr rfl) (by decide) (.inl rfl) (by decide)
    (by decide) (.inl rfl) (by decide) (by decide) h1
  have h3 := Annotated.length (c := '(') (blanks := []) (open_ := py"`") (name := py"a") (close := py"`") (digits := n) (.inl rfl) (by decide) (.inr rfl) (by decide)
    (by decide) (.inr rfl) hn hd h2
  have h4 := annotated_append (a := py" KEY `k` ") (by decide) h3
  have h5 := Annotated.comment (text := py" the `name`(3), -- of it") (by decide) h4
  exact annotated_append (a := py"CREATE TABLE `t` (`a` VARCHAR(50) NOT NULL, ") (by decide) h5

instance noPrefixDec : ∀ s, Decidable (NoPrefix s)
  | [] => isTrue trivial
  | _ :: cs => @instDecidableAnd _ _ _ (noPrefixDec cs)

theorem prefixClean_ok : Unannotated prefixClean :=
  of_unannotated (by decide +kernel) (dashless_of (by decide +kernel))

end Examples

open Examples in
/-- a key with the first 10 or the first 20 characters: the texts differ, and both are read as the key of the whole column -/
example : prefixRaw py"10" ≠ prefixRaw py"20" ∧ readSource (prefixRaw py"10") = readSource prefixClean ∧ readSource (prefixRaw py"20") = readSource prefixClean ∧
    ((readSource prefixClean).1.tables.map (fun e => (e.1, e.2.columns.keys, e.2.indexes.map (fun i => (i.1, i.2.columns))))) =
      [(py"t", [py"a"], [(py"k", [py"a", py"b"])])] ∧ (readSource prefixClean).2 = none :=
  ⟨by decide, C82 _ _ (prefixRaw_ok (by decide) (by decide)) ⟨_, rfl⟩ prefixClean_ok, C82 _ _ (prefixRaw_ok (by decide) (by decide)) ⟨_, rfl⟩ prefixClean_ok,
    by decide +kernel, by decide +kernel⟩

open Examples in
/-- an annotated file: a comment at the start and one between the tables -/
example : AnnotatedFile (py"# users\n" ++ (py"\n" ++ (dumpUsers.renderCreate true ++ (py"\n" ++ (py"--" ++ py" and `posts`(3)" ++ '\n' :: (dumpPosts.renderCreate true ++ []))))))
    [.create dumpUsers true, .create dumpPosts true] ∧ Readable [.create dumpUsers true, .create dumpPosts true] := by
  refine ⟨⟨1, py"# users\n", py"\n", _, .create dumpUsers true, py"\n\n" ++ (dumpPosts.renderCreate true ++ []), [.create dumpPosts true], rfl, rfl, ?_, by decide, rfl, ?_, ?_, by decide⟩, ?_⟩
  · exact .line (blanks := []) (start := py"#") (body := py" users") (by simp) (.inl rfl) (by decide) .nil
  · refine annotated_append (a := dumpUsers.renderCreate true) (by decide +kernel) ?_
    refine annotated_append (a := py"\n") (by decide) (.comment (by decide) ?_)
    exact annotated_refl (dashless_iff.mp (by unfold NoComment; decide +kernel))
  · have := Script.cons (blanks := py"\n\n") (s := .create dumpPosts true) (more := []) (ss := []) (by decide) (.nil (by simp))
    simpa [Statement.sql] using this
  · refine ⟨?_, ?_⟩
    · intro s hs
      simp only [List.mem_cons, List.not_mem_nil, or_false] at hs
      rcases hs with rfl | rfl
      · exact dumpUsers_readable
      · exact dumpPosts_readable
    · simp [Statement.Quiet]

/-- a key of a column which does not exist, read as one of a column which does -/
example : ((readSource py"CREATE TABLE t (`a-b` INT(10) NOT NULL, PRIMARY KEY (`a-b(2)`));").1.tables.map (fun e => e.2.indexes.map (fun i => i.2.columns))) = [[[py"a-b"]]] ∧
    indexPrimary.tryParse py"PRIMARY KEY (`a-b(2)`)" = .ok (some (.index { rawName := [], columns := [py"a-b"], itype := py"primary" }, [])) :=
  ⟨by decide +kernel, C82_name_refuted py"a-b" py"2" (by decide) (by decide) (by decide)⟩

end Mygrations

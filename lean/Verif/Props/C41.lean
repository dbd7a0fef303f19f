import Verif.Props.C39

/-! # C41, C42: comments and blank files -/

namespace Mygrations

/-! ## C41 -/

/-- is it not a comment? -/
def Statement.counts : Statement → Bool
  | .comment _ => false
  | _ => true

theorem tablesOf_counts (ss : List Statement) : tablesOf (ss.filter Statement.counts) = tablesOf ss := by
  induction ss with
  | nil => rfl
  | cons s ss ih =>
    cases s <;> simp only [tablesOf, Statement.counts, List.filter_cons, List.filterMap_cons, if_true, Bool.false_eq_true, if_false] at ih ⊢ <;> simp [ih]

theorem insertsFor_counts (n : Str) (ss : List Statement) : insertsFor n (ss.filter Statement.counts) = insertsFor n ss := by
  unfold insertsFor
  congr 1
  induction ss with
  | nil => rfl
  | cons s ss ih =>
    cases s <;> simp only [insertsOf, Statement.counts, List.filter_cons, List.filterMap_cons, if_true, Bool.false_eq_true, if_false] at ih ⊢ <;> simp [ih]

/-- **C41** (partial).  Two files have the same statements apart from comments: comments of all kinds before the first statement,
and block comments anywhere between statements.  Then both are read without an exception or an error, the same rows are read
from both, and tables of the same names, each pair of which has the columns, indexes, foreign keys and options of the same
declaration.  What is missing: comments to the end of the line after the first statement, and block comments after a
`CREATE TABLE` which contain `(`, `=` or `--` (see the refutations). -/
theorem C41_transparent_partial {file file' : Str} {ss ss' : List Statement} (h : SourceFile file ss) (h' : SourceFile file' ss') (hr : Readable ss) (hr' : Readable ss')
    (heq : ss.filter Statement.counts = ss'.filter Statement.counts) :
    ∃ st st', readSource file = (st, none) ∧ readSource file' = (st', none) ∧ st.globalErrors = [] ∧ st'.globalErrors = [] ∧
      (∀ n, st.rows.get? n = st'.rows.get? n) ∧
      ∀ n, match st.tables.get? n, st'.tables.get? n with
        | none, none => True
        | some t, some t' => ∃ declared, declared ∈ tablesOf ss ∧ SameTable declared t ∧ SameTable declared t'
        | _, _ => False := by
  obtain ⟨st, h1, h2⟩ := file_read h hr
  obtain ⟨st', h3, h4⟩ := file_read h' hr'
  refine ⟨st, st', h1, h3, h2.errors, h4.errors, ?_, ?_⟩
  · intro n
    rw [h2.rows, h4.rows, ← insertsFor_counts n ss, ← insertsFor_counts n ss', heq]
  · intro n
    have e1 := h2.tables n
    have e2 := h4.tables n
    have ht : tablesOf ss' = tablesOf ss := by rw [← tablesOf_counts ss, ← tablesOf_counts ss', heq]
    rw [ht] at e2
    rcases e1 with ⟨a1, a2⟩ | ⟨t, t', a1, a2, a3, _⟩ <;> rcases e2 with ⟨b1, b2⟩ | ⟨u, u', b1, b2, b3, _⟩
    · simp [a2, b2]
    · rw [a1] at b1; cases b1
    · rw [a1] at b1; cases b1
    · rw [a1] at b1
      cases b1
      simp only [a2, b2]
      exact ⟨t, (List.mem_filter.mp (List.mem_of_getLast? a1)).1, a3, b3⟩

open Examples in
example : SourceFile file1 script1 ∧ Readable script1 ∧
    SourceFile (insert2.sql layout2 ++ (dumpUsers.renderCreate true ++ insert1.sql layout1)) (script1.filter Statement.counts) ∧ Readable (script1.filter Statement.counts) ∧
    (script1.filter Statement.counts).length = 3 := by
  refine ⟨file1_ok, script1_readable, ?_, ?_, rfl⟩
  · refine ⟨0, [], _, rfl, .nil, ?_, by decide, by intro h; cases h⟩
    have h1 := Script.cons (blanks := []) (s := .insert insert1 layout1) (by decide) (.nil (blanks := []) (by decide))
    have h2 := Script.cons (blanks := []) (s := .create dumpUsers true) (by decide) h1
    have h3 := Script.cons (blanks := []) (s := .insert insert2 layout2) (by decide) h2
    exact h3
  · refine ⟨fun s hs => script1_readable.ok s (List.mem_filter.mp hs).1, script1_readable.quiet.sublist List.filter_sublist⟩

/-- **C41 fails** for comments to the end of the line after a statement.  After a `CREATE TABLE` one which starts with `#` removes
everything that follows; after an `INSERT` so do both kinds.  Nothing is reported. -/
theorem C41_line_refuted :
    (readSource py"CREATE TABLE t (id INT);\n# note\nCREATE TABLE u (id INT);").2 = none ∧
    (readSource py"CREATE TABLE t (id INT);\n# note\nCREATE TABLE u (id INT);").1.globalErrors = [] ∧
    (readSource py"CREATE TABLE t (id INT);\n# note\nCREATE TABLE u (id INT);").1.tables.map (·.1) = [py"t"] ∧
    (readSource py"INSERT INTO t (id) VALUES (1);\n# note\nCREATE TABLE u (id INT);").2 = none ∧
    (readSource py"INSERT INTO t (id) VALUES (1);\n# note\nCREATE TABLE u (id INT);").1.globalErrors = [] ∧
    (readSource py"INSERT INTO t (id) VALUES (1);\n# note\nCREATE TABLE u (id INT);").1.tables = [] ∧
    (readSource py"INSERT INTO t (id) VALUES (1);\n-- note\nCREATE TABLE u (id INT);").2 = none ∧
    (readSource py"INSERT INTO t (id) VALUES (1);\n-- note\nCREATE TABLE u (id INT);").1.globalErrors = [] ∧
    (readSource py"INSERT INTO t (id) VALUES (1);\n-- note\nCREATE TABLE u (id INT);").1.tables = [] :=
  ⟨by decide +kernel, by decide +kernel, by decide +kernel, by decide +kernel, by decide +kernel, by decide +kernel, by decide +kernel, by decide +kernel,
    by decide +kernel⟩

theorem collapseAux_noline : ∀ (s : Str) (b : Bool), '\n' ∉ collapseAux b s
  | [], b => by cases b <;> simp [collapseAux]
  | c :: cs, true => by
    rw [collapseAux]
    split
    · exact collapseAux_noline cs true
    · rename_i h
      simp only [List.mem_cons, not_or]
      exact ⟨fun e => by subst e; exact h (by decide), collapseAux_noline cs false⟩
  | c :: cs, false => by
    rw [collapseAux]
    split
    · simp only [List.mem_cons, not_or]
      exact ⟨by decide, collapseAux_noline cs true⟩
    · rename_i h
      simp only [List.mem_cons, not_or]
      exact ⟨fun e => by subst e; exact h (by decide), collapseAux_noline cs false⟩

/-- what is left of a text which starts with a comment to the end of the line, once it has been through a parser -/
theorem line_after_parser {blanks mark : Str} (hb : ∀ c ∈ blanks, isSpace c = true) (hm : mark = py"#" ∨ mark = py"--") (more : Str) :
    ∃ x, '\n' ∉ mark ++ x ∧ strip (mark ++ x) = mark ++ x ∧ strip (trimmed (rstrip (blanks ++ (mark ++ more)))) = mark ++ x := by
  have hb' : Blanks blanks := hb
  have hf : flat true mark = true := by rcases hm with rfl | rfl <;> decide
  have hr : RTrim mark := flat_rtrim hf
  obtain ⟨d, e, hd, hde⟩ : ∃ d e, isSpace d = false ∧ mark = d :: e := by
    rcases hm with rfl | rfl
    · exact ⟨'#', [], by decide, rfl⟩
    · exact ⟨'-', ['-'], by decide, rfl⟩
  have h1 : rstrip (blanks ++ (mark ++ more)) = blanks ++ (mark ++ rstrip more) := by
    have h0 : RTrim (blanks ++ mark) := by
      unfold RTrim
      rcases hm with rfl | rfl
      · unfold rstrip; simp [isSpace]
      · unfold rstrip; simp [isSpace]
    rw [← List.append_assoc, rstrip_append h0, List.append_assoc]
  have h2 : trimmed (blanks ++ (mark ++ rstrip more)) = squeeze blanks ++ (mark ++ trimmed (rstrip more)) := by
    rw [← trimmed_append hf, hde, List.cons_append, trimmed_blanks hb' hd]
  have hs : ∀ y, strip (mark ++ y) = mark ++ rstrip y := by
    intro y
    rw [← rstrip_append hr, hde, List.cons_append, strip_cons_char hd]
  refine ⟨rstrip (trimmed (rstrip more)), ?_, ?_, ?_⟩
  · rw [List.mem_append]
    rintro (h | h)
    · rcases hm with rfl | rfl <;> revert h <;> decide
    · exact collapseAux_noline _ _ (mem_rstrip (mem_rstrip h))
  · rw [hs]; congr 1; unfold trimmed; simp only [rstrip_rstrip]
  · rw [h1, h2, strip_blanks (squeeze_gap blanks).blanks, hs]

/-- **C41 fails** for every comment to the end of the line after an `INSERT`: whatever follows the comment in the file, be it ever so
many statements, is taken for part of the comment.  Nothing is reported. -/
theorem C41_insert_refuted (i : InsertStmt) (l : InsertLayout) (hi : i.Ok) (hl : l.Ok) (hn : i.rows.length < 1000) (blanks mark more : Str)
    (hb : ∀ c ∈ blanks, isSpace c = true) (hm : mark = py"#" ∨ mark = py"--") :
    readSource (i.sql l ++ (blanks ++ (mark ++ more))) = ({ rows := [(i.table, [i.meaning])] }, none) := by
  obtain ⟨r, rs, he⟩ := rows_split hi
  obtain ⟨b, hbe⟩ := insertText_end l i.table i.columns r rs
  have hstrip : strip (i.sql l ++ (blanks ++ (mark ++ more))) = insertText l i.table i.columns r rs (rstrip (blanks ++ (mark ++ more))) := by
    rw [insert_sql i l he, insertText_split]
    obtain ⟨cs, hcs⟩ : ∃ cs, insertText l i.table i.columns r rs [] = 'I' :: cs := ⟨_, rfl⟩
    have : RTrim (insertText l i.table i.columns r rs []) := by
      rw [hbe]; unfold RTrim rstrip; simp [isSpace]
    rw [insertText_split l i.table i.columns r rs (rstrip _), ← rstrip_append this, hcs, List.cons_append, strip_cons_char (by decide)]
  generalize hmm : rstrip (blanks ++ (mark ++ more)) = m at hstrip
  have hnorm := normalize_insert hl hi.table hi.columns (insert_cells he hi.cells) m
  have hparse := insert_read l.squeeze_gaps hi.table hi.columns (insert_cells he hi.cells) (flat_trimmed_insert hnorm) (by
    have := congrArg List.length he
    simp at this
    omega) hnorm
  have hp : parseInsert (insertText l i.table i.columns r rs m) = .ok (i.meaning, strip (trimmed m)) := by
    unfold parseInsert
    rw [hparse]
    simp only [if_true]
    rw [insert_process he hi.table hi.square]
  obtain ⟨x, hx1, hx2, hx3⟩ := line_after_parser hb hm more
  rw [hmm] at hx3
  unfold readSource
  rw [show (10000 : Nat) = 9998 + 1 + 1 from rfl, readLoop_insert 9999 {} hstrip (by simp [insertText]) rfl (by
    show lower py"INSERT" = py"insert"
    decide) hp, hx3, readLoop_comment 9998 _ hx2 (by rcases hm with rfl | rfl <;> simp) (by rcases hm with rfl | rfl <;> rfl)]
  have hc : parseComment (mark ++ x) = [] := by
    unfold parseComment
    simp only [hx2]
    rw [if_pos (by rcases hm with rfl | rfl <;> simp), dropWhile_noline hx1]
  rw [hc, readLoop_nil]
  rfl

open Examples in
example : insert1.Ok ∧ layout1.Ok ∧ insert1.rows.length < 1000 ∧ (∀ c ∈ py"\n\n", isSpace c = true) ∧
    insert1.sql layout1 ++ (py"\n\n" ++ (py"#" ++ py" users\nCREATE TABLE `users` (`id` INT);")) =
      insert1.sql layout1 ++ py"\n\n# users\nCREATE TABLE `users` (`id` INT);" := by
  refine ⟨insert1_ok, layout1_ok, by decide, by decide, by simp⟩

theorem rstrip_cut (x y : Str) : rstrip (x ++ y) = if rstrip y = [] then rstrip x else x ++ rstrip y := by
  unfold rstrip
  rw [List.reverse_append, List.dropWhile_append]
  cases h : y.reverse.dropWhile isSpace with
  | nil => simp
  | cons c cs => simp

theorem collapseAux_lead : ∀ s : Str, collapseAux true s = collapse (lstrip s)
  | [] => rfl
  | c :: s => by
    unfold collapse
    cases hc : isSpace c with
    | true =>
      have : lstrip (c :: s) = lstrip s := by unfold lstrip; simp [hc]
      rw [this, collapseAux, if_pos hc, collapseAux_lead s]
      rfl
    | false => rw [lstrip_of_head hc, collapseAux, collapseAux, hc]; rfl

theorem collapseAux_pre (s : Str) : ∀ (x : Str) (b : Bool), '=' ∉ x → ∃ y, '=' ∉ y ∧ collapseAux b (x ++ '\n' :: s) = y ++ collapse (lstrip s)
  | [], b, _ => by
    cases b with
    | true => exact ⟨[], by simp, by rw [List.nil_append, collapseAux, if_pos (by decide), collapseAux_lead]; rfl⟩
    | false => exact ⟨[' '], by simp, by rw [List.nil_append, collapseAux, if_pos (by decide), collapseAux_lead]; rfl⟩
  | c :: x, b, h => by
    simp only [List.mem_cons, not_or] at h
    cases b with
    | true =>
      rw [List.cons_append, collapseAux]
      split
      · exact collapseAux_pre s x true h.2
      · obtain ⟨y, h1, h2⟩ := collapseAux_pre s x false h.2
        exact ⟨c :: y, by simp only [List.mem_cons, not_or]; exact ⟨h.1, h1⟩, by rw [h2]; rfl⟩
    | false =>
      rw [List.cons_append, collapseAux]
      split
      · obtain ⟨y, h1, h2⟩ := collapseAux_pre s x true h.2
        exact ⟨' ' :: y, by simp only [List.mem_cons, not_or]; exact ⟨by decide, h1⟩, by rw [h2]; rfl⟩
      · obtain ⟨y, h1, h2⟩ := collapseAux_pre s x false h.2
        exact ⟨c :: y, by simp only [List.mem_cons, not_or]; exact ⟨h.1, h1⟩, by rw [h2]; rfl⟩

theorem Text.lstrip {s : Str} {is : List Item} (h : Text s is) : Text (lstrip s) is := by
  have key : ∀ {g : Str}, Blanks g → ∀ t, Mygrations.lstrip (g ++ t) = Mygrations.lstrip t := by
    intro g hg t
    unfold Mygrations.lstrip
    rw [List.dropWhile_append_of_pos hg]
  cases h with
  | nil hg =>
    have := key hg []
    rw [List.append_nil] at this
    rw [this]
    exact .nil blanks_nil
  | @cons g i a more is hg ha hm =>
    obtain ⟨c, cs, hc, hs⟩ := i.head ha
    rw [key hg, hc, List.cons_append, lstrip_of_head hs, ← List.cons_append, ← hc]
    exact Text.cons blanks_nil ha hm

/-- **C41 fails** for comments after a `CREATE TABLE` which start with `#` and go to the end of the line: whatever statements follow
are taken for part of the comment.  Nothing is reported. -/
theorem C41_create_refuted (d : TableDecl) (l : Layout) (hd : d.Ok) (hl : l.Ok) (blanks note rest : Str) (ss : List Statement)
    (hb : ∀ c ∈ blanks, isSpace c = true) (hnote : ∀ c ∈ note, c ≠ '(' ∧ c ≠ ',' ∧ c ≠ '-' ∧ c ≠ '=') (hrest : Script rest ss)
    (hok : ∀ s ∈ ss, s.Ok) (hq : ∀ s ∈ ss, s.Quiet) :
    ∃ t, SameTable d.table t ∧ readSource (d.sql l ++ (blanks ++ (py"#" ++ (note ++ (py"\n" ++ rest))))) = ({ tables := [(d.name, t)] }, none) := by
  have hb' : Blanks blanks := hb
  obtain ⟨is, his, htext⟩ := hrest.text hok
  have hquiet : ∀ i ∈ is, i.quiet := by
    clear htext hrest hok
    induction his with
    | nil => intro i hi; cases hi
    | @cons x i ss is hx _ ih =>
      intro j hj
      rcases List.mem_cons.mp hj with rfl | hj
      · exact hx.quiet (hq x List.mem_cons_self)
      · exact ih (fun s hs => hq s (List.mem_cons_of_mem _ hs)) j hj
  have hdull : ∀ c ∈ note, dull c = true := fun c hc => dull_iff.mpr ⟨(hnote c hc).1, (hnote c hc).2.1, (hnote c hc).2.2.1⟩
  have hnoeq : '=' ∉ note := fun h => (hnote _ h).2.2.2 rfl
  have hr0 : RTrim (blanks ++ py"#") := by unfold RTrim rstrip; simp [isSpace]
  have hcut : rstrip (blanks ++ (py"#" ++ (note ++ (py"\n" ++ rest)))) = blanks ++ (py"#" ++ rstrip (note ++ '\n' :: rest)) := by
    have : blanks ++ (py"#" ++ (note ++ (py"\n" ++ rest))) = (blanks ++ py"#") ++ (note ++ '\n' :: rest) := by simp
    rw [this, rstrip_append hr0, List.append_assoc]
  have htame : Tame (rstrip (blanks ++ (py"#" ++ (note ++ (py"\n" ++ rest))))) := by
    rw [hcut]
    refine tame_dull (fun c hc => blank_dull (hb c hc)) (tame_dull (by decide) ?_)
    have e : note ++ '\n' :: rest = (note ++ ['\n']) ++ rest := by simp
    rw [e, rstrip_cut]
    split
    · have : ∀ c ∈ rstrip (note ++ ['\n']), dull c = true := by
        intro c hc
        rcases List.mem_append.mp (mem_rstrip hc) with h | h
        · exact hdull c h
        · simp at h; subst h; decide
      have := tame_dull this tame_nil
      rwa [List.append_nil] at this
    · refine tame_dull ?_ (htext.rstrip.tame hquiet)
      intro c hc
      rcases List.mem_append.mp hc with h | h
      · exact hdull c h
      · simp at h; subst h; decide
  have hfar : EqFar 31 (trimmed (rstrip (blanks ++ (py"#" ++ (note ++ (py"\n" ++ rest)))))) := by
    rw [hcut, show blanks ++ (py"#" ++ rstrip (note ++ '\n' :: rest)) = blanks ++ '#' :: rstrip (note ++ '\n' :: rest) from rfl,
      trimmed_blanks hb' (by decide)]
    refine eqFar_append (blanks_noEq (squeeze_gap blanks).blanks) (eqFar_mono ?_ (Nat.sub_le _ _))
    rw [show '#' :: rstrip (note ++ '\n' :: rest) = py"#" ++ rstrip (note ++ '\n' :: rest) from rfl, trimmed_append (by decide)]
    refine eqFar_append (by decide) (eqFar_mono ?_ (Nat.sub_le _ _))
    have e : note ++ '\n' :: rest = (note ++ ['\n']) ++ rest := by simp
    have hshort : ∀ z : Str, '=' ∉ z → EqFar 31 (trimmed z) := by
      intro z hz hm
      have h1 : '=' ∈ collapse z := mem_rstrip (List.mem_of_mem_take hm)
      have h2 : ∀ (x : Str) (b : Bool), '=' ∈ collapseAux b x → '=' ∈ x := by
        intro x
        induction x with
        | nil => intro b h; cases b <;> cases h
        | cons c x ih =>
          intro b h
          cases b <;> rw [collapseAux] at h <;> split at h
          · rcases List.mem_cons.mp h with h | h
            · exact absurd h (by decide)
            · exact List.mem_cons_of_mem _ (ih _ h)
          · rcases List.mem_cons.mp h with h | h
            · rw [h]; exact List.mem_cons_self
            · exact List.mem_cons_of_mem _ (ih _ h)
          · exact List.mem_cons_of_mem _ (ih _ h)
          · rcases List.mem_cons.mp h with h | h
            · rw [h]; exact List.mem_cons_self
            · exact List.mem_cons_of_mem _ (ih _ h)
      exact hz (h2 z false h1)
    rw [e, rstrip_cut]
    split
    · apply hshort
      intro h
      rcases List.mem_append.mp (mem_rstrip h) with h | h
      · exact hnoeq h
      · revert h; decide
    · rw [show (note ++ ['\n']) ++ rstrip rest = note ++ '\n' :: rstrip rest by simp]
      obtain ⟨y, hy, hcol⟩ := collapseAux_pre (rstrip rest) note false hnoeq
      unfold trimmed collapse
      rw [hcol, rstrip_cut]
      split
      · intro hm
        exact hy (mem_rstrip (List.mem_of_mem_take hm))
      · refine eqFar_append hy (eqFar_mono ?_ (Nat.sub_le _ _))
        exact htext.rstrip.lstrip.trimmed.far hquiet
  obtain ⟨x, hx1, hx2, hx3⟩ := line_after_parser (mark := py"#") hb (Or.inl rfl) (note ++ (py"\n" ++ rest))
  generalize hm : rstrip (blanks ++ (py"#" ++ (note ++ (py"\n" ++ rest)))) = m at htame hfar hx3
  have hs := TableDecl.stmt_ok hd
  obtain ⟨xs, hxs, hparse⟩ := Stmt.read hs hl htame hfar
  obtain ⟨t', hproc, hsame, -⟩ := declare_process hd hxs
  have hpc : parseCreate (d.stmt.text l m) = .ok (t', strip (trimmed m)) := by
    unfold parseCreate
    rw [hparse]
    simp only [if_true]
    rw [show d.stmt.name = d.name from rfl, show d.stmt.os = d.options from rfl, hproc]
  have hstrip : strip (d.sql l ++ (blanks ++ (py"#" ++ (note ++ (py"\n" ++ rest))))) = d.stmt.text l m := by
    rw [d.sql_text l]
    obtain ⟨cs, hcs⟩ := d.stmt.text_head l []
    rw [d.stmt.text_split l m, ← hm, ← rstrip_append (d.stmt.rtrim l), hcs, List.cons_append, strip_cons_char (by decide)]
  refine ⟨t', hsame, ?_⟩
  have hc : parseComment (py"#" ++ x) = [] := by
    unfold parseComment
    simp only [hx2]
    rw [if_pos (by simp), dropWhile_noline hx1]
  unfold readSource
  rw [show (10000 : Nat) = 9998 + 1 + 1 from rfl, readLoop_create 9999 {} hstrip (by obtain ⟨cs, hcs⟩ := d.stmt.text_head l m; rw [hcs]; simp) (d.stmt.comment l m) (d.stmt.create l m) hpc,
    hx3, readLoop_comment 9998 _ hx2 (by simp) rfl, hc, readLoop_nil, hsame.name]
  rfl

namespace Examples

/-- a table with one column -/
def tagDecl : TableDecl :=
  { name := py"tags", first := .column { cls := .numeric, name := py"id", ctype := py"INT", len := .str py"10", unsigned := some true } .usual, others := [],
    options := [⟨py"ENGINE", py"InnoDB"⟩] }

theorem tagDecl_ok : tagDecl.Ok := by
  refine ⟨by decide, ?_, ?_, ⟨_, _, rfl⟩, ?_, by decide, by decide, by decide, by decide, by decide⟩
  · intro x hx
    simp only [tagDecl, TableDecl.defs, List.mem_cons, List.not_mem_nil, or_false] at hx
    subst hx
    refine ⟨⟨by decide, by decide, rfl, ⟨_, .one (by decide), by decide, ?_⟩, by decide, ?_, ?_⟩, usual_fits⟩ <;> intro v hv <;> cases hv
  · intro x hx
    simp only [tagDecl, TableDecl.defs, List.mem_cons, List.not_mem_nil, or_false] at hx
    subst hx
    rintro v (h | h | h) <;> cases h
  · intro o ho
    simp only [tagDecl, List.mem_cons, List.not_mem_nil, or_false] at ho
    subst ho
    exact ⟨by decide, by decide, by decide, by decide, by unfold NoComment; decide⟩

end Examples

open Examples in
example : tagDecl.Ok ∧ Layout.Ok ⟨py"\n", py" ", []⟩ ∧ (∀ c ∈ py" the users:", c ≠ '(' ∧ c ≠ ',' ∧ c ≠ '-' ∧ c ≠ '=') ∧
    Script (py"\n" ++ (dumpUsers.renderCreate true) ++ []) [.create dumpUsers true] ∧ (Statement.create dumpUsers true).Ok ∧ (Statement.create dumpUsers true).Quiet :=
  ⟨tagDecl_ok, ⟨by decide, by decide, by decide⟩, by decide, .cons (s := .create dumpUsers true) (by decide) (.nil (by decide)), dumpUsers_readable, trivial⟩

/-- **C41 fails** for block comments after a `CREATE TABLE`: an equals sign makes them an option of the table, and `*/` is taken for
a statement.  And `/*/` counts as a whole comment, so that what follows is read although it is in a comment. -/
theorem C41_block_refuted :
    (readSource py"CREATE TABLE t (id INT); /* a=1 */").1.tables.map (fun e => (e.1, e.2.options)) = [(py"t", [⟨py"; /* a", py"1"⟩])] ∧
    (readSource py"CREATE TABLE t (id INT); /* a=1 */").1.globalErrors = [py"Unrecognized MySQL command: */"] ∧
    (readSource py"/*/ CREATE TABLE t (id INT); */").1.tables.map (·.1) = [py"t"] :=
  ⟨by decide +kernel, by decide +kernel, by decide +kernel⟩

theorem afterClose_none {x : Str} (h : Apart '*' '/' x) : afterClose x = none := by
  induction x with
  | nil => rfl
  | cons c x ih =>
    rw [afterClose.eq_def]
    split
    · rfl
    · rename_i cs heq
      exfalso
      have hx : x = '/' :: cs := (List.cons.inj heq).2
      exact h.1 ⟨(List.cons.inj heq).1, by rw [hx]; rfl⟩
    · rename_i heq
      cases heq
      exact ih h.2

theorem apart_rstrip {a b : Char} : ∀ {x : Str}, Apart a b x → Apart a b (rstrip x)
  | [], _ => trivial
  | c :: x, h => by
    rw [rstrip_cons]
    split
    · trivial
    · refine ⟨?_, apart_rstrip h.2⟩
      rintro ⟨h1, h2⟩
      apply h.1
      refine ⟨h1, ?_⟩
      cases x with
      | nil => cases h2
      | cons d x =>
        rw [rstrip_cons] at h2
        split at h2
        · cases h2
        · simpa using h2

/-- **C41 fails** for every block comment which is not closed: the reader goes round ten thousand times and raises an exception
which `Database` only prints, so that the file is the same to it as an empty one. -/
theorem C41_unterminated_refuted [PyNum] (body : Str) (h : ¬ py"*/" <:+: py"*" ++ body) :
    readSource (py"/*" ++ body) = ({}, some (.valueError py"Exceeded max parse depth")) ∧ ∀ db, FileDatabase.read db (py"/*" ++ body) = .ok db := by
  have h1 : Apart '*' '/' (py"/*" ++ body) := ⟨by simp, apart_iff.mp h⟩
  have hs : strip (py"/*" ++ body) = py"/*" ++ rstrip body := by
    have e1 : py"/*" ++ body = '/' :: (py"*" ++ body) := rfl
    rw [e1, strip_cons_char (by decide), ← e1, rstrip_append (by rfl)]
  have hss : strip (py"/*" ++ rstrip body) = py"/*" ++ rstrip body := by rw [← hs, strip_strip]
  have h2 : Apart '*' '/' (py"/*" ++ rstrip body) := by
    have := apart_rstrip h1
    rwa [rstrip_append (by rfl)] at this
  have hp : parseComment (py"/*" ++ rstrip body) = py"/*" ++ rstrip body := by
    unfold parseComment
    simp only [hss]
    rw [if_neg, afterClose_none h2]
    rintro (h | h)
    · cases h
    · cases h
  have hloop : ∀ n, readLoop n {} (py"/*" ++ rstrip body) = ({}, some (.valueError py"Exceeded max parse depth")) := by
    intro n
    induction n with
    | zero => exact readLoop_zero _ (by simp)
    | succ n ih => rw [readLoop_comment n {} hss (by simp) rfl, hp, ih]
  have hread : readSource (py"/*" ++ body) = ({}, some (.valueError py"Exceeded max parse depth")) := by
    unfold readSource
    rw [show (10000 : Nat) = 9999 + 1 from rfl, readLoop_comment 9999 {} hs (by simp) rfl, hp, hloop]
  refine ⟨hread, ?_⟩
  intro db
  unfold FileDatabase.read
  rw [hread]
  simp only [Option.filter_some, PyErr.isValueError, Bool.not_true, Bool.false_eq_true, if_false]
  simp [FileDatabase.storeTables, FileDatabase.storeRows, Dict.values]

example : ¬ py"*/" <:+: py"*" ++ py" CREATE TABLE `t` (`id` INT); " := by decide

/-! ## C42 -/

/-- **C42** (partial): an empty source is read as an empty database. -/
theorem C42_empty_partial [PyNum] : FileDatabase.new [[]] = .ok {} := by rfl

/-- **C42 fails** for every source which is not empty but consists of white space: reading it raises an `IndexError`, wherever it is
among the sources, and whatever else there is. -/
theorem C42_blank_refuted [PyNum] (s : Str) (h : ∀ c ∈ s, isSpace c = true) (hne : s ≠ []) :
    readSource s = ({}, some .indexError) ∧
    ∀ before after, (∃ d, FileDatabase.readAll {} before = .ok d) → FileDatabase.new (before ++ s :: after) = .error .indexError := by
  have hb : Blanks s := h
  have hs : strip s = [] := by
    have := strip_blanks hb []
    rw [List.append_nil] at this
    rw [this]; rfl
  have hread : readSource s = ({}, some .indexError) := readLoop_blank 9999 {} hne hs
  refine ⟨hread, ?_⟩
  intro before after hd
  have key : ∀ (before : List Str) (d0 : Database), (∃ d, FileDatabase.readAll d0 before = .ok d) →
      FileDatabase.readAll d0 (before ++ s :: after) = .error .indexError := by
    intro before
    induction before with
    | nil =>
      intro d0 _
      show FileDatabase.readAll d0 (s :: after) = _
      rw [FileDatabase.readAll]
      have : FileDatabase.read d0 s = .error .indexError := by
        unfold FileDatabase.read
        rw [hread]
        rfl
      rw [this]
    | cons b bs ih =>
      rintro d0 ⟨d, hd⟩
      rw [FileDatabase.readAll] at hd
      rw [List.cons_append, FileDatabase.readAll]
      cases h1 : FileDatabase.read d0 b with
      | error e => rw [h1] at hd; cases hd
      | ok d1 =>
        rw [h1] at hd
        exact ih d1 ⟨d, hd⟩
  unfold FileDatabase.new
  rw [key before {} hd]

example : (∀ c ∈ py" \n\t", isSpace c = true) ∧ py" \n\t" ≠ [] := by decide

end Mygrations

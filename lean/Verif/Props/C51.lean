import Verif.Proofs.ColumnSql
import Verif.Props.C35

/-!
# C51: the SQL generated for a column means what the file says

`Spec/Grammar.lean` says how MySQL reads a column definition.  The text of a column in a file and the text which is
generated for the column which is read from it are both read that way.

The property fails for enumerations (`C51_enum_refuted`), for `CURRENT_TIMESTAMP` (`C51_keyword_refuted`), for columns
with a character set which are `NOT NULL` or have a default (`C51_charset_refuted`), and for texts with a default like
`'007'` (`C51_zeros_refuted`).
-/

namespace Mygrations
open Sql

theorem readColumn_written {c : Column} (hc : c.Sound) {s : Style} (hs : ∀ w, lower (s.spell w) = lower w) (hd : DefaultFits c s)
    (hch : CharsetFits c s) : readColumn (c.written s) = some (c.sqlIn s) := by
  obtain ⟨tt, h1, _, h2⟩ := column_written hc hs hd hch
  have := h2 [] ends_nil
  rw [List.append_nil] at this
  simp [readColumn, h1.tokens, this]

theorem usual_defaultFits (c : Column) : DefaultFits c .usual := fun _ _ h => .inl h

theorem usual_charsetFits {c : Column} (h : c.CharsetLast) : CharsetFits c .usual :=
  .inr (fun hc => ⟨(h hc).1, (h hc).2, rfl, rfl⟩)

theorem usual_sqlIn (c : Column) : c.sqlIn .usual = c.sql := by
  unfold Column.sqlIn Column.defaultIn Column.sql
  cases h : c.default with
  | none => simp [Style.usual]
  | some v => cases hn : isNumeric v <;> simp [Style.usual, hn]

/-- what is generated -/
theorem readColumn_render {c : Column} (hc : c.Sound) (h : c.CharsetLast) : readColumn c.render = some c.sql := by
  rw [← written_usual hc.plain, ← usual_sqlIn, readColumn_written hc (fun _ => rfl) (usual_defaultFits c) (usual_charsetFits h)]

/-- **C51 (partial).**  A column which MySQL accepts is written in a file, in whatever style.  MySQL reads it in some way.
The program reads it as some column, and MySQL reads the text which is generated for that column in the same way: the
same name, type, length, sign, character set, collation, default and so on.

Missing: enumerations, defaults which are not plain or contain backslashes, defaults without quotes which are not numbers,
dates and texts whose default is a number that MySQL would change, and columns with a character set which are `NOT NULL`
or have a default. -/
theorem C51_partial (c : Column) (s : Style) (hc : c.Sound) (hs : s.Fits c) (e rest : Str) (he : Follows e rest) (hlast : c.CharsetLast)
    (hcs : c.characterSet ≠ none → s.early = true ∨ (s.null = false ∧ s.nullDefault = false))
    (hnull : c.default = none → s.nullDefault = true → c.null = true)
    (hbare : ∀ v, c.default = some v → s.bare v = true → isNumeric v = true)
    (hquoted : ∀ v, c.default = some v → s.bare v = false → isNumeric v = true →
      c.columnType ∈ numberTypes ∨ (c.columnType ∈ charTypes ∧ NoZeros v)) :
    ∃ x pc c' y, readColumn (c.written s) = some x ∧
      bestChild definitionClasses (c.written s ++ e) none = .ok (some (.column pc, rest)) ∧ pc.asDefinition = .ok c' ∧
      readColumn c'.render = some y ∧ ColumnSql.Same x y ∧ y = c.sql := by
  obtain ⟨pc, c', h1, h2, _, h3, _⟩ := C37_column_text_partial c s hc.plain hs e rest he
  refine ⟨c.sqlIn s, pc, c', c.sql, ?_, h1, h2, ?_, ⟨?_, ?_⟩, rfl⟩
  · apply readColumn_written hc hs.spell (fun v h1 h2 => .inl (hbare v h1 h2))
    by_cases hn : c.characterSet = none
    · exact .inr (fun h => absurd hn h)
    · rcases hcs hn with h | h
      · exact .inl h
      · exact .inr (fun h' => ⟨(hlast h').1, (hlast h').2, h.1, h.2⟩)
  · rw [h3]
    exact readColumn_render hc hlast
  · rfl
  · show SameDefault (c.sqlIn s) (c.defaultIn s) c.sql.default
    unfold Column.defaultIn Column.sql
    cases hd : c.default with
    | none =>
      cases hn : s.nullDefault with
      | false => exact .refl _
      | true =>
        refine .null ?_
        show (!c.null) = false
        rw [hnull hd hn]
        rfl
    | some v =>
      cases hb : s.bare v with
      | true =>
        have := hbare v hd hb
        simp only [hb, this, if_true, Option.map_some]
        exact .refl _
      | false =>
        cases hn : isNumeric v with
        | false => simp only [hb, Bool.false_eq_true, if_false, hn, Option.map_some]; exact .refl _
        | true =>
          simp only [hb, Bool.false_eq_true, if_false, hn, if_true, Option.map_some]
          rcases hquoted v hd hb hn with h | ⟨h, h'⟩
          · exact SameDefault.number (x := c.sqlIn s) v h
          · exact SameDefault.text (x := c.sqlIn s) v h h'

/-! ## Where it fails -/

/-- The first tokens of a text decide. -/
theorem tokens_prefix {s : Str} {ts : List Tok} (h : Lexes s ts) {c : Char} (hc : Symbol c) (r : Str) :
    ∀ l, tokens (s ++ c :: r) = some l → ∃ l', l = ts ++ .sym c :: l' := by
  intro l hl
  unfold tokens at hl
  rw [h.break hc.1] at hl
  have : run .out (c :: r) = (.sym c :: (run .out r).1, (run .out r).2) := by
    show ((stepOut c).1 ++ (run (stepOut c).2 r).1, (run (stepOut c).2 r).2) = _
    rw [stepOut_symbol hc]
    rfl
  rw [this] at hl
  obtain ⟨x, _, rfl⟩ := Option.map_eq_some_iff.mp hl
  exact ⟨(run .out r).1 ++ x, by simp⟩

theorem columnTypes_words : ∀ e ∈ columnTypeMap, (e.1 ≠ [] ∧ ∀ c ∈ e.1, isWord c = true) := by decide +kernel

theorem typeArgs_bracket (t : Str) (l : List Tok) : typeArgs t (.sym '(' :: .sym '[' :: l) = none := by
  unfold typeArgs
  split
  · rfl
  · split
    · rfl
    · simp [numbers]

/-- **C51 fails for every enumeration.**  Whatever the values of an enumeration in a file are, MySQL cannot read the text
which is generated for the column: the values are in brackets. -/
theorem C51_enum_refuted (vals : Dict PVal) (pc : ParsedColumn) (c : Column) (h : typeEnum.process vals = .column pc)
    (hc : pc.asDefinition = .ok c) (hn : '`' ∉ c.name) : readColumn c.render = none := by
  obtain ⟨l, hl, he, ht⟩ : ∃ l, c.len = .list l ∧ c.enumValues = none ∧ c.columnType ≠ [] ∧ ∀ x ∈ c.columnType, isWord x = true := by
    cases h
    unfold ParsedColumn.asDefinition at hc
    split at hc
    · cases hc
    · rename_i cls hg
      cases hc
      refine ⟨_, rfl, rfl, ?_⟩
      have := columnTypes_words _ (Dict.mem_of_get? hg)
      simpa only [Column.columnType, upper_upper] using this
  have htext : ∃ r, c.render = ('`' :: (c.name ++ ['`'])) ++ (' ' :: c.columnType) ++ ['('] ++ '[' :: r := by
    have hp : c.parts = [py"`" ++ c.name ++ py"`", c.typeString] ++ ((if c.isUnsigned then [py"UNSIGNED"] else []) ++
        (if c.null then [] else [py"NOT NULL"]) ++ c.defaultParts ++ (if c.isAutoInc then [py"AUTO_INCREMENT"] else [])) := by
      simp [Column.parts]
    have ht : c.typeString = c.columnType ++ (py"([" ++ join py", " (l.map pyReprStr) ++ py"])") := by
      simp [Column.typeString, he, hl, Len.format]
    unfold Column.render
    rw [hp]
    simp only [List.cons_append, List.nil_append, join_cons, List.flatMap_cons, ht]
    cases c.cls <;> simp
  obtain ⟨r, hr⟩ := htext
  have hlex : Lexes (('`' :: (c.name ++ ['`'])) ++ (' ' :: c.columnType) ++ ['(']) [.ident c.name, .word c.columnType, .sym '('] :=
    ((lexes_ident hn).append (goes_space (lexes_ofWord ht.1 ht.2))).append (goes_open lexes_nil)
  unfold readColumn
  rw [hr]
  cases htok : tokens (('`' :: (c.name ++ ['`'])) ++ (' ' :: c.columnType) ++ ['('] ++ '[' :: r) with
  | none => rfl
  | some ts =>
    obtain ⟨l', rfl⟩ := tokens_prefix hlex (by decide +kernel) r _ htok
    have : column (.ident c.name :: .word c.columnType :: .sym '(' :: .sym '[' :: l') = none := by
      simp only [column, typeArgs_bracket]
      cases nameTok (.ident c.name) <;> rfl
    simp only [Option.bind_some, List.cons_append, List.nil_append, this]

/-- what is generated for an enumeration -/
example : ∃ pc rest c, bestChild definitionClasses py"`size` ENUM('small','large') NOT NULL" none = .ok (some (.column pc, rest)) ∧ pc.asDefinition = .ok c ∧
    c.render = py"`size` ENUM(['small', 'large']) NOT NULL" ∧ readColumn c.render = none ∧
    readColumn py"`size` ENUM('small','large') NOT NULL" = some { name := py"size", type := py"ENUM", values := [py"small", py"large"], notNull := true } :=
  ⟨_, _, _, rfl, rfl, by decide +kernel, by decide +kernel, by decide +kernel⟩

/-- **C51 fails for `CURRENT_TIMESTAMP`.**  In a file it is a keyword; in the text which is generated it is a string. -/
theorem C51_keyword_refuted (c : Column) (hc : c.Sound) (v : Str) (hd : c.default = some v) (hv : upper v = py"CURRENT_TIMESTAMP")
    (hlast : c.CharsetLast) (s : Style) (hs : s.Fits c) (hb : s.bare v = true) :
    ∃ x y, readColumn (c.written s) = some x ∧ readColumn c.render = some y ∧ x.default = some (.keyword py"CURRENT_TIMESTAMP") ∧
      y.default = some (.text v) ∧ ¬ ColumnSql.Same x y := by
  have hn : isNumeric v = false := by
    rw [Bool.eq_false_iff]
    intro hn
    obtain ⟨a, as, rfl, hd'⟩ := numeric_digits hn
    have : (upper (a :: as)).head? = some 'C' := by rw [hv]; rfl
    simp only [upper, List.map_cons, List.head?_cons, Option.some.injEq] at this
    exact digit_upper hd' this
  have hx : c.defaultIn s = some (.keyword py"CURRENT_TIMESTAMP") := by simp [Column.defaultIn, hd, hb, hn]
  have hy : c.sql.default = some (.text v) := by simp [Column.sql, hd, hn]
  refine ⟨c.sqlIn s, c.sql, ?_, readColumn_render hc hlast, hx, hy, ?_⟩
  · apply readColumn_written hc hs.spell
    · intro w hw _
      rw [hd] at hw
      cases hw
      exact .inr hv
    · refine .inr (fun h => ?_)
      have := (hlast h).2
      rw [hd] at this
      cases this
  · intro h
    have h := h.default
    have hx' : (c.sqlIn s).default = some (.keyword py"CURRENT_TIMESTAMP") := hx
    rw [hx', hy] at h
    cases h

/-- **C51 fails for character sets.**  If a column has a character set and is `NOT NULL` or has a default, MySQL cannot read
the text which is generated: the character set comes too late. -/
theorem C51_charset_refuted (c : Column) (hc : c.Sound) (hcs : c.characterSet ≠ none) (h : c.null = false ∨ c.default ≠ none) :
    readColumn c.render = none := by
  obtain ⟨v, hv⟩ := Option.ne_none_iff_exists'.mp hcs
  have hstr := (hc.plain.charset v hv).1
  have hvi := (hc.charset v hv).2
  have hc' : ({ c with charset := none, collation := none } : Column).Sound :=
    { plain := ⟨hc.plain.name, hc.plain.type, hc.plain.noValues, hc.plain.len, hc.plain.number, nofun, nofun⟩
      numbers := hc.numbers, unsigned := hc.unsigned, charset := nofun, collate := nofun, default := hc.default }
  have hs : ∀ w, lower (Style.usual.spell w) = lower w := fun _ => rfl
  have hna := (hc.plain.number (by rw [hstr]; decide)).2
  have hnu := (hc.plain.number (by rw [hstr]; decide)).1
  obtain ⟨tt, hl, _, hcol⟩ := column_sqlText hc' hs ((sets_null c hs).append (sets_default hc' hs (usual_defaultFits _)) (fun x _ h => h))
    ⟨rfl, rfl⟩ (by
      show _ = ({ c with charset := none, collation := none } : Column).sqlIn .usual
      have : (c.autoInc.getD false) = false := hna
      simp [Column.sqlIn, Column.sql, Column.isUnsigned, Column.isAutoInc, this, Column.characterSet, Column.collate])
  have hmid : (if !c.null then py" " ++ Style.usual.spell py"NOT NULL" else if Style.usual.null then py" " ++ Style.usual.spell py"NULL" else []) ++
      Style.usual.default ({ c with charset := none, collation := none } : Column).default ≠ [] := by
    intro e
    rw [List.append_eq_nil_iff] at e
    rcases h with h | h
    · have := e.1; simp [h] at this
    · obtain ⟨w, hw⟩ := Option.ne_none_iff_exists'.mp h
      have := e.2
      simp [hw, Style.default] at this
  have hco := sets_collate hc hs
  obtain ⟨t4, g4, _, _⟩ := hco
  have hlex : Lexes c.render (tt ++ ([.word py"CHARACTER", .word py"SET", .str v] ++ t4)) := by
    have h1 : Goes (py" CHARACTER SET '" ++ v ++ py"'") [.word py"CHARACTER", .word py"SET", .str v] := by
      have hw : Lexes py"CHARACTER" [.word py"CHARACTER"] := lexes_ofWord (by decide) (by decide)
      have hw' : Lexes py"SET" [.word py"SET"] := lexes_ofWord (by decide) (by decide)
      have := goes_space (hw.append (goes_space (hw'.append (goes_space (lexes_text (ident_noQuote hvi).1 (ident_noQuote hvi).2.1)))))
      simpa using this
    have := hl.append (h1.append g4)
    rw [← written_usual hc.plain]
    refine Eq.mp ?_ this
    congr 1
    have hcs0 : ({ c with charset := none, collation := none } : Column).characterSet = none := rfl
    have hna0 : c.isAutoInc = false := hna
    have hnu0 : c.isUnsigned = false := hnu
    have hnu1 : ({ c with charset := none, collation := none } : Column).isUnsigned = false := hnu
    have hct : ({ c with charset := none, collation := none } : Column).columnType = c.columnType := rfl
    simp only [Column.written, Style.characters, hv, hna0, hnu0, hnu1, hct, hcs0]
    cases c.collate <;> simp [Style.usual, Style.value]
  unfold readColumn
  rw [hlex.tokens]
  have := hcol ([.word py"CHARACTER", .word py"SET", .str v] ++ t4) (.inr ⟨_, _, rfl⟩) (fun e => absurd e hmid)
  simp only [Option.bind_some, this]
  have hatt : ∀ x r, attributes x (.word py"CHARACTER" :: r) = some (x, .word py"CHARACTER" :: r) := by
    intro x r
    rw [attributes.eq_def]
    simp [show upper py"CHARACTER" = py"CHARACTER" by decide]
  simp only [List.cons_append, List.nil_append, hatt]

/-- **C51, exactly.**  A column which MySQL accepts is written in a file with a default which MySQL reads.  The text which is generated for the column which the
program reads means the same to MySQL as the text in the file if and only if
* the column may be null, if `DEFAULT NULL` is written;
* a default without quotes is a number, and not `CURRENT_TIMESTAMP`; and
* a number in quotes is the default of a number, or of a text and has no zeros in front. -/
theorem C51_iff (c : Column) (s : Style) (hc : c.Sound) (hs : s.Fits c) (e rest : Str) (he : Follows e rest) (hlast : c.CharsetLast)
    (hcs : c.characterSet ≠ none → s.early = true ∨ (s.null = false ∧ s.nullDefault = false))
    (hfit : ∀ v, c.default = some v → s.bare v = true → isNumeric v = true ∨ upper v = py"CURRENT_TIMESTAMP") :
    ∃ x pc c' y, readColumn (c.written s) = some x ∧
      bestChild definitionClasses (c.written s ++ e) none = .ok (some (.column pc, rest)) ∧ pc.asDefinition = .ok c' ∧
      readColumn c'.render = some y ∧ y = c.sql ∧
      (ColumnSql.Same x y ↔ (c.default = none → s.nullDefault = true → c.null = true) ∧
        (∀ v, c.default = some v → s.bare v = true → isNumeric v = true) ∧
        (∀ v, c.default = some v → s.bare v = false → isNumeric v = true → c.columnType ∈ numberTypes ∨ (c.columnType ∈ charTypes ∧ NoZeros v))) := by
  obtain ⟨pc, c', h1, h2, _, h3, _⟩ := C37_column_text_partial c s hc.plain hs e rest he
  have hx : readColumn (c.written s) = some (c.sqlIn s) := by
    apply readColumn_written hc hs.spell hfit
    by_cases hn : c.characterSet = none
    · exact .inr (fun h => absurd hn h)
    · rcases hcs hn with h | h
      · exact .inl h
      · exact .inr (fun h' => ⟨(hlast h').1, (hlast h').2, h.1, h.2⟩)
  refine ⟨c.sqlIn s, pc, c', c.sql, hx, h1, h2, ?_, rfl, ⟨fun h => ?_, fun ⟨g1, g2, g3⟩ => ?_⟩⟩
  · rw [h3]
    exact readColumn_render hc hlast
  · have h : SameDefault (c.sqlIn s) (c.defaultIn s) c.sql.default := h.default
    refine ⟨fun hd hn => ?_, fun v hd hb => ?_, fun v hd hb hn => ?_⟩
    · simp only [Column.defaultIn, Column.sql, hd, hn, if_true, Option.map_none] at h
      cases h with
      | null h =>
        have h : (!c.null) = false := h
        simpa using h
    · cases hn : isNumeric v with
      | true => rfl
      | false =>
        simp only [Column.defaultIn, Column.sql, hd, hb, hn, if_true, Bool.false_eq_true, if_false, Option.map_some] at h
        cases h
    · simp only [Column.defaultIn, Column.sql, hd, hb, hn, if_true, Bool.false_eq_true, if_false, Option.map_some] at h
      cases h with
      | number _ h => exact .inl h
      | text _ h h' => exact .inr ⟨h, h'⟩
  · obtain ⟨x, _, _, y, k1, k2, k3, k4, k5, rfl⟩ := C51_partial c s hc hs e rest he hlast hcs g1 g2 g3
    rw [hx] at k1
    cases k1
    exact k5

/-- **C51 fails for texts which look like numbers with zeros in front, and for dates which look like numbers.**  The default in the file is a text, as `'007'`; what is
generated is the number, which MySQL turns into the text `7`. -/
theorem C51_zeros_refuted (c : Column) (hc : c.Sound) (v : Str) (hd : c.default = some v) (hn : isNumeric v = true) (ht : c.columnType ∉ numberTypes)
    (hz : c.columnType ∈ charTypes → ¬ NoZeros v) (hlast : c.CharsetLast) (s : Style) (hs : s.Fits c) (hb : s.bare v = false) :
    ∃ x y, readColumn (c.written s) = some x ∧ readColumn c.render = some y ∧ x.default = some (.text v) ∧ y.default = some (.number v) ∧ ¬ ColumnSql.Same x y := by
  have hx : c.defaultIn s = some (.text v) := by simp [Column.defaultIn, hd, hb]
  have hy : c.sql.default = some (.number v) := by simp [Column.sql, hd, hn]
  refine ⟨c.sqlIn s, c.sql, ?_, readColumn_render hc hlast, hx, hy, ?_⟩
  · apply readColumn_written hc hs.spell
    · intro w hw hb'
      rw [hd] at hw
      cases hw
      rw [hb] at hb'
      cases hb'
    · refine .inr (fun h => ?_)
      have := (hlast h).2
      rw [hd] at this
      cases this
  · intro h
    have h := h.default
    have hx' : (c.sqlIn s).default = some (.text v) := hx
    rw [hx', hy] at h
    cases h with
    | number _ h => exact ht h
    | text _ h h' => exact hz h h'

/-! ## Examples -/

namespace Examples

/-- a name -/
def soundName : Column :=
  { cls := .string, name := py"name", ctype := py"VARCHAR", len := .str py"255", null := false, hasDefault := true, default := some py"x", collation := some py"latin1_bin" }

theorem soundName_sound : soundName.Sound where
  plain :=
    { name := by decide
      type := by decide +kernel
      noValues := rfl
      len := ⟨py"255", .one (by decide), by decide, fun v hv => by cases hv; exact ⟨.inl ⟨by decide, by decide⟩, by decide⟩⟩
      number := fun _ => by decide
      charset := nofun
      collate := fun v hv => by
        have hv : some (upper py"latin1_bin") = some v := hv
        cases hv
        exact ⟨rfl, by decide, by decide +kernel⟩ }
  numbers := ⟨[1], by decide +kernel, by decide +kernel⟩
  unsigned := nofun
  charset := nofun
  collate := fun v hv => by
    have hv : some (upper py"latin1_bin") = some v := hv
    cases hv
    exact ⟨by decide, by decide +kernel⟩
  default := fun v hv => by cases hv; decide

/-- a time -/
def soundTime : Column :=
  { cls := .date, name := py"at", ctype := py"TIMESTAMP", len := .str [], null := false, hasDefault := true, default := some py"CURRENT_TIMESTAMP" }

theorem soundTime_sound : soundTime.Sound where
  plain :=
    { name := by decide
      type := by decide +kernel
      noValues := rfl
      len := ⟨[], .empty, by decide, fun v hv => by cases hv; exact ⟨.inl ⟨by decide, by decide⟩, by decide⟩⟩
      number := fun _ => by decide
      charset := nofun
      collate := nofun }
  numbers := ⟨[0, 1], by decide +kernel, by decide +kernel⟩
  unsigned := nofun
  charset := nofun
  collate := nofun
  default := fun v hv => by cases hv; decide

/-- a text with a character set -/
def soundText : Column :=
  { cls := .string, name := py"body", ctype := py"TEXT", len := .str [], null := false, charset := some py"utf8", collation := some py"utf8_bin" }

theorem soundText_sound : soundText.Sound where
  plain :=
    { name := by decide
      type := by decide +kernel
      noValues := rfl
      len := ⟨[], .empty, by decide, nofun⟩
      number := fun _ => by decide
      charset := fun v hv => by
        have hv : some (upper py"utf8") = some v := hv
        cases hv
        exact ⟨rfl, by decide, by decide +kernel⟩
      collate := fun v hv => by
        have hv : some (upper py"utf8_bin") = some v := hv
        cases hv
        exact ⟨rfl, by decide, by decide +kernel⟩ }
  numbers := ⟨[0, 1], by decide +kernel, by decide +kernel⟩
  unsigned := nofun
  charset := fun v hv => by
    have hv : some (upper py"utf8") = some v := hv
    cases hv
    exact ⟨by decide +kernel, by decide, by decide +kernel⟩
  collate := fun v hv => by
    have hv : some (upper py"utf8_bin") = some v := hv
    cases hv
    exact ⟨by decide, by decide +kernel⟩
  default := nofun

/-- the hypotheses of `C51_partial` hold for a column as the server writes it, and the texts are not the same -/
example : (∃ x pc c' y, readColumn (soundName.written (.server true)) = some x ∧
      bestChild definitionClasses (soundName.written (.server true) ++ py", more") none = .ok (some (.column pc, py"more")) ∧ pc.asDefinition = .ok c' ∧
      readColumn c'.render = some y ∧ ColumnSql.Same x y ∧ y = soundName.sql) ∧
    soundName.written (.server true) = py"`name` varchar(255) COLLATE latin1_bin NOT NULL DEFAULT 'x'" ∧
    soundName.render = py"`name` VARCHAR(255) NOT NULL DEFAULT 'x' COLLATE 'LATIN1_BIN'" := by
  refine ⟨C51_partial soundName (.server true) soundName_sound (server_fits true _) _ _ (.comma py" more") nofun nofun nofun ?_ ?_, by decide +kernel, by decide +kernel⟩
  · intro v hv; cases hv; decide
  · intro v hv _ h; cases hv; exact absurd h (by decide)

/-- `C51_keyword_refuted` for a time -/
example : ∃ x y, readColumn (soundTime.written (.server true)) = some x ∧ readColumn soundTime.render = some y ∧
    x.default = some (.keyword py"CURRENT_TIMESTAMP") ∧ y.default = some (.text py"CURRENT_TIMESTAMP") ∧ ¬ ColumnSql.Same x y :=
  C51_keyword_refuted soundTime soundTime_sound _ rfl (by decide) nofun (.server true) (server_fits true _) (by decide)

/-- `C51_charset_refuted` for a text: MySQL reads what the server writes, but not what is generated -/
example : readColumn soundText.render = none ∧ soundText.render = py"`body` TEXT NOT NULL CHARACTER SET 'UTF8' COLLATE 'UTF8_BIN'" ∧
    readColumn (soundText.written (.server false)) =
      some { name := py"body", type := py"TEXT", charset := some py"UTF8", collate := some py"UTF8_BIN", notNull := true } :=
  ⟨C51_charset_refuted soundText soundText_sound nofun (.inl rfl), by decide +kernel, by decide +kernel⟩

/-- a code with zeros in front -/
def soundCode : Column := { cls := .string, name := py"code", ctype := py"VARCHAR", len := .str py"3", hasDefault := true, default := some py"007" }

theorem soundCode_sound : soundCode.Sound where
  plain :=
    { name := by decide
      type := by decide +kernel
      noValues := rfl
      len := ⟨py"3", .one (by decide), by decide, fun v hv => by cases hv; exact ⟨.inl ⟨by decide, by decide⟩, by decide⟩⟩
      number := fun _ => by decide
      charset := nofun
      collate := nofun }
  numbers := ⟨[1], by decide +kernel, by decide +kernel⟩
  unsigned := nofun
  charset := nofun
  collate := nofun
  default := fun v hv => by cases hv; decide

/-- `C51_zeros_refuted` for it, as the server writes it -/
example : (∃ x y, readColumn (soundCode.written (.server false)) = some x ∧ readColumn soundCode.render = some y ∧ x.default = some (.text py"007") ∧
      y.default = some (.number py"007") ∧ ¬ ColumnSql.Same x y) ∧
    soundCode.written (.server false) = py"`code` varchar(3) DEFAULT '007'" ∧ soundCode.render = py"`code` VARCHAR(3) DEFAULT 007" :=
  ⟨C51_zeros_refuted soundCode soundCode_sound _ rfl (by decide) (by decide) (fun _ h => by rcases h with h | h <;> exact absurd h (by decide)) nofun (.server false)
    (server_fits false _) (by decide), by decide +kernel, by decide +kernel⟩

/-- the hypotheses of `C51_iff` hold for it: the meaning changes -/
example : ∃ x pc c' y, readColumn (soundCode.written (.server false)) = some x ∧
    bestChild definitionClasses (soundCode.written (.server false) ++ py", more") none = .ok (some (.column pc, py"more")) ∧ pc.asDefinition = .ok c' ∧
    readColumn c'.render = some y ∧ ¬ ColumnSql.Same x y := by
  obtain ⟨x, pc, c', y, h1, h2, h3, h4, _, h5⟩ := C51_iff soundCode (.server false) soundCode_sound (server_fits false _) _ _ (.comma py" more") nofun nofun
    (fun v hv _ => by cases hv; exact .inl (by decide))
  refine ⟨x, pc, c', y, h1, h2, h3, h4, fun h => ?_⟩
  rcases (h5.mp h).2.2 _ rfl (by decide) (by decide) with h | ⟨_, h⟩
  · exact absurd h (by decide)
  · rcases h with h | h <;> exact absurd h (by decide)

end Examples

end Mygrations

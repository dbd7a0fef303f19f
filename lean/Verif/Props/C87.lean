import Verif.Props.C35

/-!
# C87: types with several names

MySQL knows `BOOL` and `BOOLEAN` as other names of `TINYINT(1)`, `TRUE` and `FALSE` as other names of `1` and `0`, and `INTEGER`
as another name of `INT`; `SHOW CREATE TABLE` only ever shows the latter.  `c.written s` is the text of the column `c` in the
style `s`, `SameColumn a b` says that a user cannot tell the two apart.
-/

namespace Mygrations

/-! ## Specification -/

/-- What MySQL makes of the default of a boolean column. -/
def boolDefault (v : Str) : Str := if upper v = py"TRUE" then py"1" else if upper v = py"FALSE" then py"0" else v

/-- What MySQL makes of a boolean column. -/
def Column.asTinyint (c : Column) : Column :=
  { c with ctype := py"TINYINT", len := .str py"1", default := c.default.map boolDefault }

/-- What MySQL makes of a column whose type is `INTEGER`. -/
def Column.asInt (c : Column) : Column := { c with ctype := py"INT" }

/-- A boolean column as users write it: with a name, no length, and no default or one of `TRUE`, `FALSE`, `1` and `0`. -/
structure Column.Boolean (c : Column) : Prop where
  cls : c.cls = .numeric
  name : Ident c.name
  type : c.columnType ∈ [py"BOOL", py"BOOLEAN"]
  len : c.len = .none
  default : ∀ v, c.default = some v → upper v ∈ [py"TRUE", py"FALSE", py"1", py"0"]
  unsigned : c.isUnsigned = false
  autoInc : c.isAutoInc = false
  charset : c.characterSet = none
  collate : c.collate = none
  noValues : c.enumValues = none

/-! ## Proofs -/

section
variable {n t d : Str} {s : WordStyle} {u nn au : Bool} {dw : List Word} {e : Str}

set_option maxHeartbeats 800000 in
theorem read_bool (h : IsDefault dw) (hb : isBoolType (normalizeType t) = true) :
    (runTags plainTags (words s u nn dw au none none) (headVals n t)).2 = [] ∧
    typePlain.process (runTags plainTags (words s u nn dw au none none) (headVals n t)).1 = .column
      { name := stripTicks (py"`" ++ n ++ py"`"), ctype := py"TINYINT", len := .str py"1", null := !nn, hasDefault := (defaultText dw).isSome
        default := plainDefault true (defaultText dw), unsigned := some u, autoInc := some au } := by
  have key : ∀ vals : Dict PVal, textOf vals py"type" = t → typePlain.process vals = .column
      { name := stripTicks (textOf vals py"name"), ctype := py"TINYINT", len := .str py"1"
        null := !vals.has py"NOT NULL" && !vals.has py"PRIMARY KEY", hasDefault := vals.has py"default"
        default := plainDefault true (optTextOf vals py"default"), unsigned := some (vals.has py"UNSIGNED")
        autoInc := some (vals.has py"AUTO_INCREMENT"), isPrimaryKey := vals.has py"PRIMARY KEY" } := by
    intro vals ht
    simp only [typePlain, ht, hb]
    rfl
  obtain ⟨sp, nl, early, q⟩ := s
  cases h with
  | none => cases nn <;> cases nl <;> cases early <;> cases u <;> cases au <;> exact ⟨rfl, key _ rfl⟩
  | some k' q' v => cases nn <;> cases nl <;> cases early <;> cases u <;> cases au <;> exact ⟨rfl, key _ rfl⟩

/-- only the normalised type counts -/
theorem normalized_read {t' : Str} {l : LenText} (h : IsDefault dw) (hn : Ident n) (ht : Ident t) (ht' : Ident t') (hb : isBoolType (normalizeType t) = false)
    (hl : l.Ok) (hl2 : ∀ a b, l ≠ .two a b) (he : Closing e) (hp : ∀ r, e ≠ '(' :: r) (hws : ∀ w ∈ words s u nn dw au none none, w.Ok)
    (heq : normalizeType t = normalizeType t') :
    bestChild definitionClasses (colText n t l (words s u nn dw au none none) e) none =
      bestChild definitionClasses (colText n t' l (words s u nn dw au none none) e) none := by
  cases l with
  | two a b => exact absurd rfl (hl2 a b)
  | none =>
    obtain ⟨r1, r2⟩ := read_plain (n := n) (t := t) (s := s) (u := u) (au := au) (nn := nn) h hb
    obtain ⟨q1, q2⟩ := read_plain (n := n) (t := t') (s := s) (u := u) (au := au) (nn := nn) h (heq ▸ hb)
    rw [best_plain hn ht he hws hp r1, best_plain hn ht' he hws hp q1]
    unfold outcome
    rw [r1, q1, process_comma _ _ _ (by simp), process_comma _ _ _ (by simp), r2, q2, heq]
  | one d =>
    by_cases hua : (u || au) = true
    · obtain ⟨r1, r2, r3⟩ := read_numeric (n := n) (t := t) (d := d) (s := s) (u := u) (au := au) (nn := nn) h
      obtain ⟨q1, q2, q3⟩ := read_numeric (n := n) (t := t') (d := d) (s := s) (u := u) (au := au) (nn := nn) h
      rw [best_numeric hn ht he hws hl (r2 hua) r1, best_numeric hn ht' he hws hl (q2 hua) q1]
      unfold outcome
      rw [r1, q1, process_comma _ _ _ (by simp), process_comma _ _ _ (by simp), r3, q3, heq]
    · obtain ⟨rfl, rfl⟩ : u = false ∧ au = false := by cases u <;> cases au <;> simp_all
      obtain ⟨r1, r2⟩ := read_character (n := n) (t := t) (d := d) (s := s) (nn := nn) (cs := none) (co := none) h
      obtain ⟨q1, q2⟩ := read_character (n := n) (t := t') (d := d) (s := s) (nn := nn) (cs := none) (co := none) h
      rw [best_character hn ht he hws hl r1, best_character hn ht' he hws hl q1]
      unfold outcome
      rw [r1, q1, process_comma _ _ _ (by simp), process_comma _ _ _ (by simp), r2, q2, heq]

end

theorem ascii_upperLower : ∀ n : Fin 128, (Char.ofNat n).toUpper.toLower = (Char.ofNat n).toLower := by decide +kernel

theorem toLower_toUpper (c : Char) : c.toUpper.toLower = c.toLower := by
  by_cases h : c.toNat < 128
  · have := ascii_upperLower ⟨c.toNat, h⟩
    simpa using this
  · have : c.toUpper = c := by
      unfold Char.toUpper
      split
      · rename_i hc
        simp only [UInt32.le_iff_toNat_le] at hc
        have h1 : c.toNat = c.val.toNat := rfl
        have h2 : c.val.toNat ≤ 122 := by simpa using hc.2
        omega
      · rfl
    rw [this]

theorem lower_upper (s : Str) : lower (upper s) = lower s := by
  simp [lower, upper, toLower_toUpper]

theorem boolWord {v : Str} (h : upper v ∈ [py"TRUE", py"FALSE", py"1", py"0"]) : Bare v ∧ lower v ≠ py"null" := by
  have hl : lower (upper v) = lower v := lower_upper v
  constructor
  · apply Spelled.bare (a := upper v) (show lower v = lower (upper v) from hl.symm)
    simp only [List.mem_cons, List.not_mem_nil, or_false] at h
    rcases h with h | h | h | h <;> rw [h] <;> decide
  · rw [← hl]
    simp only [List.mem_cons, List.not_mem_nil, or_false] at h
    rcases h with h | h | h | h <;> rw [h] <;> decide

theorem Written.boolean {s : Style} {d : Option Str} {dw : List Word} (h : Written s false d dw) (hd : IsDefault dw) (hs : ∀ w, lower (s.spell w) = lower w)
    (hv : ∀ v, d = some v → upper v ∈ [py"TRUE", py"FALSE", py"1", py"0"]) : plainDefault true (defaultText dw) = d.map boolDefault := by
  have fin : ∀ v : Str, upper v ∈ [py"TRUE", py"FALSE", py"1", py"0"] →
      (let s := if true && upper v = py"FALSE" then py"0" else if true && upper v = py"TRUE" then py"1" else v
       if lower s = py"null" then Option.none else some s) = some (boolDefault v) := by
    intro v hv
    have hn := (boolWord hv).2
    unfold boolDefault
    by_cases h1 : upper v = py"TRUE"
    · simp [h1, lower]
    · by_cases h2 : upper v = py"FALSE"
      · simp [h2, lower]
      · simp [h1, h2, hn]
  cases h with
  | none => rfl
  | null =>
    have hn : lower (s.spell py"NULL") = py"null" := (hs _).trans (by decide)
    have hu : upper (s.spell py"NULL") = py"NULL" := by rw [← upper_lower, hn]; decide
    have := (spelled_null hn).2.2
    simp only [defaultText, plainDefault, unquote, inQuotesIf, Option.map_some, Bool.false_eq_true, if_false, this, hu, Option.map_none]
    simp [hn]
  | quoted hb _ hn =>
    simp only [defaultText, plainDefault, unquote, inQuotesIf, Option.map_some, isQuoted_quoted, if_true, stripQuotes_bare hb]
    exact fin _ (hv _ rfl)
  | bare hb _ _ hn =>
    simp only [defaultText, plainDefault, unquote, inQuotesIf, Option.map_some, isQuoted_bare (bare_head hb), Bool.false_eq_true, if_false]
    exact fin _ (hv _ rfl)
  | stamp => cases hd

/-! ## The properties -/

/-- **C87, booleans.**  A boolean column, however it is written, is read as the `TINYINT(1)` which MySQL makes of it, with `1` for
`TRUE` and `0` for `FALSE`; nothing is raised and nothing is reported. -/
theorem C87_boolean (c : Column) (s : Style) (hc : c.Boolean) (hs : s.Fits c) (e rest : Str) (he : Follows e rest) :
    ∃ pc c', bestChild definitionClasses (c.written s ++ e) none = .ok (some (.column pc, rest)) ∧ pc.asDefinition = .ok c' ∧
      SameColumn c.asTinyint c' ∧ c'.parsingErrors = [] ∧ c'.parsingWarnings = [] ∧ pc.isPrimaryKey = false := by
  obtain ⟨e', h1, h2, h3, h4⟩ := follows_closing he
  obtain ⟨dw, hdw⟩ := written_of_plain (hasLen := false) hs (fun v hv => .inl ⟨(boolWord (hc.default v hv)).1, fun _ => (boolWord (hc.default v hv)).2⟩)
  have hd : IsDefault dw := by
    rcases hdw.isDefault with hd | ⟨_, a, b, _, _, hab⟩
    · exact hd
    · have := (boolWord (hc.default _ hab)).1 ' ' (by simp)
      exact absurd this.1 (by decide)
  have hid : Ident c.columnType := by
    have := hc.type
    simp only [List.mem_cons, List.not_mem_nil, or_false] at this
    rcases this with h | h <;> rw [h] <;> decide
  have ht : Ident (s.spell c.columnType) := Spelled.ident (hs.spell _) hid
  have hl : LenOf c.len [] .none := by rw [hc.len]; exact .none
  have hws : ∀ w ∈ words s.ws false (!c.null) dw false none none, w.Ok :=
    words_ok (s := s.ws) hs.spell (hdw.ok hs.spell) (by simp) (by simp)
  have htext : ∀ x : Str, c.written s ++ x = colText c.name (s.spell c.columnType) .none (words s.ws false (!c.null) dw false none none) x := by
    intro x
    rw [column_text hl hdw x, wordsOf, hc.unsigned, hc.autoInc, hc.charset, hc.collate]
    rfl
  have hup : upper (s.spell c.columnType) = py"BOOL" ∨ upper (s.spell c.columnType) = py"BOOLEAN" := by
    rw [Spelled.upper (hs.spell _)]
    have := hc.type
    simp only [List.mem_cons, List.not_mem_nil, or_false] at this
    rcases this with h | h <;> rw [h] <;> decide
  have hnt : normalizeType (s.spell c.columnType) = s.spell c.columnType := by
    unfold normalizeType
    rw [if_neg]
    intro hi
    rw [← upper_lower, hi] at hup
    exact absurd hup (by decide)
  have hbt : isBoolType (normalizeType (s.spell c.columnType)) = true := by
    rw [hnt]
    unfold isBoolType
    rcases hup with h | h <;> rw [h] <;> decide
  obtain ⟨r1, r2⟩ := read_bool (n := c.name) (t := s.spell c.columnType) (s := s.ws) (u := false) (au := false) (nn := !c.null) hd hbt
  have hb := best_plain hc.name ht h1 hws h2 r1
  unfold outcome at hb
  rw [r1, process_comma _ _ _ (by simp), r2, stripTicks_ident hc.name, h3] at hb
  have hflat : flat true (c.written s) = true := by
    have := htext []
    rw [List.append_nil] at this
    rw [this]
    exact colText_flat hc.name ht trivial (Or.inl rfl) hws
  refine ⟨_, _, by rw [bestChild_follows hflat h4, htext]; exact hb, rfl, ?_, rfl, rfl, rfl⟩
  refine ⟨hc.cls.symm, rfl, rfl, .inl rfl, ?_, ?_, ?_, ?_, ?_, ?_, ?_⟩
  · show (!!c.null) = c.null; simp
  · exact hdw.boolean hd hs.spell hc.default
  · exact hc.unsigned.symm
  · exact hc.autoInc.symm
  · exact hc.charset.symm
  · exact hc.collate.symm
  · exact hc.noValues.symm

/-- **C87, integers.**  A column whose type is `INTEGER`, however it is written, is read as the `INT` which MySQL makes of it.
(Its length is one number or nothing, and its default has no blank.) -/
theorem C87_integer (c : Column) (s : Style) (hty : c.columnType = py"INTEGER") (hc : c.asInt.Plain) (hcls : c.cls = .numeric)
    (hlen : hasChar ',' c.len.format = false) (hdef : ∀ v, c.default = some v → v.contains ' ' = false) (hs : s.Fits c) (e rest : Str) (he : Follows e rest) :
    ∃ pc c', bestChild definitionClasses (c.written s ++ e) none = .ok (some (.column pc, rest)) ∧ pc.asDefinition = .ok c' ∧
      SameColumn c.asInt c' ∧ c'.parsingErrors = [] ∧ pc.isPrimaryKey = false := by
  obtain ⟨e', h1, h2, h3, h4⟩ := follows_closing he
  -- the same column in a style with another spelling of `INT`
  let s' : Style := { s with spell := fun w => if w = py"INT" then py"int" else s.spell w }
  have hsp : ∀ w, w ≠ py"INT" → s'.spell w = s.spell w := fun w h => if_neg h
  have hs' : s'.Fits c.asInt :=
    { spell := by
        intro w
        show lower (if w = py"INT" then py"int" else s.spell w) = lower w
        split
        · rename_i h; rw [h]; decide
        · exact hs.spell w
      bare := hs.bare }
  obtain ⟨shown, hpl, hcomma, hpd⟩ := hc.len
  obtain ⟨l, hl⟩ := lenOf_of_plain hpl
  obtain ⟨dw, hdw⟩ := written_of_plain (c := c) hs (fun v hv => (hpd v hv).1)
  have hd : IsDefault dw := by
    rcases hdw.isDefault with hd | ⟨_, a, b, _, _, hab⟩
    · exact hd
    · have := hdef _ hab
      simp at this
  have hdw' : Written s' (!shown.isEmpty) c.asInt.default dw := by
    show Written s' (!shown.isEmpty) c.default dw
    generalize c.default = d at hdw
    have e1 : s'.spell py"DEFAULT" = s.spell py"DEFAULT" := hsp _ (by decide)
    have e2 : s'.spell py"NULL" = s.spell py"NULL" := hsp _ (by decide)
    cases hdw with
    | none h => exact .none h
    | null h => rw [← e1, ← e2]; exact .null h
    | quoted a b d => rw [← e1]; exact .quoted a b d
    | bare a b d f => rw [← e1]; exact .bare a b d f
    | stamp a b d f g => rw [← e1]; exact .stamp a b d f g
  have hcs : c.characterSet = none := by
    cases hx : c.characterSet with
    | none => rfl
    | some v => exact absurd ((hc.charset v hx).1) (by rw [show c.asInt.cls = c.cls from rfl, hcls]; simp)
  have hco : c.collate = none := by
    cases hx : c.collate with
    | none => rfl
    | some v => exact absurd ((hc.collate v hx).1) (by rw [show c.asInt.cls = c.cls from rfl, hcls]; simp)
  have hws : ∀ w ∈ words s.ws c.isUnsigned (!c.null) dw c.isAutoInc none none, w.Ok :=
    words_ok (s := s.ws) hs.spell (hdw.ok hs.spell) (by simp) (by simp)
  have hsame : words s'.ws c.isUnsigned (!c.null) dw c.isAutoInc none none = words s.ws c.isUnsigned (!c.null) dw c.isAutoInc none none := by
    have e1 : s'.spell py"UNSIGNED" = s.spell py"UNSIGNED" := hsp _ (by decide)
    have e2 : s'.spell py"NOT NULL" = s.spell py"NOT NULL" := hsp _ (by decide)
    have e3 : s'.spell py"NULL" = s.spell py"NULL" := hsp _ (by decide)
    have e4 : s'.spell py"AUTO_INCREMENT" = s.spell py"AUTO_INCREMENT" := hsp _ (by decide)
    simp only [words, nullWords, charWords, Style.ws, e1, e2, e3, e4, Option.map_none]
    rfl
  have htext : ∀ x : Str, c.written s ++ x = colText c.name (s.spell py"INTEGER") l (words s.ws c.isUnsigned (!c.null) dw c.isAutoInc none none) x := by
    intro x
    rw [column_text (c := c) hl hdw x, wordsOf, hcs, hco, hty]
    rfl
  have htext' : ∀ x : Str, c.asInt.written s' ++ x = colText c.name py"int" l (words s.ws c.isUnsigned (!c.null) dw c.isAutoInc none none) x := by
    intro x
    rw [column_text (c := c.asInt) hl hdw' x, wordsOf, show c.asInt.characterSet = none from hcs, show c.asInt.collate = none from hco, ← hsame]
    rfl
  have ht : Ident (s.spell py"INTEGER") := Spelled.ident (hs.spell _) (by decide)
  have hnt : normalizeType (s.spell py"INTEGER") = py"int" := if_pos (by rw [hs.spell]; decide)
  have hl2 : ∀ a b, l ≠ .two a b := by
    rintro a b rfl
    generalize hle : c.asInt.len = len at hl
    have hlen' : hasChar ',' len.format = false := by rw [← hle]; exact hlen
    cases hl
    exact absurd hlen' (by simp [Len.format, hasChar])
  have hlok : l.Ok := lenOf_ok hl
  have hflat : flat true (c.written s) = true := by
    have := htext []
    rw [List.append_nil] at this
    rw [this]
    exact colText_flat hc.name ht hlok (Or.inl rfl) hws
  have hread : bestChild definitionClasses (c.written s ++ e) none = bestChild definitionClasses (c.asInt.written s' ++ e) none := by
    rw [bestChild_follows hflat h4, bestChild_follows (column_flat hc hs') h4, htext, htext']
    exact normalized_read hd hc.name ht (by decide) (by rw [hnt]; decide) hlok hl2 h1 h2 hws (by rw [hnt]; decide)
  rw [hread]
  obtain ⟨pc, c', r1, r2, r3, _, r5, r6⟩ := C37_column_text_partial c.asInt s' hc hs' e rest he
  exact ⟨pc, c', r1, r2, r3, r5, r6⟩

theorem asTinyint_plain {c : Column} (hc : c.Boolean) : c.asTinyint.Plain where
  name := hc.name
  type := by
    rw [show c.asTinyint.cls = c.cls from rfl, hc.cls]
    show py"TINYINT" ∈ _
    decide
  noValues := hc.noValues
  len := ⟨py"1", .one (by decide), fun h => absurd h (by decide), by
    intro v hv
    obtain ⟨w, hw, rfl⟩ := Option.map_eq_some_iff.mp hv
    have hb : Bare (boolDefault w) := by
      unfold boolDefault
      split
      · decide
      · split
        · decide
        · exact (boolWord (hc.default w hw)).1
    exact ⟨.inl ⟨hb, fun h => absurd h (by decide)⟩, fun _ => ⟨hc.unsigned, hc.autoInc⟩⟩⟩
  number := fun h => absurd hc.cls h
  charset := fun v hv => absurd hv (by rw [show c.asTinyint.characterSet = none from hc.charset]; simp)
  collate := fun v hv => absurd hv (by rw [show c.asTinyint.collate = none from hc.collate]; simp)

/-- **C87, against the server.**  The boolean column of a file and the column which `SHOW CREATE TABLE` shows for it are the same
column with the same text, so that nothing is planned for it. -/
theorem C87_shown (c : Column) (s : Style) (nullDefault : Bool) (hc : c.Boolean) (hs : s.Fits c) (e rest e' rest' : Str) (he : Follows e rest) (he' : Follows e' rest') :
    ∃ pc c' pd d', bestChild definitionClasses (c.written s ++ e) none = .ok (some (.column pc, rest)) ∧ pc.asDefinition = .ok c' ∧
      bestChild definitionClasses (c.asTinyint.written (.server nullDefault) ++ e') none = .ok (some (.column pd, rest')) ∧ pd.asDefinition = .ok d' ∧
      d'.render = c'.render := by
  obtain ⟨pc, c', h1, h2, h3, _⟩ := C87_boolean c s hc hs e rest he
  obtain ⟨pd, d', g1, g2, g3, g4, _⟩ := C37_column_text_partial c.asTinyint (.server nullDefault) (asTinyint_plain hc) (server_fits _ _) e' rest' he'
  exact ⟨pc, c', pd, d', h1, h2, g1, g2, by rw [g4, sameColumn_render h3]⟩

/-- **C87 fails for `NUMERIC`**, which is another name of `DECIMAL`: it is read as `NUMERIC`, and differs from every column of the
server, which is shown as `DECIMAL`: every migration changes the column again. -/
theorem C87_numeric_refuted [PyNum] (c : Column) (s : Style) (hc : c.Plain) (hs : s.Fits c) (hty : c.columnType = py"NUMERIC") (e rest : Str) (he : Follows e rest) :
    ∃ pc c', bestChild definitionClasses (c.written s ++ e) none = .ok (some (.column pc, rest)) ∧ pc.asDefinition = .ok c' ∧
      ∀ a : Column, a.name = c.name → a.cls = .numeric → a.columnType = py"DECIMAL" → a.render ≠ c'.render ∧ a.sameAs c' = .ok false := by
  obtain ⟨pc, c', h1, h2, h3, h4, _⟩ := C37_column_text_partial c s hc hs e rest he
  refine ⟨pc, c', h1, h2, fun a hn hcl ht => ⟨?_, ?_⟩⟩
  · intro heq
    have ht' := h3.type.trans hty
    have head : ∀ x : Column, ∃ r, x.render = py"`" ++ x.name ++ py"` " ++ (x.columnType ++ r) := by
      intro x
      unfold Column.render Column.parts Column.typeString
      cases x.cls <;>
        (simp only [join_cons, List.flatMap_cons, List.flatMap_nil, List.flatMap_append, List.append_assoc, List.cons_append, List.nil_append]
         exact ⟨_, rfl⟩)
    obtain ⟨r, hr⟩ := head a
    obtain ⟨r', hr'⟩ := head c'
    rw [hr, hr', hn, h3.name, ht, ht'] at heq
    simp at heq
  · have hd : a.columnType ≠ c'.columnType := by rw [ht, h3.type, hty]; decide
    unfold Column.sameAs
    rw [hcl, ht]
    show (if Column.integerTypes.contains py"DECIMAL" then _ else a.sameBase c') = _
    rw [if_neg (by decide)]
    unfold Column.sameBase
    rw [if_pos (.inr (.inr (.inr hd)))]

/-! ## The hypotheses can be met -/

namespace Examples

/-- `bool`, in small letters, with a default and `NOT NULL` -/
def boolDecl : Column := { cls := .numeric, name := py"active", ctype := py"bool", null := false, hasDefault := true, default := some py"true" }

def smallStyle : Style := { spell := lower, bare := fun _ => true, null := false, nullDefault := false, early := false, quotes := false }

/-- for `C87_boolean` and `C87_shown` -/
example : boolDecl.written smallStyle = py"`active` bool not null default true" ∧ boolDecl.Boolean ∧ smallStyle.Fits boolDecl ∧
    boolDecl.asTinyint.written (.server true) = py"`active` tinyint(1) NOT NULL DEFAULT '1'" ∧ Follows py",`b` INT" py"`b` INT" := by
  refine ⟨by decide, ⟨rfl, by decide, by decide, rfl, ?_, rfl, rfl, rfl, rfl, rfl⟩, ⟨fun w => ?_, ?_⟩, by decide, Follows.comma _⟩
  · intro v hv; cases hv; decide
  · show lower (lower w) = lower w
    simp only [lower, List.map_map]
    exact List.map_congr_left (fun x _ => toLower_toLower x)
  · intro v hv _; cases hv; decide

/-- an `INTEGER(11) unsigned` -/
def integerDecl : Column := { cls := .numeric, name := py"n", ctype := py"INTEGER", len := .str py"11", unsigned := some true, hasDefault := true, default := some py"5" }

/-- for `C87_integer` -/
example : integerDecl.written .usual = py"`n` INTEGER(11) UNSIGNED DEFAULT 5" ∧ integerDecl.columnType = py"INTEGER" ∧ integerDecl.asInt.Plain ∧
    hasChar ',' integerDecl.len.format = false ∧ ∀ v, integerDecl.default = some v → v.contains ' ' = false := by
  refine ⟨by decide, rfl, ⟨by decide, by decide, rfl, ⟨_, .one (d := py"11") (by decide), by decide, ?_⟩, by decide, ?_, ?_⟩, by decide, ?_⟩
  all_goals intro v hv
  all_goals cases hv
  · exact ⟨Or.inl ⟨by decide, by decide⟩, by decide⟩
  · decide

/-- for `C87_numeric_refuted` -/
example : Column.Plain { cls := .numeric, name := py"price", ctype := py"NUMERIC", len := .str py"7,2" } ∧
    Column.written { cls := .numeric, name := py"price", ctype := py"NUMERIC", len := .str py"7,2" } .usual = py"`price` NUMERIC(7,2)" := by
  refine ⟨⟨by decide, by decide, rfl, ⟨_, .two (a := py"7") (b := py"2") (by decide) (by decide), by decide, ?_⟩, by decide, ?_, ?_⟩, by decide⟩
  all_goals intro v hv
  all_goals cases hv

end Examples

end Mygrations

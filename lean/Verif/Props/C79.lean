import Verif.Props.C78
import Verif.Props.C66

/-!
# C79: the check agrees with MySQL about columns

A column which MySQL accepts is not reported, with five exceptions, each with its types; enumerations are always reported.
-/

namespace Mygrations
open Table Database

/-! ## Specification -/

/-- What MySQL looks at in the definition of a column besides its grammar: the default of a number is a number, and of an integer an integer; the default of a
`BIT` is 0 or 1; long texts have no default other than `NULL`; a `BIT` does not count up; and only texts have a collation. -/
structure Column.Fitting [PyNum] (c : Column) : Prop where
  number : c.cls = .numeric → ∀ d, c.default = some d →
    PyNum.int d ≠ none ∨ (c.columnType ∈ [py"DECIMAL", py"NUMERIC", py"FLOAT", py"DOUBLE"] ∧ PyNum.float d ≠ none)
  bit : c.columnType = py"BIT" → ∀ d n, c.default = some d → PyNum.int d = some n → n = 0 ∨ n = 1
  long : c.columnType ∈ bigTypes → c.default = none
  counts : c.columnType = py"BIT" → c.isAutoInc = false
  collate : c.collate ≠ none → c.columnType ∈ Sql.charTypes

/-- What is reported although MySQL has nothing against it: `FLOAT(7,2)`, `BIT(8)`; `FLOAT AUTO_INCREMENT`; `TEXT DEFAULT NULL`;
`TEXT CHARACTER SET utf8`; `TEXT(100)`. -/
def FalseAlarm (c : Column) : ColumnFault → Prop
  | .numberLength => c.columnType ∈ [py"FLOAT", py"DOUBLE", py"BIT"] ∧ c.HasLength
  | .fractionCounts => c.columnType ∈ [py"FLOAT", py"DOUBLE"] ∧ c.autoInc = some true
  | .textDefault => c.columnType ∈ bigTypes ∧ c.hasDefault = true ∧ c.default = none
  | .textCharset => c.columnType ∈ [py"TINYTEXT", py"TEXT", py"MEDIUMTEXT", py"LONGTEXT"] ∧ c.HasCharset
  | .textLength => c.columnType ∈ [py"TEXT", py"BLOB"] ∧ c.HasLength
  | _ => False

/-! ## Proofs -/

theorem splitOn_many {c : Char} : ∀ {s : Str}, c ∈ s → 2 ≤ (splitOn c s).length
  | x :: s, h => by
    have ne : ∀ t : Str, 1 ≤ (splitOn c t).length := by
      intro t
      induction t with
      | nil => simp [splitOn]
      | cons y t ih =>
        unfold splitOn
        split
        · simp
        · split <;> simp
    unfold splitOn
    split
    · have := ne s
      simp only [List.length_cons]; omega
    · rename_i hne
      have hs : c ∈ s := by
        rcases List.mem_cons.mp h with rfl | h
        · exact absurd rfl hne
        · exact h
      have ih := splitOn_many hs
      split
      · rename_i e; rw [e] at ih; simp at ih
      · rename_i w ws e; rw [e] at ih; simpa using ih

theorem hasLength_numbers {c : Column} (hp : c.Plain) (h : c.HasLength) : c.len.numbers ≠ [] := by
  obtain ⟨shown, hl, _⟩ := hp.len
  obtain ⟨h1, h2, _⟩ := h
  have ne : ∀ t : Str, splitOn ',' t ≠ [] := by
    intro t
    cases t with
    | nil => simp [splitOn]
    | cons y t =>
      unfold splitOn
      split
      · simp
      · split <;> simp
  cases hc : c.len with
  | none => exact absurd hc h1
  | list l => rw [hc] at hl; cases hl
  | str s =>
    cases s with
    | nil => exact absurd hc h2
    | cons x s => exact ne _

theorem hasCharset_text {c : Column} (hs : c.Sound) [PyNum] (hf : c.Fitting) (h : c.HasCharset) : c.columnType ∈ Sql.charTypes := by
  rcases h with ⟨s, h, _⟩ | ⟨s, h, _⟩
  · exact (hs.charset (upper s) (by simp [Column.characterSet, h])).1
  · exact hf.collate (by simp [Column.collate, h])

/-- no column of the table has a list of values -/
def NoValues (t : Table) : Prop := ∀ c ∈ t.columns.values, c.enumValues = none ∧ columnTypeMap.get? c.columnType = some c.cls

theorem noValues_addIndex {t t' : Table} {i : Index} (h : NoValues t) (hi : t.addIndex i = .ok t') : NoValues t' := by
  have key : t'.columns = t.columns := by
    unfold Table.addIndex at hi
    split at hi
    · cases hi
    · simp only at hi
      split at hi
      · cases hi; rfl
      · split at hi
        · cases hi
        · cases hi; rfl
  unfold NoValues
  rw [key]
  exact h

theorem noValues_addDefinition {all : List Definition} {t t' : Table} {d : Definition} (h : NoValues t) (hd : addDefinition all t d = .ok t') : NoValues t' := by
  cases d with
  | column c =>
    unfold addDefinition at hd
    simp only at hd
    split at hd
    · cases hd
      exact h
    · split at hd
      · cases hd
      · rename_i col hcol
        split at hd
        · cases hd
        · rename_i t1 h1
          have hv : col.enumValues = none ∧ columnTypeMap.get? col.columnType = some col.cls := by
            unfold ParsedColumn.asDefinition at hcol
            split at hcol
            · cases hcol
            · rename_i hm
              cases hcol
              refine ⟨rfl, ?_⟩
              show columnTypeMap.get? (upper (upper c.ctype)) = _
              rw [upper_upper]
              exact hm
          have k1 : NoValues t1 := by
            unfold Table.addColumn at h1
            split at h1
            · cases h1
            · cases h1
              intro x hx
              obtain ⟨k, hk⟩ := Dict.mem_values.mp hx
              rcases List.mem_append.mp hk with hk | hk
              · exact h x (Dict.mem_values.mpr ⟨k, hk⟩)
              · cases List.mem_singleton.mp hk
                exact hv
          split at hd
          · exact noValues_addIndex k1 hd
          · cases hd
            exact k1
  | index i =>
    unfold addDefinition at hd
    simp only at hd
    split at hd
    · cases hd
      exact h
    · exact noValues_addIndex h hd
  | constraint k bare =>
    unfold addDefinition at hd
    simp only at hd
    obtain ⟨k', hk'⟩ : ∃ k', k' = (if bare then { k with name := bareName t.name k.column k.ftable } else k) := ⟨_, rfl⟩
    simp only [← hk'] at hd
    split at hd
    · cases hd
      exact h
    · split at hd
      · cases hd
      · rename_i t1 h1
        have k1 : NoValues t1 := by
          unfold Table.addConstraint at h1
          split at h1
          · cases h1
          · cases h1; exact h
        split at hd
        · exact noValues_addIndex k1 hd
        · cases hd
          exact k1

theorem noValues_addDefinitions {all : List Definition} : ∀ {ds : List Definition} {t t' : Table}, NoValues t → addDefinitions all t ds = .ok t' → NoValues t'
  | [], t, t', h, hd => by cases hd; exact h
  | d :: ds, t, t', h, hd => by
    unfold addDefinitions at hd
    split at hd
    · cases hd
    · rename_i t1 h1
      exact noValues_addDefinitions (noValues_addDefinition h h1) hd

theorem parseCreate_noValues {s rest : Str} {t : Table} (h : parseCreate s = .ok (t, rest)) : NoValues t := by
  unfold parseCreate at h
  split at h
  · cases h
  · split at h
    · split at h
      · cases h
      · rename_i t1 h1
        cases h
        unfold createProcess at h1
        simp only at h1
        split at h1
        · cases h1
        · rename_i t2 h2
          have k2 : NoValues t2 := noValues_addDefinitions (t := { name := _, options := _ }) (fun _ h => by cases h) h2
          split at h1
          · cases h1; exact k2
          · cases h1; exact k2
    · cases h
      exact fun _ h => by cases h

theorem readLoop_noValues : ∀ (n : Nat) (st : ReaderState) (s : Str), (∀ k t, (k, t) ∈ st.tables → NoValues t) →
    ∀ k t, (k, t) ∈ (readLoop n st s).1.tables → NoValues t
  | n, st, [], h => by rw [readLoop_nil]; exact h
  | 0, st, c :: cs, h => by rw [readLoop_zero st (by simp)]; exact h
  | n + 1, st, c :: cs, h => by
    rw [readLoop_succ n st (by simp)]
    unfold readStep
    split
    · exact h
    · split
      · exact readLoop_noValues n _ _ h
      · split
        · split
          · exact h
          · rename_i t rest ht
            refine readLoop_noValues n _ _ ?_
            intro k x hk
            rcases Dict.mem_set hk with ⟨_, rfl⟩ | hk
            · exact parseCreate_noValues ht
            · exact h k x hk
        · split
          · split
            · exact h
            · exact readLoop_noValues n _ _ h
          · exact h

/-- the readers do not keep the values of enumerations -/
theorem new_noValues [PyNum] {sources : List Str} {d : Database} (h : FileDatabase.new sources = .ok d) (hq : ∀ f ∈ sources, (readSource f).2 = none)
    (hn : (sources.flatMap (fun f => (readSource f).1.tables.keys)).Nodup) : ∀ t ∈ d.tables.values, NoValues t := by
  intro t ht
  obtain ⟨k, hk⟩ := Dict.mem_values.mp ht
  have h1 := congrArg Database.tables (new_shape h hq hn).1
  have h2 : (k, t.outline) ∈ d.outline.tables := List.mem_map.mpr ⟨_, hk, rfl⟩
  rw [h1] at h2
  simp only [List.mem_map, Prod.mk.injEq] at h2
  obtain ⟨⟨k', t'⟩, he, _, h3⟩ := h2
  obtain ⟨f, _, hf⟩ := List.mem_flatMap.mp he
  have h4 : NoValues t' := readLoop_noValues _ _ _ (fun _ _ h => by cases h) k' t' hf
  have h5 : t'.outline.columns = t.outline.columns := congrArg Table.columns h3
  have h6 : t'.columns = t.columns := h5
  unfold NoValues
  rw [← h6]
  exact h4

/-! ## The theorems -/

/-- **C79.**  If a column which MySQL accepts is reported, then it is one of five false alarms.
Missing: enumerations, which are always reported (`C79_enum_refuted`), and the false alarms (`C79_refuted`). -/
theorem C79_partial [PyNum] (c : Column) (hs : c.Sound) (hf : c.Fitting) (f : ColumnFault) (h : f.In c) : FalseAlarm c f := by
  have htype := hs.plain.type
  have hcls : c.IsText → c.cls = .string := by
    rintro (h | h)
    · exact h
    · rw [h] at htype; cases htype
  have hnum := hs.numbers
  cases f with
  | noName => exact absurd h hs.plain.name.1
  | noType =>
    have h : c.ctype = [] := h
    have e : c.columnType = [] := by unfold Column.columnType; rw [h]; rfl
    rw [e] at htype
    exfalso
    cases hc : c.cls <;> rw [hc] at htype <;> revert htype <;> decide
  | textForNumber =>
    obtain ⟨h1, d, h2, h3, h4⟩ := h
    rcases hf.number h1 d h2 with h | ⟨_, h⟩
    · exact absurd h3 h
    · exact absurd h4 h
  | fractionForInteger =>
    obtain ⟨h1, h2, d, h3, h4, h5⟩ := h
    rcases hf.number h1 d h3 with h | ⟨h, _⟩
    · exact absurd h4 h
    · exact absurd h h2
  | notABit =>
    obtain ⟨_, h2, d, n, h3, h4, h5, h6⟩ := h
    rcases hf.bit h2 d n h3 h4 with h | h
    · exact h5 h
    · exact h6 h
  | numberLength => exact ⟨h.2.1, h.2.2⟩
  | fractionLength =>
    obtain ⟨h1, h2, s, h3, h4⟩ := h
    rw [show upper c.ctype = c.columnType from rfl] at h2
    obtain ⟨counts, h5, h6⟩ := hnum
    have h7 : 2 ≤ c.len.numbers.length := by
      rw [h3]
      cases s with
      | nil => cases h4
      | cons x s => exact splitOn_many h4
    rw [h1] at htype
    simp only [plainTypes, List.mem_cons, List.not_mem_nil, or_false, not_or] at htype h2
    obtain ⟨g1, g2, g3, g4, g5⟩ := h2
    have h8 : counts = [0, 1] := by
      rcases htype with e | e | e | e | e | e | e | e | e | e
      · rw [e] at h5; exact (Option.some.inj h5).symm
      · rw [e] at h5; exact (Option.some.inj h5).symm
      · rw [e] at h5; exact (Option.some.inj h5).symm
      · rw [e] at h5; exact (Option.some.inj h5).symm
      · rw [e] at h5; exact (Option.some.inj h5).symm
      · exact absurd e g1
      · exact absurd e g2
      · exact absurd e g3
      · exact absurd e g4
      · exact absurd e g5
    subst h8
    simp only [List.mem_cons, List.not_mem_nil, or_false] at h6
    omega
  | numberCharset =>
    obtain ⟨h1, h2⟩ := h
    cases hc : c.charset with
    | none => exact absurd hc h2
    | some s =>
      have := (hs.plain.charset (upper s) (by simp [Column.characterSet, hc])).1
      rw [h1] at this; cases this
  | numberCollation =>
    obtain ⟨h1, h2⟩ := h
    cases hc : c.collation with
    | none => exact absurd hc h2
    | some s =>
      have := (hs.plain.collate (upper s) (by simp [Column.collate, hc])).1
      rw [h1] at this; cases this
  | fractionCounts =>
    obtain ⟨h1, h2, h3⟩ := h
    refine ⟨?_, h3⟩
    rw [show upper c.ctype = c.columnType from rfl] at h2
    simp only [List.mem_cons, List.not_mem_nil, or_false] at h2 ⊢
    rcases h2 with h2 | h2 | h2
    · exact .inl h2
    · exact .inr h2
    · have := hf.counts h2
      simp [Column.isAutoInc, h3] at this
  | numberValues =>
    obtain ⟨_, v, vs, h⟩ := h
    rw [hs.plain.noValues] at h; cases h
  | textDefault =>
    obtain ⟨h1, h2, h3⟩ := h
    rw [hcls h1] at htype
    rw [show upper c.ctype = c.columnType from rfl] at h3
    have h4 : c.columnType ∈ bigTypes := by
      simp only [plainTypes, bigTypes, List.mem_cons, List.not_mem_nil, or_false, not_or] at htype h3 ⊢
      simpa [h3] using htype
    exact ⟨h4, h2, hf.long h4⟩
  | textCounts =>
    obtain ⟨h1, h2⟩ := h
    have := (hs.plain.number (by rw [hcls h1]; simp)).2
    simp [Column.isAutoInc, h2] at this
  | textCharset =>
    obtain ⟨h1, h2, h3⟩ := h
    have h4 := hasCharset_text hs hf h2
    rw [show upper c.ctype = c.columnType from rfl] at h3
    refine ⟨?_, h2⟩
    simp only [Sql.charTypes, List.mem_cons, List.not_mem_nil, or_false, not_or] at h3 h4 ⊢
    simpa [h3] using h4
  | binaryCharset =>
    obtain ⟨h1, h2, h3, _⟩ := h
    have h4 := hasCharset_text hs hf h2
    rw [show upper c.ctype = c.columnType from rfl] at h3
    simp only [List.mem_cons, List.not_mem_nil, or_false] at h3
    exfalso
    rcases h3 with h3 | h3 <;> rw [h3] at h4 <;> revert h4 <;> decide
  | textLength =>
    obtain ⟨h1, h2, h3⟩ := h
    refine ⟨?_, h2⟩
    rw [hcls h1] at htype
    rw [show upper c.ctype = c.columnType from rfl] at h3
    have h7 : c.len.numbers.length ≠ 0 := by
      have := hasLength_numbers hs.plain h2
      simpa using this
    obtain ⟨counts, h5, h6⟩ := hnum
    simp only [plainTypes, List.mem_cons, List.not_mem_nil, or_false, not_or] at htype h3 ⊢
    obtain ⟨g1, g2, g3, g4⟩ := h3
    have zero : counts ≠ [0] := by
      rintro rfl
      simp only [List.mem_cons, List.not_mem_nil, or_false] at h6
      exact h7 h6
    rcases htype with e | e | e | e | e | e | e | e | e | e | e | e | e
    · exact absurd e g1
    · exact absurd e g2
    · exact absurd e g3
    · exact absurd e g4
    · rw [e] at h5; exact absurd (Option.some.inj h5).symm zero
    · exact .inr e
    · rw [e] at h5; exact absurd (Option.some.inj h5).symm zero
    · rw [e] at h5; exact absurd (Option.some.inj h5).symm zero
    · rw [e] at h5; exact absurd (Option.some.inj h5).symm zero
    · exact .inl e
    · rw [e] at h5; exact absurd (Option.some.inj h5).symm zero
    · rw [e] at h5; exact absurd (Option.some.inj h5).symm zero
    · rw [e] at h5; exact absurd (Option.some.inj h5).symm zero
  | textValues =>
    obtain ⟨_, ⟨v, vs, h⟩, _⟩ := h
    rw [hs.plain.noValues] at h; cases h
  | textUnsigned =>
    obtain ⟨h1, h2⟩ := h
    have := (hs.plain.number (by rw [hcls h1]; simp)).1
    simp [Column.isUnsigned, h2] at this
  | noValues =>
    have h1 : c.cls = .enum := h.1
    rw [h1] at htype; cases htype
  | defaultNotAValue =>
    have h1 : c.cls = .enum := h.1
    rw [h1] at htype; cases htype

/-- **C79, in short**: nothing is reported about a column which MySQL accepts and which is in none of the five situations. -/
theorem C79_columns_partial [PyNum] (c : Column) (hs : c.Sound) (hf : c.Fitting) (hc : c.Checkable) (hd : c.cls ≠ .date) (hno : ∀ f, ¬ FalseAlarm c f) :
    c.schemaCheck = ([], none) := by
  have h1 := quiet_of_checkable hc hd
  have h2 : c.schemaCheck.1 = [] := by
    cases he : c.schemaCheck.1 with
    | nil => rfl
    | cons m l =>
      obtain ⟨f, hf', _⟩ := (C78_column c hc hd m).mp (by rw [he]; exact List.mem_cons_self)
      exact absurd (C79_partial c hs hf f hf') (hno f)
  rcases hs : c.schemaCheck with ⟨a, b⟩
  rw [hs] at h1 h2
  simp only at h1 h2
  rw [h1, h2]

/-- **C79 fails in these five situations, always**: the column is reported, whatever else is said about it. -/
theorem C79_alarm_refuted [PyNum] (c : Column) (hs : c.Sound) (f : ColumnFault) (h : FalseAlarm c f) : f.In c := by
  have htype := hs.plain.type
  cases f with
  | numberLength =>
    refine ⟨?_, h.1, h.2⟩
    have h1 := h.1
    simp only [List.mem_cons, List.not_mem_nil, or_false] at h1
    cases hc : c.cls <;> rw [hc] at htype <;> first | rfl | (exfalso; rcases h1 with e | e | e <;> rw [e] at htype <;> exact absurd htype (by decide))
  | fractionCounts =>
    have h1 := h.1
    simp only [List.mem_cons, List.not_mem_nil, or_false] at h1
    refine ⟨?_, ?_, h.2⟩
    · cases hc : c.cls <;> rw [hc] at htype <;> first | rfl | (exfalso; rcases h1 with e | e <;> rw [e] at htype <;> exact absurd htype (by decide))
    · show c.columnType ∈ _
      rcases h1 with e | e <;> rw [e] <;> decide
  | textDefault =>
    have h1 := h.1
    simp only [bigTypes, List.mem_cons, List.not_mem_nil, or_false] at h1
    refine ⟨.inl ?_, h.2.1, ?_⟩
    · cases hc : c.cls <;> rw [hc] at htype <;>
        first | rfl | (exfalso; rcases h1 with e | e | e | e | e | e | e | e | e <;> rw [e] at htype <;> exact absurd htype (by decide))
    · show c.columnType ∉ _
      rcases h1 with e | e | e | e | e | e | e | e | e <;> rw [e] <;> decide
  | textCharset =>
    have h1 := h.1
    simp only [List.mem_cons, List.not_mem_nil, or_false] at h1
    refine ⟨.inl ?_, h.2, ?_⟩
    · cases hc : c.cls <;> rw [hc] at htype <;>
        first | rfl | (exfalso; rcases h1 with e | e | e | e <;> rw [e] at htype <;> exact absurd htype (by decide))
    · show c.columnType ∉ _
      rcases h1 with e | e | e | e <;> rw [e] <;> decide
  | textLength =>
    have h1 := h.1
    simp only [List.mem_cons, List.not_mem_nil, or_false] at h1
    refine ⟨.inl ?_, h.2, ?_⟩
    · cases hc : c.cls <;> rw [hc] at htype <;> first | rfl | (exfalso; rcases h1 with e | e <;> rw [e] at htype <;> exact absurd htype (by decide))
    · show c.columnType ∉ _
      rcases h1 with e | e <;> rw [e] <;> decide
  | _ => exact h.elim

/-- **C79, exactly**: what is reported about a column which MySQL accepts are the false alarms, and nothing else. -/
theorem C79_messages_partial [PyNum] (c : Column) (hs : c.Sound) (hf : c.Fitting) (hc : c.Checkable) (hd : c.cls ≠ .date) (m : Str) :
    m ∈ c.schemaCheck.1 ↔ ∃ f : ColumnFault, FalseAlarm c f ∧ m = f.text c := by
  rw [C78_column c hc hd m]
  exact ⟨fun ⟨f, h, e⟩ => ⟨f, C79_partial c hs hf f h, e⟩, fun ⟨f, h, e⟩ => ⟨f, C79_alarm_refuted c hs f h, e⟩⟩

/-- A column which MySQL accepts passes the check if and only if it is in none of the five situations. -/
theorem C79_iff [PyNum] (c : Column) (hs : c.Sound) (hf : c.Fitting) (hc : c.Checkable) (hd : c.cls ≠ .date) :
    c.schemaCheck = ([], none) ↔ ∀ f, ¬ FalseAlarm c f := by
  refine ⟨fun h f hfa => ?_, C79_columns_partial c hs hf hc hd⟩
  have := (C79_messages_partial c hs hf hc hd _).mpr ⟨f, hfa, rfl⟩
  rw [h] at this
  cases this

/-- If a column of a table without dates has a fault, `check` never says that all is well. -/
theorem check_fault [PyNum] {sources : List Str} {files : Database} (hf : FileDatabase.new sources = .ok files) (hr : ∀ f ∈ sources, (readSource f).2 = none)
    (hn : (sources.flatMap (fun f => Dict.keys (readSource f).1.tables)).Nodup) {t : Table} (ht : t ∈ files.tables.values) (hd : t.Dateless) {c : Column}
    (hc : c ∈ t.columns.values) {f : ColumnFault} (he : f.In c) : ∀ o, (Command.check sources).result = .ok o → o.success = false := by
  intro o ho
  cases hs : o.success with
  | false => rfl
  | true =>
    exfalso
    have herr : files.errors.1 = .ok [] := by
      obtain ⟨files₀, _, errs, _, hf₀, he₀, _, rfl⟩ := of_check ho
      rw [hf] at hf₀
      cases hf₀
      rw [he₀]
      cases errs with
      | nil => rfl
      | cons m l => cases hs
    have hfl := files_flawless hf hr hn herr
    have hask := hfl.schema t ht
    have hq : ∀ x ∈ t.columns.values, x.schemaCheck.2 = none := by
      apply raised_quiet
      cases hraise : t.findAll.raised with
      | none => rfl
      | some e =>
        exfalso
        unfold askTable at hask
        rw [if_neg (by simp), hraise] at hask
        obtain ⟨x, hx, hxe⟩ := findAll_raised hraise
        rcases (schemaCheck_raises hxe).1 with h | h
        · exact hd x hx h
        · cases e with
          | attributeError m => exact h m rfl
          | _ => cases hask
    obtain ⟨_, _, h3, _⟩ := schema_clean hask hq
    have h4 := (schemaCheck_mem (hq c hc) (f.text c)).mpr ⟨f, he, rfl⟩
    rw [h3 c hc] at h4
    cases h4

/-- **C79 fails in these five situations, in every file**: if MySQL accepts a column which is in one of them, and its table has no dates, `check` never says that
all is well. -/
theorem C79_check_refuted [PyNum] (sources : List Str) (files : Database) (hf : FileDatabase.new sources = .ok files) (hr : ∀ f ∈ sources, (readSource f).2 = none)
    (hn : (sources.flatMap (fun f => Dict.keys (readSource f).1.tables)).Nodup) (t : Table) (ht : t ∈ files.tables.values) (hd : t.Dateless) (c : Column)
    (hc : c ∈ t.columns.values) (hs : c.Sound) (f : ColumnFault) (h : FalseAlarm c f) :
    ∀ o, (Command.check sources).result = .ok o → o.success = false :=
  check_fault hf hr hn ht hd hc (C79_alarm_refuted c hs f h)

/-- **C79 fails for enumerations**: if a table without dates has an `ENUM` or `SET` column, `check` never says that all is well, whatever the values of the
enumeration are: it reports that the column must have a list of values, or it ends with an exception. -/
theorem C79_enum_refuted [PyNum] (sources : List Str) (files : Database) (hf : FileDatabase.new sources = .ok files) (hr : ∀ f ∈ sources, (readSource f).2 = none)
    (hn : (sources.flatMap (fun f => Dict.keys (readSource f).1.tables)).Nodup) (t : Table) (ht : t ∈ files.tables.values) (hd : t.Dateless) (c : Column)
    (hc : c ∈ t.columns.values) (he : c.columnType = py"ENUM" ∨ c.columnType = py"SET") :
    ∀ o, (Command.check sources).result = .ok o → o.success = false := by
  obtain ⟨h1, h2⟩ := new_noValues hf hr hn t ht c hc
  refine check_fault hf hr hn ht hd hc (f := .noValues) ⟨?_, ?_⟩
  · rcases he with e | e <;> rw [e] at h2 <;> exact (Option.some.inj h2).symm
  rintro ⟨v, vs, h⟩
  rw [h1] at h
  cases h

/-! ## What the check does not see -/

/-- the first tokens of a text decide, if a blank or nothing follows -/
theorem refused_prefix {s rest : Str} {ts : List Sql.Tok} (h : Sql.Lexes s ts) (hno : ∀ l, Sql.column (ts ++ l) = none)
    (hrest : rest = [] ∨ ∃ r, rest = ' ' :: r) : Sql.readColumn (s ++ rest) = none := by
  unfold Sql.readColumn
  rcases hrest with rfl | ⟨r, rfl⟩
  · rw [List.append_nil, h.tokens]
    have := hno []
    rw [List.append_nil] at this
    simp [this]
  · cases ht : Sql.tokens (s ++ ' ' :: r) with
    | none => rfl
    | some l =>
      unfold Sql.tokens at ht
      rw [h.break Sql.breaks_space] at ht
      obtain ⟨x, _, rfl⟩ := Option.map_eq_some_iff.mp ht
      simp only [Option.bind_some, List.append_assoc, hno]

theorem typeString_bare {c : Column} (hv : ¬ c.HasValues) (hl : c.len = .none ∨ c.len = .str []) : c.typeString = c.columnType := by
  have : ∀ v vs, c.enumValues ≠ some (v :: vs) := fun v vs h => hv ⟨v, vs, h⟩
  unfold Column.typeString
  rw [if_pos hl]
  split
  · exact absurd ‹_› (this _ _)
  · exact List.append_nil _

/-- what comes after the type in the text of a column: nothing, or a blank and a word -/
theorem render_tail {c : Column} (hcls : c.cls = .string) (hu : c.isUnsigned = false) (ha : c.isAutoInc = false) (hv : ¬ c.HasValues) (hl : c.len = .none ∨ c.len = .str []) :
    c.render = '`' :: (c.name ++ '`' :: ' ' :: c.columnType) ∨
    ∃ w ∈ [py"NOT", py"DEFAULT", py"CHARACTER", py"COLLATE"], ∃ rest, c.render = '`' :: (c.name ++ '`' :: ' ' :: (c.columnType ++ ' ' :: (w ++ ' ' :: rest))) := by
  have ht := typeString_bare hv hl
  unfold Column.render Column.parts
  rw [hcls, hu, ha, ht]
  cases hn : c.null with
  | false =>
    refine .inr ⟨py"NOT", by simp, ?_⟩
    simp only [join_cons, List.flatMap_cons, List.flatMap_nil, List.flatMap_append, List.append_assoc, List.cons_append, List.nil_append, Bool.false_eq_true, if_false]
    exact ⟨_, rfl⟩
  | true =>
    cases hd : c.default with
    | some v =>
      cases v with
      | nil =>
        refine .inr ⟨py"DEFAULT", by simp, ?_⟩
        simp [join_cons, Column.defaultParts, hd]
      | cons x v =>
        cases hx : isNumeric (x :: v) <;>
        · refine .inr ⟨py"DEFAULT", by simp, ?_⟩
          simp [join_cons, Column.defaultParts, hd, hx]
    | none =>
      cases hcs : Column.nonEmpty c.characterSet with
      | some v =>
        refine .inr ⟨py"CHARACTER", by simp, ?_⟩
        simp [join_cons, Column.defaultParts, hd]
      | none =>
        cases hco : Column.nonEmpty c.collate with
        | some v =>
          refine .inr ⟨py"COLLATE", by simp, ?_⟩
          simp [join_cons, Column.defaultParts, hd]
        | none =>
          refine .inl ?_
          simp [join_cons, Column.defaultParts, hd]

/-- no token after the name and the type `VARCHAR` or `VARBINARY` helps, unless it is a parenthesis -/
theorem column_lengthless {t : Str} (ht : t ∈ [py"VARCHAR", py"VARBINARY"]) (n : Sql.Tok) (l : List Sql.Tok) (hl : ∀ r, l ≠ .sym '(' :: r) :
    Sql.column (n :: .word t :: l) = none := by
  have : Sql.typeArgs (upper t) l = none := by
    have h1 : Sql.valueTypes.contains (upper t) = false ∧ Sql.typeNumbers.get? (upper t) = some [1] := by
      simp only [List.mem_cons, List.not_mem_nil, or_false] at ht
      rcases ht with rfl | rfl <;> decide +kernel
    unfold Sql.typeArgs
    rw [h1.1, h1.2]
    simp only [Bool.false_eq_true, if_false]
    rfl
  unfold Sql.column
  simp only [this]
  cases Sql.nameTok n <;> rfl

/-- **The check misses every `VARCHAR` and every `VARBINARY` without a length.**  Whatever else is said about the column (as long as
it is neither unsigned nor counts, which would be noticed), the check has nothing to say about it, but MySQL does not accept the
definition which is generated for it. -/
theorem C79_lengthless_refuted [PyNum] (c : Column) (hcls : c.cls = .string) (ht : c.columnType ∈ [py"VARCHAR", py"VARBINARY"])
    (hl : c.len = .none ∨ c.len = .str []) (hv : ¬ c.HasValues) (hu : c.isUnsigned = false) (ha : c.isAutoInc = false) (hne : c.name ≠ []) (hn : '`' ∉ c.name)
    (hb : c.columnType = py"VARBINARY" → ¬ c.HasCharset) : c.schemaCheck = ([], none) ∧ Sql.readColumn c.render = none := by
  refine ⟨?_, ?_⟩
  · have hc : c.Checkable := by unfold Column.Checkable; rw [hcls]; trivial
    have hd : c.cls ≠ .date := by rw [hcls]; decide
    have h1 := quiet_of_checkable hc hd
    have h2 : c.schemaCheck.1 = [] := by
      cases he : c.schemaCheck.1 with
      | nil => rfl
      | cons m l =>
        obtain ⟨f, hf, _⟩ := (C78_column c hc hd m).mp (by rw [he]; exact List.mem_cons_self)
        have ht' : upper c.ctype ∈ [py"VARCHAR", py"VARBINARY"] := ht
        have hin : upper c.ctype ∈ [py"CHAR", py"VARCHAR", py"BINARY", py"VARBINARY"] := by
          simp only [List.mem_cons, List.not_mem_nil, or_false] at ht' ⊢
          rcases ht' with h | h <;> simp [h]
        have hin' : upper c.ctype ∈ [py"CHAR", py"VARCHAR", py"BINARY", py"VARBINARY", py"ENUM", py"SET"] := by
          simp only [List.mem_cons, List.not_mem_nil, or_false] at ht' ⊢
          rcases ht' with h | h <;> simp [h]
        cases f with
        | noName => exact absurd hf hne
        | noType =>
          have hf : c.ctype = [] := hf
          rw [hf] at ht'
          exact absurd ht' (by decide)
        | textDefault => exact absurd hin' hf.2.2
        | textCounts =>
          have hf : c.autoInc = some true := hf.2
          rw [Column.isAutoInc, hf] at ha
          cases ha
        | textCharset => exact absurd hin' hf.2.2
        | binaryCharset =>
          refine absurd hf.2.1 (hb ?_)
          have h := hf.2.2.1
          simp only [List.mem_cons, List.not_mem_nil, or_false] at h ht'
          show upper c.ctype = _
          rcases ht' with h' | h'
          · rw [h'] at h
            exact absurd h (by decide)
          · exact h'
        | textLength => exact absurd hin hf.2.2
        | textValues => exact absurd hf.2.1 hv
        | textUnsigned =>
          have hf : c.unsigned = some true := hf.2
          rw [Column.isUnsigned, hf] at hu
          cases hu
        | noValues => exact absurd (hcls.symm.trans hf.1) (by decide)
        | defaultNotAValue => exact absurd (hcls.symm.trans hf.1) (by decide)
        | _ => exact absurd (hcls.symm.trans hf.1) (by decide)
    rcases hs : c.schemaCheck with ⟨a, b⟩
    rw [hs] at h1 h2
    simp only at h1 h2
    rw [h1, h2]
  · have hw : c.columnType ≠ [] ∧ ∀ x ∈ c.columnType, isWord x = true := by
      simp only [List.mem_cons, List.not_mem_nil, or_false] at ht
      rcases ht with h | h <;> rw [h] <;> exact ⟨by decide, by decide +kernel⟩
    have hlex : Sql.Lexes (('`' :: (c.name ++ ['`'])) ++ (' ' :: c.columnType)) [.ident c.name, .word c.columnType] :=
      (Sql.lexes_ident hn).append (Sql.goes_space (lexes_ofWord hw.1 hw.2))
    rcases render_tail hcls hu ha hv hl with h | ⟨w, hw', rest, h⟩
    · rw [h]
      unfold Sql.readColumn
      have : '`' :: (c.name ++ '`' :: ' ' :: c.columnType) = ('`' :: (c.name ++ ['`'])) ++ (' ' :: c.columnType) := by simp
      rw [this, hlex.tokens, Option.bind_some, column_lengthless ht _ _ (fun r => by simp)]
    · have hww : w ≠ [] ∧ ∀ x ∈ w, isWord x = true := by
        simp only [List.mem_cons, List.not_mem_nil, or_false] at hw'
        rcases hw' with rfl | rfl | rfl | rfl <;> exact ⟨by decide, by decide +kernel⟩
      have hlex' := hlex.append (Sql.goes_space (lexes_ofWord hww.1 hww.2))
      have : '`' :: (c.name ++ '`' :: ' ' :: (c.columnType ++ ' ' :: (w ++ ' ' :: rest))) =
          (('`' :: (c.name ++ ['`'])) ++ (' ' :: c.columnType) ++ ' ' :: w) ++ (' ' :: rest) := by simp
      rw [h, this]
      exact refused_prefix hlex' (fun l => column_lengthless ht _ _ (fun r => by simp)) (.inr ⟨rest, rfl⟩)

/-- **The check misses every unsigned `BIT`.** -/
theorem C79_bit_refuted [PyNum] (c : Column) (hcls : c.cls = .numeric) (ht : c.columnType = py"BIT") (hu : c.unsigned = some true)
    (d : Str) (n : Int) (hd : c.default = some d) (hi : PyNum.int d = some n) (h01 : n = 0 ∨ n = 1)
    (hl : c.len = .none ∨ c.len = .str []) (hv : ¬ c.HasValues) (hcs : c.charset = none) (hco : c.collation = none) (ha : c.isAutoInc = false)
    (hne : c.name ≠ []) (hn : '`' ∉ c.name) : c.schemaCheck = ([], none) ∧ Sql.readColumn c.render = none := by
  refine ⟨?_, ?_⟩
  · have hc : c.Checkable := by
      unfold Column.Checkable
      rw [hcls]
      exact fun _ => ⟨d, hd, .inl (by rw [hi]; simp)⟩
    have hdt : c.cls ≠ .date := by rw [hcls]; decide
    have h1 := quiet_of_checkable hc hdt
    have h2 : c.schemaCheck.1 = [] := by
      cases he : c.schemaCheck.1 with
      | nil => rfl
      | cons m l =>
        obtain ⟨f, hf, _⟩ := (C78_column c hc hdt m).mp (by rw [he]; exact List.mem_cons_self)
        have ht' : upper c.ctype = py"BIT" := ht
        have htext : ¬ c.IsText := by
          unfold Column.IsText
          rw [hcls]
          decide
        cases f with
        | noName => exact absurd hf hne
        | noType =>
          have hf : c.ctype = [] := hf
          rw [hf] at ht'
          exact absurd ht' (by decide)
        | textForNumber =>
          obtain ⟨_, d', h3, h4, _⟩ := hf
          cases hd.symm.trans h3
          rw [hi] at h4
          cases h4
        | fractionForInteger =>
          obtain ⟨_, _, d', h3, h4, _⟩ := hf
          cases hd.symm.trans h3
          rw [hi] at h4
          cases h4
        | notABit =>
          obtain ⟨_, _, d', n', h3, h4, h5, h6⟩ := hf
          cases hd.symm.trans h3
          cases hi.symm.trans h4
          rcases h01 with h | h <;> contradiction
        | numberLength =>
          obtain ⟨_, _, h3, h4, _⟩ := hf
          rcases hl with h | h <;> contradiction
        | fractionLength =>
          obtain ⟨_, h3, _⟩ := hf
          rw [ht'] at h3
          exact absurd h3 (by decide)
        | numberCharset => exact absurd hcs hf.2
        | numberCollation => exact absurd hco hf.2
        | fractionCounts =>
          have hf : c.autoInc = some true := hf.2.2
          rw [Column.isAutoInc, hf] at ha
          cases ha
        | numberValues => exact absurd hf.2 hv
        | noValues => exact absurd (hcls.symm.trans hf.1) (by decide)
        | defaultNotAValue => exact absurd (hcls.symm.trans hf.1) (by decide)
        | _ => exact absurd hf.1 htext
    rcases hs : c.schemaCheck with ⟨a, b⟩
    rw [hs] at h1 h2
    simp only at h1 h2
    rw [h1, h2]
  · have hlex : Sql.Lexes (('`' :: (c.name ++ ['`'])) ++ (' ' :: py"BIT") ++ (' ' :: py"UNSIGNED")) [.ident c.name, .word py"BIT", .word py"UNSIGNED"] :=
      ((Sql.lexes_ident hn).append (Sql.goes_space (lexes_ofWord (by decide) (by decide +kernel)))).append
        (Sql.goes_space (lexes_ofWord (by decide) (by decide +kernel)))
    have htail : ∃ rest, c.render = ('`' :: (c.name ++ ['`'])) ++ (' ' :: py"BIT") ++ (' ' :: py"UNSIGNED") ++ rest ∧ (rest = [] ∨ ∃ r, rest = ' ' :: r) := by
      have hu' : c.isUnsigned = true := by rw [Column.isUnsigned, hu]; rfl
      have hr : ∀ ps : List Str, ps.flatMap (fun x => py" " ++ x) = [] ∨ ∃ r, ps.flatMap (fun x => py" " ++ x) = ' ' :: r := by
        intro ps
        cases ps with
        | nil => exact .inl rfl
        | cons p ps => exact .inr ⟨_, rfl⟩
      refine ⟨_, ?_, hr ((if c.null then [] else [py"NOT NULL"]) ++ c.defaultParts ++ (if c.isAutoInc then [py"AUTO_INCREMENT"] else []))⟩
      unfold Column.render Column.parts
      rw [typeString_bare hv hl, hcls, hu', ht]
      simp [join_cons]
    obtain ⟨rest, hr, hrest⟩ := htail
    rw [hr]
    refine refused_prefix hlex (fun l => ?_) hrest
    show Sql.column (.ident c.name :: .word py"BIT" :: .word py"UNSIGNED" :: l) = none
    have h1 : Sql.typeArgs (upper py"BIT") (.word py"UNSIGNED" :: l) = some ([], [], .word py"UNSIGNED" :: l) := by
      have : Sql.valueTypes.contains (upper py"BIT") = false ∧ Sql.typeNumbers.get? (upper py"BIT") = some [0, 1] := by decide +kernel
      unfold Sql.typeArgs
      rw [this.1, this.2]
      rfl
    unfold Sql.column
    simp only [h1]
    cases Sql.nameTok (.ident c.name) with
    | none => rfl
    | some x =>
      dsimp only
      unfold Sql.typeTail
      dsimp only
      rw [if_pos (by decide +kernel), if_neg (by show ¬ Sql.unsignedTypes.contains (upper py"BIT") = true; decide +kernel)]

/-! ## Examples -/

namespace Examples
open Sql
attribute [local instance] exactNum

/-- the false alarms, as texts: MySQL reads all of them -/
def alarmTexts : List Str :=
  [py"CREATE TABLE things (id INT(10) NOT NULL, price FLOAT(7,2), PRIMARY KEY (id));",
   py"CREATE TABLE things (id INT(10) NOT NULL, bits BIT(8) DEFAULT 0, PRIMARY KEY (id));",
   py"CREATE TABLE things (id FLOAT NOT NULL AUTO_INCREMENT, PRIMARY KEY (id));",
   py"CREATE TABLE things (id INT(10) NOT NULL, body TEXT DEFAULT NULL, PRIMARY KEY (id));",
   py"CREATE TABLE things (id INT(10) NOT NULL, body TEXT CHARACTER SET utf8, PRIMARY KEY (id));",
   py"CREATE TABLE things (id INT(10) NOT NULL, body TEXT(100), PRIMARY KEY (id));"]

/-- **C79 fails for five kinds of columns**: MySQL reads these definitions, but `check` fails. -/
theorem C79_refuted : ∀ text ∈ alarmTexts, (readStatement text).isSome ∧ ∃ m, (Command.check [text]).result = .ok ⟨[py"Errors found in *.sql files:", m], false⟩ := by
  intro text h
  simp only [alarmTexts, List.mem_cons, List.not_mem_nil, or_false] at h
  rcases h with rfl | rfl | rfl | rfl | rfl | rfl
  · exact ⟨by decide +kernel, py"Column 'price' of type 'FLOAT' cannot have a length in table 'things'", by decide +kernel⟩
  · exact ⟨by decide +kernel, py"Column 'bits' of type 'BIT' cannot have a length in table 'things'", by decide +kernel⟩
  · exact ⟨by decide +kernel, py"Column 'id' of type 'FLOAT' cannot be an AUTO_INCREMENT in table 'things'", by decide +kernel⟩
  · exact ⟨by decide +kernel, py"Column 'body' of type 'TEXT' cannot have a default in table 'things'", by decide +kernel⟩
  · exact ⟨by decide +kernel, py"Column 'body' of type 'TEXT' cannot have a collation/character set in table 'things'", by decide +kernel⟩
  · exact ⟨by decide +kernel, py"Column body of type TEXT cannot have a length in table 'things'", by decide +kernel⟩

/-- what MySQL does not accept, although `check` has nothing against it: a `VARCHAR` without a length, and an unsigned `BIT` -/
def missedTexts : List Str :=
  [py"CREATE TABLE things (id INT(10) NOT NULL, name VARCHAR, PRIMARY KEY (id));",
   py"CREATE TABLE things (id INT(10) NOT NULL, flag BIT UNSIGNED DEFAULT 0, PRIMARY KEY (id));"]

/-- **The other direction fails**: columns which MySQL does not accept pass the check. -/
theorem C79_missed_refuted : ∀ text ∈ missedTexts, readStatement text = none ∧ (Command.check [text]).result = .ok ⟨[], true⟩ := by
  intro text h
  simp only [missedTexts, List.mem_cons, List.not_mem_nil, or_false] at h
  rcases h with rfl | rfl
  · exact ⟨by decide +kernel, by decide +kernel⟩
  · exact ⟨by decide +kernel, by decide +kernel⟩

/-- the hypotheses of `C79_lengthless_refuted` hold for a title without a length -/
example : ({ cls := .string, name := py"title", ctype := py"VARCHAR", len := .str [], null := false, default := some py"x" } : Column).schemaCheck = ([], none) ∧
    Sql.readColumn py"`title` VARCHAR NOT NULL DEFAULT 'x'" = none :=
  C79_lengthless_refuted _ rfl (by decide) (.inr rfl) (fun ⟨_, _, h⟩ => by cases h) rfl rfl (by decide) (by decide) (fun h => absurd h (by decide))

/-- the hypotheses of `C79_bit_refuted` hold for a flag -/
example : ({ cls := .numeric, name := py"flag", ctype := py"BIT", len := .str [], unsigned := some true, default := some py"0" } : Column).schemaCheck = ([], none) ∧
    Sql.readColumn py"`flag` BIT UNSIGNED DEFAULT 0" = none :=
  C79_bit_refuted _ rfl rfl rfl py"0" 0 rfl (by decide +kernel) (.inl rfl) (.inr rfl) (fun ⟨_, _, h⟩ => by cases h) rfl rfl rfl (by decide) (by decide)

/-- an enumeration, which MySQL accepts -/
def enumSources : List Str := [py"CREATE TABLE things (id INT(10) NOT NULL, kind ENUM('a', 'b'), PRIMARY KEY (id));"]

/-- the hypotheses of `C79_enum_refuted` hold for it -/
example : (∀ text ∈ enumSources, (readStatement text).isSome) ∧ ∀ o, (Command.check enumSources).result = .ok o → o.success = false := by
  refine ⟨by decide +kernel, ?_⟩
  refine C79_enum_refuted enumSources (match FileDatabase.new enumSources with | .ok d => d | .error _ => {}) (by decide +kernel) (by decide +kernel) (by decide +kernel)
    (match parseCreate (enumSources.headD []) with | .ok (t, _) => t | .error _ => {}) (by decide +kernel) (by unfold Table.Dateless; decide +kernel)
    { cls := .enum, name := py"kind", ctype := py"ENUM", len := .list [py"a", py"b"], autoInc := none } (by decide +kernel) (.inl rfl)

/-- a number with a default -/
def sizeCol : Column := { intCol py"size" with default := some py"3" }

/-- a long text of limited length -/
def bodyCol : Column := { cls := .string, name := py"body", ctype := py"TEXT", len := .str py"100" }

/-- the hypotheses of `C79_columns_partial` hold for an ordinary column -/
example : sizeCol.schemaCheck = ([], none) := by
  refine C79_columns_partial sizeCol (sound_of_easy (by decide)).1 ⟨?_, ?_, ?_, ?_, ?_⟩ (fun e => absurd e (by decide)) (by decide) (fun f hf => ?_)
  · intro _ d hd
    cases hd
    exact .inl (by decide)
  · exact fun e => absurd e (by decide)
  · exact fun e => absurd e (by decide)
  · exact fun e => absurd e (by decide)
  · exact fun e => absurd e (by decide)
  · cases f <;> first | exact hf | exact absurd hf.1 (by decide)

/-- the hypotheses of `C79_partial` hold for a column with a false alarm -/
example : FalseAlarm bodyCol .textLength := by
  refine C79_partial bodyCol (sound_of_easy (by decide)).1 ⟨?_, ?_, ?_, ?_, ?_⟩ .textLength ⟨.inl rfl, by unfold Column.HasLength; decide, by decide⟩
  · exact fun e => absurd e (by decide)
  · exact fun e => absurd e (by decide)
  · exact fun _ => rfl
  · exact fun e => absurd e (by decide)
  · exact fun e => absurd e (by decide)

/-- the hypotheses of `C79_check_refuted` hold for a text of limited length -/
example : ∀ o, (Command.check [py"CREATE TABLE things (id INT(10) NOT NULL, body TEXT(100), PRIMARY KEY (id));"]).result = .ok o → o.success = false := by
  refine C79_check_refuted _ (match FileDatabase.new [py"CREATE TABLE things (id INT(10) NOT NULL, body TEXT(100), PRIMARY KEY (id));"] with | .ok d => d | .error _ => {})
    (by decide +kernel) (by decide +kernel) (by decide +kernel)
    (match parseCreate py"CREATE TABLE things (id INT(10) NOT NULL, body TEXT(100), PRIMARY KEY (id));" with | .ok (t, _) => t | .error _ => {}) (by decide +kernel)
    (by unfold Table.Dateless; decide +kernel) { bodyCol with autoInc := none } (by decide +kernel) (sound_of_easy (by decide)).1 .textLength
    ⟨by decide, by unfold Column.HasLength; decide⟩

/-- `C79_iff` for an ordinary column and for one with a false alarm -/
example : ¬ bodyCol.schemaCheck = ([], none) := by
  rw [C79_iff bodyCol (sound_of_easy (by decide)).1 ⟨fun e => absurd e (by decide), fun e => absurd e (by decide), fun _ => rfl, fun e => absurd e (by decide),
    fun e => absurd e (by decide)⟩ trivial (by decide)]
  exact fun h => h .textLength ⟨by decide, by unfold Column.HasLength; decide⟩

end Examples

end Mygrations

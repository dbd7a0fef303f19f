import Verif.Spec.Faults
import Verif.Proofs.Flawless
import Verif.Props.C27

/-! # Lemmas about the errors of columns, tables and databases -/

namespace Mygrations
open Table Database

/-! ## Columns -/

theorem runChecks_mem : ∀ {l : List (Except PyErr (List Str))}, (Column.runChecks l).2 = none →
    ∀ m, m ∈ (Column.runChecks l).1 ↔ ∃ msgs, .ok msgs ∈ l ∧ m ∈ msgs
  | [], _, m => by simp [Column.runChecks]
  | .error e :: l, h, m => by simp [Column.runChecks] at h
  | .ok a :: l, h, m => by
    have ih := runChecks_mem (l := l) (by simpa [Column.runChecks] using h) m
    simp only [Column.runChecks, List.mem_append, ih, List.mem_cons]
    constructor
    · rintro (h | ⟨x, h1, h2⟩)
      · exact ⟨a, .inl rfl, h⟩
      · exact ⟨x, .inr h1, h2⟩
    · rintro ⟨x, h1 | h1, h2⟩
      · cases h1; exact .inl h2
      · exact .inr ⟨x, h1, h2⟩

theorem upper_nil {s : Str} : upper s = [] ↔ s = [] := by
  unfold upper; simp

theorem truthy_iff {c : Column} : c.len.truthy = true ↔ c.HasLength := by
  unfold Len.truthy Column.HasLength
  cases c.len <;> simp

theorem values_iff {c : Column} : c.enumValues.getD [] ≠ [] ↔ c.HasValues := by
  unfold Column.HasValues
  cases c.enumValues with
  | none => simp
  | some l => cases l <;> simp

theorem nonEmpty_iff {o : Option Str} : (Column.nonEmpty (o.map upper)).isSome = true ↔ ∃ s, o = some s ∧ s ≠ [] := by
  cases o with
  | none => simp [Column.nonEmpty]
  | some s =>
    cases s with
    | nil => simp [Column.nonEmpty, upper]
    | cons x xs => simp [Column.nonEmpty, upper]

theorem getD_binary {o : Option Str} : (o.map upper).getD py"BINARY" ≠ py"BINARY" ↔ ∃ s, o = some s ∧ upper s ≠ py"BINARY" := by
  cases o <;> simp

theorem hasCharset_iff {c : Column} : ((Column.nonEmpty c.characterSet).isSome || (Column.nonEmpty c.collate).isSome) = true ↔ c.HasCharset := by
  rw [Bool.or_eq_true]
  unfold Column.characterSet Column.collate Column.HasCharset
  rw [nonEmpty_iff, nonEmpty_iff]

theorem autoInc_iff {c : Column} : c.isAutoInc = true ↔ c.autoInc = some true := by
  unfold Column.isAutoInc; cases c.autoInc with
  | none => simp
  | some b => cases b <;> simp

theorem unsigned_iff {c : Column} : c.isUnsigned = true ↔ c.unsigned = some true := by
  unfold Column.isUnsigned; cases c.unsigned with
  | none => simp
  | some b => cases b <;> simp

theorem check_mem {b : Bool} {msg m : Str} : (∃ msgs, Column.check b msg = .ok msgs ∧ m ∈ msgs) ↔ b = true ∧ m = msg := by
  unfold Column.check
  cases b <;> simp

/-- some check of the list says `m` -/
def Says (l : List (Except PyErr (List Str))) (m : Str) : Prop := ∃ msgs, .ok msgs ∈ l ∧ m ∈ msgs

theorem says_nil {m : Str} : Says [] m ↔ False := by simp [Says]

theorem says_cons {x : Except PyErr (List Str)} {l : List (Except PyErr (List Str))} {m : Str} :
    Says (x :: l) m ↔ (∃ msgs, x = .ok msgs ∧ m ∈ msgs) ∨ Says l m := by
  unfold Says
  simp only [List.mem_cons]
  constructor
  · rintro ⟨a, h1 | h1, h2⟩
    · exact .inl ⟨a, h1.symm, h2⟩
    · exact .inr ⟨a, h1, h2⟩
  · rintro (⟨a, h1, h2⟩ | ⟨a, h1, h2⟩)
    · exact ⟨a, .inl h1.symm, h2⟩
    · exact ⟨a, .inr h1, h2⟩

theorem says_append {l l' : List (Except PyErr (List Str))} {m : Str} : Says (l ++ l') m ↔ Says l m ∨ Says l' m := by
  unfold Says
  simp only [List.mem_append]
  constructor
  · rintro ⟨a, h1 | h1, h2⟩
    · exact .inl ⟨a, h1, h2⟩
    · exact .inr ⟨a, h1, h2⟩
  · rintro (⟨a, h1, h2⟩ | ⟨a, h1, h2⟩)
    · exact ⟨a, .inl h1, h2⟩
    · exact ⟨a, .inr h1, h2⟩

/-- the fault is there and is called `m` -/
def Called [PyNum] (c : Column) (m : Str) (f : ColumnFault) : Prop := f.In c ∧ m = f.text c

section
variable [PyNum]

theorem says_base {c : Column} {m : Str} : Says c.baseChecks m ↔ Called c m .noName ∨ Called c m .noType := by
  unfold Column.baseChecks Called
  simp only [says_cons, says_nil, or_false, check_mem, ColumnFault.In, ColumnFault.text, List.isEmpty_iff, Column.columnType, upper_nil]

theorem says_numericDefault {c : Column} {m : Str} (hc : c.cls = .numeric) :
    Says c.numericDefaultChecks m ↔ Called c m .textForNumber ∨ Called c m .fractionForInteger ∨ Called c m .notABit := by
  have e1 : c.label ++ py"cannot have a string value as a default" = ColumnFault.text c .textForNumber := by
    simp [Column.label, Column.columnType, ColumnFault.text]
  have e2 : c.label ++ py"must have an integer value as a default" = ColumnFault.text c .fractionForInteger := by
    simp [Column.label, Column.columnType, ColumnFault.text]
  have e3 : py"Column '" ++ c.name ++ py"' of type 'BIT' must have a default of 1 or 0" = ColumnFault.text c .notABit := rfl
  have hty : upper c.ctype = c.columnType := rfl
  unfold Column.numericDefaultChecks Called
  rw [e1, e2, e3]
  simp only [ColumnFault.In, hc, true_and, hty]
  cases hd : c.default with
  | none =>
    have ht : c.defaultType = .none := by simp [Column.defaultType, hd]
    rw [ht]
    simp only [reduceCtorEq, if_false, says_cons, says_nil, check_mem, or_false]
    by_cases hb : c.columnType = py"BIT"
    · rw [if_pos hb]; simp
    · rw [if_neg hb]; simp
  | some d =>
    cases hi : PyNum.int d with
    | some n =>
      have ht : c.defaultType = .int := by simp [Column.defaultType, hd, hi]
      rw [ht]
      simp only [reduceCtorEq, if_false, says_cons, says_nil, check_mem, or_false]
      by_cases hb : c.columnType = py"BIT"
      · rw [if_pos hb]
        simp [hb, check_mem, hi, and_assoc]
      · rw [if_neg hb]
        simp [hb, hi]
    | none =>
      cases hf : PyNum.float d with
      | none =>
        have ht : c.defaultType = .str := by simp [Column.defaultType, hd, hi, hf]
        rw [ht]
        simp [says_cons, says_nil, check_mem, hi, hf]
      | some x =>
        have ht : c.defaultType = .float := by simp [Column.defaultType, hd, hi, hf]
        rw [ht]
        simp only [reduceCtorEq, if_false, says_cons, says_nil, check_mem, or_false]
        by_cases hb : c.columnType = py"BIT"
        · rw [if_pos hb]
          simp [hb, hi, hf, Column.allowFloat]
        · rw [if_neg hb]
          simp [hb, hi, hf, Column.allowFloat]

theorem says_numeric {c : Column} {m : Str} (hc : c.cls = .numeric) : Says c.numericChecks m ↔ ∃ f, Called c m f := by
  have ht : ¬ c.IsText := by unfold Column.IsText; rw [hc]; simp
  have e1 : c.label ++ py"cannot have a length" = ColumnFault.text c .numberLength := by simp [Column.label, Column.columnType, ColumnFault.text]
  have e2 : c.label ++ py"must have an integer value as its length" = ColumnFault.text c .fractionLength := by
    simp [Column.label, Column.columnType, ColumnFault.text]
  have hl : (∃ msgs, (if c.len.truthy = true then
      if Column.noLength.contains c.columnType = true then Column.check true (c.label ++ py"cannot have a length")
      else Column.check (c.lenHasComma && !Column.allowFloat.contains c.columnType) (c.label ++ py"must have an integer value as its length")
      else .ok []) = .ok msgs ∧ m ∈ msgs) ↔ Called c m .numberLength ∨ Called c m .fractionLength := by
    unfold Called
    rw [e1, e2]
    simp only [ColumnFault.In, hc, true_and]
    by_cases h1 : c.len.truthy = true
    · rw [if_pos h1]
      have h1' := truthy_iff.mp h1
      by_cases h2 : Column.noLength.contains c.columnType = true
      · rw [if_pos h2, check_mem]
        have h2' : upper c.ctype ∈ [py"FLOAT", py"DOUBLE", py"BIT"] := by simpa [Column.noLength, Column.columnType] using h2
        simp only [h2', h1', true_and]
        constructor
        · exact .inl
        · rintro (h | ⟨⟨h, _⟩, _⟩)
          · exact h
          · exfalso; apply h; revert h2'; simp only [List.mem_cons, List.not_mem_nil, or_false]; rintro (e | e | e) <;> simp [e]
      · rw [if_neg h2, check_mem]
        have h2' : upper c.ctype ∉ [py"FLOAT", py"DOUBLE", py"BIT"] := by simpa [Column.noLength, Column.columnType] using h2
        simp only [h2', false_and, false_or, Bool.and_eq_true, Bool.not_eq_true']
        apply and_congr ?_ Iff.rfl
        have e1 : c.lenHasComma = true ↔ ∃ s, c.len = .str s ∧ ',' ∈ s := by
          unfold Column.lenHasComma
          cases hlen : c.len with
          | str s => simp [hasChar]
          | none => simp
          | list l => simp
        have e2 : Column.allowFloat.contains c.columnType = false ↔ upper c.ctype ∉ [py"DECIMAL", py"NUMERIC", py"FLOAT", py"DOUBLE", py"BIT"] := by
          have hb : upper c.ctype ≠ py"BIT" := fun e => h2' (by simp [e])
          simp [Column.allowFloat, Column.columnType, hb]
        rw [e1, e2]
        exact And.comm
    · rw [if_neg h1]
      have h1' : ¬ c.HasLength := fun h => h1 (truthy_iff.mpr h)
      simp only [h1', and_false, false_and, false_or]
      constructor
      · rintro ⟨msgs, h, hm⟩; cases h; cases hm
      · rintro ⟨⟨_, s, h2, h3⟩, _⟩
        exfalso
        apply h1
        rw [h2]
        cases s with
        | nil => cases h3
        | cons x xs => rfl
  unfold Column.numericChecks
  simp only [says_append, says_base, says_numericDefault hc, says_cons, says_nil, check_mem, or_false]
  rw [hl]
  constructor
  · rintro ((h | h) | h | h | h)
    · rcases h with h | h <;> exact ⟨_, h⟩
    · rcases h with h | h | h <;> exact ⟨_, h⟩
    · rcases h with h | h <;> exact ⟨_, h⟩
    · exact ⟨.numberCharset, ⟨hc, by simpa [Column.characterSet, Option.isSome_iff_ne_none] using h.1⟩, by simpa [Column.label, Column.columnType, ColumnFault.text] using h.2⟩
    · rcases h with h | h | h
      · exact ⟨.numberCollation, ⟨hc, by simpa [Column.collate, Option.isSome_iff_ne_none] using h.1⟩, by simpa [Column.label, Column.columnType, ColumnFault.text] using h.2⟩
      · obtain ⟨h1, h2⟩ := h
        rw [Bool.and_eq_true] at h1
        exact ⟨.fractionCounts, ⟨hc, by simpa [Column.noLength, Column.columnType] using h1.2, autoInc_iff.mp h1.1⟩, by simpa [Column.label, Column.columnType, ColumnFault.text] using h2⟩
      · exact ⟨.numberValues, ⟨hc, values_iff.mp (by simpa using h.1)⟩, by simpa [Column.columnType, ColumnFault.text] using h.2⟩
  · rintro ⟨f, h⟩
    cases f
    case noName => exact .inl (.inl (.inl h))
    case noType => exact .inl (.inl (.inr h))
    case textForNumber => exact .inl (.inr (.inl h))
    case fractionForInteger => exact .inl (.inr (.inr (.inl h)))
    case notABit => exact .inl (.inr (.inr (.inr h)))
    case numberLength => exact .inr (.inl (.inl h))
    case fractionLength => exact .inr (.inl (.inr h))
    case numberCharset =>
      obtain ⟨⟨_, h1⟩, h2⟩ := h
      exact .inr (.inr (.inl ⟨by simpa [Column.characterSet, Option.isSome_iff_ne_none] using h1, by simpa [Column.label, Column.columnType, ColumnFault.text] using h2⟩))
    case numberCollation =>
      obtain ⟨⟨_, h1⟩, h2⟩ := h
      exact .inr (.inr (.inr (.inl ⟨by simpa [Column.collate, Option.isSome_iff_ne_none] using h1, by simpa [Column.label, Column.columnType, ColumnFault.text] using h2⟩)))
    case fractionCounts =>
      obtain ⟨⟨_, h1, h1'⟩, h2⟩ := h
      refine .inr (.inr (.inr (.inr (.inl ⟨?_, by simpa [Column.label, Column.columnType, ColumnFault.text] using h2⟩))))
      rw [Bool.and_eq_true]
      exact ⟨autoInc_iff.mpr h1', by simpa [Column.noLength, Column.columnType] using h1⟩
    case numberValues =>
      obtain ⟨⟨_, h1⟩, h2⟩ := h
      exact .inr (.inr (.inr (.inr (.inr ⟨by simpa using values_iff.mpr h1, by simpa [Column.columnType, ColumnFault.text] using h2⟩))))
    case noValues => obtain ⟨⟨h1, _⟩, _⟩ := h; rw [hc] at h1; cases h1
    case defaultNotAValue => obtain ⟨⟨h1, _⟩, _⟩ := h; rw [hc] at h1; cases h1
    all_goals exact absurd h.1.1 ht

/-- the faults which `String` looks for -/
def textFaults : List ColumnFault := [.noName, .noType, .textDefault, .textCounts, .textCharset, .binaryCharset, .textLength, .textValues, .textUnsigned]

theorem says_string {c : Column} {m : Str} (ht : c.IsText) : Says c.stringChecks m ↔ ∃ f ∈ textFaults, Called c m f := by
  have e1 : c.label ++ py"cannot have a default" = ColumnFault.text c .textDefault := by simp [Column.label, Column.columnType, ColumnFault.text]
  have e2 : c.label ++ py"cannot be an AUTO_INCREMENT: only numeric columns can" = ColumnFault.text c .textCounts := by
    simp [Column.label, Column.columnType, ColumnFault.text]
  have e3 : c.label ++ py"cannot have a collation/character set" = ColumnFault.text c .textCharset := by
    simp [Column.label, Column.columnType, ColumnFault.text]
  have e4 : c.label ++ py"can only have a collate/character set of BINARY" = ColumnFault.text c .binaryCharset := by
    simp [Column.label, Column.columnType, ColumnFault.text]
  have e5 : py"Column " ++ c.name ++ py" of type " ++ c.columnType ++ py" cannot have a length" = ColumnFault.text c .textLength := rfl
  have e6 : py"Column '" ++ c.name ++ py"' of type " ++ c.columnType ++ py" is not allowed to have a list of values for its length" =
    ColumnFault.text c .textValues := rfl
  have e7 : py"Column " ++ c.name ++ py" cannot be unsigned" = ColumnFault.text c .textUnsigned := rfl
  have d1 : (c.hasDefault && !Column.allowedCollation.contains c.columnType) = true ↔ ColumnFault.In c .textDefault := by
    simp only [ColumnFault.In, ht, true_and, Bool.and_eq_true, Bool.not_eq_true', Column.columnType]
    simp [Column.allowedCollation]
  have d2 : c.isAutoInc = true ↔ ColumnFault.In c .textCounts := by simp only [ColumnFault.In, ht, true_and, autoInc_iff]
  have d5 : (c.len.truthy && !Column.allowedLength.contains c.columnType) = true ↔ ColumnFault.In c .textLength := by
    simp only [ColumnFault.In, ht, true_and, Bool.and_eq_true, Bool.not_eq_true', Column.columnType, truthy_iff]
    simp [Column.allowedLength]
  have d6 : (decide ((c.enumValues.getD []) ≠ []) && !(c.columnType = py"ENUM" || c.columnType = py"SET")) = true ↔ ColumnFault.In c .textValues := by
    simp only [ColumnFault.In, ht, true_and, Bool.and_eq_true, decide_eq_true_eq, values_iff, show upper c.ctype = c.columnType from rfl]
    simp
  have d7 : c.isUnsigned = true ↔ ColumnFault.In c .textUnsigned := by simp only [ColumnFault.In, ht, true_and, unsigned_iff]
  have dc : (∃ msgs, (if ((Column.nonEmpty c.characterSet).isSome || (Column.nonEmpty c.collate).isSome) = true then
      .ok ((if Column.allowedCollation.contains c.columnType = true then [] else [ColumnFault.text c .textCharset]) ++
           (if (c.columnType = py"BINARY" ∨ c.columnType = py"VARBINARY") ∧
               (c.collate.getD py"BINARY" ≠ py"BINARY" ∨ c.characterSet.getD py"BINARY" ≠ py"BINARY") then
              [ColumnFault.text c .binaryCharset]
            else []))
    else .ok [] : Except PyErr (List Str)) = .ok msgs ∧ m ∈ msgs) ↔ Called c m .textCharset ∨ Called c m .binaryCharset := by
    unfold Called
    by_cases h : ((Column.nonEmpty c.characterSet).isSome || (Column.nonEmpty c.collate).isSome) = true
    · rw [if_pos h]
      have h' := hasCharset_iff.mp h
      have a1 : Column.allowedCollation.contains c.columnType = false ↔ ColumnFault.In c .textCharset := by
        simp only [ColumnFault.In, ht, h', true_and, Column.columnType]
        simp [Column.allowedCollation]
      have a2 : ((c.columnType = py"BINARY" ∨ c.columnType = py"VARBINARY") ∧
               (c.collate.getD py"BINARY" ≠ py"BINARY" ∨ c.characterSet.getD py"BINARY" ≠ py"BINARY")) ↔ ColumnFault.In c .binaryCharset := by
        unfold Column.collate Column.characterSet
        rw [getD_binary, getD_binary]
        simp only [ColumnFault.In, ht, h', true_and, Column.columnType]
        constructor
        · rintro ⟨x, y⟩; exact ⟨by simpa using x, y.symm⟩
        · rintro ⟨x, y⟩; exact ⟨by simpa using x, y.symm⟩
      rw [← a1, ← a2]
      constructor
      · rintro ⟨msgs, hm, hx⟩
        cases hm
        rw [List.mem_append] at hx
        rcases hx with hx | hx
        · left
          split at hx
          · cases hx
          · rename_i hn
            exact ⟨by simpa using hn, List.mem_singleton.mp hx⟩
        · right
          split at hx
          · rename_i hn
            exact ⟨hn, List.mem_singleton.mp hx⟩
          · cases hx
      · rintro (⟨hn, rfl⟩ | ⟨hn, rfl⟩)
        · exact ⟨_, rfl, List.mem_append_left _ (by rw [hn]; simp)⟩
        · exact ⟨_, rfl, List.mem_append_right _ (by rw [if_pos hn]; simp)⟩
    · rw [if_neg h]
      have h' : ¬ c.HasCharset := fun x => h (hasCharset_iff.mpr x)
      simp [ColumnFault.In, h']
  unfold Column.stringChecks
  rw [e1, e2, e3, e4, e5, e6, e7]
  simp only [says_append, says_base, says_cons, says_nil, check_mem, or_false]
  rw [dc, d1, d2, d5, d6, d7]
  unfold textFaults
  simp only [List.mem_cons, List.not_mem_nil, or_false, exists_eq_or_imp, exists_eq_left]
  unfold Called
  simp only [or_assoc]

theorem says_enum {c : Column} {m : Str} (hc : c.cls = .enum) (hq : (Column.runChecks c.enumChecks).2 = none) : Says c.enumChecks m ↔ ∃ f, Called c m f := by
  have ht : c.IsText := .inr hc
  have hn : c.cls ≠ .numeric := by rw [hc]; simp
  have d1 : (decide ((c.enumValues.getD []) = [])) = true ↔ ColumnFault.In c .noValues := by
    simp only [ColumnFault.In, hc, true_and, ← values_iff, decide_eq_true_eq, ne_eq, Decidable.not_not]
  have d7 : c.isUnsigned = true ↔ ColumnFault.In c .textUnsigned := by simp only [ColumnFault.In, ht, true_and, unsigned_iff]
  have hd : (∃ msgs, (match Column.nonEmpty c.default with
    | none => .ok []
    | some d =>
      match c.enumValues with
      | none => .error .typeError
      | some vs => Column.check (!vs.contains d) (ColumnFault.text c .defaultNotAValue) :
        Except PyErr (List Str)) = .ok msgs ∧ m ∈ msgs) ↔ Called c m .defaultNotAValue := by
    unfold Called
    simp only [ColumnFault.In, hc, true_and]
    cases hdef : c.default with
    | none => simp [Column.nonEmpty]
    | some d =>
      cases d with
      | nil => simp [Column.nonEmpty]
      | cons x xs =>
        simp only [Column.nonEmpty]
        cases hv : c.enumValues with
        | none => simp
        | some vs =>
          simp only [check_mem]
          simp
  unfold Column.enumChecks
  rw [show py"Default value for '" ++ c.columnType ++ py"' column '" ++ c.name ++ py"' is not in the list of allowed values" =
    ColumnFault.text c .defaultNotAValue from rfl]
  simp only [says_append, says_string ht, says_cons, says_nil, check_mem, or_false]
  rw [d1, d7]
  have hauto : ¬ ∃ msgs, (if c.isAutoInc = true then .error (.nameError py"no_auto_increment") else .ok [] : Except PyErr (List Str)) = .ok msgs ∧ m ∈ msgs := by
    rintro ⟨msgs, h, hm⟩
    split at h
    · cases h
    · cases h; cases hm
  constructor
  · rintro (⟨f, _, h⟩ | h | h | h | h)
    · exact ⟨f, h⟩
    · exact ⟨.noValues, h⟩
    · exact ⟨_, hd.mp h⟩
    · exact absurd h hauto
    · exact ⟨.textUnsigned, h⟩
  · rintro ⟨f, h⟩
    cases f
    case noValues => exact .inr (.inl h)
    case defaultNotAValue => exact .inr (.inr (.inl (hd.mpr h)))
    case noName => exact .inl ⟨_, by simp [textFaults], h⟩
    case noType => exact .inl ⟨_, by simp [textFaults], h⟩
    case textDefault => exact .inl ⟨_, by simp [textFaults], h⟩
    case textCounts => exact .inl ⟨_, by simp [textFaults], h⟩
    case textCharset => exact .inl ⟨_, by simp [textFaults], h⟩
    case binaryCharset => exact .inl ⟨_, by simp [textFaults], h⟩
    case textLength => exact .inl ⟨_, by simp [textFaults], h⟩
    case textValues => exact .inl ⟨_, by simp [textFaults], h⟩
    case textUnsigned => exact .inl ⟨_, by simp [textFaults], h⟩
    all_goals exact absurd h.1.1 hn

/-- the errors of a column whose check does not raise are its faults -/
theorem schemaCheck_mem {c : Column} (hq : c.schemaCheck.2 = none) (m : Str) : m ∈ c.schemaCheck.1 ↔ ∃ f : ColumnFault, f.In c ∧ m = f.text c := by
  unfold Column.schemaCheck at hq ⊢
  rw [runChecks_mem hq]
  cases hc : c.cls with
  | numeric => exact says_numeric hc
  | string =>
    refine (says_string (.inl hc)).trans ⟨fun ⟨f, _, h⟩ => ⟨f, h⟩, ?_⟩
    rintro ⟨f, h⟩
    have hn : c.cls ≠ .numeric := by rw [hc]; simp
    have he : c.cls ≠ .enum := by rw [hc]; simp
    cases f
    case noName => exact ⟨_, by simp [textFaults], h⟩
    case noType => exact ⟨_, by simp [textFaults], h⟩
    case textDefault => exact ⟨_, by simp [textFaults], h⟩
    case textCounts => exact ⟨_, by simp [textFaults], h⟩
    case textCharset => exact ⟨_, by simp [textFaults], h⟩
    case binaryCharset => exact ⟨_, by simp [textFaults], h⟩
    case textLength => exact ⟨_, by simp [textFaults], h⟩
    case textValues => exact ⟨_, by simp [textFaults], h⟩
    case textUnsigned => exact ⟨_, by simp [textFaults], h⟩
    case noValues => exact absurd h.1.1 he
    case defaultNotAValue => exact absurd h.1.1 he
    all_goals exact absurd h.1.1 hn
  | enum =>
    rw [hc] at hq
    exact says_enum hc hq
  | date =>
    rw [hc] at hq
    exfalso
    revert hq
    unfold Column.dateChecks Column.baseChecks Column.check
    cases c.isAutoInc <;> simp [Column.runChecks]

/-! ## Keys and foreign keys by themselves -/

theorem indexErrors_mem {i : Index} {m : Str} : m ∈ i.schemaErrors ↔ IndexFault i m := by
  unfold Index.schemaErrors
  simp only [List.mem_append, List.mem_ite_nil_right, List.mem_singleton, Index.indexType, upper_nil]
  constructor
  · rintro (((⟨h, rfl⟩ | ⟨h, rfl⟩) | ⟨h, rfl⟩) | ⟨h, rfl⟩)
    · exact .noName h
    · exact .noType h
    · exact .noColumns h
    · exact .long h
  · rintro (h | h | h | h)
    · exact .inl (.inl (.inl ⟨h, rfl⟩))
    · exact .inl (.inl (.inr ⟨h, rfl⟩))
    · exact .inl (.inr ⟨h, rfl⟩)
    · exact .inr ⟨h, rfl⟩

theorem constraintErrors_mem {k : Constraint} {m : Str} : m ∈ k.schemaErrors ↔ ConstraintFault k m := by
  have hact : ∀ a : Str, Constraint.allowedActions.contains a = true ↔ a ∈ fkActionNames := fun a => by
    rw [List.contains_iff_mem]; exact Iff.rfl
  unfold Constraint.schemaErrors
  simp only [List.mem_append, hact]
  constructor
  · rintro ((((((h | h) | h) | h) | h) | h) | h)
    · split at h
      · rename_i hn; cases List.mem_singleton.mp h; exact .noName hn
      · split at h
        · rename_i hn; cases List.mem_singleton.mp h; exact .long hn
        · cases h
    all_goals split at h
    all_goals first
      | (cases h; done)
      | (rename_i hn; cases List.mem_singleton.mp h
         first
          | exact .onDelete hn
          | exact .onUpdate hn
          | exact .missingName hn
          | exact .noColumn hn
          | exact .noTable hn
          | exact .noForeignColumn hn)
  · rintro (h | h | h | h | h | h | h | h)
    · exact .inl (.inl (.inl (.inl (.inl (.inl (by rw [if_pos h]; simp))))))
    · exact .inl (.inl (.inl (.inr (by rw [if_pos h]; simp))))
    · refine .inl (.inl (.inl (.inl (.inl (.inl ?_)))))
      rw [if_neg (fun e => by rw [e] at h; simp at h), if_pos h]; simp
    · exact .inl (.inl (.inl (.inl (.inl (.inr (by rw [if_neg h]; simp))))))
    · exact .inl (.inl (.inl (.inl (.inr (by rw [if_neg h]; simp)))))
    · exact .inl (.inl (.inr (by rw [if_pos h]; simp)))
    · exact .inl (.inr (by rw [if_pos h]; simp))
    · exact .inr (by rw [if_pos h]; simp)

/-! ## Tables -/

theorem columnErrors_mem {t : Table} : ∀ {cs : List Column}, (∀ c ∈ cs, c.schemaCheck.2 = none) →
    (t.columnErrors cs).2.2 = none ∧ ∀ m, m ∈ (t.columnErrors cs).1 ↔ ∃ c ∈ cs, ∃ e ∈ c.schemaCheck.1, m = t.inTable e
  | [], _ => by simp [columnErrors]
  | c :: cs, h => by
    have ih := columnErrors_mem (t := t) (cs := cs) (fun x hx => h x (List.mem_cons_of_mem _ hx))
    have hc := h c List.mem_cons_self
    rcases hs : c.schemaCheck with ⟨a, b⟩
    rw [hs] at hc
    simp only at hc
    subst hc
    unfold columnErrors
    rw [hs]
    simp only [List.mem_append, List.mem_map, ih.2, List.mem_cons]
    refine ⟨ih.1, fun m => ⟨?_, ?_⟩⟩
    · rintro (⟨e, h1, rfl⟩ | ⟨x, h1, e, h2, rfl⟩)
      · exact ⟨c, .inl rfl, e, by rw [hs]; exact h1, rfl⟩
      · exact ⟨x, .inr h1, e, h2, rfl⟩
    · rintro ⟨x, rfl | h1, e, h2, rfl⟩
      · exact .inl ⟨e, by rw [hs] at h2; exact h2, rfl⟩
      · exact .inr ⟨x, h1, e, h2, rfl⟩

theorem inTable_eq (t : Table) (m : Str) : t.inTable m = m ++ py" in table '" ++ t.name ++ py"'" := rfl

/-- the errors of a table whose checks do not raise are its faults -/
theorem findAll_mem {t : Table} (hq : ∀ c ∈ t.columns.values, c.schemaCheck.2 = none) (hi : ∀ i ∈ t.indexes.values, i.columns ≠ []) (m : Str) :
    m ∈ t.findAll.schema ↔ TableFault t m := by
  obtain ⟨hraise, hcols⟩ := columnErrors_mem (t := t) hq
  unfold findAll
  rcases hce : t.columnErrors t.columns.values with ⟨s, p, r⟩
  rw [hce] at hraise hcols
  simp only at hraise hcols
  subst hraise
  simp only [List.mem_append, hcols, List.mem_map, List.mem_flatMap, List.mem_ite_nil_right, List.mem_singleton]
  unfold structureErrors
  simp only [List.mem_append, List.mem_flatMap, List.mem_map, List.mem_filter, Bool.not_eq_true']
  constructor
  · rintro (((((⟨h, rfl⟩ | ⟨h, rfl⟩) | ⟨c, hc, e, he, rfl⟩) | ⟨e, ⟨i, hi', he⟩, rfl⟩) | ⟨e, ⟨k, hk, he⟩, rfl⟩) | (h | h) | ⟨i, hi', c, ⟨hc, hn⟩, rfl⟩)
    · exact .noName h
    · exact .noColumns h
    · obtain ⟨f, hf, rfl⟩ := (schemaCheck_mem (hq c hc) e).mp he
      exact .column c f hc hf
    · exact .index i e hi' (indexErrors_mem.mp he)
    · exact .constraint k e hk (constraintErrors_mem.mp he)
    · split at h
      · rename_i hl
        cases List.mem_singleton.mp h
        match hf : t.indexes.values.filter Index.isPrimary, hl with
        | i :: j :: rest, _ => exact .primaries i j rest hf
        | [_], hl => simp [hf] at hl
        | [], hl => simp [hf] at hl
      · cases h
    · match hf : t.columns.values.filter Column.isAutoInc with
      | [] => rw [hf] at h; cases h
      | a :: b :: rest =>
        rw [hf] at h
        cases List.mem_singleton.mp h
        exact .counters a b rest hf
      | [a] =>
        rw [hf] at h
        match hp : t.indexes.values.filter Index.isPrimary with
        | [] =>
          rw [hp] at h
          cases List.mem_singleton.mp h
          refine .countsWithoutKey a hf (fun i hi' => ?_)
          have := List.filter_eq_nil_iff.mp hp i hi'
          simpa using this
        | i :: rest =>
          rw [hp] at h
          simp only at h
          split at h
          · rename_i hne
            cases List.mem_singleton.mp h
            have hmem : i ∈ t.indexes.values := (List.mem_filter.mp (hp ▸ List.mem_cons_self : i ∈ t.indexes.values.filter Index.isPrimary)).1
            have hcne := hi i hmem
            cases hcl : i.columns with
            | nil => exact absurd hcl hcne
            | cons c cs =>
              rw [hcl] at hne
              exact .countsOther a i rest c hf hp (by rw [hcl]; rfl) hne
          · cases h
    · refine .indexColumn i c hi' hc (fun hk => ?_)
      rw [Dict.has_iff.mpr hk] at hn
      cases hn
  · rintro (h | h | ⟨c, f, hc, hf⟩ | ⟨i, m, hi', he⟩ | ⟨k, m, hk, he⟩ | ⟨i, j, rest, h⟩ | ⟨a, b, rest, h⟩ | ⟨a, h1, h2⟩ | ⟨a, i, rest, c, h1, h2, h3, h4⟩ | ⟨i, c, h1, h2, h3⟩)
    · exact .inl (.inl (.inl (.inl (.inl ⟨h, rfl⟩))))
    · exact .inl (.inl (.inl (.inl (.inr ⟨h, rfl⟩))))
    · exact .inl (.inl (.inl (.inr ⟨c, hc, _, (schemaCheck_mem (hq c hc) _).mpr ⟨f, hf, rfl⟩, rfl⟩)))
    · exact .inl (.inl (.inr ⟨_, ⟨i, hi', indexErrors_mem.mpr he⟩, rfl⟩))
    · exact .inl (.inr ⟨_, ⟨k, hk, constraintErrors_mem.mpr he⟩, rfl⟩)
    · exact .inr (.inl (.inl (by rw [h, if_pos (by simp)]; simp)))
    · exact .inr (.inl (.inr (by rw [h]; simp)))
    · refine .inr (.inl (.inr ?_))
      have : t.indexes.values.filter Index.isPrimary = [] := List.filter_eq_nil_iff.mpr (fun i hi' => by rw [h2 i hi']; simp)
      rw [h1, this]
      simp
    · refine .inr (.inl (.inr ?_))
      rw [h1, h2]
      cases hcl : i.columns with
      | nil => rw [hcl] at h3; cases h3
      | cons c' cs =>
        rw [hcl] at h3
        cases h3
        simp [hcl, h4]
    · refine .inr (.inr ⟨i, h1, c, ⟨h2, ?_⟩, rfl⟩)
      cases hh : t.columns.has c with
      | false => rfl
      | true => exact absurd (Dict.has_iff.mp hh) h3

theorem parsing_mem {t : Table} {m : Str} (h : m ∈ t.findAll.parsing) : NotedFault t m := by
  have cols : ∀ (cs : List Column), m ∈ (t.columnErrors cs).2.1 → ∃ c ∈ cs, ∃ e ∈ c.parsingErrors, m = t.inTable e := by
    intro cs
    induction cs with
    | nil => intro h; cases h
    | cons c cs ih =>
      intro h
      unfold columnErrors at h
      rcases hs : c.schemaCheck with ⟨a, b⟩
      rw [hs] at h
      cases b with
      | some e => cases h
      | none =>
        simp only [List.mem_append, List.mem_map] at h
        rcases h with ⟨e, he, rfl⟩ | h
        · exact ⟨c, List.mem_cons_self, e, he, rfl⟩
        · obtain ⟨x, hx, r⟩ := ih h
          exact ⟨x, List.mem_cons_of_mem _ hx, r⟩
  unfold findAll at h
  rcases hce : t.columnErrors t.columns.values with ⟨s, p, r⟩
  have cols := cols t.columns.values
  rw [hce] at h cols
  have fin : m ∈ p → NotedFault t m := fun hp => by
    obtain ⟨c, hc, e, he, rfl⟩ := cols hp
    exact .column c e hc he
  cases r with
  | some e => exact fin h
  | none =>
    simp only [List.mem_append, List.mem_map, List.mem_flatMap] at h
    rcases h with h | ⟨e, ⟨k, hk, he⟩, rfl⟩
    · exact fin h
    · exact .constraint k e hk he

theorem parsing_complete {t : Table} (hq : ∀ c ∈ t.columns.values, c.schemaCheck.2 = none) {m : Str} (h : NotedFault t m) : m ∈ t.findAll.parsing := by
  have cols : ∀ (cs : List Column), (∀ c ∈ cs, c.schemaCheck.2 = none) → ∀ c ∈ cs, ∀ e ∈ c.parsingErrors, t.inTable e ∈ (t.columnErrors cs).2.1 := by
    intro cs
    induction cs with
    | nil => intro _ c hc; cases hc
    | cons c cs ih =>
      intro h x hx e he
      have hc := h c List.mem_cons_self
      unfold columnErrors
      rcases hs : c.schemaCheck with ⟨a, b⟩
      rw [hs] at hc
      simp only at hc
      subst hc
      simp only [List.mem_append, List.mem_map]
      rcases List.mem_cons.mp hx with rfl | hx
      · exact .inl ⟨e, he, rfl⟩
      · exact .inr (ih (fun y hy => h y (List.mem_cons_of_mem _ hy)) x hx e he)
  have hr := (columnErrors_mem (t := t) hq).1
  have cols := cols _ hq
  unfold findAll
  rcases hce : t.columnErrors t.columns.values with ⟨s, p, r⟩
  rw [hce] at hr cols
  simp only at hr
  subst hr
  simp only [List.mem_append, List.mem_map, List.mem_flatMap]
  rcases h with ⟨c, e, hc, he⟩ | ⟨k, e, hk, he⟩
  · exact .inl (cols c hc e he)
  · exact .inr ⟨e, ⟨k, hk, he⟩, rfl⟩

end

/-! ## Foreign keys among the tables -/

theorem notIndexed {t : Table} (hi : t.IndexesHaveColumns) (hc : t.CacheRight) {c : Str} {t' : Table} (hk : c ∈ t.columns.keys)
    (h : t.columnIsIndexed c = .ok (false, t')) : ¬ t.HasKeyOn c := by
  obtain ⟨b, t'', h1, h2, _⟩ := columnIsIndexed_spec hi hc c
  rw [h] at h1
  cases h1
  intro hh
  have := h2.mpr ⟨hk, hh⟩
  cases this

/-- what is reported about a foreign key is true -/
theorem fk_sound {tables : Dict Table} (hk : KeyedTables tables) (hi : ∀ t ∈ tables.values, t.IndexesHaveColumns ∧ t.CacheRight) {t : Table} (ht : t ∈ tables.values)
    {k : Constraint} {m : Str} (h : findConstraintErrors tables t k = .ok (some m)) : FkFault tables t k m := by
  obtain ⟨n, hn⟩ := Dict.mem_values.mp ht
  have tk := hk.keyed n t hn
  unfold findConstraintErrors at h
  cases h1 : tables.get? k.ftable with
  | none =>
    rw [h1] at h
    cases h
    exact .noTable (by rw [← Dict.get?_eq_none]; exact h1)
  | some ft =>
    rw [h1] at h
    simp only at h
    have hm1 := Dict.mem_of_get? h1
    have fk := hk.keyed _ ft hm1
    have hfname : ft.name = k.ftable := hk.name _ ft hm1
    cases h2 : ft.columns.get? k.fcolumn with
    | none =>
      rw [h2] at h
      cases h
      exact .noForeignColumn ft h1 (by rw [← Dict.get?_eq_none]; exact h2)
    | some fcol =>
      rw [h2] at h
      simp only at h
      have hfc : fcol.name = k.fcolumn := fk.colName _ _ (Dict.mem_of_get? h2)
      cases h3 : t.columns.get? k.column with
      | none =>
        rw [h3] at h
        cases h
        have := FkFault.noColumn (tables := tables) (t := t) (k := k) (by rw [← Dict.get?_eq_none]; exact h3)
        simpa [fkLabel, dotted, place] using this
      | some col =>
        rw [h3] at h
        simp only at h
        have hcn : col.name = k.column := tk.colName _ _ (Dict.mem_of_get? h3)
        rw [hcn, hfc] at h
        cases h4 : t.columnIsIndexed k.column with
        | error e => rw [h4] at h; cases h
        | ok x =>
          obtain ⟨b, t'⟩ := x
          rw [h4] at h
          cases b with
          | false =>
            simp only at h
            cases h
            have := FkFault.noKey (tables := tables) (k := k) (notIndexed (hi t ht).1 (hi t ht).2 (Dict.mem_keys_of_get? h3) h4)
            simpa [fkLabel, dotted, place] using this
          | true =>
            simp only at h
            cases h5 : attributeError k t ft col fcol with
            | some e =>
              rw [h5] at h
              cases h
              unfold attributeError mismatch at h5
              rw [hfname, hfc, hcn] at h5
              have sh : ∀ o : Option Str, showOpt o = o.getD py"None" := fun o => by cases o <;> rfl
              rw [sh, sh, sh, sh] at h5
              split at h5
              · cases h5; exact .type ft col fcol h1 h3 h2 (by assumption)
              · split at h5
                · cases h5; exact .length ft col fcol h1 h3 h2 (by assumption)
                · split at h5
                  · cases h5; exact .charset ft col fcol h1 h3 h2 (by assumption)
                  · split at h5
                    · cases h5; exact .collation ft col fcol h1 h3 h2 (by assumption)
                    · split at h5
                      · rename_i hu
                        cases h5
                        simp only [Bool.and_eq_true, Bool.not_eq_true'] at hu
                        have := FkFault.unsignedHere (tables := tables) ft col fcol h1 h3 h2 hu.1 hu.2
                        simpa [fkLabel, dotted, place] using this
                      · split at h5
                        · rename_i hu
                          cases h5
                          simp only [Bool.and_eq_true, Bool.not_eq_true'] at hu
                          have := FkFault.unsignedThere (tables := tables) ft col fcol h1 h3 h2 hu.1 hu.2
                          simpa [fkLabel, dotted, place] using this
                        · cases h5
            | none =>
              rw [h5] at h
              simp only at h
              cases h6 : setNullError k t col with
              | some e =>
                rw [h6] at h
                cases h
                unfold setNullError at h6
                rw [hcn] at h6
                split at h6
                · rename_i hs
                  cases h6
                  have hnull : col.null = false := by simpa using hs.2
                  have : ∀ how, _ → _ := fun how => FkFault.setNull (tables := tables) (k := k) (t := t) col how h3 hnull
                  by_cases a : k.onDelete = py"SET NULL" <;> by_cases b : k.onUpdate = py"SET NULL"
                  · have := this py"ON DELETE and ON UPDATE" (.inl ⟨a, b, rfl⟩)
                    simpa [fkLabel, dotted, place, a, b, join] using this
                  · have := this py"ON DELETE" (.inr (.inl ⟨a, b, rfl⟩))
                    simpa [fkLabel, dotted, place, a, b, join] using this
                  · have := this py"ON UPDATE" (.inr (.inr ⟨a, b, rfl⟩))
                    simpa [fkLabel, dotted, place, a, b, join] using this
                  · rcases hs.1 with c | c
                    · exact absurd c a
                    · exact absurd c b
                · cases h6
              | none =>
                rw [h6] at h
                simp only at h
                cases h7 : ft.columnIsIndexed k.fcolumn with
                | error e => rw [h7] at h; cases h
                | ok y =>
                  obtain ⟨b, ft'⟩ := y
                  rw [h7] at h
                  cases b with
                  | true => cases h
                  | false =>
                    simp only [hfname] at h
                    cases h
                    have hft := hi ft (Dict.mem_values.mpr ⟨_, hm1⟩)
                    have := FkFault.noForeignKey (t := t) ft h1 (notIndexed hft.1 hft.2 (Dict.mem_keys_of_get? h2) h7)
                    simpa [fkLabel, dotted, place] using this

/-- a foreign key with a fault is not valid -/
theorem fk_invalid {tables : Dict Table} {t : Table} {k : Constraint} {m : Str} (h : FkFault tables t k m) : ¬ FkValid tables t k := by
  rintro ⟨ft, fcol, col, g1, g2, g3, g4, g5, g6, g7, g8, g9, g10, g11, g12⟩
  cases h with
  | noTable h => exact h (Dict.mem_keys_of_get? g1)
  | noForeignColumn ft' h1 h2 => rw [g1] at h1; cases h1; exact h2 (Dict.mem_keys_of_get? g2)
  | noColumn h => exact h (Dict.mem_keys_of_get? g3)
  | noKey h => exact h g4.2
  | type ft' c fc h1 h2 h3 h4 => rw [g1] at h1; cases h1; rw [g3] at h2; cases h2; rw [g2] at h3; cases h3; exact h4 g6
  | length ft' c fc h1 h2 h3 h4 => rw [g1] at h1; cases h1; rw [g3] at h2; cases h2; rw [g2] at h3; cases h3; exact h4 g7
  | charset ft' c fc h1 h2 h3 h4 => rw [g1] at h1; cases h1; rw [g3] at h2; cases h2; rw [g2] at h3; cases h3; exact h4 g8
  | collation ft' c fc h1 h2 h3 h4 => rw [g1] at h1; cases h1; rw [g3] at h2; cases h2; rw [g2] at h3; cases h3; exact h4 g9
  | unsignedHere ft' c fc h1 h2 h3 h4 h5 =>
    rw [g1] at h1; cases h1; rw [g3] at h2; cases h2; rw [g2] at h3; cases h3; rw [g10, h5] at h4; cases h4
  | unsignedThere ft' c fc h1 h2 h3 h4 h5 =>
    rw [g1] at h1; cases h1; rw [g3] at h2; cases h2; rw [g2] at h3; cases h3; rw [g10, h5] at h4; cases h4
  | setNull c how h1 h2 h3 =>
    rw [g3] at h1; cases h1
    rcases h3 with ⟨a, _⟩ | ⟨a, _⟩ | ⟨_, a, _⟩
    · rw [g11 a] at h2; cases h2
    · rw [g11 a] at h2; cases h2
    · rw [g12 a] at h2; cases h2
  | noForeignKey ft' h1 h2 => rw [g1] at h1; cases h1; exact h2 g5.2

/-- the messages about foreign keys -/
theorem constraintLoop_mem {tables : Dict Table} : ∀ (l done : List (Table × Constraint)) (seen : Dict Str) (errs : List Str),
    (∀ n, seen.get? n = (done.find? (fun x => x.2.name == n)).map (fun x => x.1.name)) → constraintLoop tables l seen = .ok errs → ∀ m, m ∈ errs ↔
    (∃ x ∈ l, findConstraintErrors tables x.1 x.2 = .ok (some m)) ∨
    ∃ pre t k post x, l = pre ++ (t, k) :: post ∧ (done ++ pre).find? (fun y => y.2.name == k.name) = some x ∧ m = duplicateFk k.name x.1.name t.name
  | [], done, seen, errs, _, h, m => by
    cases h
    constructor
    · intro h; cases h
    · rintro (⟨x, hx, _⟩ | ⟨pre, t, k, post, x, h, _⟩)
      · cases hx
      · cases pre <;> cases h
  | (t, k) :: l, done, seen, errs, hinv, h, m => by
    unfold constraintLoop constraintStep at h
    cases hf : findConstraintErrors tables t k with
    | error e => rw [hf] at h; cases h
    | ok err =>
      rw [hf] at h
      simp only at h
      have hget := hinv k.name
      -- the rest of the list, with `done` extended
      have step : ∀ seen' more, (∀ n, seen'.get? n = ((done ++ [(t, k)]).find? (fun x => x.2.name == n)).map (fun x => x.1.name)) →
          constraintLoop tables l seen' = .ok more → ∀ here : List Str,
          (∀ m, m ∈ here ↔ err = some m ∨ ∃ x, done.find? (fun y => y.2.name == k.name) = some x ∧ m = duplicateFk k.name x.1.name t.name) →
          (m ∈ here ++ more ↔ (∃ x ∈ (t, k) :: l, findConstraintErrors tables x.1 x.2 = .ok (some m)) ∨
            ∃ pre t' k' post x, (t, k) :: l = pre ++ (t', k') :: post ∧ (done ++ pre).find? (fun y => y.2.name == k'.name) = some x ∧
              m = duplicateFk k'.name x.1.name t'.name) := by
        intro seen' more hinv' hmore here hhere
        have ih := constraintLoop_mem l (done ++ [(t, k)]) seen' more hinv' hmore m
        rw [List.mem_append, ih, hhere]
        constructor
        · rintro ((he | ⟨x, hx, rfl⟩) | (⟨x, hx, he⟩ | ⟨pre, t', k', post, x, rfl, h2, h3⟩))
          · exact .inl ⟨(t, k), List.mem_cons_self, by rw [hf, he]⟩
          · exact .inr ⟨[], t, k, l, x, rfl, by simpa using hx, rfl⟩
          · exact .inl ⟨x, List.mem_cons_of_mem _ hx, he⟩
          · exact .inr ⟨(t, k) :: pre, t', k', post, x, rfl, by simpa using h2, h3⟩
        · rintro (⟨x, hx, he⟩ | ⟨pre, t', k', post, x, h1, h2, h3⟩)
          · rcases List.mem_cons.mp hx with rfl | hx
            · rw [hf] at he; cases he; exact .inl (.inl rfl)
            · exact .inr (.inl ⟨x, hx, he⟩)
          · cases pre with
            | nil =>
              simp only [List.nil_append, List.cons.injEq, Prod.mk.injEq] at h1
              obtain ⟨⟨rfl, rfl⟩, rfl⟩ := h1
              exact .inl (.inr ⟨x, by simpa using h2, h3⟩)
            | cons y pre =>
              simp only [List.cons_append, List.cons.injEq] at h1
              obtain ⟨rfl, rfl⟩ := h1
              exact .inr (.inr ⟨pre, t', k', post, x, rfl, by simpa using h2, h3⟩)
      cases hg : seen.get? k.name with
      | some first =>
        rw [hg] at h hget
        simp only at h
        cases hm : constraintLoop tables l seen with
        | error e => rw [hm] at h; cases h
        | ok more =>
          rw [hm] at h
          cases h
          cases hfind : done.find? (fun x => x.2.name == k.name) with
          | none => rw [hfind] at hget; cases hget
          | some x =>
            rw [hfind] at hget
            simp only [Option.map_some, Option.some.injEq] at hget
            refine step seen more (fun n => ?_) hm _ (fun m => ?_)
            · rw [hinv n, List.find?_append]
              cases hd : done.find? (fun x => x.2.name == n) with
              | some y => rfl
              | none =>
                have hne : (k.name == n) = false := by
                  cases hb : k.name == n with
                  | false => rfl
                  | true => rw [← eq_of_beq hb, hfind] at hd; cases hd
                simp [List.find?, hne]
            · rw [List.mem_append, Option.mem_toList, List.mem_singleton, hget]
              refine or_congr Iff.rfl ⟨fun e => ⟨x, hfind, e⟩, fun ⟨y, hy, e⟩ => ?_⟩
              rw [hfind] at hy; cases hy; exact e
      | none =>
        rw [hg] at h hget
        simp only at h
        cases hm : constraintLoop tables l (Dict.set seen k.name t.name) with
        | error e => rw [hm] at h; cases h
        | ok more =>
          rw [hm] at h
          cases h
          have hfind : done.find? (fun x => x.2.name == k.name) = none := by
            cases hd : done.find? (fun x => x.2.name == k.name) with
            | none => rfl
            | some x => rw [hd] at hget; cases hget
          refine step _ more (fun n => ?_) hm _ (fun m => ?_)
          · rw [Dict.get?_set, List.find?_append]
            by_cases hn : n = k.name
            · subst hn
              rw [if_pos rfl, hfind]
              simp [List.find?]
            · rw [if_neg (Ne.symm hn), hinv n]
              cases hd : done.find? (fun x => x.2.name == n) with
              | some y => rfl
              | none =>
                have hne : (k.name == n) = false := by simpa using fun e => hn e.symm
                simp [List.find?, hne]
          · rw [Option.mem_toList]
            refine ⟨.inl, ?_⟩
            rintro (h | ⟨x, hx, _⟩)
            · exact h
            · rw [hfind] at hx; cases hx

/-! ## `INSERT`s -/

theorem rowsLoop_mem {tables : Dict Table} : ∀ (l : List (Str × Rows)) (last : Option Table), (∀ x ∈ l, x.2.Named) → ∃ errs, rowsLoop tables l last = .ok errs ∧
    ∀ m, m ∈ errs ↔ ∃ n r, (n, r) ∈ l ∧ ((n ∉ tables.keys ∧ m = py"Insert error: found an insert for table '" ++ n ++ py"' but this table does not exist") ∨
      ∃ t c, tables.get? n = some t ∧ r.numExplicit ≠ 0 ∧ c ∈ r.columns ∧ c ∉ t.columns.keys ∧
        m = py"Insert error: insert command attempts to set column '" ++ c ++ py"' for table '" ++ n ++ py"' but the column does not exist in the table.")
  | [], _, _ => ⟨[], rfl, fun m => by simp⟩
  | (n, r) :: l, last, hn => by
    have hr := hn _ List.mem_cons_self
    have hstep : ∃ here last', rowsStep tables n r last = .ok (here, last') ∧ ∀ m, m ∈ here ↔
        ((n ∉ tables.keys ∧ m = py"Insert error: found an insert for table '" ++ n ++ py"' but this table does not exist") ∨
        ∃ t c, tables.get? n = some t ∧ r.numExplicit ≠ 0 ∧ c ∈ r.columns ∧ c ∉ t.columns.keys ∧
          m = py"Insert error: insert command attempts to set column '" ++ c ++ py"' for table '" ++ n ++ py"' but the column does not exist in the table.") := by
      unfold rowsStep
      cases hg : tables.get? n with
      | none =>
        have hk : n ∉ tables.keys := by rw [← Dict.get?_eq_none]; exact hg
        refine ⟨_, _, rfl, fun m => ?_⟩
        rw [List.mem_singleton]
        constructor
        · exact fun e => .inl ⟨hk, e⟩
        · rintro (⟨_, e⟩ | ⟨t, c, h, _⟩)
          · exact e
          · cases h
      | some t =>
        have hk : n ∈ tables.keys := Dict.mem_keys_of_get? hg
        simp only
        by_cases hz : r.numExplicit = 0
        · have h0 := hr hz
          simp only at h0
          rw [if_neg (by simpa using hz), h0]
          have none : ∀ m : Str, ¬ ((n ∉ tables.keys ∧ m = py"Insert error: found an insert for table '" ++ n ++ py"' but this table does not exist") ∨
            ∃ t' c, some t = some t' ∧ r.numExplicit ≠ 0 ∧ c ∈ r.columns ∧ c ∉ t'.columns.keys ∧
              m = py"Insert error: insert command attempts to set column '" ++ c ++ py"' for table '" ++ n ++ py"' but the column does not exist in the table.") := by
            rintro m (⟨h, _⟩ | ⟨_, _, _, h, _⟩)
            · exact h hk
            · exact h hz
          cases last with
          | none => exact ⟨[], _, rfl, fun m => ⟨fun h => (by cases h), fun h => absurd h (none m)⟩⟩
          | some x => exact ⟨[], _, rfl, fun m => ⟨fun h => (by cases h), fun h => absurd h (none m)⟩⟩
        · rw [if_pos hz]
          refine ⟨_, _, rfl, fun m => ?_⟩
          simp only [List.mem_map, List.mem_filter, Bool.not_eq_true']
          constructor
          · rintro ⟨c, ⟨h1, h2⟩, rfl⟩
            refine .inr ⟨t, c, rfl, hz, h1, fun h => ?_, rfl⟩
            rw [Dict.has_iff.mpr h] at h2; cases h2
          · rintro (⟨h, _⟩ | ⟨t', c, h, _, h1, h2, rfl⟩)
            · exact absurd hk h
            · cases h
              refine ⟨c, ⟨h1, ?_⟩, rfl⟩
              cases hh : t.columns.has c with
              | false => rfl
              | true => exact absurd (Dict.has_iff.mp hh) h2
    obtain ⟨here, last', hs, hhere⟩ := hstep
    obtain ⟨more, hm, hmore⟩ := rowsLoop_mem l last' (fun x hx => hn x (List.mem_cons_of_mem _ hx))
    refine ⟨here ++ more, ?_, fun m => ?_⟩
    · unfold rowsLoop
      rw [hs]
      show Except.map _ (rowsLoop tables l last') = _
      rw [hm]
      rfl
    · rw [List.mem_append, hhere, hmore]
      constructor
      · rintro (h | ⟨n', r', h1, h2⟩)
        · exact ⟨n, r, List.mem_cons_self, h⟩
        · exact ⟨n', r', List.mem_cons_of_mem _ h1, h2⟩
      · rintro ⟨n', r', h1, h2⟩
        rcases List.mem_cons.mp h1 with h1 | h1
        · cases h1; exact .inl h2
        · exact .inr ⟨n', r', h1, h2⟩

end Mygrations

import Verif.Proofs.Outline
import Verif.Proofs.RowCols
import Verif.Props.C30

/-! # When a database has no errors, without regard to the order of its tables and rows -/

namespace Mygrations
open Database Table

/-- the tables and `INSERT`s are without errors, in terms of what they are, not of their order -/
structure Flawless [PyNum] (tables : Dict Table) (rows : List (Str × Rows)) : Prop where
  fks : ∀ x ∈ allConstraints tables, findConstraintErrors tables x.1 x.2 = .ok none
  fkNames : ((allConstraints tables).map (fun x => x.2.name)).Nodup
  schema : ∀ t ∈ tables.values, askTable Found.schema [] [] t = .ok []
  parsing : ∀ t ∈ tables.values, t.findAll.parsing = []
  inserts : ∀ x ∈ rows, ∃ t, tables.get? x.1 = some t ∧ (x.2.numExplicit ≠ 0 → ∀ c ∈ x.2.columns, c ∈ t.columns.keys)
  insertsParsing : ∀ x ∈ rows, x.2.parsingErrors = []

theorem constraintLoop_clean {tables : Dict Table} : ∀ (l : List (Table × Constraint)) (seen : Dict Str), constraintLoop tables l seen = .ok [] ↔
    (∀ x ∈ l, findConstraintErrors tables x.1 x.2 = .ok none) ∧ (l.map (fun x => x.2.name)).Nodup ∧ ∀ x ∈ l, x.2.name ∉ seen.keys
  | [], seen => by simp [constraintLoop]
  | (t, k) :: l, seen => by
    unfold constraintLoop constraintStep
    cases hf : findConstraintErrors tables t k with
    | error e => simp [hf]
    | ok err =>
      cases hs : seen.get? k.name with
      | some first =>
        have : k.name ∈ seen.keys := Dict.mem_keys_of_get? hs
        simp only
        constructor
        · intro h
          cases hr : constraintLoop tables l seen with
          | error e => rw [hr] at h; cases h
          | ok more => rw [hr] at h; simp [Except.map] at h
        · intro h
          exact absurd this (h.2.2 _ List.mem_cons_self)
      | none =>
        have hk : k.name ∉ seen.keys := Dict.get?_eq_none.mp hs
        have ih := constraintLoop_clean (tables := tables) l (Dict.set seen k.name t.name)
        simp only
        constructor
        · intro h
          cases hr : constraintLoop tables l (Dict.set seen k.name t.name) with
          | error e => rw [hr] at h; cases h
          | ok more =>
            rw [hr] at h
            simp only [Except.map, Except.ok.injEq, List.append_eq_nil_iff] at h
            obtain ⟨h1, rfl⟩ := h
            obtain ⟨h2, h3, h4⟩ := ih.mp hr
            have herr : err = none := by cases err with | none => rfl | some e => cases h1
            subst herr
            refine ⟨fun x hx => ?_, ?_, fun x hx => ?_⟩
            · rcases List.mem_cons.mp hx with rfl | hx
              · exact hf
              · exact h2 x hx
            · rw [List.map_cons, List.nodup_cons]
              refine ⟨fun hm => ?_, h3⟩
              obtain ⟨x, hx, he⟩ := List.mem_map.mp hm
              exact h4 x hx (by rw [Dict.mem_keys_set]; exact .inl he)
            · rcases List.mem_cons.mp hx with rfl | hx
              · exact hk
              · exact fun hm => h4 x hx (by rw [Dict.mem_keys_set]; exact .inr hm)
        · rintro ⟨h1, h2, h3⟩
          have he := h1 _ List.mem_cons_self
          rw [hf] at he
          cases he
          rw [List.map_cons, List.nodup_cons] at h2
          rw [ih.mpr ⟨fun x hx => h1 x (List.mem_cons_of_mem _ hx), h2.2, fun x hx hm => ?_⟩]
          · rfl
          · rw [Dict.mem_keys_set] at hm
            rcases hm with hm | hm
            · exact h2.1 (List.mem_map.mpr ⟨x, hx, hm⟩)
            · exact h3 x (List.mem_cons_of_mem _ hx) hm

section
variable [PyNum]

theorem askTable_unchecked (part : Found → List Str) {checked : List Str} {n : Str} (h : n ∉ checked) (t : Table) :
    askTable part checked n t = askTable part [] [] t := by
  unfold askTable
  rw [show checked.contains n = false by simpa using h, show ([] : List Str).contains [] = false by rfl]

theorem askTables_clean (part : Found → List Str) : ∀ (l : Dict Table) (checked : List Str), (Dict.keys l).Nodup → (∀ n ∈ Dict.keys l, n ∉ checked) →
    ((askTables part checked l).1 = .ok [] ↔ ∀ t ∈ Dict.values l, askTable part [] [] t = .ok [])
  | [], _, _, _ => by simp [askTables, Dict.values]
  | (n, t) :: l, checked, hn, hc => by
    rw [Dict.keys_cons, List.nodup_cons] at hn
    have ih := askTables_clean part l (setAdd checked n) hn.2 (by
      intro m hm h
      rcases mem_setAdd.mp h with rfl | h
      · exact hn.1 hm
      · exact hc m (by rw [Dict.keys_cons]; exact List.mem_cons_of_mem _ hm) h)
    have hask := askTable_unchecked part (hc n (by rw [Dict.keys_cons]; exact List.mem_cons_self)) t
    simp only [askTables, hask]
    have hv : Dict.values ((n, t) :: l) = t :: Dict.values l := rfl
    rw [hv, List.forall_mem_cons, ← ih]
    cases askTable part [] [] t with
    | error e => simp
    | ok errs =>
      rcases hx : askTables part (setAdd checked n) l with ⟨x, c⟩
      cases x with
      | error e => simp [Except.map]
      | ok more => simp [Except.map]

theorem askTables_checked (part : Found → List Str) : ∀ (l : Dict Table) (checked : List Str), (∀ n ∈ Dict.keys l, n ∈ checked) →
    ((askTables part checked l).1 = .ok [] ↔ ∀ t ∈ Dict.values l, part t.findAll = [])
  | [], _, _ => by simp [askTables, Dict.values]
  | (n, t) :: l, checked, hc => by
    have ih := askTables_checked part l (setAdd checked n) (fun m hm => mem_setAdd.mpr (.inr (hc m (by rw [Dict.keys_cons]; exact List.mem_cons_of_mem _ hm))))
    have hask : askTable part checked n t = .ok (part t.findAll) := by
      unfold askTable
      rw [if_pos (by simpa using hc n (by rw [Dict.keys_cons]; exact List.mem_cons_self))]
    simp only [askTables, hask]
    have hv : Dict.values ((n, t) :: l) = t :: Dict.values l := rfl
    rw [hv, List.forall_mem_cons, ← ih]
    rcases hx : askTables part (setAdd checked n) l with ⟨x, c⟩
    cases x with
    | error e => simp [Except.map]
    | ok more => simp [Except.map]

theorem askTables_all (part : Found → List Str) : ∀ (l : Dict Table) (checked errs : List Str), (askTables part checked l).1 = .ok errs →
    ∀ n, n ∈ Dict.keys l ∨ n ∈ checked → n ∈ (askTables part checked l).2
  | [], checked, errs, _, n, hn => by
    rcases hn with hn | hn
    · cases hn
    · exact hn
  | (m, t) :: l, checked, errs, h, n, hn => by
    simp only [askTables] at h ⊢
    cases ha : askTable part checked m t with
    | error e => rw [ha] at h; cases h
    | ok es =>
      rw [ha] at h
      simp only at h ⊢
      cases hx : (askTables part (setAdd checked m) l).1 with
      | error e => rw [hx] at h; cases h
      | ok more =>
        refine askTables_all part l (setAdd checked m) more hx n ?_
        rw [Dict.keys_cons, List.mem_cons] at hn
        rcases hn with (rfl | hn) | hn
        · exact .inr (mem_setAdd.mpr (.inl rfl))
        · exact .inl hn
        · exact .inr (mem_setAdd.mpr (.inr hn))

omit [PyNum] in
theorem rowsLoop_named {tables : Dict Table} : ∀ (l : List (Str × Rows)) (last : Option Table), (∀ x ∈ l, x.2.Named) →
    (∀ x ∈ l, ∃ t, tables.get? x.1 = some t ∧ (x.2.numExplicit ≠ 0 → ∀ c ∈ x.2.columns, c ∈ t.columns.keys)) → rowsLoop tables l last = .ok []
  | [], _, _, _ => rfl
  | (n, r) :: l, last, hn, h => by
    obtain ⟨t, h1, h2⟩ := h _ List.mem_cons_self
    simp only at h1 h2
    have ih : ∀ last', rowsLoop tables l last' = .ok [] := fun last' =>
      rowsLoop_named l last' (fun x hx => hn x (List.mem_cons_of_mem _ hx)) (fun x hx => h x (List.mem_cons_of_mem _ hx))
    have hstep : ∃ last', rowsStep tables n r last = .ok ([], last') := by
      unfold rowsStep
      rw [h1]
      simp only
      by_cases hz : r.numExplicit = 0
      · have hr := hn _ List.mem_cons_self hz
        simp only at hr
        rw [if_neg (by simpa using hz), hr]
        cases last with
        | none => exact ⟨none, rfl⟩
        | some x => exact ⟨some x, rfl⟩
      · rw [if_pos hz]
        refine ⟨some t, ?_⟩
        have : r.columns.filter (fun c => !t.columns.has c) = [] := by
          rw [List.filter_eq_nil_iff]
          intro c hc
          have := Dict.has_iff.mpr (h2 hz c hc)
          simp [this]
        rw [this]
        rfl
    obtain ⟨last', hs⟩ := hstep
    unfold rowsLoop
    rw [hs]
    simp only [ih last']
    rfl

/-- **there are no errors** exactly if there is none in the tables, the foreign keys and the `INSERT`s -/
theorem errors_flawless {d : Database} (h1 : d.schemaCache = none) (h2 : d.parsingCache = none) (h3 : d.checked = []) (hn : d.tables.keys.Nodup)
    (hr : ∀ x ∈ allRows d.rows, x.2.Named) : d.errors.1 = .ok [] ↔ d.globalErrors = [] ∧ Flawless d.tables (allRows d.rows) := by
  have hfk := constraintLoop_clean (tables := d.tables) (allConstraints d.tables) []
  have hask := askTables_clean Found.schema d.tables [] hn (fun _ _ h => by cases h)
  have hall := askTables_all Found.schema d.tables []
  have hpar := askTables_checked Found.parsing d.tables
  unfold Database.errors Database.findSchemaErrors
  rw [h1, h3]
  simp only
  cases ha : fkErrors d.tables with
  | error e =>
    simp only
    constructor
    · intro h; cases h
    · rintro ⟨_, h⟩
      have := hfk.mpr ⟨h.fks, h.fkNames, fun _ _ h => by cases h⟩
      unfold fkErrors at ha
      rw [this] at ha
      cases ha
  | ok fe =>
    simp only
    rcases hb : askTables Found.schema [] d.tables with ⟨x, c⟩
    rw [hb] at hask hall
    cases x with
    | error e =>
      simp only
      constructor
      · intro h; cases h
      · rintro ⟨_, h⟩
        have := hask.mpr h.schema
        cases this
    | ok te =>
      simp only
      cases hre : rowErrors d.tables d.rows with
      | error e =>
        simp only
        constructor
        · intro h; cases h
        · rintro ⟨_, h⟩
          have := rowsLoop_named (allRows d.rows) none hr h.inserts
          unfold rowErrors at hre
          rw [this] at hre
          cases hre
      | ok re =>
        simp only
        unfold Database.findParsingErrors
        simp only [h2]
        have hpar := hpar c (fun n hn => hall te rfl n (.inl hn))
        rcases hy : askTables Found.parsing c d.tables with ⟨y, c'⟩
        rw [hy] at hpar
        cases y with
        | error e =>
          simp only
          constructor
          · intro h; cases h
          · rintro ⟨_, h⟩
            have := hpar.mpr h.parsing
            cases this
        | ok pe =>
          simp only [Except.ok.injEq, List.append_eq_nil_iff] at hask hpar ⊢
          constructor
          · rintro ⟨⟨hg, h4, h5⟩, ⟨h6, h7⟩, h8⟩
            subst h6
            obtain ⟨k1, k2, _⟩ := hfk.mp ha
            refine ⟨hg, k1, k2, hask.mp h7, hpar.mp h4, ?_, ?_⟩
            · subst h8
              exact fun x hx => rowsLoop_clean (allRows d.rows) none hre x.1 x.2 hx
            · intro x hx
              unfold rowParsingErrors at h5
              exact List.flatMap_eq_nil_iff.mp h5 x hx
          · rintro ⟨hg, h⟩
            have k1 := hfk.mpr ⟨h.fks, h.fkNames, fun _ _ h => by cases h⟩
            have k2 := rowsLoop_named (allRows d.rows) none hr h.inserts
            unfold fkErrors at ha
            unfold rowErrors at hre
            rw [k1] at ha
            rw [k2] at hre
            cases ha
            cases hre
            refine ⟨⟨hg, hpar.mpr h.parsing, ?_⟩, ⟨rfl, hask.mpr h.schema⟩, rfl⟩
            unfold rowParsingErrors
            exact List.flatMap_eq_nil_iff.mpr h.insertsParsing

end

theorem perm_get? {V : Type} {d d' : Dict V} (h : d.Perm d') (hn : (Dict.keys d).Nodup) (k : Str) : Dict.get? d' k = Dict.get? d k := by
  have hn' : (Dict.keys d').Nodup := (h.map Prod.fst).nodup_iff.mp hn
  cases hg : Dict.get? d k with
  | some v => exact Dict.get?_of_mem hn' (h.mem_iff.mp (Dict.mem_of_get? hg))
  | none =>
    rw [Dict.get?_eq_none] at hg ⊢
    intro hm
    exact hg ((h.map Prod.fst).mem_iff.mpr hm)

theorem findConstraintErrors_congr {ts ts' : Dict Table} (h : ∀ k, Dict.get? ts' k = Dict.get? ts k) (t : Table) (k : Constraint) :
    findConstraintErrors ts' t k = findConstraintErrors ts t k := by
  unfold findConstraintErrors
  rw [h]

/-- being without errors does not depend on the order -/
theorem Flawless.perm [PyNum] {ts ts' : Dict Table} {rs rs' : List (Str × Rows)} (hn : (Dict.keys ts).Nodup) (ht : ts.Perm ts') (hr : ∀ x, x ∈ rs' → x ∈ rs)
    (h : Flawless ts rs) : Flawless ts' rs' := by
  have hg := perm_get? ht hn
  have hv : (Dict.values ts).Perm (Dict.values ts') := ht.map Prod.snd
  have hc : (allConstraints ts).Perm (allConstraints ts') := hv.flatMap_right _
  refine ⟨fun x hx => ?_, ?_, fun t htm => h.schema t (hv.mem_iff.mpr htm), fun t htm => h.parsing t (hv.mem_iff.mpr htm), fun x hx => ?_, fun x hx => h.insertsParsing x (hr x hx)⟩
  · rw [findConstraintErrors_congr hg]
    exact h.fks x (hc.mem_iff.mpr hx)
  · exact (hc.map _).nodup_iff.mp h.fkNames
  · rw [hg]
    exact h.inserts x (hr x hx)

end Mygrations

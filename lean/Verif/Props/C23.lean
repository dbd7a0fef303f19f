import Verif.Proofs.Rows
import Verif.Props.Examples

/-! # C23: declared rows -/

namespace Mygrations
open Table

/-- the columns which the values of an `INSERT` are for -/
def insertColumns (t : Table) (r : Rows) : List Str := if r.numExplicit ≠ 0 then r.columns else t.columns.keys

/-- the id in the values of an `INSERT` -/
def idText (cols : List Str) (values : List PyVal) : Option Str :=
  ((cols.zip values).find? (fun e => e.1 = py"id")).map (fun e => e.2.toStr)

/-- `row` holds `values`, and its id -/
def Holds (cols : List Str) (values : List PyVal) (id : Str) (row : Row) : Prop :=
  idText cols values = some id ∧ Dict.get? row py"id" = some (.str id) ∧
  (cols.Nodup → ∀ c v, (c, v) ∈ cols.zip values → c ≠ py"id" → Dict.get? row c = some v)

theorem idIndex_spec {cols : List Str} {i : Nat} (h : idIndex cols = some i) (values : List PyVal) :
    idText cols values = (values[i]?).map PyVal.toStr := by
  induction cols generalizing i values with
  | nil => simp [idIndex] at h
  | cons c cs ih =>
    simp only [idIndex] at h
    cases values with
    | nil => simp [idText]
    | cons v vs =>
      split at h
      · rename_i hc
        simp only [Option.some.injEq] at h
        subst h
        simp [idText, hc]
      · rename_i hc
        simp only [Option.map_eq_some_iff] at h
        obtain ⟨j, hj, rfl⟩ := h
        have := ih hj vs
        simp only [idText, List.zip_cons_cons, List.find?_cons, hc, decide_false] at this ⊢
        simpa using this

theorem idIndex_none {cols : List Str} : idIndex cols = none ↔ py"id" ∉ cols := by
  induction cols with
  | nil => simp [idIndex]
  | cons c cs ih =>
    simp only [idIndex]
    by_cases hc : c = py"id"
    · simp [hc]
    · rw [if_neg hc, Option.map_eq_none_iff, ih, List.mem_cons, not_or]
      exact ⟨fun h => ⟨fun h0 => hc h0.symm, h⟩, fun h => h.2⟩

theorem zip_keys_nodup {α β : Type} : ∀ {cs : List α} {vs : List β}, cs.Nodup → ((cs.zip vs).map Prod.fst).Nodup := by
  intro cs
  induction cs with
  | nil => intro vs _; simp
  | cons c cs ih =>
    intro vs h
    cases vs with
    | nil => simp
    | cons v vs =>
      rw [List.nodup_cons] at h
      simp only [List.zip_cons_cons, List.map_cons, List.nodup_cons]
      refine ⟨?_, ih h.2⟩
      intro hc
      rw [List.mem_map] at hc
      obtain ⟨⟨a, b⟩, hab, rfl⟩ := hc
      exact h.1 (List.of_mem_zip hab).1

theorem foldl_set_get {V : Type} (l : List (Str × V)) : ∀ (d : Dict V), (l.map Prod.fst).Nodup →
    (∀ c v, (c, v) ∈ l → Dict.get? (l.foldl (fun d e => Dict.set d e.1 e.2) d) c = some v) ∧
    (∀ c, c ∉ l.map Prod.fst → Dict.get? (l.foldl (fun d e => Dict.set d e.1 e.2) d) c = Dict.get? d c) := by
  induction l with
  | nil => intro d _; simp
  | cons e l ih =>
    intro d h
    rw [List.map_cons, List.nodup_cons] at h
    obtain ⟨h1, h2⟩ := ih (Dict.set d e.1 e.2) h.2
    constructor
    · intro c v hcv
      rw [List.mem_cons] at hcv
      rcases hcv with rfl | hcv
      · rw [List.foldl_cons, h2 c h.1, Dict.get?_set]; simp
      · exact h1 c v hcv
    · intro c hc
      simp only [List.map_cons, List.mem_cons, not_or] at hc
      rw [List.foldl_cons, h2 c hc.2, Dict.get?_set, if_neg (fun h => hc.1 h.symm)]

theorem holds_zip {cols : List Str} {values : List PyVal} {id : Str} (h : idText cols values = some id) :
    Holds cols values id (Dict.set (zipDict cols values) py"id" (.str id)) := by
  refine ⟨h, by rw [Dict.get?_set]; simp, ?_⟩
  intro hn c v hcv hc
  rw [Dict.get?_set, if_neg (fun h => hc h.symm)]
  exact (foldl_set_get _ [] (zip_keys_nodup hn)).1 c v hcv

/-- a row of an `INSERT` which can be stored -/
def Storable (cols : List Str) (explicit : Bool) (values : List PyVal) : Prop :=
  (explicit = false → values.length = cols.length) ∧ ∃ id, idText cols values = some id ∧ id ≠ []

theorem addRowValues_spec {cols : List Str} {i : Nat} {explicit : Bool} {t t' : Table} {values : List PyVal}
    (hi : idIndex cols = some i) (h : addRowValues cols i explicit t values = .ok t') :
    ∃ more errs, t' = { t with rows := if more = [] then t.rows else some (t.rows.getD [] ++ more), globalErrors := t.globalErrors ++ errs } ∧
      more.length + errs.length = 1 ∧
      (∀ k row, (k, row) ∈ more → k ≠ [] ∧ k ∉ (t.rows.getD []).keys ∧ Holds cols values k row) ∧
      (Storable cols explicit values → ∀ k, idText cols values = some k → k ∈ (t.rows.getD [] ++ more).keys) := by
  unfold addRowValues at h
  split at h
  · rename_i hl
    simp only [Except.ok.injEq] at h
    refine ⟨[], [_], by rw [if_pos rfl, ← h], rfl, by simp, ?_⟩
    · intro hs
      simp only [Bool.and_eq_true, Bool.not_eq_true', bne_iff_ne, ne_eq] at hl
      exact absurd (hs.1 hl.1) hl.2
  · have hid := idIndex_spec hi values
    split at h
    · cases h
    · rename_i v hv
      rw [hv, Option.map_some] at hid
      simp only at h
      split at h
      · rename_i he
        simp only [Except.ok.injEq] at h
        refine ⟨[], [_], by rw [if_pos rfl, ← h], rfl, by simp, ?_⟩
        · rintro ⟨_, k, hk, hne⟩
          rw [hid, he] at hk
          simp only [Option.some.injEq] at hk
          exact absurd hk.symm hne
      · rename_i he
        split at h
        · rename_i hd
          simp only [Except.ok.injEq] at h
          refine ⟨[], [_], by rw [if_pos rfl, ← h], rfl, by simp, ?_⟩
          · intro _ k hk
            rw [hid] at hk
            simp only [Option.some.injEq] at hk
            rw [List.append_nil, ← hk]
            exact Dict.has_iff.mp hd
        · rename_i hd
          simp only [Except.ok.injEq] at h
          have hd' : v.toStr ∉ (t.rows.getD []).keys := fun h0 => hd (Dict.has_iff.mpr h0)
          refine ⟨[(v.toStr, Dict.set (zipDict cols values) py"id" (.str v.toStr))], [], ?_, rfl, ?_, ?_⟩
          · rw [← h, Dict.set_of_not_mem _ hd']; simp
          · intro k row hk
            simp only [List.mem_singleton, Prod.mk.injEq] at hk
            obtain ⟨rfl, rfl⟩ := hk
            exact ⟨he, hd', holds_zip hid⟩
          · intro _ k hk
            rw [hid] at hk
            simp only [Option.some.injEq] at hk
            rw [← hk]; simp

theorem addRowsLoop_spec {cols : List Str} {i : Nat} {explicit : Bool} (hi : idIndex cols = some i) :
    ∀ {raw : List (List PyVal)} {t t' : Table}, t.rows.isSome = true → (t.rows.getD []).keys.Nodup →
      addRowsLoop cols i explicit t raw = .ok t' →
    ∃ more errs, t' = { t with rows := some (t.rows.getD [] ++ more), globalErrors := t.globalErrors ++ errs } ∧
      more.length + errs.length = raw.length ∧ (t.rows.getD [] ++ more).keys.Nodup ∧
      (∀ k row, (k, row) ∈ more → k ≠ [] ∧ ∃ before values after, raw = before ++ values :: after ∧ Holds cols values k row ∧
        ∀ w ∈ before, Storable cols explicit w → idText cols w ≠ some k) ∧
      (∀ values ∈ raw, Storable cols explicit values → ∀ k, idText cols values = some k → k ∈ (t.rows.getD [] ++ more).keys) := by
  intro raw
  induction raw with
  | nil =>
    intro t t' hs hn h
    simp only [addRowsLoop, Except.ok.injEq] at h
    obtain ⟨rows, hr⟩ := Option.isSome_iff_exists.mp hs
    refine ⟨[], [], ?_, rfl, by simpa using hn, by simp, by simp⟩
    rw [← h]
    simp only [hr, Option.getD_some, List.append_nil]
    cases t
    simp only at hr
    rw [hr]
  | cons v vs ih =>
    intro t t' hs hn h
    simp only [addRowsLoop] at h
    cases h1 : addRowValues cols i explicit t v with
    | error e => simp [h1] at h
    | ok t1 =>
      simp only [h1] at h
      obtain ⟨more, errs, he, hlen, hmore, hst⟩ := addRowValues_spec hi h1
      have hrows : t1.rows = some (t.rows.getD [] ++ more) := by
        rw [he]
        by_cases hm : more = []
        · obtain ⟨rows, hr⟩ := Option.isSome_iff_exists.mp hs
          simp [hm, hr]
        · simp [hm]
      have hn1 : (t1.rows.getD []).keys.Nodup := by
        rw [hrows, Option.getD_some]
        match more, hlen, hmore with
        | [], _, _ => simpa using hn
        | [(k, r)], _, hmore =>
          have := (hmore k r List.mem_cons_self).2.1
          rw [Dict.keys_append, List.nodup_append]
          refine ⟨hn, by simp, ?_⟩
          intro a ha b hb hab
          simp only [Dict.keys_cons, Dict.keys_nil, List.mem_singleton] at hb
          subst hab; subst hb
          exact this ha
        | _ :: _ :: _, hlen, _ => simp at hlen; omega
      obtain ⟨more', errs', he', hlen', hn', hmore', hst'⟩ := ih (by simp [hrows]) hn1 h
      refine ⟨more ++ more', errs ++ errs', ?_, ?_, ?_, ?_, ?_⟩
      · rw [he', hrows]
        rw [he]
        simp
      · simp only [List.length_append, List.length_cons]; omega
      · rw [hrows, Option.getD_some] at hn'
        rwa [← List.append_assoc]
      · intro k row hk
        rw [List.mem_append] at hk
        rcases hk with hk | hk
        · exact ⟨(hmore k row hk).1, [], v, vs, rfl, (hmore k row hk).2.2, by simp⟩
        · obtain ⟨h2, before, w, after, hw, h3, h4⟩ := hmore' k row hk
          refine ⟨h2, v :: before, w, after, by rw [hw]; rfl, h3, ?_⟩
          intro u hu hsu
          rw [List.mem_cons] at hu
          rcases hu with rfl | hu
          · intro hk'
            have hold := hst hsu k hk'
            rw [hrows, Option.getD_some, Dict.keys_append, List.nodup_append] at hn'
            exact hn'.2.2 k hold k (List.mem_map.mpr ⟨_, hk, rfl⟩) rfl
          · exact h4 u hu hsu
      · intro w hw hsw k hk
        rw [← List.append_assoc]
        rw [List.mem_cons] at hw
        rcases hw with rfl | hw
        · rw [Dict.keys_append]
          exact List.mem_append_left _ (hst hsw k hk)
        · have := hst' w hw hsw k hk
          rwa [hrows, Option.getD_some] at this

/-- **C23** (partial), one `INSERT`.  Stored rows are never changed; every new one is under its own, new, non-empty id and
holds the values of the first row of the `INSERT` with that id; every row with a non-empty id (and the right number of values) is stored
unless its id is taken; and as many errors are added as rows are skipped.  What is missing: a row whose id is `NULL`
(`C23_counterexample`). -/
theorem C23_partial (t t' : Table) (r : Rows) (h : t.addRows r = .ok t') (hk : RowsKeyed (t.rows.getD [])) :
    RowsKeyed (t'.rows.getD []) ∧ t'.tracking = true ∧
    ∃ more errs, t'.rows = some (t.rows.getD [] ++ more) ∧ t'.globalErrors = t.globalErrors ++ r.parsingErrors ++ errs ∧
      (py"id" ∉ insertColumns t r → more = [] ∧ errs.length = 1) ∧
      (py"id" ∈ insertColumns t r → more.length + errs.length = r.rawRows.length) ∧
      (∀ k row, (k, row) ∈ more → ∃ before values after, r.rawRows = before ++ values :: after ∧
        Holds (insertColumns t r) values k row ∧
        ∀ w ∈ before, Storable (insertColumns t r) (r.numExplicit ≠ 0) w → idText (insertColumns t r) w ≠ some k) ∧
      (py"id" ∈ insertColumns t r → ∀ values ∈ r.rawRows, Storable (insertColumns t r) (r.numExplicit ≠ 0) values →
        ∀ k, idText (insertColumns t r) values = some k → k ∈ (t'.rows.getD []).keys) := by
  unfold addRows at h
  simp only at h
  cases hi : idIndex (insertColumns t r) with
  | none =>
    have hni := idIndex_none.mp hi
    unfold insertColumns at hi
    simp only [hi, Except.ok.injEq] at h
    subst h
    refine ⟨by simpa using hk, rfl, [], _, by simp, rfl, ?_, ?_, by simp, ?_⟩
    · intro _; exact ⟨rfl, rfl⟩
    · intro h0; exact absurd h0 hni
    · intro h0; exact absurd h0 hni
  | some i =>
    have hmem : py"id" ∈ insertColumns t r := by
      false_or_by_contra
      rename_i h0
      rw [← idIndex_none, hi] at h0; cases h0
    have hi' := hi
    unfold insertColumns at hi'
    simp only [hi'] at h
    obtain ⟨more, errs, he, hlen, hn, hmore, hst⟩ := addRowsLoop_spec (cols := insertColumns t r) hi (by simp) (by simpa using hk.nodup) h
    simp only [Option.getD_some] at he hn hst
    have hrows : t'.rows = some (t.rows.getD [] ++ more) := by rw [he]
    refine ⟨?_, by rw [he], more, errs, hrows, by rw [he], fun h0 => absurd hmem h0, fun _ => hlen, ?_, ?_⟩
    · rw [hrows, Option.getD_some]
      refine ⟨hn, ?_⟩
      intro k row hkr
      rw [List.mem_append] at hkr
      rcases hkr with hkr | hkr
      · exact hk.id k row hkr
      · obtain ⟨h1, _, _, _, _, h2, _⟩ := hmore k row hkr
        exact ⟨h1, h2.2.1⟩
    · intro k row hkr; exact (hmore k row hkr).2
    · intro _ v hv hsv k hkv
      rw [hrows, Option.getD_some]
      exact hst v hv hsv k hkv

/-- `add_rows` returns if every row has as many values as the `INSERT` names columns. -/
theorem C23_returns (t : Table) (r : Rows) (h : ∀ values ∈ r.rawRows, r.numExplicit ≠ 0 → values.length = r.columns.length) :
    ∃ t', t.addRows r = .ok t' := by
  unfold addRows
  simp only
  cases hi : idIndex (if r.numExplicit ≠ 0 then r.columns else t.columns.keys) with
  | none => exact ⟨_, rfl⟩
  | some i =>
    simp only
    have hlt : ∀ {cols : List Str} {i : Nat}, idIndex cols = some i → i < cols.length := by
      intro cols
      induction cols with
      | nil => intro i h; simp [idIndex] at h
      | cons c cs ih =>
        intro i h
        simp only [idIndex] at h
        split at h
        · simp at h; simp [← h]
        · simp only [Option.map_eq_some_iff] at h
          obtain ⟨j, hj, rfl⟩ := h
          have := ih hj
          simp; omega
    have key : ∀ (raw : List (List PyVal)) (t : Table) (cols : List Str) (e : Bool), i < cols.length →
        (∀ v ∈ raw, e = true → v.length = cols.length) → ∃ t', addRowsLoop cols i e t raw = .ok t' := by
      intro raw
      induction raw with
      | nil => intro t cols e _ _; exact ⟨t, rfl⟩
      | cons v vs ih =>
        intro t cols e hi hv
        have h1 : ∃ t1, addRowValues cols i e t v = .ok t1 := by
          unfold addRowValues
          split
          · exact ⟨_, rfl⟩
          · rename_i hl
            have hlen : v.length = cols.length := by
              cases e with
              | true => exact hv v List.mem_cons_self rfl
              | false => simpa using hl
            have : v[i]? = some (v[i]'(by omega)) := List.getElem?_eq_getElem (by omega)
            rw [this]
            simp only
            split
            · exact ⟨_, rfl⟩
            · split <;> exact ⟨_, rfl⟩
        obtain ⟨t1, h1⟩ := h1
        obtain ⟨t', h2⟩ := ih t1 cols e hi (fun w hw => hv w (List.mem_cons_of_mem _ hw))
        exact ⟨t', by simp [addRowsLoop, h1, h2]⟩
    apply key _ _ _ _ (hlt hi)
    intro v hv he
    have hne : r.numExplicit ≠ 0 := by simpa using he
    rw [if_pos hne]
    exact h v hv hne

/-- `add_rows`, again and again -/
def addAllRows : Table → List Rows → Except PyErr Table
  | t, [] => .ok t
  | t, r :: rs =>
    match t.addRows r with
    | .ok t' => addAllRows t' rs
    | .error e => .error e

/-- **C23** for every sequence of `INSERT`s: the stored rows have unique, non-empty ids, each row under its own id, and
rows once stored stay as they are. -/
theorem C23_history_partial (rs : List Rows) : ∀ (t t' : Table), RowsKeyed (t.rows.getD []) → addAllRows t rs = .ok t' →
    RowsKeyed (t'.rows.getD []) ∧ ∃ more, t'.rows.getD [] = t.rows.getD [] ++ more := by
  induction rs with
  | nil =>
    intro t t' hk h
    simp only [addAllRows, Except.ok.injEq] at h
    subst h
    exact ⟨hk, [], by simp⟩
  | cons r rs ih =>
    intro t t' hk h
    simp only [addAllRows] at h
    cases h1 : t.addRows r with
    | error e => simp [h1] at h
    | ok t1 =>
      simp only [h1] at h
      obtain ⟨hk1, _, more, _, hr1, _⟩ := C23_partial t t1 r h1 hk
      obtain ⟨hk2, more', hr2⟩ := ih t1 t' hk1 h
      refine ⟨hk2, more ++ more', ?_⟩
      rw [hr2, hr1, Option.getD_some, List.append_assoc]

namespace Examples

/-- `INSERT INTO kinds (id, name) VALUES (1, 'one'), (1, 'uno'), ('', 'x')` -/
def someRows : Rows :=
  { table := py"kinds", columns := [py"id", py"name"], numExplicit := 2
    rawRows := [[.str py"1", .str py"one"], [.str py"1", .str py"uno"], [.str [], .str py"x"]] }

def kinds : Table := mk py"kinds" [idCol, textCol py"name" py"20"] [pk] []

/-- the hypotheses of C23 hold; one row is stored and two are reported -/
example : ∃ t', kinds.addRows someRows = .ok t' ∧ RowsKeyed (t'.rows.getD []) ∧
    t'.rows = some [(py"1", [(py"id", .str py"1"), (py"name", .str py"one")])] ∧ t'.globalErrors.length = 2 := by
  have h : (kinds.addRows someRows).isOk = true := by decide
  cases h1 : kinds.addRows someRows with
  | error e => rw [h1] at h; cases h
  | ok t' =>
    refine ⟨t', rfl, (C23_partial kinds t' someRows h1 ⟨by decide, by simp [kinds, mk]⟩).1, ?_⟩
    have : (kinds.addRows someRows).toOption.map (fun t => (t.rows, t.globalErrors.length)) =
        some (some [(py"1", [(py"id", .str py"1"), (py"name", .str py"one")])], 2) := by rfl
    rw [h1] at this
    simp only [Except.toOption, Option.map_some, Option.some.injEq, Prod.mk.injEq] at this
    exact this

end Examples

/-- **C23 is false of `NULL`**: a row whose id is `NULL` is stored under the id `None`, without an error. -/
theorem C23_counterexample : ∃ r : Rows, r.rawRows = [[.none, .str py"one"]] ∧
    (Examples.kinds.addRows r).toOption.map (fun t => (t.rows, t.globalErrors)) =
      some (some [(py"None", [(py"id", .str py"None"), (py"name", .str py"one")])], []) :=
  ⟨{ Examples.someRows with rawRows := [[.none, .str py"one"]] }, rfl, rfl⟩

/-- **C23 is false of `NULL`**, for every `INSERT`: if one of its rows has `NULL` for its id, then afterwards the table has a row with the id
`None`. -/
theorem C23_refuted (t t' : Table) (r : Rows) (h : t.addRows r = .ok t') (hk : RowsKeyed (t.rows.getD []))
    (values : List PyVal) (hv : values ∈ r.rawRows) (hlen : values.length = (insertColumns t r).length)
    (hnull : ((insertColumns t r).zip values).find? (fun e => e.1 = py"id") = some (py"id", .none)) :
    py"None" ∈ (t'.rows.getD []).keys := by
  obtain ⟨_, _, _, _, _, _, _, _, _, h5⟩ := C23_partial t t' r h hk
  have hid : py"id" ∈ insertColumns t r := (List.of_mem_zip (List.mem_of_find?_eq_some hnull)).1
  have htext : idText (insertColumns t r) values = some py"None" := by simp [idText, hnull, PyVal.toStr]
  exact h5 hid values hv ⟨fun _ => hlen, _, htext, by decide⟩ _ htext

/-- the hypotheses of `C23_refuted` hold -/
example : ∃ t', Examples.kinds.addRows { Examples.someRows with rawRows := [[.none, .str py"one"]] } = .ok t' ∧
    py"None" ∈ (t'.rows.getD []).keys := by
  obtain ⟨t', h⟩ := C23_returns Examples.kinds { Examples.someRows with rawRows := [[.none, .str py"one"]] } (by decide)
  exact ⟨t', h, C23_refuted _ _ _ h ⟨by decide, by simp [Examples.kinds, Examples.mk]⟩ [.none, .str py"one"] (by decide) (by decide) (by rfl)⟩

end Mygrations

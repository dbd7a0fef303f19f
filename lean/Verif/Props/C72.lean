import Verif.Props.C23
import Verif.Props.C34
import Verif.Props.C71

/-! # C72: the rows of the files are the rows of the `INSERT`s -/

namespace Mygrations
open Sql MySQL Mygration Table Command

/-! ## Specification (with `Holds`, `Storable`, `idText` and `insertColumns` of C23) -/

/-- the file `source` holds the `INSERT` `r`, and the reader gets to it -/
def Inserts (source : Str) (r : Rows) : Prop :=
  ∃ data rest, Reaches source data ∧ startsComment data = false ∧ lower (data.take 6) = py"insert" ∧ parseInsert data = .ok (r, rest)

/-! ## Proofs -/

theorem mem_set_rows_iff {d : Dict (List Rows)} {k : Str} {x r : Rows}
    (h : r ∈ (Dict.values (Dict.set d k ((Dict.get? d k).getD [] ++ [x]))).flatMap id) : r ∈ (Dict.values d).flatMap id ∨ r = x := by
  obtain ⟨l, hl, hr⟩ := List.mem_flatMap.mp h
  obtain ⟨e, he, rfl⟩ := List.mem_map.mp hl
  rcases mem_of_set he with he | rfl
  · exact .inl (List.mem_flatMap.mpr ⟨e.2, List.mem_map.mpr ⟨e, he, rfl⟩, hr⟩)
  · simp only [id_eq, List.mem_append, List.mem_singleton] at hr
    rcases hr with hr | hr
    · cases hg : Dict.get? d k with
      | none => rw [hg] at hr; cases hr
      | some v =>
        rw [hg] at hr
        exact .inl (List.mem_flatMap.mpr ⟨v, List.mem_map.mpr ⟨_, Dict.mem_of_get? hg, rfl⟩, hr⟩)
    · exact .inr hr

/-- what the reader has read comes from an `INSERT` which it got to -/
theorem loop_rows_from : ∀ (n : Nat) (st : ReaderState) (s : Str) (r : Rows), r ∈ (readLoop n st s).1.rows.values.flatMap id →
    r ∈ st.rows.values.flatMap id ∨ ∃ d rest, Reaches s d ∧ startsComment d = false ∧ lower (d.take 6) = py"insert" ∧ parseInsert d = .ok (r, rest)
  | n, st, [], r, h => by rw [readLoop_nil] at h; exact .inl h
  | 0, st, c :: cs, r, h => by rw [readLoop_zero st (by simp)] at h; exact .inl h
  | n + 1, st, c :: cs, r, h => by
    rw [readLoop_succ n st (by simp)] at h
    unfold readStep at h
    split at h
    · exact .inl h
    · split at h
      · rename_i hc
        rcases loop_rows_from n st _ r h with h | ⟨d, rest, h1, h2⟩
        · exact .inl h
        · exact .inr ⟨d, rest, .comment hc h1, h2⟩
      · rename_i hc
        have hc := Bool.eq_false_iff.mpr hc
        split at h
        · rename_i h6
          split at h
          · exact .inl h
          · rename_i t rest hp
            rcases loop_rows_from n _ _ r h with h | ⟨d, rest', h1, h2⟩
            · exact .inl h
            · exact .inr ⟨d, rest', .create hc h6 hp h1, h2⟩
        · split at h
          · rename_i h6
            split at h
            · exact .inl h
            · rename_i q rest hp
              rcases loop_rows_from n _ _ r h with h | ⟨d, rest', h1, h2⟩
              · rcases mem_set_rows_iff h with h | rfl
                · exact .inl h
                · exact .inr ⟨_, rest, .here (by simp), hc, h6, hp⟩
              · exact .inr ⟨d, rest', .insert hc h6 hp h1, h2⟩
          · exact .inl h

theorem filed_from : ∀ (l : List Rows) (x : Dict (List Rows)) (e : Str × List Rows) (r : Rows), e ∈ filed x l → r ∈ e.2 → r ∈ l ∨ ∃ e' ∈ x, r ∈ e'.2
  | [], x, e, r, he, hr => .inr ⟨e, he, hr⟩
  | q :: l, x, e, r, he, hr => by
    rcases filed_from l _ e r he hr with h | ⟨e', he', hr'⟩
    · exact .inl (List.mem_cons_of_mem _ h)
    · rcases mem_of_set he' with h | rfl
      · exact .inr ⟨e', h, hr'⟩
      · rcases List.mem_append.mp hr' with h | h
        · cases hg : Dict.get? x q.table with
          | none => rw [hg] at h; cases h
          | some v => rw [hg] at h; exact .inr ⟨_, Dict.mem_of_get? hg, h⟩
        · rw [List.mem_singleton] at h
          exact .inl (by rw [h]; exact List.mem_cons_self)

theorem readSource_rows {s : Str} {r : Rows} (h : r ∈ (readSource s).1.rows.values.flatMap id) : Inserts s r := by
  rcases loop_rows_from 10000 {} s r h with h | ⟨d, rest, h⟩
  · cases h
  · exact ⟨d, rest, h⟩

/-- every entry of the rows is from one of the sources, and under its own name -/
def RowsOf (sources : List Str) (x : Dict (List Rows)) : Prop := ∀ e ∈ x, e.2 ≠ [] ∧ ∀ r ∈ e.2, r.table = e.1 ∧ ∃ s ∈ sources, Inserts s r

namespace FileDatabase

theorem read_rowsOf [PyNum] {all : List Str} {d d' : Database} {s : Str} (hs : s ∈ all) (h : NoRows d.tables ∧ RowsOf all d.rows) (hr : read d s = .ok d') :
    NoRows d'.tables ∧ RowsOf all d'.rows := by
  unfold read at hr
  split at hr
  rename_i st exc hst
  split at hr
  · cases hr
  · split at hr
    · cases hr
    · rename_i d1 h1
      cases hr
      have hk := (readSource_kept s).2
      have hp : ∀ r ∈ (readSource s).1.rows.values.flatMap id, Inserts s r := fun r h => readSource_rows h
      rw [hst] at hk hp
      obtain ⟨h2, h3⟩ := storeTables_plain st.tables.values d d1 (fun t ht => by
        obtain ⟨k, hkt⟩ := Dict.mem_values.mp ht
        exact hk k t hkt) h.1 h1
      refine ⟨h3, ?_⟩
      show RowsOf all (filed d1.rows (st.rows.values.flatMap id))
      rw [h2]
      intro e he
      obtain ⟨h4, h5⟩ := filed_entries (st.rows.values.flatMap id) d.rows (fun e he => ⟨(h.2 e he).1, fun r hr => ((h.2 e he).2 r hr).1⟩) e he
      refine ⟨h4, fun r hr => ⟨h5 r hr, ?_⟩⟩
      rcases filed_from _ _ e r he hr with h6 | ⟨e', h6, h7⟩
      · exact ⟨s, hs, hp r h6⟩
      · exact ((h.2 e' h6).2 r h7).2

theorem readAll_rowsOf [PyNum] {all : List Str} : ∀ (ss : List Str) (d d' : Database), (∀ s ∈ ss, s ∈ all) → NoRows d.tables ∧ RowsOf all d.rows →
    readAll d ss = .ok d' → NoRows d'.tables ∧ RowsOf all d'.rows
  | [], d, d', _, h, hr => by cases hr; exact h
  | s :: ss, d, d', hs, h, hr => by
    unfold readAll at hr
    split at hr
    · cases hr
    · rename_i d1 h1
      exact readAll_rowsOf ss d1 d' (fun x hx => hs x (List.mem_cons_of_mem _ hx)) (read_rowsOf (hs s List.mem_cons_self) h h1) hr

end FileDatabase

/-- each row of the table is one of an `INSERT` into the table `n` -/
structure RowsFrom (inserts : Dict (List Rows)) (n : Str) (t : Table) : Prop where
  keyed : RowsKeyed (t.rows.getD [])
  rows : ∀ i row, (i, row) ∈ t.rows.getD [] → ∃ rs x, (n, rs) ∈ inserts ∧ x ∈ rs ∧ ∃ values ∈ x.rawRows, Holds (insertColumns t x) values i row

theorem insertColumns_eq {t t' : Table} (h : t'.columns = t.columns) (x : Rows) : insertColumns t' x = insertColumns t x := by
  unfold insertColumns; rw [h]

theorem addRows_from {inserts : Dict (List Rows)} {n : Str} {t t' : Table} {x : Rows} {rs : List Rows} (hm : (n, rs) ∈ inserts) (hx : x ∈ rs)
    (h : RowsFrom inserts n t) (ha : t.addRows x = .ok t') : RowsFrom inserts n t' := by
  have hk := (addRows_keeps ha).2
  obtain ⟨h1, _, more, _, h2, _, _, _, h3, _⟩ := C23_partial t t' x ha h.keyed
  refine ⟨h1, fun i row hir => ?_⟩
  rw [h2, Option.getD_some] at hir
  rcases List.mem_append.mp hir with hir | hir
  · obtain ⟨rs', y, h4, h5, v, h6, h7⟩ := h.rows i row hir
    exact ⟨rs', y, h4, h5, v, h6, by rw [insertColumns_eq hk]; exact h7⟩
  · obtain ⟨before, v, after, h4, h5, _⟩ := h3 i row hir
    exact ⟨rs, x, hm, hx, v, by rw [h4]; simp, by rw [insertColumns_eq hk]; exact h5⟩

/-- what the table keeps of the `INSERT` `r` -/
def Stores (r : Rows) (t : Table) : Prop :=
  t.tracking = true ∧ ∀ values ∈ r.rawRows, Storable (insertColumns t r) (r.numExplicit ≠ 0) values → ∀ k, idText (insertColumns t r) values = some k →
    k ∈ (t.rows.getD []).keys

theorem idText_mem {cols : List Str} {values : List PyVal} {k : Str} (h : idText cols values = some k) : py"id" ∈ cols := by
  unfold idText at h
  obtain ⟨e, he, _⟩ := Option.map_eq_some_iff.mp h
  have h1 := List.mem_of_find?_eq_some he
  have h2 := List.find?_some he
  simp only [decide_eq_true_eq] at h2
  rw [← h2]
  exact (List.of_mem_zip h1).1

theorem addRows_stores {t t' : Table} {x : Rows} (hk : RowsKeyed (t.rows.getD [])) (ha : t.addRows x = .ok t') : Stores x t' := by
  have hc := (addRows_keeps ha).2
  obtain ⟨_, h1, more, _, h2, _, _, _, _, h3⟩ := C23_partial t t' x ha hk
  refine ⟨h1, fun v hv hs k hkv => ?_⟩
  rw [insertColumns_eq hc] at hs hkv
  exact h3 (idText_mem hkv) v hv hs k hkv

theorem addRows_stores_other {t t' : Table} {x r : Rows} (hk : RowsKeyed (t.rows.getD [])) (ha : t.addRows x = .ok t') (h : Stores r t) : Stores r t' := by
  have hc := (addRows_keeps ha).2
  obtain ⟨_, h1, more, _, h2, _⟩ := C23_partial t t' x ha hk
  refine ⟨h1, fun v hv hs k hkv => ?_⟩
  rw [insertColumns_eq hc] at hs hkv
  rw [h2, Option.getD_some, Dict.keys_append]
  exact List.mem_append_left _ (h.2 v hv hs k hkv)

namespace FileDatabase

theorem addInserts_from {inserts : Dict (List Rows)} {n : Str} {all : List Rows} (hm : (n, all) ∈ inserts) : ∀ (rs : List Rows) (ts ts' : Dict Table),
    (∀ x ∈ rs, x ∈ all) → (∀ k t, (k, t) ∈ ts → RowsFrom inserts k t) → addInserts n ts rs = .ok ts' →
    (∀ k t, (k, t) ∈ ts' → RowsFrom inserts k t) ∧
    (∀ r m t, ts.get? m = some t → Stores r t → ∃ t', ts'.get? m = some t' ∧ Stores r t') ∧
    (∀ r ∈ rs, ∃ t', ts'.get? n = some t' ∧ Stores r t')
  | [], ts, ts', _, h, ha => by cases ha; exact ⟨h, fun r m t hm hs => ⟨t, hm, hs⟩, fun _ h => (by cases h)⟩
  | r :: rs, ts, ts', hr, h, ha => by
    unfold addInserts at ha
    split at ha
    · cases ha
    · rename_i t ht
      split at ha
      · cases ha
      · rename_i t1 h1
        have hfrom := h _ t (Dict.mem_of_get? ht)
        obtain ⟨h2, h3, h4⟩ := addInserts_from hm rs _ ts' (fun x hx => hr x (List.mem_cons_of_mem _ hx)) (by
          intro k x hkx
          rcases Dict.mem_set hkx with ⟨rfl, rfl⟩ | hkx
          · exact addRows_from hm (hr r List.mem_cons_self) hfrom h1
          · exact h k x hkx) ha
        refine ⟨h2, fun q m u hu hs => ?_, fun q hq => ?_⟩
        · by_cases he : n = m
          · subst he
            rw [ht] at hu; cases hu
            exact h3 q n t1 (by rw [Dict.get?_set, if_pos rfl]) (addRows_stores_other hfrom.keyed h1 hs)
          · exact h3 q m u (by rw [Dict.get?_set, if_neg he]; exact hu) hs
        · rcases List.mem_cons.mp hq with rfl | hq
          · exact h3 q n t1 (by rw [Dict.get?_set, if_pos rfl]) (addRows_stores hfrom.keyed h1)
          · exact h4 q hq

theorem combine_from {inserts : Dict (List Rows)} : ∀ (l : List (Str × List Rows)) (d d' : Database), (∀ e ∈ l, e ∈ inserts) →
    (∀ k t, (k, t) ∈ d.tables → RowsFrom inserts k t) → combine d l = .ok d' →
    (∀ k t, (k, t) ∈ d'.tables → RowsFrom inserts k t) ∧
    (∀ r m t, d.tables.get? m = some t → Stores r t → ∃ t', d'.tables.get? m = some t' ∧ Stores r t') ∧
    (∀ e ∈ l, ∀ r ∈ e.2, ∃ t', d'.tables.get? e.1 = some t' ∧ Stores r t')
  | [], d, d', _, h, hc => by cases hc; exact ⟨h, fun r m t hm hs => ⟨t, hm, hs⟩, fun _ h => (by cases h)⟩
  | (n, rs) :: l, d, d', hl, h, hc => by
    unfold combine at hc
    simp only at hc
    split at hc
    · cases hc
    · rename_i ts hts
      have ht : ∀ (b : Bool) (x : List Str), (if b = true then d else { d with globalErrors := x }).tables = d.tables := by intro b x; cases b <;> rfl
      rw [ht] at hts
      obtain ⟨h1, h2, h3⟩ := addInserts_from (hl _ List.mem_cons_self) rs _ ts (fun _ h => h) h hts
      obtain ⟨h4, h5, h6⟩ := combine_from l _ d' (fun e he => hl e (List.mem_cons_of_mem _ he)) h1 hc
      refine ⟨h4, fun r m t hm hs => ?_, fun e he r hr => ?_⟩
      · obtain ⟨t1, h7, h8⟩ := h2 r m t hm hs
        exact h5 r m t1 h7 h8
      · rcases List.mem_cons.mp he with rfl | he
        · obtain ⟨t1, h7, h8⟩ := h3 r hr
          exact h5 r n t1 h7 h8
        · exact h6 e he r hr

end FileDatabase

/-! ## The theorems -/

/-- **C72** (partial), one half, for whatever files: every row which the files declare holds the values of a row of an `INSERT` into its table,
in one of the files, which the reader gets to. -/
theorem C72_only_partial [PyNum] {sources : List Str} {d : Database} (h : FileDatabase.new sources = .ok d) {n : Str} {t : Table} (ht : d.tables.get? n = some t)
    {i : Str} {row : Row} (hr : (i, row) ∈ t.rows.getD []) :
    ∃ s ∈ sources, ∃ r, Inserts s r ∧ r.table = n ∧ ∃ values ∈ r.rawRows, Holds (insertColumns t r) values i row := by
  unfold FileDatabase.new at h
  split at h
  · cases h
  · rename_i d1 h1
    obtain ⟨h2, h3⟩ := FileDatabase.readAll_rowsOf (all := sources) sources {} d1 (fun _ h => h) ⟨fun _ _ h => (by cases h), fun _ h => (by cases h)⟩ h1
    obtain ⟨h4, _⟩ := FileDatabase.combine_from (inserts := d1.rows) d1.rows d1 d (fun _ h => h) (by
      intro k t hk
      refine ⟨?_, ?_⟩
      · rw [h2 k t hk]; exact rowsKeyed_nil
      · rw [h2 k t hk]; intro _ _ h; cases h) h
    obtain ⟨rs, x, h5, h6, h7⟩ := (h4 n t (Dict.mem_of_get? ht)).rows i row hr
    obtain ⟨h8, s, h9, h10⟩ := (h3 (n, rs) h5).2 x h6
    exact ⟨s, h9, x, h10, h8, h7⟩

/-- **C72** (partial), the other half: if the files are read to their ends and declare no table twice, then every `INSERT` which they hold
is into a table of theirs, whose rows are then managed, and each of its rows with an id is declared: there is a row under that id. -/
theorem C72_stored_partial [PyNum] {sources : List Str} {d : Database} (h : FileDatabase.new sources = .ok d) (hq : ∀ f ∈ sources, (readSource f).2 = none)
    (hn : (sources.flatMap (fun f => (readSource f).1.tables.keys)).Nodup) {s : Str} (hs : s ∈ sources) {r : Rows} (hr : Inserts s r) :
    ∃ t, d.tables.get? r.table = some t ∧ t.tracking = true ∧
      ∀ values ∈ r.rawRows, Storable (insertColumns t r) (r.numExplicit ≠ 0) values → ∀ k, idText (insertColumns t r) values = some k →
        ∃ row, (t.rows.getD []).get? k = some row := by
  obtain ⟨rows, h1, _, h2, h3⟩ := readAll_apart sources {} hq (by simpa using hn)
  have hrows : (FileDatabase.readAll {} sources) = .ok _ := h1
  unfold FileDatabase.new at h
  simp only [h1] at h
  obtain ⟨k2, _⟩ := FileDatabase.readAll_rowsOf (all := sources) sources {} _ (fun _ h => h) ⟨fun _ _ h => (by cases h), fun _ h => (by cases h)⟩ h1
  obtain ⟨_, _, h4⟩ := FileDatabase.combine_from (inserts := rows) _ _ d (fun _ h => h) (by
      intro k t hk
      refine ⟨?_, ?_⟩
      · rw [k2 k t hk]; exact rowsKeyed_nil
      · rw [k2 k t hk]; intro _ _ h; cases h) h
  obtain ⟨data, rest, hd, hc, h6, hp⟩ := hr
  have hst : readSource s = ((readSource s).1, none) := by rw [← hq s hs]
  obtain ⟨r', rest', hp', hr'⟩ := ((loop_reaches hd 10000 {} _ hst).2 hc).2.1 h6
  rw [hp] at hp'
  cases hp'
  obtain ⟨e, he, hre⟩ := h3 List.nodup_nil s hs r hr'
  obtain ⟨t, h7, h8, h9⟩ := h4 e he r hre
  have hname := (h2 (by intro e he; cases he) e he).2 r hre
  refine ⟨t, by rw [hname]; exact h7, h8, fun v hv hsv k hk => ?_⟩
  exact Dict.exists_get? (h9 v hv hsv k hk)

/-- **C72** (partial), together: a row which the files insert under an id which no other row of the table has is declared with its values. -/
theorem C72_partial [PyNum] {sources : List Str} {d : Database} (h : FileDatabase.new sources = .ok d) (hq : ∀ f ∈ sources, (readSource f).2 = none)
    (hn : (sources.flatMap (fun f => (readSource f).1.tables.keys)).Nodup) {s : Str} (hs : s ∈ sources) {r : Rows} (hr : Inserts s r) :
    ∃ t, d.tables.get? r.table = some t ∧ t.tracking = true ∧
      ∀ values ∈ r.rawRows, Storable (insertColumns t r) (r.numExplicit ≠ 0) values → ∀ k, idText (insertColumns t r) values = some k →
        (∀ s' ∈ sources, ∀ r', Inserts s' r' → r'.table = r.table → ∀ values' ∈ r'.rawRows, idText (insertColumns t r') values' = some k →
          insertColumns t r' = insertColumns t r ∧ values' = values) →
        ∃ row, (t.rows.getD []).get? k = some row ∧ Holds (insertColumns t r) values k row := by
  obtain ⟨t, h1, h2, h3⟩ := C72_stored_partial h hq hn hs hr
  refine ⟨t, h1, h2, fun v hv hsv k hk honly => ?_⟩
  obtain ⟨row, h4⟩ := h3 v hv hsv k hk
  obtain ⟨s', h5, r', h6, h7, v', h8, h9⟩ := C72_only_partial h h1 (Dict.mem_of_get? h4)
  obtain ⟨e1, e2⟩ := honly s' h5 r' h6 h7 v' h8 h9.1
  rw [e1, e2] at h9
  exact ⟨row, h4, h9⟩

/-- **C72 fails for rows without an id.**  Files without errors have `INSERT`s for a table, but no `INSERT` for this table has a column `id`.  Then no row of the table
is declared, although nothing is reported, and every plan empties the table: afterwards the server has no row of it at all. -/
theorem C72_lost_refuted [PyNum] (srv : Server) (sources : List Str) (force : Bool) (ops : List Op) (files live : Database) (g : DbRows) (dflt : Str → Cells)
    (hclean : ¬ Faulty sources) (hf : FileDatabase.new sources = .ok files) (hq : ∀ f ∈ sources, (readSource f).2 = none)
    (hn : (sources.flatMap (fun f => (readSource f).1.tables.keys)).Nodup) (hl : (LiveDatabase.new srv).result = .ok live)
    (hg : ServerRows srv live g) (h : (Command.buildCommands srv sources force).result = .ok ops)
    (n : Str) (hsome : ∃ s ∈ sources, ∃ r, Inserts s r ∧ r.table = n)
    (hno : ∀ t, files.tables.get? n = some t → ∀ s ∈ sources, ∀ r, Inserts s r → r.table = n → py"id" ∉ insertColumns t r) :
    ∃ g', DbRows.execAll dflt g ops = some g' ∧ ∀ i, g' n i = none := by
  obtain ⟨s, hs, r, hr, rfl⟩ := hsome
  obtain ⟨t, ht, htt, _⟩ := C72_stored_partial hf hq hn hs hr
  have hname : t.name = r.table := (FileDatabase.new_kept hf).name _ _ (Dict.mem_of_get? ht)
  obtain ⟨g', h1, h2, _⟩ := C63_rows_partial srv sources force ops files live g dflt hclean hf hl hg h
  obtain ⟨new, hnew, hids, _⟩ := h2 t (Dict.mem_values.mpr ⟨_, Dict.mem_of_get? ht⟩) htt
  refine ⟨g', h1, fun i => ?_⟩
  rw [← hname]
  cases hi : g' t.name i with
  | none => rfl
  | some cells =>
    exfalso
    have hm := (hids i).mp (by rw [hi]; rfl)
    obtain ⟨row, hrow⟩ := Dict.exists_get? hm
    obtain ⟨s', hs', r', hr', hn', v, _, hh, _⟩ := C72_only_partial hf ht (i := i) (row := row) (by rw [hnew]; exact Dict.mem_of_get? hrow)
    refine hno t ht s' hs' r' hr' hn' ?_
    unfold idText at hh
    obtain ⟨e, he, _⟩ := Option.map_eq_some_iff.mp hh
    have h3 := List.find?_some he
    have h4 := List.mem_of_find?_eq_some he
    have := (List.of_mem_zip h4).1
    rwa [show e.1 = py"id" by simpa using h3] at this

/-! ## Examples -/

section Examples
attribute [local instance] exactNum

/-- the declared rows of a table of `allSources` -/
def levelsText : Str := py"CREATE TABLE levels (id INT(10) NOT NULL, name VARCHAR(50), weight INT(10), PRIMARY KEY (id)); INSERT INTO levels (id, name, weight) VALUES (1, 'low', 10), (2, 'mid', 20), (4, 'top', 40);"

/-- its `INSERT` -/
def levelsInsert : Rows :=
  { table := py"levels", columns := [py"id", py"name", py"weight"], numExplicit := 3
    rawRows := [[.str py"1", .str py"low", .str py"10"], [.str py"2", .str py"mid", .str py"20"], [.str py"4", .str py"top", .str py"40"]] }

theorem levels_inserts : Inserts levelsText levelsInsert := by
  have h1 : (parseCreate (strip levelsText)).toOption.map (fun x => x.2) = some py"INSERT INTO levels (id, name, weight) VALUES (1, 'low', 10), (2, 'mid', 20), (4, 'top', 40);" := by decide +kernel
  have h2 : parseInsert (strip py"INSERT INTO levels (id, name, weight) VALUES (1, 'low', 10), (2, 'mid', 20), (4, 'top', 40);") = .ok (levelsInsert, []) := by decide +kernel
  cases hp : parseCreate (strip levelsText) with
  | error e => rw [hp] at h1; cases h1
  | ok x =>
    rw [hp] at h1
    simp only [Except.toOption, Option.map_some, Option.some.injEq] at h1
    refine ⟨strip py"INSERT INTO levels (id, name, weight) VALUES (1, 'low', 10), (2, 'mid', 20), (4, 'top', 40);", [], ?_, by decide +kernel, by decide +kernel, h2⟩
    refine .create (t := x.1) (rest := x.2) (by decide +kernel) (by decide +kernel) hp ?_
    rw [h1]
    exact .here (by decide)

/-- for `C72_stored_partial`: the rows of `levels` are declared -/
example : ∃ t, allFiles.tables.get? py"levels" = some t ∧ t.tracking = true ∧ ∀ k ∈ [py"1", py"2", py"4"], ∃ row, (t.rows.getD []).get? k = some row := by
  obtain ⟨t, h1, h2, h3⟩ := C72_stored_partial allFiles_eq (by decide +kernel) (by decide +kernel) (s := levelsText) (by decide +kernel) levels_inserts
  have hc : insertColumns t levelsInsert = [py"id", py"name", py"weight"] := by rfl
  refine ⟨t, h1, h2, ?_⟩
  rw [hc] at h3
  intro k hk
  have : ∃ values ∈ levelsInsert.rawRows, idText [py"id", py"name", py"weight"] values = some k ∧ k ≠ [] := by
    simp only [List.mem_cons, List.not_mem_nil, or_false] at hk
    rcases hk with rfl | rfl | rfl <;> decide
  obtain ⟨v, hv, hk, hne⟩ := this
  exact h3 v hv ⟨fun h => (by cases h), k, hk, hne⟩ k hk

/-- for `C72_only_partial`: the row with the id 2 -/
example : ∃ t row, allFiles.tables.get? py"levels" = some t ∧ (py"2", row) ∈ t.rows.getD [] ∧
    ∃ s ∈ allSources, ∃ r, Inserts s r ∧ r.table = py"levels" ∧ ∃ values ∈ r.rawRows, Holds (insertColumns t r) values py"2" row := by
  obtain ⟨t, h1, _, h3⟩ := C72_stored_partial allFiles_eq (by decide +kernel) (by decide +kernel) (s := levelsText) (by decide +kernel) levels_inserts
  obtain ⟨row, h4⟩ := h3 [.str py"2", .str py"mid", .str py"20"] (by decide) ⟨fun h => (by cases h), py"2", by rfl, by decide⟩ py"2" (by rfl)
  exact ⟨t, row, h1, Dict.mem_of_get? h4, C72_only_partial allFiles_eq h1 (Dict.mem_of_get? h4)⟩

/-- for `C72_partial`: the row with the id 2 is declared with its values -/
example : ∃ t row, allFiles.tables.get? py"levels" = some t ∧ (t.rows.getD []).get? py"2" = some row ∧
    Dict.get? row py"name" = some (.str py"mid") ∧ Dict.get? row py"weight" = some (.str py"20") := by
  have hq : ∀ f ∈ allSources, (readSource f).2 = none := by decide +kernel
  obtain ⟨t, h1, _, h3⟩ := C72_partial allFiles_eq hq (by decide +kernel) (s := levelsText) (by decide +kernel) levels_inserts
  obtain ⟨row, h4, _, _, h5⟩ := h3 [.str py"2", .str py"mid", .str py"20"] (by decide) ⟨fun h => (by cases h), py"2", by rfl, by decide⟩ py"2" (by rfl) (by
    intro s hs r hr _ v hv hk
    obtain ⟨data, rest, hd, hc, h6, hp⟩ := hr
    have hst : readSource s = ((readSource s).1, none) := by rw [← hq s hs]
    obtain ⟨r', rest', hp', hr'⟩ := ((loop_reaches hd 10000 {} _ hst).2 hc).2.1 h6
    rw [hp] at hp'
    cases hp'
    have : ∀ s ∈ allSources, ∀ r ∈ (readSource s).1.rows.values.flatMap id, r = levelsInsert := by decide +kernel
    have := this s hs r hr'
    subst this
    refine ⟨rfl, ?_⟩
    have all : ∀ v ∈ levelsInsert.rawRows, idText [py"id", py"name", py"weight"] v = some py"2" → v = [.str py"2", .str py"mid", .str py"20"] := by decide
    exact all v hv hk)
  have h5 : ∀ c v, (c, v) ∈ [py"id", py"name", py"weight"].zip [PyVal.str py"2", .str py"mid", .str py"20"] → c ≠ py"id" → Dict.get? row c = some v :=
    h5 (show [py"id", py"name", py"weight"].Nodup by decide)
  exact ⟨t, row, h1, h4, h5 _ _ (by decide) (by decide), h5 _ _ (by decide) (by decide)⟩

/-- a row without an id -/
def lostRow : List Str := [py"CREATE TABLE levels (id INT(10) NOT NULL, name VARCHAR(20), old INT(10), PRIMARY KEY (id)); INSERT INTO levels (name) VALUES ('low');"]

/-- **C72 is false of rows without an id** (`Storable` is needed): nothing is wrong with the files, for the tool; but the row is not declared, the
table counts as one whose rows are managed, and all the rows which the server has are deleted. -/
theorem C72_refuted : (check lostRow).result = .ok ⟨[], true⟩ ∧
    (plan { allServer with tableNames := [py"levels"] } lostRow false).result = .ok ⟨[py"SET FOREIGN_KEY_CHECKS=0;",
      py"DELETE FROM `levels` WHERE id='1';", py"DELETE FROM `levels` WHERE id='3';", py"SET FOREIGN_KEY_CHECKS=1;"], true⟩ := by
  constructor <;> decide +kernel

/-- the same in two files -/
def lostRows : List Str :=
  [py"CREATE TABLE levels (id INT(10) NOT NULL, name VARCHAR(20), old INT(10), PRIMARY KEY (id));", py"INSERT INTO levels (name) VALUES ('low');"]

/-- the tables of the files -/
def lostFiles : Database := match FileDatabase.new lostRows with | .ok d => d | .error _ => {}

theorem lostFiles_eq : FileDatabase.new lostRows = .ok lostFiles := by decide +kernel

theorem lostRows_clean : ¬ Faulty lostRows := by
  have he : lostFiles.errors.1 = .ok [] := by decide +kernel
  rintro ⟨files, errs, h1, h2, h3⟩
  rw [lostFiles_eq] at h1
  rw [← Except.ok.inj h1, he] at h2
  exact h3 (Except.ok.inj h2).symm

/-- the hypotheses of `C72_lost_refuted` hold for them: the rows 1 and 3 which the server has are gone -/
example : ∃ ops g', (Command.buildCommands allServer lostRows false).result = .ok ops ∧ DbRows.execAll (fun _ _ => none) allRows ops = some g' ∧
    (allRows py"levels" py"1").isSome = true ∧ ∀ i, g' py"levels" i = none := by
  have hb : ∃ ops, (Command.buildCommands allServer lostRows false).result = .ok ops := by
    refine ⟨match (Command.buildCommands allServer lostRows false).result with | .ok ops => ops | .error _ => [], ?_⟩
    decide +kernel
  obtain ⟨ops, hops⟩ := hb
  have hq : ∀ f ∈ lostRows, (readSource f).2 = none := by decide +kernel
  obtain ⟨g', h1, h2⟩ := C72_lost_refuted allServer lostRows false ops lostFiles allLive allRows (fun _ _ => none) lostRows_clean lostFiles_eq hq (by decide +kernel)
    allLive_eq (answeredRows_server (by decide +kernel)) hops py"levels"
    ⟨_, List.mem_cons_of_mem _ List.mem_cons_self, { table := py"levels", columns := [py"name"], rawRows := [[.str py"low"]], numExplicit := 1 },
      ⟨_, [], .here (by decide), by decide +kernel, by decide +kernel, by decide +kernel⟩, rfl⟩ (by
      intro t _ s hs r hr _
      obtain ⟨data, rest, hd, hc, h6, hp⟩ := hr
      have hst : readSource s = ((readSource s).1, none) := by rw [← hq s hs]
      obtain ⟨r', rest', hp', hr'⟩ := ((loop_reaches hd 10000 {} _ hst).2 hc).2.1 h6
      rw [hp] at hp'
      cases hp'
      have : ∀ s ∈ lostRows, ∀ r ∈ (readSource s).1.rows.values.flatMap id, r.numExplicit ≠ 0 ∧ py"id" ∉ r.columns := by decide +kernel
      have := this s hs r hr'
      unfold insertColumns
      rw [if_pos this.1]
      exact this.2)
  exact ⟨ops, g', hops, h1, by decide +kernel, h2⟩

end Examples

end Mygrations

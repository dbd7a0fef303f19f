import Verif.Proofs.Plain
import Verif.Proofs.ReadReach

/-!
# The columns of the rows of files

A row which is stored with a table names columns of the table, or columns of an `INSERT` into it; and those are checked.
-/

namespace Mygrations

/-- each column of each row is one of the table, or one which an `INSERT` into the table `n` names -/
def ColsFrom (inserts : Dict (List Rows)) (n : Str) (t : Table) : Prop :=
  ∀ i r, (i, r) ∈ t.rows.getD [] → ∀ c ∈ Dict.keys r, c ∈ t.columns.keys ∨ ∃ rs x, (n, rs) ∈ inserts ∧ x ∈ rs ∧ x.numExplicit ≠ 0 ∧ c ∈ x.columns

theorem zipDict_keys_subset {cs : List Str} {vs : List PyVal} {c : Str} (h : c ∈ Dict.keys (Table.zipDict cs vs)) : c ∈ cs := by
  have gen : ∀ (l : List (Str × PyVal)) (d : Dict PyVal), c ∈ Dict.keys (l.foldl (fun d e => Dict.set d e.1 e.2) d) → c ∈ Dict.keys d ∨ c ∈ l.map (·.1) := by
    intro l
    induction l with
    | nil => intro d h; exact .inl h
    | cons e l ih =>
      intro d h
      rcases ih _ h with h | h
      · rcases (Dict.mem_keys_set).mp h with h | h
        · exact .inr (by rw [h]; exact List.mem_cons_self)
        · exact .inl h
      · exact .inr (List.mem_cons_of_mem _ h)
  rcases gen _ [] h with h | h
  · cases h
  · obtain ⟨e, he, rfl⟩ := List.mem_map.mp h
    exact (List.of_mem_zip he).1

theorem idIndex_mem : ∀ {cs : List Str} {i : Nat}, Table.idIndex cs = some i → py"id" ∈ cs
  | [], _, h => by cases h
  | c :: cs, i, h => by
    unfold Table.idIndex at h
    split at h
    · rename_i e; rw [e]; exact List.mem_cons_self
    · obtain ⟨j, hj, _⟩ := Option.map_eq_some_iff.mp h
      exact List.mem_cons_of_mem _ (idIndex_mem hj)

namespace Table

theorem addRowsLoop_cols {P : Str → Prop} {columns : List Str} {k : Nat} {ex : Bool} (hid : py"id" ∈ columns) (hP : ∀ c ∈ columns, P c) :
    ∀ (vs : List (List PyVal)) (t t' : Table), (∀ i r, (i, r) ∈ t.rows.getD [] → ∀ c ∈ Dict.keys r, P c) → addRowsLoop columns k ex t vs = .ok t' →
      ∀ i r, (i, r) ∈ t'.rows.getD [] → ∀ c ∈ Dict.keys r, P c
  | [], t, t', h, ha => by cases ha; exact h
  | v :: vs, t, t', h, ha => by
    unfold addRowsLoop at ha
    split at ha
    · rename_i u hu
      refine addRowsLoop_cols hid hP vs u t' ?_ ha
      unfold addRowValues at hu
      split at hu
      · cases hu; exact h
      · split at hu
        · cases hu
        · simp only at hu
          split at hu
          · cases hu; exact h
          · split at hu
            · cases hu; exact h
            · cases hu
              intro i r hm c hc
              simp only [Option.getD_some] at hm
              rcases Dict.mem_set hm with ⟨_, rfl⟩ | hm
              · rcases (Dict.mem_keys_set).mp hc with e | hc
                · rw [e]; exact hP _ hid
                · exact hP _ (zipDict_keys_subset hc)
              · exact h i r hm c hc
    · cases ha

theorem addRows_cols {inserts : Dict (List Rows)} {n : Str} {t t' : Table} {x : Rows} {rs : List Rows} (hm : (n, rs) ∈ inserts) (hx : x ∈ rs) (h : ColsFrom inserts n t)
    (ha : t.addRows x = .ok t') : ColsFrom inserts n t' := by
  have hk := (addRows_keeps ha).2
  unfold ColsFrom
  rw [hk]
  unfold addRows at ha
  simp only at ha
  split at ha
  · cases ha; exact h
  · rename_i k hi
    refine addRowsLoop_cols (P := fun c => c ∈ t.columns.keys ∨ ∃ rs x, (n, rs) ∈ inserts ∧ x ∈ rs ∧ x.numExplicit ≠ 0 ∧ c ∈ x.columns) (idIndex_mem hi) ?_ _ _ _ ?_ ha
    · intro c hc
      split at hc
      · rename_i hne
        exact .inr ⟨rs, x, hm, hx, hne, hc⟩
      · exact .inl hc
    · exact h

end Table

namespace FileDatabase

theorem addInserts_cols {inserts : Dict (List Rows)} {n : Str} {all : List Rows} (hm : (n, all) ∈ inserts) : ∀ (rs : List Rows) (ts ts' : Dict Table),
    (∀ x ∈ rs, x ∈ all) → (∀ k t, (k, t) ∈ ts → ColsFrom inserts k t) → addInserts n ts rs = .ok ts' → ∀ k t, (k, t) ∈ ts' → ColsFrom inserts k t
  | [], ts, ts', _, h, ha => by cases ha; exact h
  | r :: rs, ts, ts', hr, h, ha => by
    unfold addInserts at ha
    split at ha
    · cases ha
    · rename_i t ht
      split at ha
      · cases ha
      · rename_i t1 h1
        refine addInserts_cols hm rs _ ts' (fun x hx => hr x (List.mem_cons_of_mem _ hx)) ?_ ha
        intro k x hkx
        rcases Dict.mem_set hkx with ⟨rfl, rfl⟩ | hkx
        · exact Table.addRows_cols hm (hr r List.mem_cons_self) (h _ t (Dict.mem_of_get? ht)) h1
        · exact h k x hkx

theorem combine_cols {inserts : Dict (List Rows)} : ∀ (l : List (Str × List Rows)) (d d' : Database), (∀ e ∈ l, e ∈ inserts) →
    (∀ k t, (k, t) ∈ d.tables → ColsFrom inserts k t) → combine d l = .ok d' → ∀ k t, (k, t) ∈ d'.tables → ColsFrom inserts k t
  | [], d, d', _, h, hc => by cases hc; exact h
  | (n, rs) :: l, d, d', hl, h, hc => by
    unfold combine at hc
    simp only at hc
    split at hc
    · cases hc
    · rename_i ts hts
      refine combine_cols l _ d' (fun e he => hl e (List.mem_cons_of_mem _ he)) ?_ hc
      refine addInserts_cols (hl _ List.mem_cons_self) rs _ ts (fun _ h => h) ?_ hts
      split
      · exact h
      · exact h

theorem new_cols [PyNum] {sources : List Str} {d : Database} (h : new sources = .ok d) : ∀ k t, (k, t) ∈ d.tables → ColsFrom d.rows k t := by
  unfold new at h
  split at h
  · cases h
  · rename_i d1 h1
    obtain ⟨h2, _⟩ := readAll_plain sources {} d1 ⟨fun _ _ h => (by cases h), fun _ _ h => (by cases h)⟩ h1
    rw [(combine_rows _ h).1]
    refine combine_cols d1.rows d1 d (fun _ h => h) ?_ h
    intro k t hk
    unfold ColsFrom
    rw [h2 k t hk]
    intro _ _ h; cases h

end FileDatabase

open Database

/-- no error is found in the `INSERT`s: they name columns of their tables -/
theorem rowsLoop_clean {tables : Dict Table} : ∀ (l : List (Str × Rows)) (last : Option Table), rowsLoop tables l last = .ok [] →
    ∀ n x, (n, x) ∈ l → ∃ t, tables.get? n = some t ∧ (x.numExplicit ≠ 0 → ∀ c ∈ x.columns, c ∈ t.columns.keys)
  | [], _, _, _, _, hm => by cases hm
  | (n, x) :: l, last, h, m, y, hm => by
    unfold rowsLoop at h
    split at h
    · cases h
    · rename_i errs last' hs
      cases hmore : rowsLoop tables l last' with
      | error e => rw [hmore] at h; cases h
      | ok more =>
        rw [hmore] at h
        simp only [Except.map, Except.ok.injEq, List.append_eq_nil_iff] at h
        obtain ⟨rfl, rfl⟩ := h
        rcases List.mem_cons.mp hm with e | hm
        · cases e
          unfold rowsStep at hs
          split at hs
          · cases hs
          · rename_i t ht
            refine ⟨t, ht, fun hne c hc => ?_⟩
            rw [if_pos hne] at hs
            simp only [Except.ok.injEq, Prod.mk.injEq, List.map_eq_nil_iff, List.filter_eq_nil_iff, Bool.not_eq_true', Bool.not_eq_false] at hs
            exact Dict.has_iff.mp (hs.1 c hc)
        · exact rowsLoop_clean l last' hmore m y hm

/-- **The rows of files without errors fit to their tables**, if no table is declared in two files (then errors are not looked for again, C31). -/
theorem files_rows_fit [PyNum] {sources : List Str} {files : Database} (hf : FileDatabase.new sources = .ok files) (he : files.errors.1 = .ok [])
    (hc : files.schemaCache = none) {k : Str} {t : Table} (hk : files.tables.get? k = some t) {i : Str} {r : Row} (hr : (i, r) ∈ t.rows.getD []) :
    ∀ c ∈ Dict.keys r, c ∈ t.columns.keys := by
  intro c hcr
  rcases FileDatabase.new_cols hf k t (Dict.mem_of_get? hk) i r hr c hcr with h | ⟨rs, x, hrs, hx, hne, hcx⟩
  · exact h
  · have hrow : rowErrors files.tables files.rows = .ok [] := by
      unfold Database.errors at he
      split at he
      · cases he
      · rename_i s d1 hs
        split at he
        · cases he
        · rename_i p d2 hp
          simp only [Except.ok.injEq, List.append_eq_nil_iff] at he
          obtain ⟨_, rfl⟩ := he
          unfold Database.findSchemaErrors at hs
          rw [hc] at hs
          simp only at hs
          split at hs
          · cases hs
          · split at hs
            · cases hs
            · split at hs
              · cases hs
              · rename_i re hre
                simp only [Prod.mk.injEq, Except.ok.injEq, List.append_eq_nil_iff] at hs
                rw [hre, hs.1.2]
    obtain ⟨t2, ht2, hcols⟩ := rowsLoop_clean _ _ hrow k x (List.mem_flatMap.mpr ⟨(k, rs), hrs, List.mem_map.mpr ⟨x, hx, rfl⟩⟩)
    rw [hk] at ht2
    cases ht2
    exact hcols hne c hcx

/-- errors are not looked for while files are read which declare different tables -/
theorem storeTables_cache [PyNum] : ∀ (ts : List Table) (d d' : Database), (Dict.keys d.tables ++ ts.map Table.name).Nodup → FileDatabase.storeTables d ts = .ok d' →
    d'.schemaCache = d.schemaCache ∧ Dict.keys d'.tables = Dict.keys d.tables ++ ts.map Table.name
  | [], d, d', _, h => by cases h; exact ⟨rfl, by simp⟩
  | t :: ts, d, d', hn, h => by
    unfold FileDatabase.storeTables at h
    have hnot : t.name ∉ Dict.keys d.tables := by
      intro hm
      exact (List.nodup_append.mp hn).2.2 _ hm _ List.mem_cons_self rfl
    have hk : Dict.keys (Dict.set d.tables t.name t) = Dict.keys d.tables ++ [t.name] := by
      rw [Dict.set_of_not_mem t hnot]
      simp [Dict.keys]
    rw [if_neg (by rw [Dict.has_eq_false.mpr hnot]; simp)] at h
    obtain ⟨h1, h2⟩ := storeTables_cache ts _ d' (by
      show (Dict.keys (Dict.set d.tables t.name t) ++ _).Nodup
      rw [hk]
      simpa using hn) h
    refine ⟨h1, ?_⟩
    rw [h2]
    show Dict.keys (Dict.set d.tables t.name t) ++ _ = _
    rw [hk]
    simp

theorem readAll_cache [PyNum] : ∀ (files : List Str) (d d' : Database), (Dict.keys d.tables ++ files.flatMap (fun f => Dict.keys (readSource f).1.tables)).Nodup →
    FileDatabase.readAll d files = .ok d' → d'.schemaCache = d.schemaCache
  | [], d, d', _, h => by cases h; rfl
  | f :: fs, d, d', hn, h => by
    unfold FileDatabase.readAll at h
    split at h
    · cases h
    · rename_i d1 h1
      unfold FileDatabase.read at h1
      split at h1
      rename_i st exc hst
      split at h1
      · cases h1
      · split at h1
        · cases h1
        · rename_i d2 h2
          cases h1
          have hkept := (readSource_kept f).1
          have hnames : st.tables.values.map Table.name = Dict.keys (readSource f).1.tables := by
            rw [hst] at hkept ⊢
            simp only [Dict.values, Dict.keys, List.map_map]
            exact List.map_congr_left (fun e he => hkept.name e.1 e.2 he)
          rw [List.flatMap_cons, ← List.append_assoc, ← hnames] at hn
          obtain ⟨h3, h4⟩ := storeTables_cache _ d d2 (List.nodup_append.mp hn).1 h2
          refine (readAll_cache fs _ d' ?_ h).trans h3
          show (Dict.keys d2.tables ++ _).Nodup
          rw [h4]
          exact hn

theorem new_cache [PyNum] {sources : List Str} {files : Database} (hf : FileDatabase.new sources = .ok files)
    (hn : (sources.flatMap (fun f => Dict.keys (readSource f).1.tables)).Nodup) : files.schemaCache = none := by
  unfold FileDatabase.new at hf
  split at hf
  · cases hf
  · rename_i d h1
    rw [(combine_keeps _ hf).2.2.1]
    exact readAll_cache sources {} d (by simpa [Dict.keys] using hn) h1

end Mygrations

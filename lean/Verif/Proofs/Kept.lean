import Verif.Proofs.Run
import Verif.Props.C23
import Verif.Proofs.ReadLoop
import Verif.Spec.Plan

/-!
# Whatever is read is kept in order

For every text: the tables which the readers make of it are stored under their names, once each, and so are their columns,
keys, foreign keys and rows.
-/

namespace Mygrations

/-- A table as the readers make them. -/
structure Table.Kept (t : Table) : Prop extends t.Keyed where
  rowsKeyed : RowsKeyed (t.rows.getD [])
  known : t.tracking = t.rows.isSome

/-- The tables of a database as the readers make them. -/
structure KeptTables (d : Dict Table) : Prop extends KeyedTables d where
  kept : ∀ k t, (k, t) ∈ d → t.Kept

theorem rowsKeyed_nil : RowsKeyed [] := ⟨List.nodup_nil, fun _ _ h => by cases h⟩

theorem Table.kept_empty (name : Str) (options : List TableOpt) : ({ name := name, options := options } : Table).Kept :=
  ⟨⟨List.nodup_nil, fun _ _ h => (by cases h), List.nodup_nil, fun _ _ h => (by cases h), List.nodup_nil, fun _ _ h => (by cases h)⟩,
    rowsKeyed_nil, rfl⟩

theorem keptTables_nil : KeptTables [] := ⟨⟨List.nodup_nil, fun _ _ h => (by cases h), fun _ _ h => (by cases h)⟩, fun _ _ h => (by cases h)⟩

section Entries
variable {V : Type} {P : Str → V → Prop}

theorem Dict.all_set {d : Dict V} {k : Str} {v : V} (hd : ∀ j x, (j, x) ∈ d → P j x) (hv : P k v) (hn : (Dict.keys d).Nodup) :
    ∀ j x, (j, x) ∈ Dict.set d k v → P j x := by
  intro j x hx
  have := Dict.get?_of_mem (Dict.keys_set_nodup k v hn) hx
  rw [Dict.get?_set] at this
  split at this
  · rename_i e
    cases this
    exact e ▸ hv
  · exact hd j x (Dict.mem_of_get? this)

end Entries

theorem KeptTables.set {d : Dict Table} (hd : KeptTables d) {n : Str} {t : Table} (hn : t.name = n) (ht : t.Kept) : KeptTables (Dict.set d n t) :=
  ⟨⟨Dict.keys_set_nodup _ _ hd.nodup, Dict.all_set hd.name hn hd.nodup, Dict.all_set hd.keyed ht.toKeyed hd.nodup⟩,
    Dict.all_set (P := fun _ t => t.Kept) hd.kept ht hd.nodup⟩

theorem KeptTables.values {d : Dict Table} (hd : KeptTables d) : ∀ t ∈ Dict.values d, t.Kept := by
  intro t ht
  obtain ⟨k, hk⟩ := Dict.mem_values.mp ht
  exact hd.kept k t hk

namespace Table

/-- the parts of a table which `Kept` speaks about -/
theorem Kept.congr {t t' : Table} (h : t.Kept) (hc : t'.columns = t.columns) (hi : t'.indexes = t.indexes) (hk : t'.constraints = t.constraints)
    (hr : t'.rows = t.rows) (htr : t'.tracking = t.tracking) : t'.Kept := by
  refine ⟨⟨?_, ?_, ?_, ?_, ?_, ?_⟩, ?_, ?_⟩
  · rw [hc]; exact h.colNodup
  · rw [hc]; exact h.colName
  · rw [hi]; exact h.idxNodup
  · rw [hi]; exact h.idxName
  · rw [hk]; exact h.fkNodup
  · rw [hk]; exact h.fkName
  · rw [hr]; exact h.rowsKeyed
  · rw [htr, hr]; exact h.known

theorem Kept.addColumn {t t' : Table} {c : Column} (h : t.Kept) (hc : t.addColumn c .last = .ok t') : t'.Kept ∧ t'.name = t.name ∧ t'.rows = t.rows := by
  unfold Table.addColumn at hc
  split at hc
  · cases hc
  · rename_i hn
    cases hc
    have hn : c.name ∉ Dict.keys t.columns := fun hm => hn (Dict.has_iff.mpr hm)
    refine ⟨⟨⟨?_, ?_, h.idxNodup, h.idxName, h.fkNodup, h.fkName⟩, h.rowsKeyed, h.known⟩, rfl, rfl⟩
    · rw [← Dict.set_of_not_mem c hn]
      exact Dict.keys_set_nodup _ _ h.colNodup
    · rw [← Dict.set_of_not_mem c hn]
      exact Dict.all_set h.colName rfl h.colNodup

theorem Kept.addIndex {t t' : Table} {i : Index} (h : t.Kept) (hi : t.addIndex i = .ok t') : t'.Kept ∧ t'.name = t.name ∧ t'.rows = t.rows := by
  have key : ({ t with primary := if i.isPrimary then some i else t.primary, indexes := t.indexes.set i.name i } : Table).Kept :=
    ⟨⟨h.colNodup, h.colName, Dict.keys_set_nodup _ _ h.idxNodup, Dict.all_set h.idxName rfl h.idxNodup, h.fkNodup, h.fkName⟩, h.rowsKeyed, h.known⟩
  unfold Table.addIndex at hi
  split at hi
  · cases hi
  · simp only at hi
    split at hi
    · cases hi
      exact ⟨key, rfl, rfl⟩
    · split at hi
      · cases hi
      · cases hi
        exact ⟨key.congr rfl rfl rfl rfl rfl, rfl, rfl⟩

theorem Kept.addConstraint {t t' : Table} {k : Constraint} (h : t.Kept) (hk : t.addConstraint k = .ok t') : t'.Kept ∧ t'.name = t.name ∧ t'.rows = t.rows := by
  unfold Table.addConstraint at hk
  split at hk
  · cases hk
  · cases hk
    exact ⟨⟨⟨h.colNodup, h.colName, h.idxNodup, h.idxName, Dict.keys_set_nodup _ _ h.fkNodup, Dict.all_set h.fkName rfl h.fkNodup⟩, h.rowsKeyed, h.known⟩, rfl, rfl⟩

theorem Kept.addDefinition {all : List Definition} {t t' : Table} {d : Definition} (h : t.Kept) (hd : addDefinition all t d = .ok t') :
    t'.Kept ∧ t'.name = t.name ∧ t'.rows = t.rows := by
  cases d with
  | column c =>
    unfold Mygrations.addDefinition at hd
    simp only at hd
    split at hd
    · cases hd
      exact ⟨h.congr rfl rfl rfl rfl rfl, rfl, rfl⟩
    · split at hd
      · cases hd
      · split at hd
        · cases hd
        · rename_i col _ _ t1 h1
          obtain ⟨k1, n1, r1⟩ := h.addColumn h1
          split at hd
          · obtain ⟨k2, n2, r2⟩ := k1.addIndex hd
            exact ⟨k2, n2.trans n1, r2.trans r1⟩
          · cases hd
            exact ⟨k1, n1, r1⟩
  | index i =>
    unfold Mygrations.addDefinition at hd
    simp only at hd
    split at hd
    · cases hd
      exact ⟨h.congr rfl rfl rfl rfl rfl, rfl, rfl⟩
    · exact h.addIndex hd
  | constraint k bare =>
    unfold Mygrations.addDefinition at hd
    simp only at hd
    obtain ⟨k', hk'⟩ : ∃ k', k' = (if bare then { k with name := bareName t.name k.column k.ftable } else k) := ⟨_, rfl⟩
    simp only [← hk'] at hd
    split at hd
    · cases hd
      exact ⟨h.congr rfl rfl rfl rfl rfl, rfl, rfl⟩
    · split at hd
      · cases hd
      · rename_i t1 h1
        obtain ⟨k1, n1, r1⟩ := h.addConstraint h1
        split at hd
        · obtain ⟨k2, n2, r2⟩ := k1.addIndex hd
          exact ⟨k2, n2.trans n1, r2.trans r1⟩
        · cases hd
          exact ⟨k1, n1, r1⟩

theorem Kept.addDefinitions {all : List Definition} : ∀ {ds : List Definition} {t t' : Table}, t.Kept → addDefinitions all t ds = .ok t' →
    t'.Kept ∧ t'.name = t.name ∧ t'.rows = t.rows
  | [], t, t', h, hd => by cases hd; exact ⟨h, rfl, rfl⟩
  | d :: ds, t, t', h, hd => by
    unfold Mygrations.addDefinitions at hd
    split at hd
    · cases hd
    · rename_i t1 h1
      obtain ⟨k1, n1, r1⟩ := h.addDefinition h1
      obtain ⟨k2, n2, r2⟩ := Kept.addDefinitions k1 hd
      exact ⟨k2, n2.trans n1, r2.trans r1⟩

end Table

theorem parseCreate_kept {s rest : Str} {t : Table} (h : parseCreate s = .ok (t, rest)) : t.Kept ∧ t.rows = none := by
  unfold parseCreate at h
  split at h
  · cases h
  · split at h
    · split at h
      · cases h
      · rename_i t1 h1
        cases h
        unfold createProcess at h1
        simp only at h1
        split at h1
        · cases h1
        · rename_i t2 h2
          obtain ⟨k2, _, r2⟩ := (Table.kept_empty _ _).addDefinitions h2
          split at h1
          · cases h1; exact ⟨k2, r2⟩
          · cases h1; exact ⟨k2.congr rfl rfl rfl rfl rfl, r2⟩
    · cases h
      exact ⟨Table.kept_empty _ _, rfl⟩

/-- no table has any rows -/
def NoRows (d : Dict Table) : Prop := ∀ k t, (k, t) ∈ d → t.rows = none

theorem readLoop_kept : ∀ (n : Nat) (st : ReaderState) (s : Str), KeptTables st.tables ∧ NoRows st.tables →
    KeptTables (readLoop n st s).1.tables ∧ NoRows (readLoop n st s).1.tables
  | n, st, [], h => by rw [readLoop_nil]; exact h
  | 0, st, c :: cs, h => by rw [readLoop_zero st (by simp)]; exact h
  | n + 1, st, c :: cs, h => by
    rw [readLoop_succ n st (by simp)]
    unfold readStep
    split
    · exact h
    · split
      · exact readLoop_kept n _ _ h
      · split
        · split
          · exact h
          · rename_i t rest ht
            obtain ⟨hk, hr⟩ := parseCreate_kept ht
            exact readLoop_kept n _ _ ⟨h.1.set rfl hk, Dict.all_set (P := fun _ (t : Table) => t.rows = none) h.2 hr h.1.nodup⟩
        · split
          · split
            · exact h
            · exact readLoop_kept n _ _ h
          · exact h

theorem readSource_kept (s : Str) : KeptTables (readSource s).1.tables ∧ NoRows (readSource s).1.tables :=
  readLoop_kept _ _ _ ⟨keptTables_nil, fun _ _ h => (by cases h)⟩

/-! ## Files -/

theorem Database.findSchemaErrors_tables [PyNum] (d : Database) : d.findSchemaErrors.2.tables = d.tables := by
  unfold Database.findSchemaErrors
  split
  · rfl
  · split
    · rfl
    · split
      · rfl
      · split <;> rfl

theorem Database.findParsingErrors_tables [PyNum] (d : Database) : d.findParsingErrors.2.tables = d.tables := by
  unfold Database.findParsingErrors
  split
  · rfl
  · split <;> rfl

theorem Database.errors_tables [PyNum] (d : Database) : d.errors.2.tables = d.tables := by
  have h := d.findSchemaErrors_tables
  unfold Database.errors
  split
  · rename_i e d1 h1
    rw [h1] at h
    exact h
  · rename_i l d1 h1
    rw [h1] at h
    have h2 := d1.findParsingErrors_tables
    split
    · rename_i e d2 h3
      rw [h3] at h2
      exact h2.trans h
    · rename_i e d2 h3
      rw [h3] at h2
      exact h2.trans h

theorem Database.findSchemaErrors_rows [PyNum] (d : Database) : d.findSchemaErrors.2.rows = d.rows := by
  unfold Database.findSchemaErrors
  split
  · rfl
  · split
    · rfl
    · split
      · rfl
      · split <;> rfl

theorem Database.findParsingErrors_rows [PyNum] (d : Database) : d.findParsingErrors.2.rows = d.rows := by
  unfold Database.findParsingErrors
  split
  · rfl
  · split <;> rfl

theorem Database.errors_rows [PyNum] (d : Database) : d.errors.2.rows = d.rows := by
  have h := d.findSchemaErrors_rows
  unfold Database.errors
  split
  · rename_i e d1 h1
    rw [h1] at h
    exact h
  · rename_i l d1 h1
    rw [h1] at h
    have h2 := d1.findParsingErrors_rows
    split
    · rename_i e d2 h3
      rw [h3] at h2
      exact h2.trans h
    · rename_i e d2 h3
      rw [h3] at h2
      exact h2.trans h

namespace FileDatabase

theorem storeTables_kept [PyNum] : ∀ (ts : List Table) (d d' : Database), KeptTables d.tables → (∀ t ∈ ts, t.Kept) →
    storeTables d ts = .ok d' → KeptTables d'.tables
  | [], d, d', h, _, hs => by cases hs; exact h
  | t :: ts, d, d', h, ht, hs => by
    unfold storeTables at hs
    split at hs
    · split at hs
      · cases hs
      · rename_i d1 h1
        have e : d1.tables = d.tables := by
          have := Database.errors_tables d
          rw [h1] at this
          exact this
        refine storeTables_kept ts _ d' ?_ (fun x hx => ht x (List.mem_cons_of_mem _ hx)) hs
        simp only [e]
        exact h.set rfl (ht t List.mem_cons_self)
    · exact storeTables_kept ts _ d' (h.set rfl (ht t List.mem_cons_self)) (fun x hx => ht x (List.mem_cons_of_mem _ hx)) hs

theorem read_kept [PyNum] {d d' : Database} {s : Str} (h : KeptTables d.tables) (hr : read d s = .ok d') : KeptTables d'.tables := by
  unfold read at hr
  split at hr
  rename_i st exc hst
  split at hr
  · cases hr
  · split at hr
    · cases hr
    · rename_i d1 h1
      cases hr
      have hk := readSource_kept s
      rw [hst] at hk
      exact storeTables_kept st.tables.values d d1 h hk.1.values h1

theorem readAll_kept [PyNum] : ∀ (ss : List Str) (d d' : Database), KeptTables d.tables → readAll d ss = .ok d' → KeptTables d'.tables
  | [], d, d', h, hr => by cases hr; exact h
  | s :: ss, d, d', h, hr => by
    unfold readAll at hr
    split at hr
    · cases hr
    · rename_i d1 h1
      exact readAll_kept ss d1 d' (read_kept h h1) hr

end FileDatabase

namespace Table

theorem addRows_frame {t t' : Table} {r : Rows} (hn : (Dict.keys (t.rows.getD [])).Nodup) (hr : t.addRows r = .ok t') :
    t'.columns = t.columns ∧ t'.indexes = t.indexes ∧ t'.constraints = t.constraints ∧ t'.name = t.name ∧ t'.options = t.options := by
  unfold addRows at hr
  simp only at hr
  split at hr
  · cases hr; exact ⟨rfl, rfl, rfl, rfl, rfl⟩
  · rename_i i hi
    obtain ⟨more, errs, he, _⟩ := addRowsLoop_spec hi (by simp) (by simpa using hn) hr
    rw [he]
    exact ⟨rfl, rfl, rfl, rfl, rfl⟩

theorem Kept.addRows {t t' : Table} {r : Rows} (h : t.Kept) (hr : t.addRows r = .ok t') : t'.Kept ∧ t'.name = t.name := by
  obtain ⟨hk, ht, more, errs, hrows, _⟩ := C23_partial t t' r hr h.rowsKeyed
  obtain ⟨hc, hi, hf, hn, _⟩ := addRows_frame h.rowsKeyed.nodup hr
  refine ⟨⟨⟨?_, ?_, ?_, ?_, ?_, ?_⟩, hk, by rw [ht, hrows]; rfl⟩, hn⟩
  · rw [hc]; exact h.colNodup
  · rw [hc]; exact h.colName
  · rw [hi]; exact h.idxNodup
  · rw [hi]; exact h.idxName
  · rw [hf]; exact h.fkNodup
  · rw [hf]; exact h.fkName

theorem Kept.markTracking {t : Table} (h : t.Kept) : t.markTracking.Kept :=
  ⟨⟨h.colNodup, h.colName, h.idxNodup, h.idxName, h.fkNodup, h.fkName⟩, h.rowsKeyed, rfl⟩

theorem convertRow_id (t : Table) (row : Row) (i : Str) : Dict.get? (t.convertRow row i) py"id" = some (.str i) := by
  unfold convertRow
  rw [Dict.get?_set, if_pos rfl]

/-- the id of a row which the server answers -/
def rawId (row : Row) : Str := match Dict.get? row py"id" with | none => py"None" | some v => v.toStr

theorem addRawRow_eq (t : Table) (row : Row) : t.addRawRow row =
    if rawId row = [] then .error (.valueError py"Cannot manage records without an 'id' column and value")
    else if (t.rows.getD []).has (rawId row) then .ok t.markTracking
    else .ok { t.markTracking with rows := some ((t.rows.getD []).set (rawId row) (t.convertRow row (rawId row))) } := rfl

theorem Kept.addRawRow {t t' : Table} {r : Row} (h : t.Kept) (hr : t.addRawRow r = .ok t') : t'.Kept ∧ t'.name = t.name := by
  rw [addRawRow_eq] at hr
  split at hr
  · cases hr
  · rename_i hi
    split at hr
    · cases hr
      exact ⟨h.markTracking, rfl⟩
    · cases hr
      refine ⟨⟨⟨h.colNodup, h.colName, h.idxNodup, h.idxName, h.fkNodup, h.fkName⟩, ⟨?_, ?_⟩, rfl⟩, rfl⟩
      · exact Dict.keys_set_nodup _ _ h.rowsKeyed.nodup
      · exact Dict.all_set (P := fun k x => k ≠ [] ∧ Dict.get? x py"id" = some (PyVal.str k)) h.rowsKeyed.id ⟨hi, convertRow_id _ _ _⟩ h.rowsKeyed.nodup

end Table

namespace FileDatabase

theorem addInserts_kept {n : Str} : ∀ (rs : List Rows) (ts ts' : Dict Table), KeptTables ts → addInserts n ts rs = .ok ts' → KeptTables ts'
  | [], ts, ts', h, ha => by cases ha; exact h
  | r :: rs, ts, ts', h, ha => by
    unfold addInserts at ha
    split at ha
    · cases ha
    · rename_i t ht
      split at ha
      · cases ha
      · rename_i t1 h1
        obtain ⟨k1, n1⟩ := (h.kept n t (Dict.mem_of_get? ht)).addRows h1
        exact addInserts_kept rs _ ts' (h.set (n1.trans (h.name n t (Dict.mem_of_get? ht))) k1) ha

theorem combine_kept : ∀ (l : List (Str × List Rows)) (d d' : Database), KeptTables d.tables → combine d l = .ok d' → KeptTables d'.tables
  | [], d, d', h, hc => by cases hc; exact h
  | (n, rs) :: l, d, d', h, hc => by
    unfold combine at hc
    simp only at hc
    split at hc
    · cases hc
    · rename_i ts hts
      refine combine_kept l _ d' ?_ hc
      refine addInserts_kept rs _ ts ?_ hts
      split
      · exact h
      · exact h

/-- Whatever the files are. -/
theorem new_kept [PyNum] {sources : List Str} {d : Database} (h : new sources = .ok d) : KeptTables d.tables := by
  unfold new at h
  split at h
  · cases h
  · rename_i d1 h1
    exact combine_kept d1.rows d1 d (readAll_kept sources {} d1 keptTables_nil h1) h

end FileDatabase

namespace LiveDatabase

theorem storeTables_kept : ∀ (ts : List Table) (d : Database), KeptTables d.tables ∧ NoRows d.tables → (∀ t ∈ ts, t.Kept ∧ t.rows = none) →
    KeptTables (storeTables d ts).tables ∧ NoRows (storeTables d ts).tables
  | [], d, h, _ => h
  | t :: ts, d, h, ht => by
    unfold storeTables
    simp only
    refine storeTables_kept ts _ ?_ (fun x hx => ht x (List.mem_cons_of_mem _ hx))
    obtain ⟨hk, hr⟩ := ht t List.mem_cons_self
    split
    · exact ⟨h.1.set rfl hk, Dict.all_set (P := fun _ (t : Table) => t.rows = none) h.2 hr h.1.nodup⟩
    · exact ⟨h.1.set rfl hk, Dict.all_set (P := fun _ (t : Table) => t.rows = none) h.2 hr h.1.nodup⟩

theorem loadTables_kept : ∀ (texts : List Str) (d d' : Database), KeptTables d.tables ∧ NoRows d.tables → loadTables d texts = .ok d' →
    KeptTables d'.tables ∧ NoRows d'.tables
  | [], d, d', h, hl => by cases hl; exact h
  | s :: ss, d, d', h, hl => by
    unfold loadTables at hl
    split at hl
    rename_i st exc hst
    split at hl
    · cases hl
    · have hk := readSource_kept s
      rw [hst] at hk
      refine loadTables_kept ss _ d' (storeTables_kept _ _ h ?_) hl
      intro t ht
      obtain ⟨k, hkt⟩ := Dict.mem_values.mp ht
      exact ⟨hk.1.kept k t hkt, hk.2 k t hkt⟩

/-- Whatever the server answers. -/
theorem new_kept {srv : Server} {d : Database} (h : (new srv).result = .ok d) : KeptTables d.tables ∧ NoRows d.tables := by
  obtain ⟨ts, _, h⟩ := Run.bind_result h
  exact loadTables_kept _ _ _ ⟨keptTables_nil, fun _ _ h => (by cases h)⟩ h

theorem addRawRows_kept : ∀ (rs : List Row) (t t' : Table), t.Kept → addRawRows t rs = .ok t' → t'.Kept ∧ t'.name = t.name
  | [], t, t', h, ha => by cases ha; exact ⟨h, rfl⟩
  | r :: rs, t, t', h, ha => by
    unfold addRawRows at ha
    split at ha
    · cases ha
    · rename_i t1 h1
      obtain ⟨k1, n1⟩ := h.addRawRow h1
      obtain ⟨k2, n2⟩ := addRawRows_kept rs t1 t' k1 ha
      exact ⟨k2, n2.trans n1⟩

theorem readRows_kept {srv : Server} {d d' : Database} {n : Str} (h : KeptTables d.tables) (hr : (readRows srv d n).result = .ok d') :
    KeptTables d'.tables := by
  unfold readRows at hr
  split at hr
  · cases hr
  · rename_i t ht
    obtain ⟨rs, _, hr⟩ := Run.bind_result hr
    split at hr
    · cases hr
    · rename_i t1 h1
      cases hr
      obtain ⟨k1, n1⟩ := addRawRows_kept rs t t1 (h.kept n t (Dict.mem_of_get? ht)) h1
      exact h.set (n1.trans (h.name n t (Dict.mem_of_get? ht))) k1.markTracking

end LiveDatabase

namespace Command

theorem readTracked_kept {srv : Server} : ∀ (ts : List Table) (d d' : Database), KeptTables d.tables → (readTracked srv d ts).result = .ok d' →
    KeptTables d'.tables
  | [], d, d', h, hr => by cases hr; exact h
  | t :: ts, d, d', h, hr => by
    unfold readTracked at hr
    split at hr
    · obtain ⟨d1, h1, hr⟩ := Run.bind_result hr
      exact readTracked_kept ts d1 d' (LiveDatabase.readRows_kept h h1) hr
    · exact readTracked_kept ts d d' h hr

end Command

end Mygrations

import Verif.Proofs.Tracked
import Verif.Props.C45
import Verif.Props.C17
import Verif.Props.C56

/-!
# C63: applying a plan brings the rows in line with the files

Here the files and the server are arbitrary: nothing is assumed about how the tables or rows were read.
-/

namespace Mygrations
open Command Table

/-! ## Specification -/

/-- The rows `rs` which the server answers for a table are the rows of the table in `g`: no two have the same id, each has a
value in every column, and there are no others. -/
structure Answers (g : DbRows) (table : Str) (columns : List Str) (rs : List Row) : Prop where
  id : ∀ r ∈ rs, ∃ i, DbRows.givenId r = some i ∧ i ≠ []
  full : ∀ r ∈ rs, ∀ c ∈ columns, c ∈ Dict.keys r
  present : ∀ r ∈ rs, ∀ i, DbRows.givenId r = some i → ∃ cells, g table i = some cells ∧ ∀ c v, Dict.get? r c = some v → cells c = v.cell
  absent : ∀ i, (∀ r ∈ rs, DbRows.givenId r ≠ some i) → g table i = none

/-- The rows on the server are `g`: they are answered for each table, and there are none for what is no table. -/
structure ServerRows (srv : Server) (live : Database) (g : DbRows) : Prop where
  tables : ∀ n x, live.tables.get? n = some x → ∃ rs, srv.select n = .ok rs ∧ Answers g n (Dict.keys x.columns) rs
  others : ∀ n, live.tables.get? n = none → ∀ i, g n i = none

/-- The row `r` of the declared rows `new` of the table `n` is sure to be written: it is new; or no text `None` is involved, and the
table on the server has all columns of the row or the value of some column changes. -/
def RowWritten (g : DbRows) (live : Dict Table) (n : Str) (new : Dict Row) (i : Str) (r : Row) : Prop :=
  g n i = none ∨
    NoNoneText new ∧ (∀ j cells c, g n j = some cells → cells c ≠ some py"None") ∧
    ∃ x cells, live.get? n = some x ∧ g n i = some cells ∧
      ((∀ c ∈ Dict.keys r, c ∈ Dict.keys x.columns) ∨
        ∃ c v, Dict.get? r c = some v ∧ c ∈ Dict.keys x.columns ∧ cells c ≠ v.cell)

/-! ## Proofs -/

theorem givenId_rawId {r : Row} {i : Str} (h : DbRows.givenId r = some i) : Table.rawId r = i := by
  unfold DbRows.givenId at h
  unfold Table.rawId
  cases hv : Dict.get? r py"id" with
  | none => rw [hv] at h; cases h
  | some v =>
    rw [hv] at h
    cases v <;> first | (cases h; done) | (simp only [Option.bind_some, PyVal.cell, Option.some.injEq] at h; exact h)

/-- what was read is what is there -/
theorem answers_live {g : DbRows} {n : Str} {x x' : Table} {rs : List Row} (hx : x.Kept) (hn : x.rows = none)
    (ha : Answers g n (Dict.keys x.columns) rs) (h : LiveDatabase.addRawRows x rs = .ok x') :
    Live g n (x'.rows.getD []) ∧ ∀ i cells r, g n i = some cells → Dict.get? (x'.rows.getD []) i = some r →
      (∀ c ∈ Dict.keys x.columns, c ∈ Dict.keys r) ∧ (∀ c ∈ Dict.keys r, c = py"id" ∨ c ∈ Dict.keys x.columns) ∧ ∃ q ∈ rs, DbRows.givenId q = some i := by
  obtain ⟨h1, h2, h3⟩ := LiveDatabase.addRawRows_spec rs x x' hx h
  have hrows : ∀ i r, Dict.get? (x'.rows.getD []) i = some r → ∃ q ∈ rs, DbRows.givenId q = some i ∧ r = x.convertRow q i := by
    intro i r hr
    rw [h3 i, hn] at hr
    simp only [Option.getD_none, Dict.get?, Option.none_or, Option.map_eq_some_iff] at hr
    obtain ⟨q, hq, rfl⟩ := hr
    have hm := List.mem_of_find?_eq_some hq
    have hi := List.find?_some hq
    simp only [decide_eq_true_eq] at hi
    obtain ⟨j, hj, _⟩ := ha.id q hm
    refine ⟨q, hm, ?_, rfl⟩
    rw [hj, ← givenId_rawId hj, hi]
  constructor
  · intro i
    cases hr : Dict.get? (x'.rows.getD []) i with
    | none =>
      simp only
      refine ha.absent i ?_
      intro r hrm hri
      rw [h3 i, hn] at hr
      simp only [Option.getD_none, Dict.get?, Option.none_or, Option.map_eq_none_iff, List.find?_eq_none, decide_eq_true_eq] at hr
      exact hr r hrm (givenId_rawId hri)
    | some r =>
      simp only
      obtain ⟨q, hqm, hqi, rfl⟩ := hrows i r hr
      obtain ⟨cells, hc, hcells⟩ := ha.present q hqm i hqi
      refine ⟨cells, hc, ?_⟩
      intro c v hv
      rw [Table.convertRow_get hx.toKeyed] at hv
      split at hv
      · rename_i hid
        cases hv
        subst hid
        unfold DbRows.givenId at hqi
        cases hw : Dict.get? q py"id" with
        | none => rw [hw] at hqi; cases hqi
        | some w =>
          rw [hw] at hqi
          simp only [Option.bind_some] at hqi
          rw [hcells _ w hw, hqi]
          rfl
      · obtain ⟨col, hcol, hv⟩ := Option.map_eq_some_iff.mp hv
        obtain ⟨w, hw⟩ := Dict.exists_get? (ha.full q hqm c (Dict.mem_keys_of_get? hcol))
        rw [hw] at hv
        simp only at hv
        subst hv
        exact hcells c w hw
  · intro i cells r _ hr
    obtain ⟨q, hqm, hqi, rfl⟩ := hrows i r hr
    refine ⟨?_, ?_, q, hqm, hqi⟩
    · intro c hc
      obtain ⟨col, hcol⟩ := Dict.exists_get? hc
      have : ∃ v, Dict.get? (x.convertRow q i) c = some v := by
        rw [Table.convertRow_get hx.toKeyed, hcol]
        split <;> exact ⟨_, rfl⟩
      obtain ⟨v, hv⟩ := this
      exact Dict.mem_keys_of_get? hv
    · intro c hc
      obtain ⟨v, hv⟩ := Dict.exists_get? hc
      rw [Table.convertRow_get hx.toKeyed] at hv
      split at hv
      · rename_i hid; exact .inl hid
      · obtain ⟨col, hcol, _⟩ := Option.map_eq_some_iff.mp hv
        exact .inr (Dict.mem_keys_of_get? hcol)

theorem execAll_append (dflt : Str → Cells) : ∀ (l l' : List Op) (g : DbRows),
    DbRows.execAll dflt g (l ++ l') = (DbRows.execAll dflt g l).bind (fun g' => DbRows.execAll dflt g' l')
  | [], l', g => rfl
  | o :: l, l', g => by
    simp only [List.cons_append, DbRows.execAll]
    cases DbRows.exec dflt g o with
    | none => rfl
    | some g1 => exact execAll_append dflt l l' g1

theorem execAll_structure (dflt : Str → Cells) : ∀ (l : List Op) (g : DbRows), (∀ o ∈ l, o.isToggle ∨ o.isCreate ∨ o.isAlter ∨ o.isDrop) →
    DbRows.execAll dflt g l = some g
  | [], g, _ => rfl
  | o :: l, g, h => by
    have : DbRows.exec dflt g o = some g := by
      have ho := h o List.mem_cons_self
      cases o <;> first | rfl | (rcases ho with h | h | h | h <;> cases h)
    simp only [DbRows.execAll, this, Option.bind_some]
    exact execAll_structure dflt l g (fun x hx => h x (List.mem_cons_of_mem _ hx))

/-- what the two migrations see: the tables of the files, and those of the server with the rows of the tracked ones -/
theorem buildCommands_tables [PyNum] {srv : Server} {sources : List Str} {force : Bool} {ops : List Op} (hclean : ¬ Faulty sources)
    (h : (buildCommands srv sources force).result = .ok ops) :
    ∃ files live live' rows, ∃ process : List Op, FileDatabase.new sources = .ok files ∧ (LiveDatabase.new srv).result = .ok live ∧
      (readTracked srv live files.tables.values).result = .ok live' ∧ KeptTables files.tables ∧ KeptTables live'.tables ∧
      Mygration.process files.tables (some live'.tables) false = .ok process ∧
      RowMygration.process files.tables (some live'.tables) = .ok rows ∧
      ops = if process ++ rows = [] then [] else .disableChecks :: (process ++ rows) ++ [.enableChecks] := by
  obtain ⟨files, files', errs, hf, he, hcase⟩ := buildCommands_cases h
  have herrs : errs = [] := by
    refine Classical.byContradiction fun hne => hclean ⟨files, errs, hf, by rw [he], hne⟩
  have htab : files'.tables = files.tables := by
    have := files.errors_tables
    rw [he] at this
    exact this
  rcases hcase with ⟨hne, _⟩ | ⟨_, live, live', all, hl, hr, hall, hops⟩
  · exact absurd herrs hne
  obtain ⟨p, rows, hp, hrows, rfl⟩ := allOps_cases hall
  have hsome := new_operations he hp
  rw [if_pos herrs] at hsome
  obtain ⟨process, hproc⟩ := Option.isSome_iff_exists.mp hsome
  rw [htab] at hr
  have hp' : Mygration.process files.tables (some live'.tables) false = .ok process := by
    unfold Mygration.new at hp
    split at hp
    · cases hp
    · cases hp; cases hproc
    · split at hp
      · cases hp
      · rename_i ops2 hops2
        cases hp
        cases hproc
        simp only [Option.map_some, htab] at hops2
        exact hops2
  refine ⟨files, live, live', rows, process, hf, hl, hr, FileDatabase.new_kept hf, readTracked_kept _ _ _ (LiveDatabase.new_kept hl).1 hr, hp', ?_, ?_⟩
  · have : RowMygration.new files' (some live') = RowMygration.process files'.tables (some live'.tables) := rfl
    rw [this, htab] at hrows
    exact hrows
  · rw [hops, hproc, Option.getD_some]

/-- the names of the tables of files are distinct -/
theorem KeptTables.names_nodup {d : Dict Table} (hkf : KeptTables d) : (d.values.map Table.name).Nodup := by
  have : d.values.map Table.name = d.keys := by
    simp only [Dict.values, Dict.keys, List.map_map]
    exact List.map_congr_left (fun e he => hkf.name e.1 e.2 he)
  rw [this]
  exact hkf.nodup

/-- the rows of the tracked tables are as they were read -/
theorem tracked_live {srv : Server} {files : Dict Table} {live live' : Database} {g : DbRows} (hkf : KeptTables files) (hl : (LiveDatabase.new srv).result = .ok live)
    (hg : ServerRows srv live g) (hr : (readTracked srv live files.values).result = .ok live') {t : Table} (htm : t ∈ files.values) (htt : t.tracking = true) :
    Live g t.name (oldRows (live'.tables.get? t.name)) ∧
    ∀ x i r, live.tables.get? t.name = some x → (oldRows (live'.tables.get? t.name)).get? i = some r →
      (∀ c ∈ Dict.keys x.columns, c ∈ Dict.keys r) ∧ (∀ c ∈ Dict.keys r, c = py"id" ∨ c ∈ Dict.keys x.columns) ∧
      ∃ rs, srv.select t.name = .ok rs ∧ ∃ q ∈ rs, DbRows.givenId q = some i := by
  obtain ⟨hk0, hnorows⟩ := LiveDatabase.new_kept hl
  obtain ⟨_, htracked⟩ := readTracked_get _ _ _ hkf.names_nodup hr
  obtain ⟨h1, h2⟩ := htracked t htm htt
  cases hx : live.tables.get? t.name with
  | none =>
    rw [h1 hx]
    refine ⟨fun i => ?_, fun x _ _ h => by cases h⟩
    exact hg.others t.name hx i
  | some x =>
    obtain ⟨rs, x', hrs, hx', hget⟩ := h2 x hx
    obtain ⟨rs2, hrs2, ha⟩ := hg.tables t.name x hx
    rw [hrs] at hrs2
    cases hrs2
    have hm := Dict.mem_of_get? hx
    obtain ⟨ha1, ha2⟩ := answers_live (hk0.kept _ _ hm) (hnorows _ _ hm) ha hx'
    have hold : oldRows (live'.tables.get? t.name) = x'.rows.getD [] := by rw [hget]; rfl
    rw [hold]
    refine ⟨ha1, ?_⟩
    intro y i r hy hr
    cases hy
    have := ha1 i
    rw [hr] at this
    obtain ⟨cells, hc, _⟩ := this
    obtain ⟨h3, h4, h5⟩ := ha2 i cells r hc hr
    exact ⟨h3, h4, rs, hrs, h5⟩

theorem rows_ok {files live' : Dict Table} (hkf : KeptTables files) (hkl : KeptTables live') : RowsOk files (some live') := by
  refine ⟨?_, ?_⟩
  · intro t htm _ new hnew
    have := (hkf.values t htm).rowsKeyed
    rw [hnew] at this
    exact this
  · intro t _ _
    simp only [Option.getD_some]
    cases hx : live'.get? t.name with
    | none => exact List.nodup_nil
    | some x =>
      have := (hkl.kept _ _ (Dict.mem_of_get? hx)).rowsKeyed.nodup
      exact this

/-- a row which is sure to be written, in terms of the rows which were read -/
theorem RowWritten.read {g : DbRows} {live : Dict Table} {n : Str} {new old : Dict Row} {i : Str} {r : Row} (h : RowWritten g live n new i r) (hr : new.get? i = some r)
    (hl1 : Live g n old) (hl2 : ∀ x i r, live.get? n = some x → old.get? i = some r → ∀ c ∈ Dict.keys x.columns, c ∈ Dict.keys r) (hplain : FileValues new) :
    old.get? i = none ∨ (∃ o, old.get? i = some o ∧
      ((∃ c a b, Dict.get? r c = some a ∧ Dict.get? o c = some b ∧ looseEqual a b = false) ∨
        ((∀ c ∈ Dict.keys r, c ∈ Dict.keys o) ∧ FileValues new ∧ NoNoneText new ∧ NoNoneText old))) := by
  have hli := hl1 i
  rcases h with hnone | ⟨hnn, hng, x, cells, hx, hc, hcase⟩
  · left
    cases ho : old.get? i with
    | none => rfl
    | some o =>
      rw [ho] at hli
      obtain ⟨cells, hc, _⟩ := hli
      rw [hnone] at hc
      cases hc
  · right
    cases ho : old.get? i with
    | none =>
      rw [ho] at hli
      simp only at hli
      rw [hc] at hli
      cases hli
    | some o =>
      rw [ho] at hli
      obtain ⟨cells', hc', hcells⟩ := hli
      rw [hc] at hc'
      cases hc'
      have hno : NoNoneText old := by
        intro k q c v hk hv
        have := hl1 k
        rw [hk] at this
        obtain ⟨cells2, hc2, hcells2⟩ := this
        rw [← hcells2 c v hv]
        exact hng k cells2 c hc2
      refine ⟨o, rfl, ?_⟩
      have hcols := hl2 x i o hx ho
      rcases hcase with hsub | ⟨c, v, hv, hcx, hne⟩
      · right
        exact ⟨fun c hc => hcols c (hsub c hc), hplain, hnn, hno⟩
      · left
        obtain ⟨w, hw⟩ := Dict.exists_get? (hcols c hcx)
        refine ⟨c, v, w, hv, hw, ?_⟩
        cases hq : looseEqual v w with
        | false => rfl
        | true =>
          have hvc := (looseEqual_iff (hplain i r c v hr hv) (hnn i r c v hr hv) (hno i o c w ho hw)).mp hq
          exact absurd ((hcells c w hw).trans hvc.symm) hne

theorem file_values [PyNum] {sources : List Str} {files : Database} (hf : FileDatabase.new sources = .ok files) {t : Table} (htm : t ∈ files.tables.values)
    {new : Dict Row} (hnew : t.rows = some new) : FileValues new := by
  obtain ⟨k, hk⟩ := Dict.mem_values.mp htm
  have := FileDatabase.new_plain hf k t hk
  rw [hnew] at this
  exact this.fileValues

/-! ## C63 -/

/-- **C63** (partial).  The declared schema has no errors and a plan is made.  If the rows on the server are `g`, then all
statements of the plan on rows succeed, and afterwards every table whose rows are declared has exactly the declared ids.  The
row with an id has all its declared values (1) if it is new, and, unless a text `None` is involved, (2) if the table on the
server has all columns of the row, or (3) if the value of some column of the server changes.  The rows of declared tables
which are not tracked do not change.

What is missing: a row with values for new columns only (`C21_counterexample`), the text `None` (`C22_counterexample`), and the
statements on tables and columns, which are taken to keep the rows. -/
theorem C63_rows_partial [PyNum] (srv : Server) (sources : List Str) (force : Bool) (ops : List Op) (files live : Database) (g : DbRows)
    (dflt : Str → Cells) (hclean : ¬ Faulty sources) (hf : FileDatabase.new sources = .ok files) (hl : (LiveDatabase.new srv).result = .ok live)
    (hg : ServerRows srv live g) (h : (buildCommands srv sources force).result = .ok ops) :
    ∃ g', DbRows.execAll dflt g ops = some g' ∧
      (∀ t ∈ files.tables.values, t.tracking = true → ∃ new, t.rows = some new ∧
        (∀ i, (g' t.name i).isSome = true ↔ i ∈ new.keys) ∧
        ∀ i r, new.get? i = some r →
          (g t.name i = none ∨
            NoNoneText new ∧ (∀ j cells c, g t.name j = some cells → cells c ≠ some py"None") ∧
            ∃ x cells, live.tables.get? t.name = some x ∧ g t.name i = some cells ∧
              ((∀ c ∈ Dict.keys r, c ∈ Dict.keys x.columns) ∨
                ∃ c v, Dict.get? r c = some v ∧ c ∈ Dict.keys x.columns ∧ cells c ≠ v.cell)) →
          ∃ cells, g' t.name i = some cells ∧ ∀ c v, Dict.get? r c = some v → cells c = v.cell) ∧
      ∀ t ∈ files.tables.values, t.tracking = false → g' t.name = g t.name := by
  obtain ⟨files2, live2, live', rows, process, hf2, hl2, hr, hkf, hkl, hp, hrows, hops⟩ := buildCommands_tables hclean h
  rw [hf] at hf2
  cases hf2
  rw [hl] at hl2
  cases hl2
  have hlive : ∀ t ∈ files.tables.values, t.tracking = true → _ := fun t htm htt => tracked_live hkf hl hg hr htm htt
  have hrok := rows_ok hkf hkl
  obtain ⟨g', hg', hres⟩ := C17_partial files.tables (some live'.tables) rows hkf.toKeyedTables hrok hrows dflt g (fun t htm htt => (hlive t htm htt).1)
  have hstruct := (C10 files.tables (some live'.tables) false process hkf.toKeyedTables hkl.toKeyedTables hp).2.2.2.2.2
  have hall : DbRows.execAll dflt g (process ++ rows) = some g' := by
    rw [execAll_append, execAll_structure dflt process g hstruct, Option.bind_some, hg']
  refine ⟨g', ?_, ?_, ?_⟩
  · rw [hops]
    split
    · rename_i hnil
      rw [hnil] at hall
      exact hall
    · rw [List.cons_append, DbRows.execAll]
      show (some g).bind _ = _
      rw [Option.bind_some, execAll_append, hall, Option.bind_some]
      rfl
  · intro t htm htt
    obtain ⟨new, hnew, hids, hvals⟩ := hres t htm htt
    refine ⟨new, hnew, hids, ?_⟩
    intro i r hr hcase
    refine hvals i r hr ?_
    simp only [Option.getD_some]
    obtain ⟨hl1, hl2⟩ := hlive t htm htt
    exact RowWritten.read hcase hr hl1 (fun x i r hx hr => (hl2 x i r hx hr).1) (file_values hf htm hnew)
  · intro t htm htt
    refine (C19 files.tables (some live'.tables) rows hkf.toKeyedTables hrows).2 dflt g g' hg' t.name ?_
    intro t2 ht2 htt2 e
    have : t2 = t := by
      obtain ⟨n1, h1⟩ := Dict.mem_values.mp htm
      obtain ⟨n2, h2⟩ := Dict.mem_values.mp ht2
      have e1 := Dict.get?_of_mem hkf.nodup h1
      have e2 := Dict.get?_of_mem hkf.nodup h2
      rw [← hkf.name _ _ h1] at e1
      rw [← hkf.name _ _ h2, e, e1] at e2
      exact (Option.some.inj e2).symm
    subst this
    rw [htt] at htt2
    cases htt2

/-- reading rows leaves the tables and their columns as they are -/
theorem readTracked_columns {srv : Server} {files : Dict Table} {live live' : Database} (hkf : KeptTables files) (hk0 : KeptTables live.tables)
    (hr : (readTracked srv live files.values).result = .ok live') {n : Str} {y : Table} (hy : live'.tables.get? n = some y) :
    ∃ x, live.tables.get? n = some x ∧ y.columns = x.columns := by
  have hnames : (files.values.map Table.name).Nodup := by
    have : files.values.map Table.name = files.keys := by
      simp only [Dict.values, Dict.keys, List.map_map]
      exact List.map_congr_left (fun e he => hkf.name e.1 e.2 he)
    rw [this]
    exact hkf.nodup
  obtain ⟨h1, h2⟩ := readTracked_get _ _ _ hnames hr
  by_cases ht : ∀ t ∈ files.values, t.tracking = true → t.name ≠ n
  · rw [h1 n ht] at hy
    exact ⟨y, hy, rfl⟩
  · have : ∃ t ∈ files.values, t.tracking = true ∧ t.name = n := by
      refine Classical.byContradiction fun hno => ht fun t htm htt e => hno ⟨t, htm, htt, e⟩
    obtain ⟨t, htm, htt, rfl⟩ := this
    obtain ⟨h3, h4⟩ := h2 t htm htt
    cases hx : live.tables.get? t.name with
    | none => rw [h3 hx] at hy; cases hy
    | some x =>
      obtain ⟨rs, x', _, hx', hget⟩ := h4 x hx
      rw [hget] at hy
      cases hy
      obtain ⟨_, hcols, _⟩ := LiveDatabase.addRawRows_spec rs x x' (hk0.kept _ _ (Dict.mem_of_get? hx)) hx'
      exact ⟨x, rfl, hcols⟩

/-- what is planned, from what is read -/
theorem buildCommands_ok [PyNum] {srv : Server} {sources : List Str} (force : Bool) {files live live' : Database} {structure' rows : List Op}
    (hf : FileDatabase.new sources = .ok files) (he : files.errors.1 = .ok []) (hl : (LiveDatabase.new srv).result = .ok live)
    (hr : (readTracked srv live files.tables.values).result = .ok live') (hp : Mygration.process files.tables (some live'.tables) false = .ok structure')
    (hrows : RowMygration.process files.tables (some live'.tables) = .ok rows) :
    (buildCommands srv sources force).result = .ok (if structure' ++ rows = [] then [] else .disableChecks :: (structure' ++ rows) ++ [.enableChecks]) := by
  cases hd : files.errors with
  | mk res files' =>
    rw [hd] at he
    simp only at he
    subst he
    have htab : files'.tables = files.tables := by
      have := files.errors_tables
      rw [hd] at this
      exact this
    have hagain := (Database.errors_again hd).1
    have hnew : Mygration.new files' (some live') false = .ok ⟨[], some structure'⟩ := by
      unfold Mygration.new
      rw [hagain]
      simp only [Option.map_some, htab, hp]
    have hrow : RowMygration.new files' (some live') = .ok rows := by
      show RowMygration.process files'.tables (some live'.tables) = .ok rows
      rw [htab]
      exact hrows
    have hall : allOps files' live' = .ok (structure' ++ rows) := by
      unfold allOps
      rw [hnew, hrow]
      rfl
    unfold buildCommands
    rw [hf]
    simp only [hd]
    rw [if_neg (by simp), Run.bind_ok hl]
    simp only [htab]
    rw [Run.bind_ok hr, hall]
    cases structure' ++ rows with
    | nil => rfl
    | cons o l => rfl

/-- **C63, a plan is made.**  The declared schema has no errors, the tables on the server can be read, and the server answers
rows with ids for the tables whose rows are declared.  If the defaults of the common columns can be compared, then a plan is
made: nothing is raised, be there rows for new tables, tables without rows, or no tables at all. -/
theorem C63_returns [PyNum] (srv : Server) (sources : List Str) (force : Bool) (files live : Database)
    (hf : FileDatabase.new sources = .ok files) (he : files.errors.1 = .ok []) (hl : (LiveDatabase.new srv).result = .ok live)
    (hs : ∀ t ∈ files.tables.values, t.tracking = true → t.name ∈ live.tables.keys →
      ∃ rs, srv.select t.name = .ok rs ∧ ∀ r ∈ rs, ∃ i, DbRows.givenId r = some i ∧ i ≠ [])
    (hc : ∀ n a b, live.tables.get? n = some a → files.tables.get? n = some b → a.Comparable b) :
    ∃ ops, (buildCommands srv sources force).result = .ok ops := by
  have hkf := FileDatabase.new_kept hf
  have hk0 := (LiveDatabase.new_kept hl).1
  obtain ⟨live', hr⟩ := readTracked_returns (srv := srv) files.tables.values live (by
    intro t htm htt hin
    obtain ⟨rs, hrs, hids⟩ := hs t htm htt hin
    refine ⟨rs, hrs, fun r hr => ?_⟩
    obtain ⟨i, hi, hne⟩ := hids r hr
    rw [givenId_rawId hi]
    exact hne)
  have hkl := readTracked_kept _ _ _ hk0 hr
  have hnames : (files.tables.values.map Table.name).Nodup := by
    have : files.tables.values.map Table.name = files.tables.keys := by
      simp only [Dict.values, Dict.keys, List.map_map]
      exact List.map_congr_left (fun e he => hkf.name e.1 e.2 he)
    rw [this]
    exact hkf.nodup
  obtain ⟨_, htracked⟩ := readTracked_get _ _ _ hnames hr
  obtain ⟨process, hp⟩ := C56 files.tables (some live'.tables) false hkf.toKeyedTables (by
    intro n a b ha hb
    obtain ⟨x, hx, hcols⟩ := readTracked_columns hkf hk0 hr ha
    have := hc n x b hx hb
    intro k u v hu hv
    exact this k u v (by rw [← hcols]; exact hu) hv)
  obtain ⟨rows, hrows⟩ := C56_rows files.tables (some live'.tables) hkf.toKeyedTables (by
    intro t htm htt
    have hk := hkf.values t htm
    have hkn := hk.known
    rw [htt] at hkn
    obtain ⟨rows, hrows⟩ := Option.isSome_iff_exists.mp hkn.symm
    have hkr := hk.rowsKeyed
    rw [hrows] at hkr
    exact ⟨htt, rows, hrows, hkr⟩) (by
    intro t htm htt y hy
    simp only [Option.getD_some] at hy
    obtain ⟨h1, h2⟩ := htracked t htm htt
    cases hx : live.tables.get? t.name with
    | none => rw [h1 hx] at hy; cases hy
    | some x =>
      obtain ⟨rs, x', _, _, hget⟩ := h2 x hx
      have hk := hkl.kept _ _ (Dict.mem_of_get? hget)
      rw [hget] at hy
      cases hy
      exact ⟨rfl, _, rfl, hk.rowsKeyed⟩)
  exact ⟨_, buildCommands_ok force hf he hl hr hp hrows⟩

/-! ## Examples -/

section Examples
attribute [local instance] exactNum

/-- the tables of the files of `C45` -/
def exFiles : Database := match FileDatabase.new exSources with | .ok d => d | .error _ => {}

/-- the tables of the server of `C45` -/
def exLive : Database := match (LiveDatabase.new (exServer fun _ _ => none)).result with | .ok d => d | .error _ => {}

theorem exFiles_eq : FileDatabase.new exSources = .ok exFiles := by decide +kernel

theorem exLive_eq : (LiveDatabase.new (exServer fun _ _ => none)).result = .ok exLive := by decide +kernel

theorem exFiles_errors : exFiles.errors.1 = .ok [] := by decide +kernel

theorem exSources_clean : ¬ Faulty exSources := by
  rintro ⟨files, errs, h1, h2, h3⟩
  rw [exFiles_eq] at h1
  rw [← Except.ok.inj h1, exFiles_errors] at h2
  exact h3 (Except.ok.inj h2).symm

/-- the rows of the server of `C45` -/
def exRows : DbRows := fun n i => if n = py"roles" ∧ i = py"1" then some (fun c => if c = py"id" then some py"1" else some py"admin") else none

theorem exRows_server : ServerRows (exServer fun _ _ => none) exLive exRows := by
  have hkeys : Dict.keys exLive.tables = [py"logs", py"roles"] := by decide +kernel
  have hroles : (Dict.get? exLive.tables py"roles").map (fun x => Dict.keys x.columns) = some [py"id", py"name"] := by decide +kernel
  refine ⟨?_, ?_⟩
  · intro n x hx
    have hn : n ∈ [py"logs", py"roles"] := by rw [← hkeys]; exact Dict.mem_keys_of_get? hx
    simp only [List.mem_cons, List.not_mem_nil, or_false] at hn
    rcases hn with rfl | rfl
    · exact ⟨[], rfl, ⟨fun _ h => (by cases h), fun _ h => (by cases h), fun _ h => (by cases h), fun i _ => by simp [exRows]⟩⟩
    · rw [hx] at hroles
      simp only [Option.map_some, Option.some.injEq] at hroles
      refine ⟨_, rfl, ⟨?_, ?_, ?_, ?_⟩⟩
      · intro r hr
        simp only [List.mem_singleton] at hr
        subst hr
        exact ⟨py"1", by decide, by decide⟩
      · intro r hr c hc
        simp only [List.mem_singleton] at hr
        subst hr
        rw [hroles] at hc
        exact hc
      · intro r hr i hi
        simp only [List.mem_singleton] at hr
        subst hr
        have : i = py"1" := by
          have e : DbRows.givenId [(py"id", PyVal.int 1), (py"name", PyVal.str py"admin")] = some py"1" := by decide
          rw [e] at hi
          exact (Option.some.inj hi).symm
        subst this
        refine ⟨_, by rw [exRows, if_pos ⟨rfl, rfl⟩], ?_⟩
        intro c v hv
        rw [Dict.get?_cons] at hv
        split at hv
        · rename_i e; cases hv; subst e; decide
        · rename_i hne
          rw [Dict.get?_cons] at hv
          split at hv
          · rename_i e; cases hv; subst e; decide
          · cases hv
      · intro i hi
        have : i ≠ py"1" := by
          rintro rfl
          exact hi _ (List.mem_singleton.mpr rfl) (by decide)
        simp [exRows, this]
  · intro n hn i
    have : n ≠ py"roles" := by
      rintro rfl
      rw [Dict.get?_eq_none, hkeys] at hn
      exact hn (by decide)
    simp [exRows, this]

/-- for `C63_rows_partial`: the plan inserts a row and updates one, and the result is as declared -/
example : ∃ ops g', (buildCommands (exServer fun _ _ => none) exSources false).result = .ok ops ∧ ops.length = 6 ∧
    DbRows.execAll (fun _ _ => none) exRows ops = some g' ∧ (g' py"roles" py"2").isSome = true ∧ (g' py"roles" py"1").isSome = true ∧
    (exRows py"roles" py"2").isSome = false := by
  have hb : ∃ ops, (buildCommands (exServer fun _ _ => none) exSources false).result = .ok ops ∧ ops.length = 6 := by
    refine ⟨match (buildCommands (exServer fun _ _ => none) exSources false).result with | .ok ops => ops | .error _ => [], ?_, ?_⟩ <;> decide +kernel
  obtain ⟨ops, hops, hlen⟩ := hb
  obtain ⟨g', h1, h2, _⟩ := C63_rows_partial _ exSources false ops exFiles exLive exRows (fun _ _ => none) exSources_clean exFiles_eq exLive_eq exRows_server hops
  obtain ⟨t, ht, htn, htt, htr⟩ : ∃ t ∈ exFiles.tables.values, t.name = py"roles" ∧ t.tracking = true ∧ t.rows.map Dict.keys = some [py"1", py"2"] := by decide +kernel
  obtain ⟨new, hnew, hids, _⟩ := h2 t ht htt
  rw [hnew] at htr
  simp only [Option.map_some, Option.some.injEq] at htr
  rw [htn, htr] at hids
  exact ⟨ops, g', hops, hlen, h1, (hids _).mpr (by decide), (hids _).mpr (by decide), by decide⟩

/-- for `C63_returns` -/
example : ∃ ops, (buildCommands (exServer fun _ _ => none) exSources false).result = .ok ops := by
  refine C63_returns _ exSources false exFiles exLive exFiles_eq exFiles_errors exLive_eq ?_ ?_
  · intro t _ _ hin
    obtain ⟨x, hx⟩ := Dict.exists_get? hin
    obtain ⟨rs, hrs, ha⟩ := exRows_server.tables t.name x hx
    exact ⟨rs, hrs, ha.id⟩
  · exact Examples.comparableTables_of_check (by decide +kernel)

/-- the server has no rows for a tracked table, and none at all for a new one which is tracked -/
example : (plan { exServer (fun _ _ => none) with select := fun _ => .ok [] }
    (exSources ++ [py"CREATE TABLE tags (id INT NOT NULL, PRIMARY KEY (id)); INSERT INTO tags (id) VALUES (7);"]) false).result =
    .ok ⟨[py"SET FOREIGN_KEY_CHECKS=0;", py"CREATE TABLE `users` (`id` INT NOT NULL,\nPRIMARY KEY (`id`));",
      py"CREATE TABLE `tags` (`id` INT NOT NULL,\nPRIMARY KEY (`id`));", py"DROP TABLE logs;",
      py"INSERT INTO `roles` (`id`, `name`) VALUES ('1', 'root');", py"INSERT INTO `roles` (`id`, `name`) VALUES ('2', 'guest');",
      py"INSERT INTO `tags` (`id`) VALUES ('7');", py"SET FOREIGN_KEY_CHECKS=1;"], true⟩ := by decide +kernel

end Examples

end Mygrations

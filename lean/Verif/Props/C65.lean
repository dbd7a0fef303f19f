import Verif.Proofs.Agree
import Verif.Props.C39
import Verif.Props.C55
import Verif.Props.C63
import Verif.Props.C64

/-!
# C62, C65: a server which has what the files declare

`Server.Has`, `SameSchema` and `SameRows` are in `Spec/Live.lean`.
-/

namespace Mygrations
open Command Table

/-! ## C62 -/

theorem readLive_keys {ds : List TableDecl} {new : Dict Table} (h : Paired ReadLive ds new) : Dict.keys new = ds.map (·.name) := by
  induction h with
  | nil => rfl
  | cons hx _ ih => simp [hx.key, ih]

theorem readLive_get {ds : List TableDecl} {new : Dict Table} (h : Paired ReadLive ds new) (hn : (ds.map (·.name)).Nodup) {d : TableDecl} (hd : d ∈ ds) :
    ∃ t, Dict.get? new d.name = some t ∧ ReadLive d (d.name, t) := by
  induction h with
  | nil => cases hd
  | @cons a b as bs hx _ ih =>
    obtain ⟨k, e⟩ := b
    rw [List.map_cons, List.nodup_cons] at hn
    have hk : k = a.name := hx.key
    rcases List.mem_cons.mp hd with rfl | hd
    · subst hk
      exact ⟨e, by simp [Dict.get?_cons], hx⟩
    · obtain ⟨t, h1, h2⟩ := ih hn.2 hd
      refine ⟨t, ?_, h2⟩
      rw [Dict.get?_cons, if_neg]
      · exact h1
      · intro he
        apply hn.1
        rw [← hk, he]
        exact List.mem_map_of_mem hd

/-- **C62** (partial).  The live database has exactly the tables of the server, each with its columns, keys, foreign keys and options,
however MySQL writes them down (`Style`, `Actions`, `Layout`).

What is missing: servers with tables for which `TableDecl.Ok` does not hold, see `C62_refuted`. -/
theorem C62_live_partial {srv : Server} {ds : List TableDecl} (h : srv.Has ds) :
    ∃ live, (LiveDatabase.new srv).result = .ok live ∧ live.tables.keys = ds.map (·.name) ∧ live.globalErrors = [] ∧
      ∀ d ∈ ds, ∃ t, live.tables.get? d.name = some t ∧ SameTable d.table t := by
  obtain ⟨new, h1, h2⟩ := live_read h
  refine ⟨_, h2, readLive_keys h1, rfl, fun d hd => ?_⟩
  obtain ⟨t, h3, h4⟩ := readLive_get h1 h.distinct hd
  exact ⟨t, h3, h4.same⟩

/-! ## Reading rows leaves the structure -/

theorem addRawRows_structure : ∀ (rs : List Row) (t t' : Table), LiveDatabase.addRawRows t rs = .ok t' →
    t'.columns = t.columns ∧ t'.indexes = t.indexes ∧ t'.constraints = t.constraints
  | [], t, t', h => by cases h; exact ⟨rfl, rfl, rfl⟩
  | r :: rs, t, t', h => by
    unfold LiveDatabase.addRawRows at h
    split at h
    · cases h
    · rename_i t1 h1
      obtain ⟨a, b, c⟩ := addRawRows_structure rs t1 t' h
      rw [addRawRow_eq] at h1
      split at h1
      · cases h1
      · split at h1 <;> cases h1 <;> exact ⟨a, b, c⟩

theorem readTracked_structure {srv : Server} : ∀ (ts : List Table) (live live' : Database), (readTracked srv live ts).result = .ok live' →
    ∀ n y, live'.tables.get? n = some y → ∃ x, live.tables.get? n = some x ∧ y.columns = x.columns ∧ y.indexes = x.indexes ∧ y.constraints = x.constraints
  | [], live, live', h, n, y, hy => by cases h; exact ⟨y, hy, rfl, rfl, rfl⟩
  | t :: ts, live, live', h, n, y, hy => by
    unfold readTracked at h
    split at h
    · obtain ⟨d1, h1, h⟩ := Run.bind_result h
      obtain ⟨x, rs, x', hx, _, hx', hd1⟩ := readRows_result h1
      obtain ⟨z, hz, e1, e2, e3⟩ := readTracked_structure ts d1 live' h n y hy
      rw [hd1, Dict.get?_set] at hz
      split at hz
      · rename_i hn
        cases hz
        obtain ⟨a, b, c⟩ := addRawRows_structure rs x x' hx'
        refine ⟨x, by rw [← hn]; exact hx, e1.trans a, e2.trans b, e3.trans c⟩
      · exact ⟨z, hz, e1, e2, e3⟩
    · exact readTracked_structure ts live live' h n y hy

/-! ## The rows -/

theorem cell_looseEqual {a b : PyVal} (ha : a = .none ∨ ∃ s, a = .str s) (h : a.cell = b.cell) : looseEqual a b = true := by
  rcases ha with rfl | ⟨s, rfl⟩ <;> cases b <;>
    simp_all [looseEqual, sameType, pyEq, PyVal.cell, PyVal.toStr]

theorem processLoop_nil {toT : Dict Table} {fromT : Option (Dict Table)} : ∀ ns : List Str,
    (∀ n ∈ ns, ∃ t, toT.get? n = some t ∧ t.toRows ((fromT.getD []).get? n) = .ok []) → RowMygration.processLoop toT fromT ns = .ok []
  | [], _ => rfl
  | n :: ns, h => by
    obtain ⟨t, h1, h2⟩ := h n List.mem_cons_self
    simp only [RowMygration.processLoop, h1, h2, processLoop_nil ns (fun m hm => h m (List.mem_cons_of_mem _ hm))]
    rfl

/-- no statements for rows which the server has as they are declared -/
theorem sameRows_nil {t x x' : Table} {rs : List Row} {new : Dict Row} (hn : t.rows = some new) (hk : RowsKeyed new)
    (hplain : ∀ i r c v, new.get? i = some r → Dict.get? r c = some v → v = .none ∨ ∃ s, v = .str s) (hx : x.Kept) (hxr : x.rows = none)
    (ha : LiveDatabase.addRawRows x rs = .ok x') (h : SameRows rs new) : t.toRows (some x'.markTracking) = .ok [] := by
  obtain ⟨_, _, h3⟩ := LiveDatabase.addRawRows_spec rs x x' hx ha
  obtain ⟨ops, hops⟩ := toRows_ok (from? := some x'.markTracking) hn hk (by intro f hf; cases hf; exact ⟨rfl, rfl⟩)
  obtain ⟨new', hn', he⟩ := toRows_eq hops
  rw [hn] at hn'
  cases hn'
  rw [hops]
  congr 1
  rw [he, List.eq_nil_iff_forall_not_mem]
  intro op hop
  have hold : oldRows (some x'.markTracking) = x'.rows.getD [] := rfl
  have hget : ∀ i, Dict.get? (x'.rows.getD []) i = (rs.find? (fun r => rawId r = i)).map (fun r => x.convertRow r i) := by
    intro i
    rw [h3 i, hxr]
    simp [Dict.get?]
  have hfound : ∀ i r, Dict.get? (x'.rows.getD []) i = some r → ∃ q ∈ rs, DbRows.givenId q = some i ∧ i ∈ new.keys ∧ r = x.convertRow q i := by
    intro i r hr
    rw [hget, Option.map_eq_some_iff] at hr
    obtain ⟨q, hq, rfl⟩ := hr
    have hm := List.mem_of_find?_eq_some hq
    have hi := List.find?_some hq
    simp only [decide_eq_true_eq] at hi
    obtain ⟨j, hj, _, hjk⟩ := h.ids q hm
    have : j = i := by rw [← hi, givenId_rawId hj]
    subst this
    exact ⟨q, hm, hj, hjk, rfl⟩
  rw [hold, mem_rowOps] at hop
  rcases hop with ⟨k, r, h1, h2, _⟩ | ⟨k, h1, h2, _⟩ | ⟨k, r, o, h1, h2, h5, _⟩
  · obtain ⟨q, hq, hqi⟩ := h.all k (Dict.mem_keys_of_get? h1)
    apply h2
    have : ∃ v, Dict.get? (x'.rows.getD []) k = some v := by
      rw [hget]
      cases hf : rs.find? (fun r => rawId r = k) with
      | none =>
        rw [List.find?_eq_none] at hf
        exact absurd (by simpa using givenId_rawId hqi) (hf q hq)
      | some v => exact ⟨_, rfl⟩
    obtain ⟨v, hv⟩ := this
    exact Dict.mem_keys_of_get? hv
  · obtain ⟨v, hv⟩ := Dict.exists_get? h1
    obtain ⟨_, _, _, hin, _⟩ := hfound k v hv
    exact h2 hin
  · obtain ⟨q, hq, hqi, _, rfl⟩ := hfound k o h2
    obtain ⟨c, a, b, hca, hcb, hab⟩ := rowDiffers_iff.mp h5
    have hpl := hplain k r c a h1 hca
    obtain ⟨v, hv, hvc⟩ := h.values q hq k r hqi h1 c a hca
    rw [convertRow_get hx.toKeyed] at hcb
    split at hcb
    · rename_i hid
      cases hcb
      subst hid
      have : v.cell = some k := by
        unfold DbRows.givenId at hqi
        rw [hv] at hqi
        exact hqi
      rw [cell_looseEqual hpl (b := .str k) (by rw [← hvc, this]; rfl)] at hab
      cases hab
    · obtain ⟨col, _, hcol⟩ := Option.map_eq_some_iff.mp hcb
      rw [hv] at hcol
      simp only at hcol
      subst hcol
      rw [cell_looseEqual hpl hvc.symm] at hab
      cases hab

/-! ## C65 -/

/-- what is read from the server and from the files agrees -/
theorem read_agree {ds : List TableDecl} {ss : List Statement} {b : Table → Bool} {live files : Dict Table} (hl : Paired ReadLive ds live) (hdn : (ds.map (·.name)).Nodup)
    (hf : Paired (fun t e => TableRead ss (b t) t e) (tablesOf ss) files) (hn : ((tablesOf ss).map (·.name)).Nodup)
    (hs : SameSchema (ds.map (·.table)) (tablesOf ss)) : Agree Table.Agrees live files := by
  have hfk : Dict.keys files = (tablesOf ss).map (·.name) := by
    clear hs hn
    generalize tablesOf ss = l at hf
    induction hf with
    | nil => rfl
    | cons hx _ ih => simp [hx.name, ih]
  refine agree_of (fun k => ?_) (fun k x y hx hy => ?_)
  · rw [readLive_keys hl, hfk]
    constructor
    · intro hk
      obtain ⟨d, hd, rfl⟩ := List.mem_map.mp hk
      obtain ⟨t, ht, hname, _⟩ := hs.forth d.table (List.mem_map_of_mem hd)
      exact List.mem_map.mpr ⟨t, ht, hname⟩
    · intro hk
      obtain ⟨t, ht, rfl⟩ := List.mem_map.mp hk
      obtain ⟨a, ha, hname⟩ := hs.back t ht
      obtain ⟨d, hd, rfl⟩ := List.mem_map.mp ha
      exact List.mem_map.mpr ⟨d, hd, hname⟩
  · have hk := Dict.mem_keys_of_get? hx
    rw [readLive_keys hl] at hk
    obtain ⟨d, hd, rfl⟩ := List.mem_map.mp hk
    obtain ⟨x', hx', hr⟩ := readLive_get hl hdn hd
    rw [hx] at hx'
    cases hx'
    obtain ⟨t, ht, hname, hag⟩ := hs.forth d.table (List.mem_map_of_mem hd)
    obtain ⟨y', hy', hry⟩ := lookup_table hf (fun t e h => h.name) hn ht hname
    have hyy : y' = y := Option.some.inj (hy'.symm.trans hy)
    subst hyy
    have h1 : d.table.Agrees x := hr.same.agrees
    have h2 : t.Agrees y' := hry.same.agrees
    exact (h1.chain hag).symm.chain h2

/-- what the migrations compute for a server and files which agree, and where they come from -/
theorem structure_nil [PyNum] {srv : Server} {ds : List TableDecl} {sources : List Str} {contents : List (List Statement)} (hsrv : srv.Has ds)
    (hf : Paired SourceFile sources contents) (hr : ∀ ss ∈ contents, Readable ss) (hn : ((tablesOf contents.flatten).map (·.name)).Nodup)
    (hg : GoodRows contents.flatten) (hs : SameSchema (ds.map (·.table)) (tablesOf contents.flatten)) :
    ∃ files live, FileDatabase.new sources = .ok files ∧ (LiveDatabase.new srv).result = .ok live ∧
      Paired (fun t e => TableRead contents.flatten (!(insertsFor t.name contents.flatten).isEmpty) t e) (tablesOf contents.flatten) files.tables ∧
      (∀ n, n ∈ live.tables.keys ↔ n ∈ files.tables.keys) ∧
      ∀ live', (readTracked srv live files.tables.values).result = .ok live' → Mygration.process files.tables (some live'.tables) false = .ok [] := by
  obtain ⟨new, h1, h2⟩ := live_read hsrv
  obtain ⟨ts, rows, h3, h4⟩ := files_new sources contents hf hr hn hg
  have hagree := read_agree h1 hsrv.distinct h4 hn hs
  refine ⟨_, _, h3, h2, h4, fun n => hagree.keys, fun live' hl' => ?_⟩
  have hk0 := (LiveDatabase.new_kept h2).1
  have hkl := readTracked_kept _ _ _ hk0 hl'
  have hst := readTracked_structure _ _ _ hl'
  refine agree_process (f := live'.tables) (t := ts) ?_ ?_ ?_ ?_
  · refine agree_of (fun k => ?_) (fun k x y hx hy => ?_)
    · rw [readTracked_keys _ _ _ hl' k]
      exact hagree.keys
    · obtain ⟨z, hz, e1, e2, e3⟩ := hst k x hx
      have := hagree.get hz hy
      exact ⟨by rw [e1]; exact this.columns, by rw [e2]; exact this.indexes, by rw [e3]; exact this.constraints⟩
  · intro s hsv
    obtain ⟨k, hk⟩ := Dict.mem_values.mp hsv
    exact hkl.keyed k s hk
  · intro s hsv e he
    obtain ⟨k, hk⟩ := Dict.mem_values.mp hsv
    obtain ⟨z, hz, e1, _, _⟩ := hst k s (Dict.get?_of_mem hkl.nodup hk)
    rw [e1] at he
    have hkm := Dict.mem_keys_of_get? hz
    have hkk : k ∈ ds.map (·.name) := by rw [← readLive_keys h1]; exact hkm
    obtain ⟨d, hd, rfl⟩ := List.mem_map.mp hkk
    obtain ⟨z', hz', hread⟩ := readLive_get h1 hsrv.distinct hd
    have : z' = z := Option.some.inj (hz'.symm.trans hz)
    subst this
    exact hread.lengths e he
  · intro s hsv e he
    obtain ⟨k, hk⟩ := Dict.mem_values.mp hsv
    have : ∀ {l : List Table} {d : Dict Table}, Paired (fun t e => TableRead contents.flatten (!(insertsFor t.name contents.flatten).isEmpty) t e) l d →
        ∀ x ∈ d, ∀ c ∈ x.2.columns, c.2.UsualLength := by
      intro l d h
      induction h with
      | nil => intro x hx; cases hx
      | cons hx _ ih =>
        intro x hxm
        rcases List.mem_cons.mp hxm with rfl | hxm
        · exact hx.lengths
        · exact ih x hxm
    exact this h4 (k, s) hk e he

theorem declared_plain {n : Str} {ss : List Statement} {i : Str} {r : Row} {c : Str} {v : PyVal} (hr : (declaredRows n ss).get? i = some r)
    (hc : Dict.get? r c = some v) : v = .none ∨ ∃ s, v = .str s := by
  have hm := Dict.mem_of_get? hr
  unfold declaredRows at hm
  obtain ⟨j, _, hm⟩ := List.mem_flatMap.mp hm
  obtain ⟨cells, _, hm⟩ := List.mem_map.mp hm
  cases hm
  have := (List.of_mem_zip (Dict.mem_of_get? hc)).2
  obtain ⟨cell, _, rfl⟩ := List.mem_map.mp this
  cases cell with
  | null => exact .inl rfl
  | bare w => exact .inr ⟨w, rfl⟩
  | text w => exact .inr ⟨w, rfl⟩

/-- The declared rows of a table are those which the server answers. -/
def RowsAgree (srv : Server) (contents : List (List Statement)) : Prop :=
  ∀ t ∈ tablesOf contents.flatten, insertsFor t.name contents.flatten ≠ [] →
    ∃ rs, srv.select t.name = .ok rs ∧ SameRows rs (declaredRows t.name contents.flatten)

theorem paired_value {ss : List Statement} {l : List Table} {d : Dict Table} (h : Paired (fun t e => TableRead ss (!(insertsFor t.name ss).isEmpty) t e) l d)
    {y : Table} (hy : y ∈ d.values) : ∃ t ∈ l, ∃ k, TableRead ss (!(insertsFor t.name ss).isEmpty) t (k, y) := by
  induction h with
  | nil => cases hy
  | @cons a b as bs hx _ ih =>
    rcases List.mem_cons.mp hy with rfl | hy
    · exact ⟨a, List.mem_cons_self, b.1, hx⟩
    · obtain ⟨t, ht, k, hk⟩ := ih hy
      exact ⟨t, List.mem_cons_of_mem _ ht, k, hk⟩

/-- the rows are planned for as they should be: not at all -/
theorem rows_nil {srv : Server} {contents : List (List Statement)} {files live live' : Database} (hkf : KeptTables files.tables) (hk0 : KeptTables live.tables)
    (hnone : ∀ x ∈ live.tables.values, x.rows = none)
    (hp : Paired (fun t e => TableRead contents.flatten (!(insertsFor t.name contents.flatten).isEmpty) t e) (tablesOf contents.flatten) files.tables)
    (hkeys : ∀ n, n ∈ live.tables.keys ↔ n ∈ files.tables.keys) (hrows : RowsAgree srv contents)
    (hr : (readTracked srv live files.tables.values).result = .ok live') : RowMygration.process files.tables (some live'.tables) = .ok [] := by
  have hnames : (files.tables.values.map Table.name).Nodup := by
    have : files.tables.values.map Table.name = files.tables.keys := by
      simp only [Dict.values, Dict.keys, List.map_map]
      exact List.map_congr_left (fun e he => hkf.name e.1 e.2 he)
    rw [this]
    exact hkf.nodup
  obtain ⟨_, htracked⟩ := readTracked_get _ _ _ hnames hr
  unfold RowMygration.process
  apply processLoop_nil
  intro n hn
  obtain ⟨y, hy, rfl⟩ := List.mem_map.mp hn
  obtain ⟨hyv, hyt⟩ := List.mem_filter.mp hy
  obtain ⟨k, hk⟩ := Dict.mem_values.mp hyv
  have hkn : k = y.name := (hkf.name k y hk).symm
  subst hkn
  have hget := Dict.get?_of_mem hkf.nodup hk
  refine ⟨y, hget, ?_⟩
  simp only [Option.getD_some]
  obtain ⟨t, ht, k', hread⟩ := paired_value hp hyv
  have htn : y.name = t.name := hread.same.name
  have hb : (!(insertsFor t.name contents.flatten).isEmpty) = true := by rw [← hread.tracking]; exact hyt
  have hrows' : y.rows = some (declaredRows t.name contents.flatten) := by rw [hread.rows, hb]; rfl
  have hne : insertsFor t.name contents.flatten ≠ [] := by
    intro h0
    rw [h0] at hb
    cases hb
  obtain ⟨rs, hsel, hsame⟩ := hrows t ht hne
  obtain ⟨x, hx⟩ := Dict.exists_get? ((hkeys y.name).mpr (Dict.mem_keys_of_get? hget))
  obtain ⟨rs', x', hsel', hx', hget'⟩ := (htracked y hyv hyt).2 x hx
  have hrs : rs' = rs := by
    have : srv.select y.name = .ok rs := by rw [htn]; exact hsel
    rw [this] at hsel'
    exact (Except.ok.inj hsel').symm
  subst hrs
  rw [hget']
  have hkr := (hkf.values y hyv).rowsKeyed
  rw [hrows'] at hkr
  exact sameRows_nil hrows' hkr (fun i r c v h1 h2 => declared_plain h1 h2) (hk0.kept _ _ (Dict.mem_of_get? hx))
    (hnone x (Dict.mem_values.mpr ⟨_, Dict.mem_of_get? hx⟩)) hx' hsame

/-- **C65, structure** (partial).  The server has the tables which the files declare, in whatever order, layout and style the two are
written down.  Then no table is created, changed or dropped, whatever the rows are and even if errors are overridden.

What is missing: tables for which `TableDecl.Ok` or `Statement.Ok` does not hold. -/
theorem C65_structure_partial [PyNum] (srv : Server) (ds : List TableDecl) (sources : List Str) (contents : List (List Statement)) (force : Bool) (ops : List Op)
    (hsrv : srv.Has ds) (hf : Paired SourceFile sources contents) (hr : ∀ ss ∈ contents, Readable ss)
    (hn : ((tablesOf contents.flatten).map (·.name)).Nodup) (hg : GoodRows contents.flatten)
    (hs : SameSchema (ds.map (·.table)) (tablesOf contents.flatten))
    (h : (buildCommands srv sources force).result = .ok ops) :
    ∀ o ∈ ops, o.isCreate = false ∧ o.isAlter = false ∧ o.isDrop = false := by
  obtain ⟨files, live, h1, h2, h3, h4, h5⟩ := structure_nil hsrv hf hr hn hg hs
  obtain ⟨files0, files', errs, hf0, he, hcase⟩ := buildCommands_cases h
  rw [h1] at hf0
  cases hf0
  have htab : files'.tables = files.tables := by
    have := files.errors_tables
    rw [he] at this
    exact this
  rcases hcase with ⟨_, _, rfl, _⟩ | ⟨_, live0, live', all, hl, hrt, hall, hops⟩
  · intro o ho; cases ho
  rw [h2] at hl
  cases hl
  obtain ⟨p, rows, hp, hrows, rfl⟩ := allOps_cases hall
  rw [htab] at hrt
  have hnil : p.operations.getD [] = [] := by
    have hproc := h5 live' hrt
    rw [← htab] at hproc
    unfold Mygration.new at hp
    split at hp
    · cases hp
    · cases hp; rfl
    · simp only [Option.map_some, hproc] at hp
      cases hp
      rfl
  rw [hnil, List.nil_append] at hops
  have hrow : ∀ o ∈ rows, o.isCreate = false ∧ o.isAlter = false ∧ o.isDrop = false := by
    intro o ho
    exact (rowMygration_rows hrows o ho).2
  intro o ho
  rw [hops] at ho
  split at ho
  · cases ho
  · simp only [List.cons_append, List.mem_cons, List.mem_append, List.not_mem_nil, or_false] at ho
    rcases ho with rfl | ho | rfl
    · exact ⟨rfl, rfl, rfl⟩
    · exact hrow o ho
    · exact ⟨rfl, rfl, rfl⟩

/-- nothing is planned if neither migration has anything to do -/
theorem nothing_planned [PyNum] {srv : Server} {ds : List TableDecl} {sources : List Str} {contents : List (List Statement)} (force : Bool) {files live : Database}
    (hsrv : srv.Has ds) (h1 : FileDatabase.new sources = .ok files) (h2 : (LiveDatabase.new srv).result = .ok live)
    (h3 : Paired (fun t e => TableRead contents.flatten (!(insertsFor t.name contents.flatten).isEmpty) t e) (tablesOf contents.flatten) files.tables)
    (h4 : ∀ n, n ∈ live.tables.keys ↔ n ∈ files.tables.keys)
    (h5 : ∀ live', (readTracked srv live files.tables.values).result = .ok live' → Mygration.process files.tables (some live'.tables) false = .ok [])
    (hrows : RowsAgree srv contents) (hcheck : ∃ o, (check sources).result = .ok o) :
    (plan srv sources force).result = .ok ⟨[], true⟩ ∧ (Command.apply srv sources force).result = .ok ⟨[], true⟩ ∧
      ∀ e ∈ (Command.apply srv sources force).events, OnlyReads e ∨ e = .committed := by
  have hkf := FileDatabase.new_kept h1
  have hk0 := (LiveDatabase.new_kept h2).1
  obtain ⟨new, hnew1, hnew2⟩ := live_read hsrv
  have hnone : ∀ x ∈ live.tables.values, x.rows = none := by
    rw [h2] at hnew2
    cases hnew2
    intro x hx
    clear h2 h4 h5 hk0 hsrv
    induction hnew1 with
    | nil => cases hx
    | cons h _ ih =>
      rcases List.mem_cons.mp hx with rfl | hx
      · exact h.rows
      · exact ih hx
  have hb : (buildCommands srv sources force).result = .ok [] := by
    obtain ⟨o, ho⟩ := hcheck
    obtain ⟨files₀, _, errs₀, _, hf₀, he₀, _, _⟩ := of_check ho
    rw [h1] at hf₀
    cases hf₀
    unfold buildCommands
    rw [h1]
    cases hd : files.errors with
    | mk res files' =>
    rw [hd] at he₀
    cases res with
    | error e => cases he₀
    | ok errs =>
      have htab : files'.tables = files.tables := by
        have := files.errors_tables
        rw [hd] at this
        exact this
      simp only [hd]
      split
      · rfl
      · rw [Run.bind_ok h2]
        simp only [htab]
        obtain ⟨live', hlive'⟩ := readTracked_returns (srv := srv) files.tables.values live (by
          intro t htm htt hin
          obtain ⟨u, hu, k, hread⟩ := paired_value h3 htm
          have hb : (!(insertsFor u.name contents.flatten).isEmpty) = true := by rw [← hread.tracking]; exact htt
          obtain ⟨rs, hsel, hsame⟩ := hrows u hu (by intro h0; rw [h0] at hb; cases hb)
          refine ⟨rs, by rw [hread.same.name]; exact hsel, fun r hr => ?_⟩
          obtain ⟨i, hi, hne, _⟩ := hsame.ids r hr
          rw [givenId_rawId hi]
          exact hne)
        have hproc := h5 live' hlive'
        have hrow := rows_nil hkf hk0 hnone h3 h4 hrows hlive'
        rw [Run.bind_ok hlive']
        have hagain := (Database.errors_again hd).1
        have hall : allOps files' live' = .ok [] := by
          have hrn : RowMygration.new files' (some live') = .ok [] := by
            show RowMygration.process files'.tables (some live'.tables) = .ok []
            rw [htab]
            exact hrow
          unfold allOps Mygration.new
          rw [hagain]
          cases errs with
          | nil => simp only [Option.map_some, htab, hproc, hrn]; rfl
          | cons e es => simp only [hrn]; rfl
        rw [hall]
        rfl
  refine ⟨?_, ?_, ?_⟩
  · unfold plan
    rw [Run.bind_ok hb]
    rfl
  · unfold Command.apply
    rw [Run.bind_ok hb]
    rfl
  · intro e he
    have hplan := (C58 srv sources force).1
    unfold plan at hplan
    rw [Run.bind_ok hb] at hplan
    unfold Command.apply at he
    rw [Run.bind_ok hb] at he
    rcases List.mem_append.mp he with he | he
    · exact .inl (hplan e (List.mem_append.mpr (.inl he)))
    · exact .inr (List.mem_singleton.mp he)

/-- **C65** (partial).  The server has the tables which the files declare, in whatever order, layout and style the two are written
down, and the rows which are declared.  If the declared schema can be checked at all, then nothing is planned, and `apply` sends nothing
but queries which read, and commits.

What is missing: tables for which `TableDecl.Ok` or `Statement.Ok` does not hold. -/
theorem C65_nothing_partial [PyNum] (srv : Server) (ds : List TableDecl) (sources : List Str) (contents : List (List Statement)) (force : Bool)
    (hsrv : srv.Has ds) (hf : Paired SourceFile sources contents) (hr : ∀ ss ∈ contents, Readable ss)
    (hn : ((tablesOf contents.flatten).map (·.name)).Nodup) (hg : GoodRows contents.flatten)
    (hs : SameSchema (ds.map (·.table)) (tablesOf contents.flatten)) (hrows : RowsAgree srv contents)
    (hcheck : ∃ o, (check sources).result = .ok o) :
    (plan srv sources force).result = .ok ⟨[], true⟩ ∧ (Command.apply srv sources force).result = .ok ⟨[], true⟩ ∧
      ∀ e ∈ (Command.apply srv sources force).events, OnlyReads e ∨ e = .committed := by
  obtain ⟨files, live, h1, h2, h3, h4, h5⟩ := structure_nil hsrv hf hr hn hg hs
  exact nothing_planned force hsrv h1 h2 h3 h4 h5 hrows hcheck

/-! ## An example -/

theorem SameColumn.refl (a : Column) : SameColumn a a := ⟨rfl, rfl, rfl, .inl rfl, rfl, rfl, rfl, rfl, rfl, rfl, rfl⟩
theorem SameIndex.refl (a : Index) : SameIndex a a := ⟨rfl, rfl, rfl⟩
theorem SameConstraint.refl (a : Constraint) : SameConstraint a a := ⟨rfl, rfl, rfl, rfl, rfl, rfl⟩

theorem agree_refl {V : Type} {R : V → V → Prop} {a b : Dict V} (hr : ∀ x, R x x) (h : ∀ k ∈ a.keys ++ b.keys, a.get? k = b.get? k) : Agree R a b := by
  intro n
  have e : a.get? n = b.get? n := by
    by_cases hn : n ∈ a.keys ++ b.keys
    · exact h n hn
    · rw [List.mem_append, not_or] at hn
      rw [Dict.get?_eq_none.mpr hn.1, Dict.get?_eq_none.mpr hn.2]
  rw [e]
  cases b.get? n with
  | none => trivial
  | some x => exact hr x

namespace Examples

/-- `id INT NOT NULL AUTO_INCREMENT` -/
def liveId : Column := { cls := .numeric, name := py"id", ctype := py"INT", null := false, autoInc := some true }
/-- `name VARCHAR(20) NOT NULL DEFAULT 'guest'` -/
def liveName : Column := { cls := .string, name := py"name", ctype := py"VARCHAR", len := .str py"20", null := false, hasDefault := true, default := some py"guest" }
/-- `role_id INT` -/
def liveRole : Column := { cls := .numeric, name := py"role_id", ctype := py"INT" }
def livePrimary : Index := { columns := [py"id"], itype := py"primary" }
def liveByRole : Index := { rawName := py"by_role", columns := [py"role_id"], itype := py"index" }
def liveFk : Constraint := ⟨py"grants_role", py"role_id", py"roles", py"id", py"CASCADE", py"RESTRICT", []⟩

/-- the tables as MySQL writes them down -/
def liveRoles : TableDecl :=
  { name := py"roles", first := .column liveId (.server false), others := [.column liveName (.server false), .index livePrimary py"KEY"],
    options := [⟨py"ENGINE", py"InnoDB"⟩, ⟨py"AUTO_INCREMENT", py"3"⟩, ⟨py"DEFAULT CHARSET", py"utf8"⟩] }
def liveGrants : TableDecl :=
  { name := py"grants", first := .column liveId (.server false),
    others := [.column liveRole (.server true), .index livePrimary py"KEY", .index liveByRole py"KEY", .constraint liveFk ⟨true, false⟩], options := [⟨py"ENGINE", py"InnoDB"⟩] }
/-- and the white space which it uses -/
def liveLayout : Layout := ⟨py"\n  ", py"\n  ", py"\n"⟩

/-- the server; a number is answered for an `id` -/
def liveServer : Server where
  tableNames := [py"grants", py"roles"]
  createText n :=
    if n = py"grants" then .ok (some py"CREATE TABLE `grants` (\n  `id` int NOT NULL AUTO_INCREMENT,\n  `role_id` int DEFAULT NULL,\n  PRIMARY KEY (`id`),\n  KEY `by_role` (`role_id`),\n  CONSTRAINT `grants_role` FOREIGN KEY (`role_id`) REFERENCES `roles` (`id`) ON DELETE CASCADE\n) ENGINE=InnoDB")
    else if n = py"roles" then .ok (some py"CREATE TABLE `roles` (\n  `id` int NOT NULL AUTO_INCREMENT,\n  `name` varchar(20) NOT NULL DEFAULT 'guest',\n  PRIMARY KEY (`id`)\n) ENGINE=InnoDB AUTO_INCREMENT=3 DEFAULT CHARSET=utf8")
    else .ok none
  select n := if n = py"roles" then .ok [[(py"id", .int 1), (py"name", .str py"admin")], [(py"id", .int 2), (py"name", .str py"guest")]] else .ok []
  fails _ _ := none

/-- the tables as they are written in the files: the definitions are in another order -/
def fileRoles : TableDecl :=
  { name := py"roles", first := .column liveName .usual, others := [.index livePrimary py"KEY", .column liveId .usual], options := [] }
def fileGrants : TableDecl :=
  { name := py"grants", first := .column liveId .usual,
    others := [.constraint liveFk .both, .column liveRole .usual, .index liveByRole py"KEY", .index livePrimary py"KEY"], options := [] }
def fileLayout : Layout := ⟨[], py" ", []⟩
/-- the rows, in another order -/
def fileRows : InsertStmt := ⟨py"roles", [py"id", py"name"], [[.bare py"2", .text py"guest"], [.text py"1", .text py"admin"]]⟩

def liveScript : List Statement := [.declare fileRoles fileLayout, .insert fileRows layout1, .declare fileGrants fileLayout]
def liveFile : Str := fileRoles.sql fileLayout ++ (py"\n" ++ fileRows.sql layout1 ++ (py"\n" ++ fileGrants.sql fileLayout))

theorem liveId_plain : liveId.Plain := by
  refine ⟨by decide, by decide, rfl, ⟨_, .none, by decide, ?_⟩, by decide, ?_, ?_⟩ <;> intro v hv <;> cases hv
theorem liveRole_plain : liveRole.Plain := by
  refine ⟨by decide, by decide, rfl, ⟨_, .none, by decide, ?_⟩, by decide, ?_, ?_⟩ <;> intro v hv <;> cases hv
theorem liveName_plain : liveName.Plain := by
  refine ⟨by decide, by decide, rfl, ⟨_, .one (by decide), by decide, ?_⟩, by decide, ?_, ?_⟩ <;> intro v hv <;> cases hv
  exact ⟨.inl ⟨by decide, by decide⟩, by decide⟩

theorem table_ok {d : TableDecl} (h1 : Ident d.name) (h2 : ∀ x ∈ d.defs, x.Plain) (h3 : ∀ x ∈ d.defs, ∀ c s, x = .column c s → c.characterSet = none ∧ c.collate = none ∧ (c.default = none ∨ c.default = some py"guest"))
    (h4 : ∃ c s, d.first = .column c s) (h5 : ∀ o ∈ d.options, o.Plain) (h6 : (d.table.columns.keys).Nodup) (h7 : (d.table.indexes.keys).Nodup)
    (h8 : (d.table.constraints.keys).Nodup) (h9 : d.defs.length < 1000) (h10 : d.options.length < 1000) : d.Ok := by
  refine ⟨h1, h2, fun x hx => ?_, h4, h5, h6, h7, h8, h9, h10⟩
  cases x with
  | column c s =>
    obtain ⟨e1, e2, e3⟩ := h3 _ hx c s rfl
    rintro v (h | h | h)
    · rcases e3 with e | e <;> rw [e] at h <;> cases h
      unfold NoComment; decide
    · rw [e1] at h; cases h
    · rw [e2] at h; cases h
  | index => trivial
  | constraint => trivial
  | bare => trivial

theorem liveFk_plain (w : Actions) (h : w = .both ∨ w = ⟨true, false⟩) : (Src.constraint liveFk w).Plain := by
  refine ⟨⟨by decide, by decide, by decide, by decide, by decide, by decide⟩, ?_⟩
  rcases h with rfl | rfl <;> exact ⟨by decide, by decide⟩

theorem liveRoles_ok : liveRoles.Ok := by
  refine table_ok (by decide) ?_ ?_ ⟨_, _, rfl⟩ ?_ (by decide) (by decide) (by decide) (by decide) (by decide)
  · intro x hx
    simp only [liveRoles, TableDecl.defs, List.mem_cons, List.not_mem_nil, or_false] at hx
    rcases hx with rfl | rfl | rfl
    · exact ⟨liveId_plain, server_fits _ _⟩
    · exact ⟨liveName_plain, server_fits _ _⟩
    · exact ⟨⟨by decide, by decide⟩, .inl (by decide)⟩
  · intro x hx c s e
    simp only [liveRoles, TableDecl.defs, List.mem_cons, List.not_mem_nil, or_false] at hx
    rcases hx with rfl | rfl | rfl <;> cases e <;> decide
  · intro o ho
    simp only [liveRoles, List.mem_cons, List.not_mem_nil, or_false] at ho
    rcases ho with rfl | rfl | rfl <;> exact ⟨by decide, by decide, by decide, by decide, by unfold NoComment; decide⟩

theorem liveGrants_ok : liveGrants.Ok := by
  refine table_ok (by decide) ?_ ?_ ⟨_, _, rfl⟩ ?_ (by decide) (by decide) (by decide) (by decide) (by decide)
  · intro x hx
    simp only [liveGrants, TableDecl.defs, List.mem_cons, List.not_mem_nil, or_false] at hx
    rcases hx with rfl | rfl | rfl | rfl | rfl
    · exact ⟨liveId_plain, server_fits _ _⟩
    · exact ⟨liveRole_plain, server_fits _ _⟩
    · exact ⟨⟨by decide, by decide⟩, .inl (by decide)⟩
    · exact ⟨⟨by decide, by decide⟩, .inl (by decide)⟩
    · exact liveFk_plain _ (.inr rfl)
  · intro x hx c s e
    simp only [liveGrants, TableDecl.defs, List.mem_cons, List.not_mem_nil, or_false] at hx
    rcases hx with rfl | rfl | rfl | rfl | rfl <;> cases e <;> decide
  · intro o ho
    simp only [liveGrants, List.mem_cons, List.not_mem_nil, or_false] at ho
    rcases ho with rfl; exact ⟨by decide, by decide, by decide, by decide, by unfold NoComment; decide⟩

theorem fileRoles_ok : fileRoles.Ok := by
  refine table_ok (by decide) ?_ ?_ ⟨_, _, rfl⟩ (by intro o ho; cases ho) (by decide) (by decide) (by decide) (by decide) (by decide)
  · intro x hx
    simp only [fileRoles, TableDecl.defs, List.mem_cons, List.not_mem_nil, or_false] at hx
    rcases hx with rfl | rfl | rfl
    · exact ⟨liveName_plain, usual_fits⟩
    · exact ⟨⟨by decide, by decide⟩, .inl (by decide)⟩
    · exact ⟨liveId_plain, usual_fits⟩
  · intro x hx c s e
    simp only [fileRoles, TableDecl.defs, List.mem_cons, List.not_mem_nil, or_false] at hx
    rcases hx with rfl | rfl | rfl <;> cases e <;> decide

theorem fileGrants_ok : fileGrants.Ok := by
  refine table_ok (by decide) ?_ ?_ ⟨_, _, rfl⟩ (by intro o ho; cases ho) (by decide) (by decide) (by decide) (by decide) (by decide)
  · intro x hx
    simp only [fileGrants, TableDecl.defs, List.mem_cons, List.not_mem_nil, or_false] at hx
    rcases hx with rfl | rfl | rfl | rfl | rfl
    · exact ⟨liveId_plain, usual_fits⟩
    · exact liveFk_plain _ (.inl rfl)
    · exact ⟨liveRole_plain, usual_fits⟩
    · exact ⟨⟨by decide, by decide⟩, .inl (by decide)⟩
    · exact ⟨⟨by decide, by decide⟩, .inl (by decide)⟩
  · intro x hx c s e
    simp only [fileGrants, TableDecl.defs, List.mem_cons, List.not_mem_nil, or_false] at hx
    rcases hx with rfl | rfl | rfl | rfl | rfl <;> cases e <;> decide

theorem liveServer_has : liveServer.Has [liveGrants, liveRoles] := by
  refine ⟨rfl, by decide, ?_, ?_⟩
  · intro d hd
    simp only [List.mem_cons, List.not_mem_nil, or_false] at hd
    rcases hd with rfl | rfl
    · exact liveGrants_ok
    · exact liveRoles_ok
  · intro d hd
    simp only [List.mem_cons, List.not_mem_nil, or_false] at hd
    refine ⟨liveLayout, ⟨by decide, by decide, by decide⟩, ?_⟩
    rcases hd with rfl | rfl <;> decide +kernel

theorem liveFile_ok : SourceFile liveFile liveScript := by
  refine ⟨0, [], _, rfl, .nil, ?_, by decide, by intro h; cases h⟩
  have h1 := Script.cons (blanks := py"\n") (s := .declare fileGrants fileLayout) (by decide) (.nil (blanks := []) (by decide))
  have h2 := Script.cons (blanks := py"\n") (s := .insert fileRows layout1) (by decide) h1
  have h3 := Script.cons (blanks := []) (s := .declare fileRoles fileLayout) (by decide) h2
  rw [List.append_nil] at h3
  exact h3

theorem liveScript_readable : Readable liveScript := by
  refine ⟨?_, ?_⟩
  · intro s hs
    simp only [liveScript, List.mem_cons, List.not_mem_nil, or_false] at hs
    rcases hs with rfl | rfl | rfl
    · exact ⟨fileRoles_ok, by decide, by decide, by decide⟩
    · exact ⟨⟨by decide, ⟨by decide, by decide⟩, by decide, by decide, by decide⟩, layout1_ok, by decide⟩
    · exact ⟨fileGrants_ok, by decide, by decide, by decide⟩
  · simp only [liveScript, List.pairwise_cons, List.mem_cons, List.not_mem_nil, or_false, forall_eq_or_imp, forall_eq, List.Pairwise.nil, and_true]
    refine ⟨⟨fun _ => ⟨?_, .inr (by decide)⟩, fun _ => trivial⟩, (fun h => by cases h), (fun _ h => h.elim)⟩
    intro r hr c hc
    simp only [fileRows, List.mem_cons, List.not_mem_nil, or_false] at hr
    rcases hr with rfl | rfl <;> simp only [List.mem_cons, List.not_mem_nil, or_false] at hc <;> rcases hc with rfl | rfl <;>
      exact ⟨by decide, by unfold NoComment; decide⟩

theorem liveScript_rows : GoodRows [liveScript].flatten := by
  have e : insertsOf [liveScript].flatten = [fileRows] := rfl
  refine ⟨?_, ?_, ?_, ?_⟩
  · rw [e]; intro i hi; rw [List.mem_singleton] at hi; subst hi; exact ⟨fileRoles.table, by decide, rfl⟩
  · rw [e]; intro i hi; rw [List.mem_singleton] at hi; subst hi; decide
  · rw [e]; intro i hi; rw [List.mem_singleton] at hi; subst hi; decide
  · intro n
    unfold declaredRows insertsFor
    rw [e]
    by_cases h : fileRows.table = n
    · rw [List.filter_cons_of_pos (by simpa using h)]
      simp only [List.filter_nil]
      decide
    · rw [List.filter_cons_of_neg (by simpa using h)]
      exact List.nodup_nil

theorem live_same : SameSchema ([liveGrants, liveRoles].map (·.table)) (tablesOf [liveScript].flatten) := by
  refine ⟨?_, by decide⟩
  intro a ha
  simp only [List.map_cons, List.map_nil, List.mem_cons, List.not_mem_nil, or_false] at ha
  rcases ha with rfl | rfl
  · exact ⟨fileGrants.table, by decide, rfl, agree_refl SameColumn.refl (by decide), agree_refl SameIndex.refl (by decide), agree_refl SameConstraint.refl (by decide)⟩
  · exact ⟨fileRoles.table, by decide, rfl, agree_refl SameColumn.refl (by decide), agree_refl SameIndex.refl (by decide), agree_refl SameConstraint.refl (by decide)⟩

theorem live_rows : RowsAgree liveServer [liveScript] := by
  intro t ht hne
  have h : t = fileRoles.table ∨ t = fileGrants.table := by
    have : tablesOf [liveScript].flatten = [fileRoles.table, fileGrants.table] := rfl
    rw [this] at ht
    simpa using ht
  rcases h with rfl | rfl
  · refine ⟨[[(py"id", .int 1), (py"name", .str py"admin")], [(py"id", .int 2), (py"name", .str py"guest")]], rfl, ?_⟩
    have e : declaredRows fileRoles.table.name [liveScript].flatten =
        [(py"2", [(py"id", .str py"2"), (py"name", .str py"guest")]), (py"1", [(py"id", .str py"1"), (py"name", .str py"admin")])] := by decide
    rw [e]
    refine ⟨?_, by decide, ?_⟩
    · intro r hr
      simp only [List.mem_cons, List.not_mem_nil, or_false] at hr
      rcases hr with rfl | rfl
      · exact ⟨py"1", by decide, by decide, by decide⟩
      · exact ⟨py"2", by decide, by decide, by decide⟩
    · have hall : ∀ r ∈ ([[(py"id", .int 1), (py"name", .str py"admin")], [(py"id", .int 2), (py"name", .str py"guest")]] : List Row), ∀ e ∈ 
          ([(py"2", [(py"id", .str py"2"), (py"name", .str py"guest")]), (py"1", [(py"id", .str py"1"), (py"name", .str py"admin")])] : Dict Row),
          DbRows.givenId r = some e.1 → ∀ x ∈ e.2, (Dict.get? r x.1).map PyVal.cell = some x.2.cell := by decide
      intro r hr i d hi hd c w hw
      have := hall r hr (i, d) (Dict.mem_of_get? hd) hi (c, w) (Dict.mem_of_get? hw)
      obtain ⟨v, h1, h2⟩ := Option.map_eq_some_iff.mp this
      exact ⟨v, h1, h2⟩
  · exact absurd (show insertsFor fileGrants.table.name [liveScript].flatten = [] by decide) hne

end Examples

open Examples in
section
attribute [local instance] exactNum

/-- for `C62_live_partial`, `C65_structure_partial` and `C65_nothing_partial`: the two tables are written down as MySQL does, the files
have their definitions in another order, and there are rows -/
example : liveServer.Has [liveGrants, liveRoles] ∧ Paired SourceFile [liveFile] [liveScript] ∧ (∀ ss ∈ [liveScript], Readable ss) ∧
    ((tablesOf [liveScript].flatten).map (·.name)).Nodup ∧ GoodRows [liveScript].flatten ∧
    SameSchema ([liveGrants, liveRoles].map (·.table)) (tablesOf [liveScript].flatten) ∧ RowsAgree liveServer [liveScript] ∧
    (check [liveFile]).result = .ok ⟨[], true⟩ := by
  refine ⟨liveServer_has, .cons liveFile_ok .nil, ?_, by decide, liveScript_rows, live_same, live_rows, by decide +kernel⟩
  intro ss hss
  rw [List.mem_singleton] at hss
  subst hss
  exact liveScript_readable

/-- nothing else is special about this server: a single other character makes a plan -/
example : (plan { liveServer with select := fun n => if n = py"roles" then .ok [[(py"id", .int 1), (py"name", .str py"admin")], [(py"id", .int 2), (py"name", .str py"host")]] else .ok [] } [liveFile] false).result =
    .ok ⟨[py"SET FOREIGN_KEY_CHECKS=0;", py"UPDATE `roles` SET `name`='guest' WHERE id='2';", py"SET FOREIGN_KEY_CHECKS=1;"], true⟩ := by
  decide +kernel

/-- **C62 and C65 fail** for a column with a comment, and for one which MySQL updates: the table is not found, so that an existing table is created
and another, without a name, is dropped.  The files declare the table without the comment. -/
theorem C62_refuted :
    let srv : Server := { tableNames := [py"t"], createText := (fun _ => .ok (some py"CREATE TABLE `t` (\n  `id` int NOT NULL COMMENT 'key'\n) ENGINE=InnoDB")), select := (fun _ => .ok []), fails := (fun _ _ => none) }
    let srv2 : Server := { srv with createText := fun _ => .ok (some py"CREATE TABLE `t` (\n  `at` timestamp NOT NULL DEFAULT CURRENT_TIMESTAMP ON UPDATE CURRENT_TIMESTAMP\n) ENGINE=InnoDB") }
    (LiveDatabase.new srv).result.map (fun d => d.tables.keys) = .ok [[]] ∧
    (LiveDatabase.new srv2).result.map (fun d => d.tables.keys) = .ok [[]] ∧
    (plan srv [py"CREATE TABLE t (id INT NOT NULL);"] false).result =
      .ok ⟨[py"SET FOREIGN_KEY_CHECKS=0;", py"CREATE TABLE `t` (`id` INT NOT NULL);", py"DROP TABLE ;", py"SET FOREIGN_KEY_CHECKS=1;"], true⟩ := by
  refine ⟨?_, ?_, ?_⟩ <;> decide +kernel

end

end Mygrations

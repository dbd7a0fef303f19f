import Verif.Proofs.Order
import Verif.Props.C34

/-!
# C73: the order in which the files are read does not matter

`glob.glob` lists the files of a directory in whatever order the file system has them.
-/

namespace Mygrations
open Table Database

/-! ## Specification (with `Inserts` of C72, `idText` and `insertColumns` of C23) -/

/-- whenever two rows of `INSERT`s into the table `n` have the id `i`, they are the same -/
def OneRow (sources : List Str) (n : Str) (t : Table) (i : Str) : Prop :=
  ∀ s ∈ sources, ∀ s' ∈ sources, ∀ r r', Inserts s r → Inserts s' r' → r.table = n → r'.table = n →
    ∀ v ∈ r.rawRows, ∀ v' ∈ r'.rawRows, idText (insertColumns t r) v = some i → idText (insertColumns t r') v' = some i →
      insertColumns t r = insertColumns t r' ∧ v = v'

/-! ## Proofs -/

section
variable [PyNum]

/-- what comes of files which declare different tables -/
theorem new_shape {sources : List Str} {d : Database} (h : FileDatabase.new sources = .ok d) (hq : ∀ f ∈ sources, (readSource f).2 = none)
    (hn : (sources.flatMap (fun f => (readSource f).1.tables.keys)).Nodup) :
    d.outline = { d with tables := (sources.flatMap (fun f => (readSource f).1.tables)).map (fun e => (e.1, e.2.outline)) } ∧
    d.tables.keys = sources.flatMap (fun f => (readSource f).1.tables.keys) ∧
    d.rows = filed [] (sources.flatMap insertsIn) ∧ d.globalErrors = sources.flatMap (fun f => (readSource f).1.globalErrors) ∧
    d.schemaCache = none ∧ d.parsingCache = none ∧ d.checked = [] ∧
    (∀ k t, (k, t) ∈ d.tables → Exactly d.rows k t) ∧ (∀ e ∈ d.rows, e.1 ∈ d.tables.keys) := by
  have h1 := readAll_filed sources {} hq (by simpa using hn)
  have hnew : FileDatabase.new sources = .ok d := h
  unfold FileDatabase.new at h
  simp only [h1] at h
  have hplain := (FileDatabase.readAll_rowsOf (all := sources) sources {} _ (fun _ h => h) ⟨fun _ _ h => (by cases h), fun _ h => (by cases h)⟩ h1).1
  have hfresh : ∀ f ∈ sources, ∀ e ∈ (readSource f).1.tables, e.2.tracking = false := fun f _ e he => by
    have h1 := ((readSource_kept f).1.kept e.1 e.2 he).known
    rw [(readSource_kept f).2 e.1 e.2 he] at h1
    exact h1
  obtain ⟨a1, a2, a3, a4, a5⟩ := FileDatabase.combine_exactly (inserts := filed [] (sources.flatMap insertsIn)) _ _ d (fun _ h => h) (fun e he => (mem_filed he).1) (by
    intro k t hk
    refine ⟨fun i row hr => ?_, fun ht => ?_⟩
    · have h0 : t.rows = none := hplain k t hk
      rw [h0] at hr
      cases hr
    · simp only [List.nil_append] at hk
      obtain ⟨f, hf, he⟩ := List.mem_flatMap.mp hk
      rw [hfresh f hf _ he] at ht
      cases ht) h
  have hcomb : ∀ (l : List (Str × List Rows)) (x y : Database), FileDatabase.combine x l = .ok y →
      y.schemaCache = x.schemaCache ∧ y.parsingCache = x.parsingCache ∧ (x.checked = [] → y.checked = []) := by
    intro l
    induction l with
    | nil => intro x y h; cases h; exact ⟨rfl, rfl, fun h => h⟩
    | cons e l ih =>
      intro x y h
      obtain ⟨n, rs⟩ := e
      unfold FileDatabase.combine at h
      simp only at h
      split at h
      · cases h
      · have := ih _ _ h
        by_cases hh : x.tables.has n = true
        · simp only [hh, if_true] at this
          exact ⟨this.1, this.2.1, fun h0 => this.2.2 (by rw [h0]; rfl)⟩
        · simp only [hh] at this
          exact ⟨this.1, this.2.1, fun h0 => this.2.2 (by simp [h0])⟩
  obtain ⟨c1, c2, c3⟩ := hcomb _ _ _ h
  have hkeys : d.tables.keys = sources.flatMap (fun f => (readSource f).1.tables.keys) := by
    have := congrArg (List.map Prod.fst) a2
    simp only [List.map_map, Function.comp_def, List.nil_append] at this
    rw [List.map_flatMap] at this
    exact this
  have hrows : d.rows = filed [] (sources.flatMap insertsIn) := a4
  refine ⟨?_, hkeys, hrows, by simpa using a3, c1, c2, c3 rfl, by rw [hrows]; exact a1, ?_⟩
  · unfold Database.outline
    rw [a2]
    rfl
  · rw [hrows, hkeys]
    intro e he
    have := a5 e he
    simp only [List.nil_append, Dict.keys, List.map_flatMap] at this
    exact this

omit [PyNum] in
theorem mem_insertsIn {s : Str} {r : Rows} (h : r ∈ insertsIn s) : r.Named ∧ ∀ values ∈ r.rawRows, r.numExplicit ≠ 0 → values.length = r.columns.length := by
  obtain ⟨_, _, _, _, _, hp⟩ := readSource_rows h
  exact parseInsert_named hp

theorem new_ok_of_perm {sources sources' : List Str} (hp : sources.Perm sources') {d : Database} (h : FileDatabase.new sources = .ok d)
    (hq : ∀ f ∈ sources, (readSource f).2 = none) (hn : (sources.flatMap (fun f => (readSource f).1.tables.keys)).Nodup) :
    ∃ d', FileDatabase.new sources' = .ok d' := by
  obtain ⟨_, hk, hrows, _, _, _, _, _, hin⟩ := new_shape h hq hn
  have hq' : ∀ f ∈ sources', (readSource f).2 = none := fun f hf => hq f (hp.mem_iff.mpr hf)
  have hn' : (sources'.flatMap (fun f => (readSource f).1.tables.keys)).Nodup := (hp.flatMap_right _).nodup_iff.mp hn
  have h1 := readAll_filed sources' {} hq' (by simpa using hn')
  unfold FileDatabase.new
  simp only [h1]
  refine FileDatabase.combine_ok _ _ (fun e he => ?_) (fun e he r hr => ?_)
  · have hne := mem_filed he
    obtain ⟨r, hr⟩ := List.exists_mem_of_ne_nil _ hne.1
    obtain ⟨h2, h3⟩ := hne.2 r hr
    have h4 : r ∈ sources.flatMap insertsIn := (hp.flatMap_right insertsIn).mem_iff.mpr h3
    obtain ⟨e', he', hr'⟩ := filed_mem (x := []) (Or.inl h4) List.nodup_nil
    have h5 := hin e' (by rw [hrows]; exact he')
    rw [← ((mem_filed he').2 r hr').1, h2, hk] at h5
    show e.1 ∈ Dict.keys ([] ++ _)
    rw [List.nil_append]
    have := (hp.flatMap_right (fun f => (readSource f).1.tables.keys)).mem_iff.mp h5
    simp only [Dict.keys, List.map_flatMap] at this ⊢
    exact this
  · obtain ⟨f, _, hf⟩ := List.mem_flatMap.mp ((mem_filed he).2 r hr).2
    exact (mem_insertsIn hf).2

theorem errors_of_perm {sources sources' : List Str} (hp : sources.Perm sources') {d d' : Database} (h : FileDatabase.new sources = .ok d)
    (h' : FileDatabase.new sources' = .ok d')
    (hq : ∀ f ∈ sources, (readSource f).2 = none) (hn : (sources.flatMap (fun f => (readSource f).1.tables.keys)).Nodup)
    (he : d.errors.1 = .ok []) : d'.errors.1 = .ok [] := by
  have hq' : ∀ f ∈ sources', (readSource f).2 = none := fun f hf => hq f (hp.mem_iff.mpr hf)
  have hn' : (sources'.flatMap (fun f => (readSource f).1.tables.keys)).Nodup := (hp.flatMap_right _).nodup_iff.mp hn
  obtain ⟨a0, a1, a2, a3, a4, a5, a6, _⟩ := new_shape h hq hn
  obtain ⟨b0, b1, b2, b3, b4, b5, b6, _⟩ := new_shape h' hq' hn'
  have named : ∀ (ss : List Str), ∀ x ∈ Database.allRows (filed [] (ss.flatMap insertsIn)), x.2.Named := by
    intro ss x hx
    obtain ⟨f, _, hf⟩ := List.mem_flatMap.mp (mem_allRows_filed.mp hx).1
    exact (mem_insertsIn hf).1
  have ho : ∀ (x : Database), x.tables.keys.Nodup → x.outline.tables.keys.Nodup := by
    intro x hx
    unfold Database.outline Dict.keys
    rw [List.map_map]
    exact hx
  have hk : d.outline.tables.keys.Nodup := ho d (by rw [a1]; exact hn)
  have hk' : d'.outline.tables.keys.Nodup := ho d' (by rw [b1]; exact hn')
  rw [← Database.outline_errors] at he ⊢
  rw [errors_flawless (d := d.outline) a4 a5 a6 hk (by show ∀ x ∈ Database.allRows d.rows, _; rw [a2]; exact named _)] at he
  rw [errors_flawless (d := d'.outline) b4 b5 b6 hk' (by show ∀ x ∈ Database.allRows d'.rows, _; rw [b2]; exact named _)]
  refine ⟨?_, ?_⟩
  · have h1 : d.globalErrors = [] := he.1
    show d'.globalErrors = []
    rw [b3]
    rw [a3] at h1
    exact List.eq_nil_of_length_eq_zero (by rw [← (hp.flatMap_right _).length_eq, h1]; rfl)
  · refine he.2.perm hk ?_ ?_
    · rw [a0, b0]
      exact (hp.flatMap_right _).map _
    · intro x hx
      have hx' : x ∈ Database.allRows d'.rows := hx
      show x ∈ Database.allRows d.rows
      rw [b2, mem_allRows_filed] at hx'
      rw [a2, mem_allRows_filed]
      exact ⟨(hp.flatMap_right insertsIn).mem_iff.mpr hx'.1, hx'.2⟩

theorem rows_of_perm {sources sources' : List Str} (hp : sources.Perm sources') {d d' : Database} (h : FileDatabase.new sources = .ok d)
    (h' : FileDatabase.new sources' = .ok d')
    (hq : ∀ f ∈ sources, (readSource f).2 = none) (hn : (sources.flatMap (fun f => (readSource f).1.tables.keys)).Nodup)
    {n : Str} {t t' : Table} (ht : d.tables.get? n = some t) (ht' : d'.tables.get? n = some t') (hc : t'.columns = t.columns) :
    (t.tracking = true → t'.tracking = true) ∧ ∀ i ∈ (t.rows.getD []).keys, i ∈ (t'.rows.getD []).keys := by
  have hq' : ∀ f ∈ sources', (readSource f).2 = none := fun f hf => hq f (hp.mem_iff.mpr hf)
  have hn' : (sources'.flatMap (fun f => (readSource f).1.tables.keys)).Nodup := (hp.flatMap_right _).nodup_iff.mp hn
  obtain ⟨_, _, a2, _, _, _, _, a7, _⟩ := new_shape h hq hn
  have hex := a7 n t (Dict.mem_of_get? ht)
  have from_ : ∀ rs x, (n, rs) ∈ d.rows → x ∈ rs → ∃ s ∈ sources', Inserts s x ∧ x.table = n := by
    intro rs x h1 h2
    rw [a2] at h1
    obtain ⟨h3, h4⟩ := (mem_filed h1).2 x h2
    obtain ⟨s, hs, hx⟩ := List.mem_flatMap.mp h4
    exact ⟨s, hp.mem_iff.mp hs, readSource_rows hx, h3⟩
  refine ⟨fun htr => ?_, fun i hi => ?_⟩
  · obtain ⟨rs, x, h1, h2⟩ := hex.tracking htr
    obtain ⟨s, hs, h3, rfl⟩ := from_ rs x h1 h2
    obtain ⟨u, h4, h5, _⟩ := C72_stored_partial h' hq' hn' hs h3
    rw [ht'] at h4
    cases h4
    exact h5
  · obtain ⟨row, hr⟩ := Dict.exists_get? hi
    obtain ⟨rs, x, h1, h2, v, h3, h4⟩ := hex.rows i row (Dict.mem_of_get? hr)
    obtain ⟨s, hs, h5, rfl⟩ := from_ rs x h1 h2
    obtain ⟨u, h6, _, h7⟩ := C72_stored_partial h' hq' hn' hs h5
    rw [ht'] at h6
    cases h6
    rw [insertColumns_eq hc] at h7
    obtain ⟨row', h8⟩ := h7 v h3 h4.storable i h4.idOf
    exact Dict.mem_keys_of_get? h8

/-- **C73** (partial).  If the files are read to their ends and declare no table twice, then the order in which they are read does not matter:
in every order they are read, they have no errors or they have some, and they declare the same tables, with the same columns, keys, foreign
keys and options, the same tables whose rows are managed, and the same ids of rows; and a row is the same if no other one is inserted under its id.
Missing: tables which two files declare and rows which have the same id (`C73_refuted`). -/
theorem C73_partial {sources sources' : List Str} (hp : sources.Perm sources') {d : Database} (h : FileDatabase.new sources = .ok d)
    (hq : ∀ f ∈ sources, (readSource f).2 = none) (hn : (sources.flatMap (fun f => (readSource f).1.tables.keys)).Nodup) :
    ∃ d', FileDatabase.new sources' = .ok d' ∧ (d'.errors.1 = .ok [] ↔ d.errors.1 = .ok []) ∧ d'.tables.keys.Perm d.tables.keys ∧
      ∀ n t, d.tables.get? n = some t → ∃ t', d'.tables.get? n = some t' ∧ t'.name = t.name ∧ t'.columns = t.columns ∧ t'.indexes = t.indexes ∧
        t'.constraints = t.constraints ∧ t'.options = t.options ∧ t'.tracking = t.tracking ∧
        (∀ i, i ∈ (t'.rows.getD []).keys ↔ i ∈ (t.rows.getD []).keys) ∧
        ∀ i, OneRow sources n t i → (t'.rows.getD []).get? i = (t.rows.getD []).get? i := by
  obtain ⟨d', h'⟩ := new_ok_of_perm hp h hq hn
  have hq' : ∀ f ∈ sources', (readSource f).2 = none := fun f hf => hq f (hp.mem_iff.mpr hf)
  have hn' : (sources'.flatMap (fun f => (readSource f).1.tables.keys)).Nodup := (hp.flatMap_right _).nodup_iff.mp hn
  obtain ⟨a0, a1, a2, _, _, _, _, a7, _⟩ := new_shape h hq hn
  obtain ⟨b0, b1, b2, _, _, _, _, b7, _⟩ := new_shape h' hq' hn'
  refine ⟨d', h', ⟨errors_of_perm hp.symm h' h hq' hn', errors_of_perm hp h h' hq hn⟩, ?_, fun n t ht => ?_⟩
  · rw [a1, b1]
    exact (hp.flatMap_right _).symm
  · have hkn : d.outline.tables.keys.Nodup := by
      rw [a0]
      unfold Dict.keys
      simp only [List.map_map, Function.comp_def]
      have := hn
      simp only [Dict.keys] at this
      rw [List.map_flatMap]
      exact this
    have hperm : d.outline.tables.Perm d'.outline.tables := by
      rw [a0, b0]
      exact (hp.flatMap_right _).map _
    have hg := perm_get? hperm hkn n
    have hog : ∀ (x : Database), x.outline.tables.get? n = (x.tables.get? n).map Table.outline := fun x => outline_get x.tables n
    rw [hog, hog, ht] at hg
    cases ht' : d'.tables.get? n with
    | none => rw [ht'] at hg; cases hg
    | some t' =>
      rw [ht'] at hg
      have ho : t'.outline = t.outline := by simpa using hg
      have hname : t'.outline.name = t.outline.name := by rw [ho]
      have hc : t'.outline.columns = t.outline.columns := by rw [ho]
      have hindexes : t'.outline.indexes = t.outline.indexes := by rw [ho]
      have hconstraints : t'.outline.constraints = t.outline.constraints := by rw [ho]
      have hoptions : t'.outline.options = t.outline.options := by rw [ho]
      replace hc : t'.columns = t.columns := hc
      obtain ⟨r1, r2⟩ := rows_of_perm hp h h' hq hn ht ht' hc
      obtain ⟨r3, r4⟩ := rows_of_perm hp.symm h' h hq' hn' ht' ht hc.symm
      have hids : ∀ i, i ∈ (t'.rows.getD []).keys ↔ i ∈ (t.rows.getD []).keys := fun i => ⟨r4 i, r2 i⟩
      refine ⟨t', rfl, hname, hc, hindexes, hconstraints, hoptions, ?_, hids, fun i hone => ?_⟩
      · cases hx : t.tracking with
        | true => exact r1 hx
        | false =>
          cases hy : t'.tracking with
          | false => rfl
          | true => rw [r3 hy] at hx; cases hx
      · cases hr : (t.rows.getD []).get? i with
        | none =>
          rw [Dict.get?_eq_none] at hr ⊢
          exact fun hm => hr ((hids i).mp hm)
        | some row =>
          obtain ⟨row', hr'⟩ := Dict.exists_get? ((hids i).mpr (Dict.mem_keys_of_get? hr))
          rw [hr']
          obtain ⟨rs, x, k1, k2, v, k3, k4⟩ := (a7 n t (Dict.mem_of_get? ht)).rows i row (Dict.mem_of_get? hr)
          obtain ⟨rs', x', k1', k2', v', k3', k4'⟩ := (b7 n t' (Dict.mem_of_get? ht')).rows i row' (Dict.mem_of_get? hr')
          rw [a2] at k1
          rw [b2] at k1'
          obtain ⟨m1, m2⟩ := (mem_filed k1).2 x k2
          obtain ⟨m1', m2'⟩ := (mem_filed k1').2 x' k2'
          obtain ⟨s, hs, hx⟩ := List.mem_flatMap.mp m2
          obtain ⟨s', hs', hx'⟩ := List.mem_flatMap.mp m2'
          rw [insertColumns_eq hc] at k4'
          obtain ⟨e1, e2⟩ := hone s hs s' (hp.mem_iff.mpr hs') x x' (readSource_rows hx) (readSource_rows hx') m1 m1' v k3 v' k3' k4.idOf k4'.idOf
          rw [k4.row, k4'.row, e1, e2]

end

/-! ## Tables which are declared twice -/

section
variable [PyNum]

theorem storeTables_other {n : Str} : ∀ (ts : List Table) {d d' : Database}, FileDatabase.storeTables d ts = .ok d' → (∀ t ∈ ts, t.name ≠ n) →
    d'.tables.get? n = d.tables.get? n
  | [], _, _, he, _ => by cases he; rfl
  | t :: ts, d, d', he, h => by
    have hn : t.name ≠ n := h t List.mem_cons_self
    have hr := fun x hx => h x (List.mem_cons_of_mem t hx)
    unfold FileDatabase.storeTables at he
    split at he
    · split at he
      · cases he
      · rename_i d₁ h1
        have e : d₁.tables = d.tables := by
          have := Database.errors_tables d
          rw [h1] at this
          exact this
        rw [storeTables_other ts he hr]
        simp only [e, Dict.get?_set, if_neg hn]
    · rw [storeTables_other ts he hr]
      simp only [Dict.get?_set, if_neg hn]

theorem storeTables_mine {t : Table} : ∀ (ts : List Table) {d d' : Database}, FileDatabase.storeTables d ts = .ok d' → (ts.map (·.name)).Nodup → t ∈ ts →
    d'.tables.get? t.name = some t
  | [], _, _, _, _, h => by cases h
  | u :: ts, d, d', he, hn, h => by
    rw [List.map_cons, List.nodup_cons] at hn
    have hr : u = t → ∀ x ∈ ts, x.name ≠ t.name := fun hu x hx hh => hn.1 (List.mem_map.mpr ⟨x, hx, by rw [hu, hh]⟩)
    have key : ∀ x : Database, FileDatabase.storeTables x ts = .ok d' → x.tables.get? u.name = some u → d'.tables.get? t.name = some t := by
      intro x hx hxu
      rcases List.mem_cons.mp h with rfl | h
      · rw [storeTables_other ts hx (hr rfl), hxu]
      · exact storeTables_mine ts hx hn.2 h
    unfold FileDatabase.storeTables at he
    split at he
    · split at he
      · cases he
      · exact key _ he (by simp only [Dict.get?_set, if_true])
    · exact key _ he (by simp only [Dict.get?_set, if_true])

theorem read_store {d d' : Database} {f : Str} (he : FileDatabase.read d f = .ok d') :
    ∃ d₁, FileDatabase.storeTables d (readSource f).1.tables.values = .ok d₁ ∧ d'.tables = d₁.tables := by
  unfold FileDatabase.read at he
  split at he
  rename_i hst
  split at he
  · cases he
  · split at he
    · cases he
    · rename_i h1
      cases he
      rw [hst]
      exact ⟨_, h1, rfl⟩

theorem source_names (f : Str) : (readSource f).1.tables.values.map (·.name) = (readSource f).1.tables.keys := by
  have := (readSource_kept f).1.name
  unfold Dict.values Dict.keys
  rw [List.map_map]
  exact List.map_congr_left (fun e he => this e.1 e.2 he)

theorem read_other {d d' : Database} {f n : Str} (he : FileDatabase.read d f = .ok d') (hn : n ∉ (readSource f).1.tables.keys) :
    d'.tables.get? n = d.tables.get? n := by
  obtain ⟨d₁, h1, h2⟩ := read_store he
  rw [h2, storeTables_other _ h1 (fun t ht hh => hn (by rw [← source_names, ← hh]; exact List.mem_map.mpr ⟨t, ht, rfl⟩))]

theorem readAll_other {n : Str} : ∀ (fs : List Str) {d d' : Database}, FileDatabase.readAll d fs = .ok d' → (∀ f ∈ fs, n ∉ (readSource f).1.tables.keys) →
    d'.tables.get? n = d.tables.get? n
  | [], _, _, he, _ => by cases he; rfl
  | f :: fs, d, d', he, h => by
    unfold FileDatabase.readAll at he
    split at he
    · cases he
    · rename_i h1
      rw [readAll_other fs he (fun g hg => h g (List.mem_cons_of_mem _ hg)), read_other h1 (h f List.mem_cons_self)]

omit [PyNum] in
theorem addInserts_outline {n : Str} : ∀ (rs : List Rows) {ts ts' : Dict Table}, FileDatabase.addInserts n ts rs = .ok ts' →
    ∀ k, (ts'.get? k).map Table.outline = (ts.get? k).map Table.outline
  | [], _, _, ha, _ => by cases ha; rfl
  | r :: rs, ts, ts', ha, k => by
    unfold FileDatabase.addInserts at ha
    split at ha
    · cases ha
    · rename_i t ht
      split at ha
      · cases ha
      · rename_i t1 h1
        rw [addInserts_outline rs ha k, Dict.get?_set]
        split
        · rename_i hk
          rw [← hk, ht]
          exact congrArg some (addRows_stored h1).1
        · rfl

omit [PyNum] in
theorem combine_outline : ∀ (l : List (Str × List Rows)) {d d' : Database}, FileDatabase.combine d l = .ok d' →
    ∀ k, (d'.tables.get? k).map Table.outline = (d.tables.get? k).map Table.outline
  | [], _, _, he, _ => by cases he; rfl
  | (n, rs) :: l, d, d', he, k => by
    unfold FileDatabase.combine at he
    dsimp only at he
    split at he
    · cases he
    · rename_i ts hts
      rw [combine_outline l he k]
      have ht : ∀ (b : Bool) (x : List Str), (if b = true then d else { d with globalErrors := x }).tables = d.tables := by intro b x; cases b <;> rfl
      rw [ht] at hts
      exact addInserts_outline rs hts k

/-- **C31, C73 fail**: the last file which declares a table decides what the table is, whatever the other files are. -/
theorem C31_last_refuted (pre post : List Str) (f n : Str) (t : Table) (ht : (readSource f).1.tables.get? n = some t)
    (hpost : ∀ g ∈ post, n ∉ (readSource g).1.tables.keys) (d : Database) (hd : FileDatabase.new (pre ++ f :: post) = .ok d) :
    ∃ t', d.tables.get? n = some t' ∧ t'.columns = t.columns ∧ t'.indexes = t.indexes ∧ t'.constraints = t.constraints ∧ t'.options = t.options := by
  unfold FileDatabase.new at hd
  split at hd
  · cases hd
  · rename_i d₁ h1
    rw [readAll_append] at h1
    split at h1
    · cases h1
    · rename_i d₂ h2
      unfold FileDatabase.readAll at h1
      split at h1
      · cases h1
      · rename_i d₃ h3
        have hm := Dict.mem_of_get? ht
        have hname : t.name = n := (readSource_kept f).1.name n t hm
        obtain ⟨d₄, h4, h5⟩ := read_store h3
        have h6 : d₄.tables.get? t.name = some t := storeTables_mine _ h4 (by rw [source_names]; exact (readSource_kept f).1.nodup) (List.mem_map.mpr ⟨(n, t), hm, rfl⟩)
        have h7 : d₁.tables.get? n = some t := by rw [readAll_other post h1 hpost, h5, ← hname, h6]
        have h8 := combine_outline _ hd n
        rw [h7] at h8
        cases h9 : d.tables.get? n with
        | none => rw [h9] at h8; cases h8
        | some t' =>
          rw [h9] at h8
          have h10 : t'.outline = t.outline := Option.some.inj h8
          exact ⟨t', rfl, show t'.outline.columns = t.outline.columns by rw [h10], show t'.outline.indexes = t.outline.indexes by rw [h10],
            show t'.outline.constraints = t.outline.constraints by rw [h10], show t'.outline.options = t.outline.options by rw [h10]⟩

/-! ## Rows which have the same id -/

/-- the rows which the files insert into the table `n`, in the order of the files -/
def insertedInto (n : Str) (sources : List Str) : List (Rows × List PyVal) :=
  ((sources.flatMap insertsIn).filter (fun r => r.table = n)).flatMap (fun r => r.rawRows.map (fun v => (r, v)))

/-- each row of the table has the values of one of these rows, and no storable one before it has its id; and no storable one is missing -/
structure FirstOf (l : List (Rows × List PyVal)) (t : Table) : Prop where
  keyed : RowsKeyed (t.rows.getD [])
  first : ∀ i row, (i, row) ∈ t.rows.getD [] → ∃ l₁ x l₂, l = l₁ ++ x :: l₂ ∧ Holds (insertColumns t x.1) x.2 i row ∧
    ∀ y ∈ l₁, Storable (insertColumns t y.1) (y.1.numExplicit ≠ 0) y.2 → idText (insertColumns t y.1) y.2 ≠ some i
  stored : ∀ y ∈ l, Storable (insertColumns t y.1) (y.1.numExplicit ≠ 0) y.2 → ∀ i, idText (insertColumns t y.1) y.2 = some i → i ∈ (t.rows.getD []).keys

theorem addRows_first {l : List (Rows × List PyVal)} {t t' : Table} {r : Rows} (h : FirstOf l t) (ha : t.addRows r = .ok t') :
    FirstOf (l ++ r.rawRows.map (fun v => (r, v))) t' := by
  have hc := (addRows_keeps ha).2
  have hic := fun x => insertColumns_eq hc x
  obtain ⟨h1, _, more, _, h2, _, _, _, h3, h4⟩ := C23_partial t t' r ha h.keyed
  refine ⟨h1, fun i row hir => ?_, fun y hy hs i hi => ?_⟩
  · rw [h2, Option.getD_some] at hir
    rcases List.mem_append.mp hir with hir | hmore
    · obtain ⟨l₁, x, l₂, e, hx, hb⟩ := h.first i row hir
      refine ⟨l₁, x, l₂ ++ r.rawRows.map (fun v => (r, v)), by rw [e]; simp, by rw [hic]; exact hx, fun y hy => ?_⟩
      rw [hic]
      exact hb y hy
    · obtain ⟨before, v, after, e, hx, hb⟩ := h3 i row hmore
      refine ⟨l ++ before.map (fun v => (r, v)), (r, v), after.map (fun v => (r, v)), by rw [e]; simp, by rw [hic]; exact hx, fun y hy hs hi => ?_⟩
      rw [hic] at hs hi
      rcases List.mem_append.mp hy with hy | hy
      · have hk := h.stored y hy hs i hi
        have hn := h1.nodup
        rw [h2, Option.getD_some, Dict.keys_append] at hn
        exact (List.nodup_append.mp hn).2.2 _ hk _ (List.mem_map.mpr ⟨_, hmore, rfl⟩) rfl
      · obtain ⟨w, hw, rfl⟩ := List.mem_map.mp hy
        exact hb w hw hs hi
  · rw [hic] at hs hi
    rcases List.mem_append.mp hy with hy | hy
    · rw [h2, Option.getD_some, Dict.keys_append]
      exact List.mem_append_left _ (h.stored y hy hs i hi)
    · obtain ⟨w, hw, rfl⟩ := List.mem_map.mp hy
      exact h4 (idText_mem hi) w hw hs i hi

namespace FileDatabase

theorem addInserts_other {n m : Str} (hm : m ≠ n) : ∀ (rs : List Rows) (ts ts' : Dict Table), addInserts n ts rs = .ok ts' → ts'.get? m = ts.get? m
  | [], ts, ts', ha => by cases ha; rfl
  | r :: rs, ts, ts', ha => by
    unfold addInserts at ha
    split at ha
    · cases ha
    · split at ha
      · cases ha
      · rw [addInserts_other hm rs _ ts' ha, Dict.get?_set, if_neg (fun e => hm e.symm)]

theorem addInserts_first {n : Str} : ∀ (rs : List Rows) (ts ts' : Dict Table) (l : List (Rows × List PyVal)), (∀ t, ts.get? n = some t → FirstOf l t) →
    addInserts n ts rs = .ok ts' → ∀ t, ts'.get? n = some t → FirstOf (l ++ rs.flatMap (fun r => r.rawRows.map (fun v => (r, v)))) t
  | [], ts, ts', l, h, ha => by cases ha; exact fun t ht => by simpa using h t ht
  | r :: rs, ts, ts', l, h, ha => by
    unfold addInserts at ha
    split at ha
    · cases ha
    · rename_i t ht
      split at ha
      · cases ha
      · rename_i t1 h1
        have h2 := addInserts_first rs _ ts' (l ++ r.rawRows.map (fun v => (r, v))) (by
          intro u hu
          rw [Dict.get?_set, if_pos rfl] at hu
          cases hu
          exact addRows_first (h t ht) h1) ha
        exact fun u hu => by simpa using h2 u hu

theorem combine_first : ∀ (l : List (Str × List Rows)) (d d' : Database), (l.map Prod.fst).Nodup → combine d l = .ok d' →
    (∀ n rs, (n, rs) ∈ l → (∀ t, d.tables.get? n = some t → FirstOf [] t) →
      ∀ t, d'.tables.get? n = some t → FirstOf (rs.flatMap (fun r => r.rawRows.map (fun v => (r, v)))) t) ∧
    ∀ n, n ∉ l.map Prod.fst → d'.tables.get? n = d.tables.get? n
  | [], d, d', _, hc => by cases hc; exact ⟨fun _ _ h => (by cases h), fun _ _ => rfl⟩
  | (m, rs) :: l, d, d', hn, hc => by
    unfold combine at hc
    simp only at hc
    split at hc
    · cases hc
    · rename_i ts hts
      have ht : ∀ (b : Bool) (x : List Str), (if b = true then d else { d with globalErrors := x }).tables = d.tables := by intro b x; cases b <;> rfl
      rw [ht] at hts
      simp only [List.map_cons, List.nodup_cons] at hn
      obtain ⟨h1, h2⟩ := combine_first l _ d' hn.2 hc
      refine ⟨fun n rs' hmem hf t htn => ?_, fun n hnl => ?_⟩
      · rcases List.mem_cons.mp hmem with e | hmem
        · cases e
          rw [h2 m hn.1] at htn
          simpa using addInserts_first rs _ ts [] hf hts t htn
        · have hne : n ≠ m := fun e => hn.1 (e ▸ List.mem_map.mpr ⟨_, hmem, rfl⟩)
          refine h1 n rs' hmem (fun u hu => hf u ?_) t htn
          exact (addInserts_other hne rs _ ts hts) ▸ hu
      · simp only [List.map_cons, List.mem_cons, not_or] at hnl
        rw [h2 n hnl.2]
        exact addInserts_other hnl.1 rs _ ts hts

end FileDatabase

/-- **C72** and **C73**: rows which have the same id.  The row which is declared under an id is the first one which the files insert, in
the order in which they are read; the others are left out (`C23`), and this is not reported (`C32_refuted`). -/
theorem C72_first_partial {sources : List Str} {d : Database} (h : FileDatabase.new sources = .ok d) (hq : ∀ f ∈ sources, (readSource f).2 = none)
    (hn : (sources.flatMap (fun f => (readSource f).1.tables.keys)).Nodup) {n : Str} {t : Table} (ht : d.tables.get? n = some t)
    {before after : List (Rows × List PyVal)} {r : Rows} {values : List PyVal} (hl : insertedInto n sources = before ++ (r, values) :: after)
    (hs : Storable (insertColumns t r) (r.numExplicit ≠ 0) values) {i : Str} (hi : idText (insertColumns t r) values = some i)
    (hfirst : ∀ y ∈ before, idText (insertColumns t y.1) y.2 ≠ some i) :
    ∃ row, (t.rows.getD []).get? i = some row ∧ Holds (insertColumns t r) values i row := by
  have hf : FirstOf (insertedInto n sources) t := by
    have h1 := readAll_filed sources {} hq (by simpa using hn)
    have hplain := (FileDatabase.readAll_rowsOf (all := sources) sources {} _ (fun _ h => h) ⟨fun _ _ h => (by cases h), fun _ h => (by cases h)⟩ h1).1
    unfold FileDatabase.new at h
    simp only [h1] at h
    have hrows : Dict.get? (filed [] (sources.flatMap insertsIn)) n = some ((sources.flatMap insertsIn).filter (fun r => r.table = n)) := by
      rw [filed_get, if_neg]
      · simp [Dict.get?]
      · intro e
        unfold insertedInto at hl
        rw [e] at hl
        simp at hl
    have hkeys : ((filed [] (sources.flatMap insertsIn)).map Prod.fst).Nodup := filed_nodup _ _ List.nodup_nil
    refine (FileDatabase.combine_first _ _ d hkeys h).1 n _ (Dict.mem_of_get? hrows) (fun u hu => ?_) t ht
    have h0 : u.rows = none := hplain n u (Dict.mem_of_get? hu)
    exact ⟨(by rw [h0]; exact rowsKeyed_nil), (by rw [h0]; intro _ _ h; cases h), (by intro _ h; cases h)⟩
  have hk := hf.stored (r, values) (by rw [hl]; simp) hs i hi
  obtain ⟨row, hrow⟩ := Dict.exists_get? hk
  refine ⟨row, hrow, ?_⟩
  obtain ⟨l₁, x, l₂, e, hx, hb⟩ := hf.first i row (Dict.mem_of_get? hrow)
  rw [hl] at e
  rcases List.append_eq_append_iff.mp e with ⟨m, rfl, e2⟩ | ⟨m, rfl, e2⟩
  · cases m with
    | nil =>
      simp only [List.nil_append, List.cons.injEq] at e2
      rw [← e2.1] at hx
      exact hx
    | cons y m =>
      simp only [List.cons_append, List.cons.injEq] at e2
      exact absurd hi (hb (r, values) (by rw [e2.1]; simp) hs)
  · cases m with
    | nil =>
      simp only [List.nil_append, List.cons.injEq] at e2
      rw [e2.1] at hx
      exact hx
    | cons y m =>
      simp only [List.cons_append, List.cons.injEq] at e2
      exact absurd hx.1 (hfirst x (by rw [e2.1]; simp))

/-- **C73 fails** for every row which is inserted twice: whatever the files are, if in two orders of them the first rows with an id differ in a
column, then the declared rows differ. -/
theorem C73_rows_refuted {sources sources' : List Str} {d d' : Database} (h : FileDatabase.new sources = .ok d) (h' : FileDatabase.new sources' = .ok d')
    (hq : ∀ f ∈ sources, (readSource f).2 = none) (hn : (sources.flatMap (fun f => (readSource f).1.tables.keys)).Nodup)
    (hq' : ∀ f ∈ sources', (readSource f).2 = none) (hn' : (sources'.flatMap (fun f => (readSource f).1.tables.keys)).Nodup)
    {n : Str} {t t' : Table} (ht : d.tables.get? n = some t) (ht' : d'.tables.get? n = some t')
    {before after before' after' : List (Rows × List PyVal)} {r r' : Rows} {v v' : List PyVal}
    (hl : insertedInto n sources = before ++ (r, v) :: after) (hl' : insertedInto n sources' = before' ++ (r', v') :: after')
    (hs : Storable (insertColumns t r) (r.numExplicit ≠ 0) v) (hs' : Storable (insertColumns t' r') (r'.numExplicit ≠ 0) v') {i : Str}
    (hi : idText (insertColumns t r) v = some i) (hi' : idText (insertColumns t' r') v' = some i)
    (hfirst : ∀ y ∈ before, idText (insertColumns t y.1) y.2 ≠ some i) (hfirst' : ∀ y ∈ before', idText (insertColumns t' y.1) y.2 ≠ some i)
    {c : Str} {x x' : PyVal} (hc : c ≠ py"id") (hd : (insertColumns t r).Nodup) (hd' : (insertColumns t' r').Nodup)
    (hx : (c, x) ∈ (insertColumns t r).zip v) (hx' : (c, x') ∈ (insertColumns t' r').zip v') (hne : x ≠ x') :
    (t.rows.getD []).get? i ≠ (t'.rows.getD []).get? i := by
  obtain ⟨row, h1, h2⟩ := C72_first_partial h hq hn ht hl hs hi hfirst
  obtain ⟨row', h1', h2'⟩ := C72_first_partial h' hq' hn' ht' hl' hs' hi' hfirst'
  rw [h1, h1']
  intro e
  cases e
  have a := h2.2.2 hd c x hx hc
  have b := h2'.2.2 hd' c x' hx' hc
  rw [a] at b
  exact hne (Option.some.inj b)

/-- **C73 fails** for every two files which declare the same table in different ways: whatever other files there are, if the two change
places, the table changes. -/
theorem C73_twice_refuted (pre mid post : List Str) (f g n : Str) (t u : Table) (ht : (readSource f).1.tables.get? n = some t)
    (hu : (readSource g).1.tables.get? n = some u) (hne : t.columns ≠ u.columns ∨ t.indexes ≠ u.indexes ∨ t.constraints ≠ u.constraints)
    (hpost : ∀ x ∈ post, n ∉ (readSource x).1.tables.keys) (d d' : Database) (hd : FileDatabase.new (pre ++ f :: mid ++ g :: post) = .ok d)
    (hd' : FileDatabase.new (pre ++ g :: mid ++ f :: post) = .ok d') : d.tables.get? n ≠ d'.tables.get? n := by
  obtain ⟨a, h1, h2, h3, h4, _⟩ := C31_last_refuted _ post g n u hu hpost d hd
  obtain ⟨b, k1, k2, k3, k4, _⟩ := C31_last_refuted _ post f n t ht hpost d' hd'
  intro h
  rw [h1, k1] at h
  cases h
  rcases hne with h | h | h
  · exact h (k2.symm.trans h2)
  · exact h (k3.symm.trans h3)
  · exact h (k4.symm.trans h4)

end

/-! ## Examples -/

section Examples
attribute [local instance] exactNum

/-- three files: a table with rows, one which refers to it, and more rows of the first -/
def orderSources : List Str :=
  [py"CREATE TABLE levels (id INT(10) NOT NULL, name VARCHAR(50), PRIMARY KEY (id)); INSERT INTO levels (id, name) VALUES (1, 'low');",
   py"CREATE TABLE posts (id INT(10) NOT NULL, level_id INT(10), PRIMARY KEY (id), KEY level_id (level_id), CONSTRAINT p_fk FOREIGN KEY (level_id) REFERENCES levels (id));",
   py"INSERT INTO levels (id, name) VALUES (2, 'top');"]

/-- the hypotheses of `C73_partial` hold for them, in one order and another; the rows come in different orders -/
example : FileDatabase.new orderSources = .ok ((FileDatabase.new orderSources).toOption.getD {}) ∧
    (∀ f ∈ orderSources, (readSource f).2 = none) ∧ (orderSources.flatMap (fun f => (readSource f).1.tables.keys)).Nodup ∧
    orderSources.Perm orderSources.reverse ∧
    ((FileDatabase.new orderSources).toOption.getD {}).errors.1 = .ok [] ∧
    ((FileDatabase.new orderSources).toOption.getD {}).tables.map (fun e => (e.1, (e.2.rows.getD []).keys)) = [(py"levels", [py"1", py"2"]), (py"posts", [])] ∧
    ((FileDatabase.new orderSources.reverse).toOption.getD {}).tables.map (fun e => (e.1, (e.2.rows.getD []).keys)) = [(py"posts", []), (py"levels", [py"2", py"1"])] := by
  refine ⟨by decide +kernel, by decide +kernel, by decide +kernel, (List.reverse_perm _).symm, by decide +kernel, by decide +kernel, by decide +kernel⟩

theorem inserts_mem {s : Str} {r : Rows} (hq : (readSource s).2 = none) (h : Inserts s r) : r ∈ insertsIn s := by
  obtain ⟨data, rest, hd, hc, h6, hp⟩ := h
  have hst : readSource s = ((readSource s).1, none) := by rw [← hq]
  obtain ⟨r', rest', hp', hr'⟩ := ((loop_reaches hd 10000 {} _ hst).2 hc).2.1 h6
  rw [hp] at hp'
  cases hp'
  exact hr'

theorem oneRow_of_check {sources : List Str} (hq : ∀ f ∈ sources, (readSource f).2 = none) {n : Str} {t : Table} {i : Str}
    (h : ∀ r ∈ sources.flatMap insertsIn, ∀ r' ∈ sources.flatMap insertsIn, ∀ v ∈ r.rawRows, ∀ v' ∈ r'.rawRows, idText (insertColumns t r) v = some i →
      idText (insertColumns t r') v' = some i → insertColumns t r = insertColumns t r' ∧ v = v') : OneRow sources n t i :=
  fun s hs s' hs' r r' hr hr' _ _ => h r (List.mem_flatMap.mpr ⟨s, hs, inserts_mem (hq s hs) hr⟩) r' (List.mem_flatMap.mpr ⟨s', hs', inserts_mem (hq s' hs') hr'⟩)

/-- and so does the last one, for the row `2` -/
example : ∃ t, ((FileDatabase.new orderSources).toOption.getD {}).tables.get? py"levels" = some t ∧ OneRow orderSources py"levels" t py"2" ∧
    (t.rows.getD []).get? py"2" = some [(py"id", .str py"2"), (py"name", .str py"top")] := by
  refine ⟨(((FileDatabase.new orderSources).toOption.getD {}).tables.get? py"levels").getD {}, by decide +kernel, ?_, by decide +kernel⟩
  exact oneRow_of_check (by decide +kernel) (by decide +kernel)

/-- two files which declare the same table -/
def twiceSources : List Str := [py"CREATE TABLE t (id INT(10) NOT NULL, PRIMARY KEY (id));", py"CREATE TABLE t (id INT(10) NOT NULL, name VARCHAR(50), PRIMARY KEY (id));"]

/-- the hypotheses of `C73_twice_refuted` hold for them -/
example : ∀ d d', FileDatabase.new twiceSources = .ok d → FileDatabase.new twiceSources.reverse = .ok d' → d.tables.get? py"t" ≠ d'.tables.get? py"t" := by
  intro d d' hd hd'
  exact C73_twice_refuted [] [] [] _ _ py"t"
    (((readSource (twiceSources.headD [])).1.tables.get? py"t").getD { name := [] }) (((readSource (twiceSources.getLastD [])).1.tables.get? py"t").getD { name := [] })
    (by decide +kernel) (by decide +kernel) (.inl (by decide +kernel)) (by simp) d d' hd hd'

/-- two files which insert different rows under one id -/
def rivalSources : List Str :=
  [py"CREATE TABLE t (id INT(10) NOT NULL, name VARCHAR(50), PRIMARY KEY (id)); INSERT INTO t (id, name) VALUES (1, 'low');",
   py"INSERT INTO t (id, name) VALUES (1, 'top');"]

/-- **C73 fails**, without any error being reported, for files which declare the same table (its columns depend on the order) and for files
which insert rows of the same id (the name in the row depends on the order). -/
theorem C73_refuted :
    (∃ d d', FileDatabase.new twiceSources = .ok d ∧ FileDatabase.new twiceSources.reverse = .ok d' ∧ d.errors.1 = .ok [] ∧ d'.errors.1 = .ok [] ∧
      (d.tables.get? py"t").map (·.columns.keys) = some [py"id", py"name"] ∧ (d'.tables.get? py"t").map (·.columns.keys) = some [py"id"]) ∧
    (∃ d d', FileDatabase.new rivalSources = .ok d ∧ FileDatabase.new rivalSources.reverse = .ok d' ∧ d.errors.1 = .ok [] ∧ d'.errors.1 = .ok [] ∧
      (d.tables.get? py"t").map (fun t => (t.rows.getD []).map (fun e => (e.1, e.2.get? py"name"))) = some [(py"1", some (.str py"low"))] ∧
      (d'.tables.get? py"t").map (fun t => (t.rows.getD []).map (fun e => (e.1, e.2.get? py"name"))) = some [(py"1", some (.str py"top"))]) := by
  refine ⟨⟨(FileDatabase.new twiceSources).toOption.getD {}, (FileDatabase.new twiceSources.reverse).toOption.getD {}, ?_, ?_, ?_, ?_, ?_, ?_⟩,
    ⟨(FileDatabase.new rivalSources).toOption.getD {}, (FileDatabase.new rivalSources.reverse).toOption.getD {}, ?_, ?_, ?_, ?_, ?_, ?_⟩⟩ <;> decide +kernel

/-- for `C72_first_partial` and `C73_rows_refuted`: the hypotheses hold for these two files -/
example : ∃ (d d' : Database) (t t' : Table) (r r' : Rows) (v v' : List PyVal) (after after' : List (Rows × List PyVal)),
    FileDatabase.new rivalSources = .ok d ∧ FileDatabase.new rivalSources.reverse = .ok d' ∧ (∀ f ∈ rivalSources, (readSource f).2 = none) ∧
    d.tables.get? py"t" = some t ∧ d'.tables.get? py"t" = some t' ∧ insertedInto py"t" rivalSources = [] ++ (r, v) :: after ∧
    insertedInto py"t" rivalSources.reverse = [] ++ (r', v') :: after' ∧ idText (insertColumns t r) v = some py"1" ∧ idText (insertColumns t' r') v' = some py"1" ∧
    (py"name", .str py"low") ∈ (insertColumns t r).zip v ∧ (py"name", .str py"top") ∈ (insertColumns t' r').zip v' := by
  refine ⟨(FileDatabase.new rivalSources).toOption.getD {}, (FileDatabase.new rivalSources.reverse).toOption.getD {},
    (((FileDatabase.new rivalSources).toOption.getD {}).tables.get? py"t").getD {}, (((FileDatabase.new rivalSources.reverse).toOption.getD {}).tables.get? py"t").getD {},
    ((insertedInto py"t" rivalSources).map Prod.fst).headD { table := [], columns := [], rawRows := [], numExplicit := 0 }, ((insertedInto py"t" rivalSources.reverse).map Prod.fst).headD { table := [], columns := [], rawRows := [], numExplicit := 0 },
    ((insertedInto py"t" rivalSources).map Prod.snd).headD [], ((insertedInto py"t" rivalSources.reverse).map Prod.snd).headD [],
    (insertedInto py"t" rivalSources).tail, (insertedInto py"t" rivalSources.reverse).tail, ?_, ?_, ?_, ?_, ?_, ?_, ?_, ?_, ?_, ?_, ?_⟩ <;> decide +kernel

end Examples

end Mygrations

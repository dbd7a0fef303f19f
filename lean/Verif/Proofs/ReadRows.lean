import Verif.Proofs.ReadFiles

/-! # Databases with rows are read as they are meant -/

namespace Mygrations

/-! ## Rows -/

theorem dict_set_self {V : Type} : ∀ {d : Dict V} {k : Str} {v : V}, Dict.get? d k = some v → Dict.set d k v = d
  | [], k, v, h => by cases h
  | (k', v') :: d, k, v, h => by
    rw [Dict.get?_cons] at h
    by_cases hk : k' = k
    · subst hk
      simp at h
      subst h
      simp [Dict.set]
    · simp only [hk, if_false] at h
      have := dict_set_self h
      simp [Dict.set, hk, this]

theorem fold_zip : ∀ (l : List (Str × PyVal)) (d : Dict PyVal), (Dict.keys d ++ l.map (·.1)).Nodup → l.foldl (fun d e => Dict.set d e.1 e.2) d = d ++ l
  | [], d, _ => by simp
  | e :: l, d, h => by
    have hnot : e.1 ∉ Dict.keys d := by
      intro hm
      rw [List.nodup_append] at h
      exact h.2.2 _ hm e.1 (by simp) rfl
    rw [List.foldl_cons, Dict.set_of_not_mem _ hnot, fold_zip l _ (by simpa [Dict.keys] using h)]
    simp

theorem zip_keys : ∀ {cs : List Str} {vs : List PyVal}, vs.length = cs.length → (cs.zip vs).map (·.1) = cs
  | [], [], _ => rfl
  | c :: cs, v :: vs, h => by simp at h; simp [zip_keys h]
  | [], _ :: _, h => by simp at h
  | _ :: _, [], h => by simp at h

theorem zipDict_zip {cs : List Str} {vs : List PyVal} (h : vs.length = cs.length) (hn : cs.Nodup) : Table.zipDict cs vs = cs.zip vs := by
  unfold Table.zipDict
  have := fold_zip (cs.zip vs) [] (by rw [zip_keys h]; simpa using hn)
  simpa using this

theorem idIndex_lookup : ∀ {cs : List Str} {i : Nat} {r : List Cell}, Table.idIndex cs = some i → r.length = cs.length → (cs.zip r).lookup py"id" = r[i]?
  | [], i, r, h, _ => by simp [Table.idIndex] at h
  | c :: cs, i, [], _, hl => by simp at hl
  | c :: cs, i, x :: r, h, hl => by
    simp only [Table.idIndex] at h
    by_cases hc : c = py"id"
    · rw [if_pos hc] at h
      cases h
      subst hc
      simp
    · rw [if_neg hc] at h
      simp only [Option.map_eq_some_iff] at h
      obtain ⟨j, hj, rfl⟩ := h
      have := idIndex_lookup (r := r) hj (by simpa using hl)
      have hc' : (py"id" == c) = false := by simpa using fun e => hc e.symm
      rw [List.zip_cons_cons, List.lookup_cons, hc']
      simpa using this

theorem idIndex_some {cs : List Str} {r : List Cell} (h : ((cs.zip r).lookup py"id").isSome = true) : ∃ i, Table.idIndex cs = some i := by
  induction cs generalizing r with
  | nil => simp at h
  | cons c cs ih =>
    cases r with
    | nil => simp at h
    | cons x r =>
      by_cases hc : c = py"id"
      · exact ⟨0, by simp [Table.idIndex, hc]⟩
      · have hc' : (py"id" == c) = false := by simpa using fun e => hc e.symm
        rw [List.zip_cons_cons, List.lookup_cons, hc'] at h
        obtain ⟨i, hi⟩ := ih h
        exact ⟨i + 1, by simp [Table.idIndex, hc, hi]⟩

theorem zip_get {cs : List Str} {r : List Cell} : ∀ (k : Str), Dict.get? (cs.zip (r.map Cell.value)) k = ((cs.zip r).lookup k).map Cell.value := by
  induction cs generalizing r with
  | nil => intro k; rfl
  | cons c cs ih =>
    intro k
    cases r with
    | nil => rfl
    | cons x r =>
      rw [List.map_cons, List.zip_cons_cons, List.zip_cons_cons, Dict.get?_cons, List.lookup_cons, ih]
      by_cases hc : c = k
      · subst hc; simp
      · have hc' : (k == c) = false := by simpa using fun e => hc e.symm
        simp [hc, hc']

/-- the entry of a declared row -/
def InsertStmt.entry (i : InsertStmt) (r : List Cell) : Str × Row := (i.idOf r, i.columns.zip (r.map Cell.value))

theorem addRowValues_good {i : InsertStmt} {r : List Cell} (hlen : r.length = i.columns.length) (hn : i.columns.Nodup) (hid : i.idOf r ≠ []) {k : Nat}
    (hk : Table.idIndex i.columns = some k) {t : Table} {rows : Dict Row} (hr : t.rows = some rows) (hnot : i.idOf r ∉ Dict.keys rows) :
    Table.addRowValues i.columns k true t (r.map Cell.value) = .ok { t with rows := some (rows ++ [i.entry r]) } := by
  have hl := idIndex_lookup hk hlen
  obtain ⟨c, hc⟩ : ∃ c, (i.columns.zip r).lookup py"id" = some c := by
    cases hx : (i.columns.zip r).lookup py"id" with
    | none => exact absurd (by unfold InsertStmt.idOf; rw [hx]; rfl) hid
    | some c => exact ⟨c, rfl⟩
  have hidc : i.idOf r = c.chars := by unfold InsertStmt.idOf; rw [hc]; rfl
  have hval : c.value = .str c.chars := by
    cases c with
    | null => rw [hidc] at hid; exact absurd rfl hid
    | bare w => rfl
    | text x => rfl
  have hget : (r.map Cell.value)[k]? = some (.str (i.idOf r)) := by
    rw [List.getElem?_map, ← hl, hc, Option.map_some, hval, hidc]
  have hset : Dict.set (Table.zipDict i.columns (r.map Cell.value)) py"id" (.str (i.idOf r)) = i.columns.zip (r.map Cell.value) := by
    rw [zipDict_zip (by simpa using hlen) hn]
    apply dict_set_self
    rw [zip_get, hc, Option.map_some, hval, hidc]
  unfold Table.addRowValues
  simp only [Bool.not_true, Bool.false_and, Bool.false_eq_true, if_false, hget]
  have hstr : (PyVal.str (i.idOf r)).toStr = i.idOf r := rfl
  rw [hstr, if_neg hid, hr]
  simp only [Option.getD_some]
  rw [if_neg (by rw [Dict.has_iff]; exact hnot), hset, Dict.set_of_not_mem _ hnot]
  rfl

theorem addRowsLoop_good {i : InsertStmt} (hn : i.columns.Nodup) {k : Nat} (hk : Table.idIndex i.columns = some k) :
    ∀ (rs : List (List Cell)) (t : Table) (rows : Dict Row), (∀ r ∈ rs, r.length = i.columns.length) → (∀ r ∈ rs, i.idOf r ≠ []) → t.rows = some rows →
      (Dict.keys rows ++ rs.map i.idOf).Nodup →
      Table.addRowsLoop i.columns k true t (rs.map (fun r => r.map Cell.value)) = .ok { t with rows := some (rows ++ rs.map i.entry) }
  | [], t, rows, _, _, hr, _ => by
    cases t
    simp only at hr
    simp [Table.addRowsLoop, hr]
  | r :: rs, t, rows, hlen, hid, hr, hnd => by
    have hnot : i.idOf r ∉ Dict.keys rows := by
      intro hm
      rw [List.nodup_append] at hnd
      exact hnd.2.2 _ hm (i.idOf r) (by simp) rfl
    have h1 := addRowValues_good (hlen r List.mem_cons_self) hn (hid r List.mem_cons_self) hk hr hnot
    have h2 := addRowsLoop_good hn hk rs { t with rows := some (rows ++ [i.entry r]) } (rows ++ [i.entry r]) (fun x hx => hlen x (List.mem_cons_of_mem _ hx))
      (fun x hx => hid x (List.mem_cons_of_mem _ hx)) rfl (by simpa [Dict.keys, InsertStmt.entry] using hnd)
    rw [List.map_cons, Table.addRowsLoop, h1]
    simp only [h2]
    simp

theorem addRows_good {i : InsertStmt} (hi : i.Ok) (hn : i.columns.Nodup) (hid : ∀ r ∈ i.rows, i.idOf r ≠ []) (t : Table)
    (hnd : (Dict.keys (t.rows.getD []) ++ i.rows.map i.idOf).Nodup) :
    t.addRows i.meaning = .ok { t with tracking := true, rows := some (t.rows.getD [] ++ i.rows.map i.entry) } := by
  obtain ⟨k, hk⟩ : ∃ k, Table.idIndex i.columns = some k := by
    obtain ⟨r, rs, hr⟩ := List.exists_cons_of_ne_nil hi.rows
    apply idIndex_some (r := r)
    have := hid r (by rw [hr]; exact List.mem_cons_self)
    cases hx : (i.columns.zip r).lookup py"id" with
    | none => exact absurd (by unfold InsertStmt.idOf; rw [hx]; rfl) this
    | some c => rfl
  have hne : i.columns.length ≠ 0 := fun h => hi.columns.1 (List.eq_nil_of_length_eq_zero h)
  unfold Table.addRows InsertStmt.meaning
  simp only [List.append_nil, hne, ne_eq, not_false_eq_true, if_true, hk, decide_true]
  exact addRowsLoop_good hn hk i.rows _ _ (fun r hr => hi.square r hr) hid rfl hnd

/-! ## Rows are collected by table -/

/-- rows are filed by table -/
def filed (d : Dict (List Rows)) (l : List Rows) : Dict (List Rows) := l.foldl (fun acc r => acc.set r.table ((acc.get? r.table).getD [] ++ [r])) d

theorem filed_get (n : Str) : ∀ (l : List Rows) (d : Dict (List Rows)),
    Dict.get? (filed d l) n = if l.filter (fun r => r.table = n) = [] then Dict.get? d n else some ((Dict.get? d n).getD [] ++ l.filter (fun r => r.table = n))
  | [], d => by simp [filed]
  | r :: l, d => by
    have ih := filed_get n l (d.set r.table ((d.get? r.table).getD [] ++ [r]))
    show Dict.get? (filed (d.set r.table ((d.get? r.table).getD [] ++ [r])) l) n = _
    rw [ih]
    simp only [Dict.get?_set]
    by_cases hn : r.table = n
    · subst hn
      by_cases hz : l.filter (fun x => x.table = r.table) = []
      · simp [hz]
      · simp [hz]
    · simp [hn]

theorem filed_nodup : ∀ (l : List Rows) (d : Dict (List Rows)), (Dict.keys d).Nodup → (Dict.keys (filed d l)).Nodup
  | [], _, h => h
  | r :: l, d, h => filed_nodup l _ (Dict.keys_set_nodup _ _ h)

theorem filter_values (n : Str) : ∀ (d : Dict (List Rows)), (Dict.keys d).Nodup → (∀ e ∈ d, ∀ r ∈ e.2, r.table = e.1) →
    (d.values.flatMap id).filter (fun r => r.table = n) = (Dict.get? d n).getD []
  | [], _, _ => rfl
  | (k, rs) :: d, hn, h => by
    have ih := filter_values n d (by simp at hn; exact hn.2) (fun e he => h e (List.mem_cons_of_mem _ he))
    show (rs ++ (Dict.values d).flatMap id).filter _ = _
    rw [List.filter_append, ih, Dict.get?_cons]
    by_cases hk : k = n
    · subst hk
      have h0 : Dict.get? d k = none := Dict.get?_eq_none.mpr (by simp at hn; exact hn.1)
      rw [h0, if_pos rfl]
      have : rs.filter (fun r => r.table = k) = rs := by
        rw [List.filter_eq_self]; intro r hr; simpa using h _ List.mem_cons_self r hr
      rw [this]; simp
    · have : rs.filter (fun r => r.table = n) = [] := by
        rw [List.filter_eq_nil_iff]; intro r hr; rw [h _ List.mem_cons_self r hr]; simpa using hk
      rw [this, if_neg hk]; simp

theorem SameTable.withRows {t t' : Table} (h : SameTable t t') {b : Bool} {r : Option (Dict Row)} : SameTable t { t' with tracking := b, rows := r } :=
  ⟨h.name, h.columns, h.indexes, h.constraints, h.options⟩

section
variable [PyNum]

/-- the database after reading some files -/
structure DbReadAs (ss : List Statement) (d : Database) : Prop where
  shape : d = { tables := d.tables, rows := d.rows }
  tables : Paired (fun (t : Table) e => e.1 = t.name ∧ SameTable t e.2 ∧ e.2.JustRead) (tablesOf ss) d.tables
  rowKeys : d.rows.keys.Nodup
  rows : ∀ n, d.rows.get? n = if insertsFor n ss = [] then none else some ((insertsFor n ss).map InsertStmt.meaning)

omit [PyNum] in
theorem tablesOf_append (a b : List Statement) : tablesOf (a ++ b) = tablesOf a ++ tablesOf b := by simp [tablesOf]
omit [PyNum] in
theorem insertsFor_append (n : Str) (a b : List Statement) : insertsFor n (a ++ b) = insertsFor n a ++ insertsFor n b := by simp [insertsFor, insertsOf]

theorem file_store {s : Str} {ss pre : List Statement} {d : Database} (h : SourceFile s ss) (hr : Readable ss) (hd : DbReadAs pre d)
    (hnd : ((tablesOf (pre ++ ss)).map (·.name)).Nodup) : ∃ d', FileDatabase.read d s = .ok d' ∧ DbReadAs (pre ++ ss) d' := by
  obtain ⟨st, hst, hra⟩ := file_read h hr
  rw [tablesOf_append, List.map_append] at hnd
  have hp := hra.order (List.nodup_append.mp hnd).2.1
  have hk := hp.keys
  have hstore := store_new st.tables d hk.2 (by rw [hd.tables.keys.1, hk.1]; exact hnd)
  have hread : FileDatabase.read d s = .ok { d with tables := d.tables ++ st.tables, rows := filed d.rows (st.rows.values.flatMap id) } := by
    unfold FileDatabase.read
    rw [hst]
    simp only [Option.filter_none, hstore, hra.errors, List.append_nil]
    rfl
  refine ⟨_, hread, ?_, ?_, ?_, ?_⟩
  · have := hd.shape
    rw [this]
  · rw [tablesOf_append]
    exact hd.tables.append hp
  · exact filed_nodup _ _ hd.rowKeys
  · intro n
    show Dict.get? (filed d.rows (st.rows.values.flatMap id)) n = _
    rw [filed_get, filter_values n _ hra.rowKeys (by
      intro e he r hrr
      have := Dict.get?_of_mem hra.rowKeys (k := e.1) (v := e.2) he
      rw [hra.rows] at this
      split at this
      · cases this
      · have h9 := (Option.some.inj this).symm
        rw [h9] at hrr
        obtain ⟨i, hi, rfl⟩ := List.mem_map.mp hrr
        have := (List.mem_filter.mp hi).2
        show i.table = e.1
        simpa using this), hra.rows, hd.rows, insertsFor_append]
    by_cases h1 : insertsFor n ss = [] <;> by_cases h2 : insertsFor n pre = [] <;> simp [h1, h2]

theorem files_store : ∀ (files : List Str) (sss : List (List Statement)) (pre : List Statement) (d : Database), Paired SourceFile files sss →
    (∀ ss ∈ sss, Readable ss) → DbReadAs pre d → ((tablesOf (pre ++ sss.flatten)).map (·.name)).Nodup →
    ∃ d', FileDatabase.readAll d files = .ok d' ∧ DbReadAs (pre ++ sss.flatten) d'
  | [], _, pre, d, .nil, _, hd, _ => ⟨d, rfl, by simpa using hd⟩
  | f :: fs, _, pre, d, .cons (b := ss) (bs := sss) hf hfs, hr, hd, hnd => by
    rw [List.flatten_cons, ← List.append_assoc] at hnd ⊢
    have hnd1 : ((tablesOf (pre ++ ss)).map (·.name)).Nodup := by
      rw [tablesOf_append, List.map_append] at hnd
      exact (List.nodup_append.mp hnd).1
    obtain ⟨d1, h1, h2⟩ := file_store hf (hr ss List.mem_cons_self) hd hnd1
    obtain ⟨d2, h3, h4⟩ := files_store fs sss (pre ++ ss) d1 hfs (fun x hx => hr x (List.mem_cons_of_mem _ hx)) h2 hnd
    exact ⟨d2, by simp only [FileDatabase.readAll, h1, h3], h4⟩

/-! ## Rows are added to their tables -/

omit [PyNum] in
theorem paired_set {R R' : Table → Str × Table → Prop} {n : Str} {e' : Table} : ∀ {ts : List Table} {d : Dict Table}, Paired R ts d → (ts.map (·.name)).Nodup →
    (∀ t e, R t e → e.1 = t.name) → (∀ t ∈ ts, ∀ e, R t e → t.name ≠ n → R' t e) → (∀ t ∈ ts, ∀ e, R t (n, e) → Dict.get? d n = some e → t.name = n → R' t (n, e')) →
    n ∈ ts.map (·.name) → Paired R' ts (Dict.set d n e')
  | _, _, .nil, _, _, _, _, hm => by cases hm
  | _, _, .cons (a := t) (b := (k, e)) (as := ts) (bs := d) hx hp, hnd, hk, h1, h2, hm => by
    have hkt : k = t.name := hk t (k, e) hx
    rw [List.map_cons, List.nodup_cons] at hnd
    have rest : ∀ {ts : List Table} {d : Dict Table}, Paired R ts d → (∀ t ∈ ts, ∀ e, R t e → R' t e) → Paired R' ts d := by
      intro ts d h
      induction h with
      | nil => intro _; exact .nil
      | cons ha _ ih => intro h; exact .cons (h _ List.mem_cons_self _ ha) (ih (fun x hx => h x (List.mem_cons_of_mem _ hx)))
    by_cases hn : k = n
    · subst hn
      rw [show Dict.set ((k, e) :: d) k e' = (k, e') :: d by simp [Dict.set]]
      refine .cons (h2 t List.mem_cons_self e hx (by simp [Dict.get?_cons]) hkt.symm) (rest hp ?_)
      intro u hu e0 he0
      refine h1 u (List.mem_cons_of_mem _ hu) e0 he0 ?_
      intro hun
      apply hnd.1
      rw [← hkt, ← hun]
      exact List.mem_map_of_mem hu
    · rw [show Dict.set ((k, e) :: d) n e' = (k, e) :: Dict.set d n e' by simp [Dict.set, hn]]
      refine .cons (h1 t List.mem_cons_self _ hx (by rw [← hkt]; exact hn)) (paired_set hp hnd.2 hk (fun u hu => h1 u (List.mem_cons_of_mem _ hu)) ?_ ?_)
      · intro u hu e0 he0 hg
        exact h2 u (List.mem_cons_of_mem _ hu) e0 he0 (by rw [Dict.get?_cons, if_neg hn]; exact hg)
      · rcases List.mem_cons.mp hm with h | h
        · exact absurd (hkt.trans h.symm) hn
        · exact h

omit [PyNum] in
theorem addInserts_good {n : Str} : ∀ (is : List InsertStmt) (ts : Dict Table) (t : Table), (∀ i ∈ is, i.Ok ∧ i.columns.Nodup ∧ ∀ r ∈ i.rows, i.idOf r ≠ []) →
    Dict.get? ts n = some t → is ≠ [] →
    (Dict.keys (t.rows.getD []) ++ is.flatMap (fun i => i.rows.map i.idOf)).Nodup →
    FileDatabase.addInserts n ts (is.map InsertStmt.meaning) =
      .ok (ts.set n { t with tracking := true, rows := some (t.rows.getD [] ++ is.flatMap (fun i => i.rows.map i.entry)) })
  | [], _, _, _, _, hne, _ => absurd rfl hne
  | i :: is, ts, t, h, hg, _, hnd => by
    obtain ⟨h1, h2, h3⟩ := h i List.mem_cons_self
    rw [List.flatMap_cons, ← List.append_assoc] at hnd
    have hadd := addRows_good h1 h2 h3 t (List.nodup_append.mp hnd).1
    rw [List.map_cons, FileDatabase.addInserts, hg]
    simp only [hadd]
    by_cases hz : is = []
    · subst hz
      simp [FileDatabase.addInserts]
    · rw [addInserts_good is _ { t with tracking := true, rows := some (t.rows.getD [] ++ i.rows.map i.entry) } (fun x hx => h x (List.mem_cons_of_mem _ hx))
        (by simp [Dict.get?_set]) hz (by
          have : Dict.keys (t.rows.getD [] ++ i.rows.map i.entry) = Dict.keys (t.rows.getD []) ++ i.rows.map i.idOf := by
            rw [Dict.keys_append]; congr 1; simp [Dict.keys, InsertStmt.entry, Function.comp_def]
          simpa only [Option.getD_some, this] using hnd)]
      have hset : ∀ (a b : Table), Dict.set (Dict.set ts n a) n b = Dict.set ts n b := by
        intro a b
        clear hadd hg h
        induction ts with
        | nil => simp [Dict.set]
        | cons e ts ih =>
          obtain ⟨k, v⟩ := e
          by_cases hk : k = n
          · simp [Dict.set, hk]
          · simp [Dict.set, hk, ih]
      rw [hset]
      simp

/-- a table as it should be after its rows have been added, if they have -/
structure TableRead (ss : List Statement) (done : Bool) (t : Table) (e : Str × Table) : Prop where
  name : e.1 = t.name
  same : SameTable t e.2
  noErrors : e.2.globalErrors = []
  columns : ∀ c ∈ e.2.columns, c.2.parsingErrors = []
  lengths : ∀ c ∈ e.2.columns, c.2.UsualLength
  rows : e.2.rows = if done then some (declaredRows t.name ss) else none
  tracking : e.2.tracking = done

omit [PyNum] in
theorem declared_entries (n : Str) (ss : List Statement) : declaredRows n ss = (insertsFor n ss).flatMap (fun i => i.rows.map i.entry) := rfl

omit [PyNum] in
theorem combine_good {ss : List Statement} (hok : ∀ s ∈ ss, s.Ok) (hg : GoodRows ss) (hnd : ((tablesOf ss).map (·.name)).Nodup) :
    ∀ (todo : List (Str × List Rows)) (done : List Str) (d : Database), d = { tables := d.tables, rows := d.rows } →
      Paired (fun t e => TableRead ss (done.contains t.name) t e) (tablesOf ss) d.tables →
      (done ++ todo.map (·.1)).Nodup → (∀ e ∈ todo, e.2 = (insertsFor e.1 ss).map InsertStmt.meaning ∧ insertsFor e.1 ss ≠ []) →
      ∃ ts, FileDatabase.combine d todo = .ok { tables := ts, rows := d.rows } ∧ Paired (fun t e => TableRead ss ((done ++ todo.map (·.1)).contains t.name) t e) (tablesOf ss) ts
  | [], done, d, hs, hp, _, _ => ⟨d.tables, by rw [FileDatabase.combine]; exact congrArg _ hs, by simpa using hp⟩
  | (n, rs) :: todo, done, d, hs, hp, hn, hrows => by
    obtain ⟨hrs, hne⟩ := hrows (n, rs) List.mem_cons_self
    simp only at hrs hne
    have hmem : ∀ i ∈ insertsFor n ss, i ∈ insertsOf ss ∧ i.table = n := by
      intro i hi
      have := List.mem_filter.mp hi
      exact ⟨this.1, by simpa using this.2⟩
    have hiok : ∀ i ∈ insertsOf ss, i.Ok := by
      intro i hi
      obtain ⟨s, hs1, hs2⟩ := List.mem_filterMap.mp hi
      cases s with
      | insert j l => cases hs2; exact (hok _ hs1).1
      | create => cases hs2
      | declare => cases hs2
      | comment => cases hs2
    obtain ⟨t, ht, htn⟩ : ∃ t ∈ tablesOf ss, t.name = n := by
      obtain ⟨i, is, hi⟩ := List.exists_cons_of_ne_nil hne
      obtain ⟨h1, h2⟩ := hmem i (by rw [hi]; exact List.mem_cons_self)
      obtain ⟨t, ht, he⟩ := hg.tables i h1
      exact ⟨t, ht, by rw [he, h2]⟩
    have hnotdone : n ∉ done := by
      intro hm
      rw [List.nodup_append] at hn
      exact hn.2.2 _ hm n (by simp) rfl
    obtain ⟨e, hget, hre⟩ : ∃ e, Dict.get? d.tables n = some e ∧ TableRead ss false t (n, e) := by
      have find : ∀ {ts : List Table} {dt : Dict Table}, Paired (fun t e => TableRead ss (done.contains t.name) t e) ts dt → t ∈ ts → (ts.map (·.name)).Nodup →
          ∃ e, Dict.get? dt n = some e ∧ TableRead ss (done.contains t.name) t (n, e) := by
        intro ts dt h
        induction h with
        | nil => intro h; cases h
        | @cons a b as bs hx _ ih =>
          intro hm hnd
          rw [List.map_cons, List.nodup_cons] at hnd
          obtain ⟨k, e⟩ := b
          rcases List.mem_cons.mp hm with rfl | hm
          · have hk : k = n := hx.name.trans htn
            subst hk
            exact ⟨e, by simp [Dict.get?_cons], hx⟩
          · obtain ⟨e', h1, h2⟩ := ih hm hnd.2
            refine ⟨e', ?_, h2⟩
            rw [Dict.get?_cons, if_neg]
            · exact h1
            · intro hk
              apply hnd.1
              have : a.name = t.name := by rw [← hx.name, htn]; exact hk
              rw [this]
              exact List.mem_map_of_mem hm
      obtain ⟨e, h1, h2⟩ := find hp ht hnd
      rw [htn, show done.contains n = false by simpa using hnotdone] at h2
      exact ⟨e, h1, h2⟩
    have herows : e.rows = none := by have := hre.rows; simpa using this
    have hids : (insertsFor n ss).flatMap (fun i => i.rows.map i.idOf) = Dict.keys (declaredRows n ss) := by
      rw [declared_entries]
      simp [Dict.keys, List.map_flatMap, InsertStmt.entry, Function.comp_def]
    have hadd := addInserts_good (n := n) (insertsFor n ss) d.tables e (fun i hi => ⟨hiok i (hmem i hi).1, hg.columns i (hmem i hi).1, hg.ids i (hmem i hi).1⟩)
      hget hne (by rw [herows, hids]; simpa using hg.distinct n)
    rw [FileDatabase.combine, if_pos (Dict.has_of_get? hget)]
    simp only [hrs, hadd]
    have hchk : d.checked = [] := by rw [hs]
    rw [herows, Option.getD_none, List.nil_append, ← declared_entries]
    obtain ⟨ts, h1, h2⟩ := combine_good hok hg hnd todo (done ++ [n])
      { d with tables := d.tables.set n { e with tracking := true, rows := some (declaredRows n ss) }, checked := d.checked.filter (· ≠ n) }
      (by rw [hs]; rfl) (by
        refine paired_set (R := fun t e => TableRead ss (done.contains t.name) t e) hp hnd (fun t e h => h.name) ?_ ?_ ?_
        · intro u _ e0 h0 hun
          have : (done ++ [n]).contains u.name = done.contains u.name := by simp [hun]
          rw [this]
          exact h0
        · intro u _ e0 h0 hg0 hun
          rw [hget] at hg0
          cases hg0
          have : (done ++ [n]).contains u.name = true := by simp [hun]
          rw [this]
          exact ⟨h0.name, h0.same.withRows, h0.noErrors, h0.columns, h0.lengths, by rw [hun]; rfl, rfl⟩
        · rw [← htn]; exact List.mem_map_of_mem ht) (by simpa using hn) (fun e he => hrows e (List.mem_cons_of_mem _ he))
    refine ⟨ts, h1, ?_⟩
    simpa using h2

/-- files are read as they are meant -/
theorem files_new (files : List Str) (sss : List (List Statement)) (hf : Paired SourceFile files sss) (hr : ∀ ss ∈ sss, Readable ss)
    (hnd : ((tablesOf sss.flatten).map (·.name)).Nodup) (hg : GoodRows sss.flatten) :
    ∃ ts rows, FileDatabase.new files = .ok { tables := ts, rows := rows } ∧
      Paired (fun t e => TableRead sss.flatten (!(insertsFor t.name sss.flatten).isEmpty) t e) (tablesOf sss.flatten) ts := by
  obtain ⟨d, h1, h2⟩ := files_store files sss [] {} hf hr ⟨rfl, .nil, List.nodup_nil, fun _ => rfl⟩ (by simpa using hnd)
  rw [List.nil_append] at h2
  have hok : ∀ s ∈ sss.flatten, s.Ok := by
    intro s hs
    obtain ⟨ss, h1, h2⟩ := List.mem_flatten.mp hs
    exact (hr ss h1).ok s h2
  obtain ⟨ts, h3, h4⟩ := combine_good hok hg hnd d.rows [] d h2.shape (by
      have : ∀ {ts : List Table} {dt : Dict Table}, Paired (fun (t : Table) e => e.1 = t.name ∧ SameTable t e.2 ∧ e.2.JustRead) ts dt →
          Paired (fun t e => TableRead sss.flatten (([] : List Str).contains t.name) t e) ts dt := by
        intro ts dt h
        induction h with
        | nil => exact .nil
        | cons hx _ ih => exact .cons ⟨hx.1, hx.2.1, hx.2.2.noErrors, hx.2.2.columns, hx.2.2.lengths, hx.2.2.noRows, hx.2.2.untracked⟩ ih
      exact this h2.tables) (by simpa [Dict.keys] using h2.rowKeys) (by
      intro e he
      have := Dict.get?_of_mem h2.rowKeys (k := e.1) (v := e.2) he
      rw [h2.rows] at this
      split at this
      · cases this
      · rename_i hne
        exact ⟨(Option.some.inj this).symm, hne⟩)
  refine ⟨ts, d.rows, by unfold FileDatabase.new; rw [h1]; exact h3, ?_⟩
  have hb : ∀ n, (([] : List Str) ++ d.rows.map (·.1)).contains n = !(insertsFor n sss.flatten).isEmpty := by
    intro n
    rw [List.nil_append]
    by_cases hz : insertsFor n sss.flatten = []
    · have h0 : Dict.get? d.rows n = none := by rw [h2.rows, if_pos hz]
      have := Dict.get?_eq_none.mp h0
      simp only [hz, List.isEmpty_nil, Bool.not_true]
      simpa [Dict.keys] using this
    · have h0 : Dict.get? d.rows n = some ((insertsFor n sss.flatten).map InsertStmt.meaning) := by rw [h2.rows, if_neg hz]
      have := Dict.mem_keys_of_get? h0
      have h5 : (insertsFor n sss.flatten).isEmpty = false := by simpa using hz
      rw [h5, Bool.not_false]
      simpa [Dict.keys] using this
  simpa only [hb] using h4
end

end Mygrations

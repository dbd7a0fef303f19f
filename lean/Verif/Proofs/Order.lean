import Verif.Proofs.Flawless
import Verif.Props.C72

/-! # Reading the same files in another order -/

namespace Mygrations
open Table

/-! ## What `InsertParser` reads -/

theorem runRules_present {K V : Type} {pk : K → Str → Except PyErr (Option (V × Str))} : ∀ (rs : List (Rule K)) (vals : Dict V) (s : Str) (r : ParseResult V),
    runRules pk rs vals s = .ok r → r.matched = true → (∀ n ∈ Dict.keys vals, n ∈ Dict.keys r.values) ∧ ∀ x ∈ rs, x.optional = false → x.name ∈ Dict.keys r.values
  | [], vals, s, r, h, _ => by
    simp only [runRules, Except.ok.injEq] at h
    subst h
    exact ⟨fun _ h => h, fun _ h => (by cases h)⟩
  | x :: rs, vals, s, r, h, hm => by
    unfold runRules at h
    split at h
    · cases h
    · split at h
      · rename_i ho
        obtain ⟨h1, h2⟩ := runRules_present rs vals s r h hm
        refine ⟨h1, fun y hy hyo => ?_⟩
        rcases List.mem_cons.mp hy with rfl | hy
        · rw [ho] at hyo; cases hyo
        · exact h2 y hy hyo
      · simp only [Except.ok.injEq] at h
        subst h
        cases hm
    · rename_i v s' hv
      split at h
      · simp only [Except.ok.injEq] at h
        subst h
        simp only [List.all_eq_true] at hm
        refine ⟨fun n hn => by rw [Dict.mem_keys_set]; exact .inr hn, fun y hy hyo => ?_⟩
        rcases List.mem_cons.mp hy with rfl | hy
        · simp only [Dict.mem_keys_set]; exact .inl trivial
        · have := hm y hy
          rw [hyo] at this; cases this
      · obtain ⟨h1, h2⟩ := runRules_present rs _ s' r h hm
        refine ⟨fun n hn => h1 n (by rw [Dict.mem_keys_set]; exact .inr hn), fun y hy hyo => ?_⟩
        rcases List.mem_cons.mp hy with rfl | hy
        · exact h1 _ (by rw [Dict.mem_keys_set]; exact .inl rfl)
        · exact h2 y hy hyo

/-- every value is one which a rule of that name has read -/
theorem runRules_from {K V : Type} {pk : K → Str → Except PyErr (Option (V × Str))} {P : Str → V → Prop} : ∀ (rs : List (Rule K)) (vals : Dict V) (s : Str) (r : ParseResult V),
    (∀ x ∈ rs, ∀ s v s', pk x.kind s = .ok (some (v, s')) → P x.name v) → (∀ n v, Dict.get? vals n = some v → P n v) →
    runRules pk rs vals s = .ok r → ∀ n v, Dict.get? r.values n = some v → P n v
  | [], vals, s, r, _, hv, h => by
    simp only [runRules, Except.ok.injEq] at h
    subst h
    exact hv
  | x :: rs, vals, s, r, hk, hv, h => by
    have hk' : ∀ x ∈ rs, ∀ s v s', pk x.kind s = .ok (some (v, s')) → P x.name v := fun y hy => hk y (List.mem_cons_of_mem _ hy)
    unfold runRules at h
    split at h
    · cases h
    · split at h
      · exact runRules_from rs vals s r hk' hv h
      · simp only [Except.ok.injEq] at h
        subst h
        exact hv
    · rename_i v s' hp
      have hset : ∀ n w, Dict.get? (Dict.set vals x.name v) n = some w → P n w := by
        intro n w hw
        rw [Dict.get?_set] at hw
        split at hw
        · rename_i he
          cases hw
          rw [← he]
          exact hk x List.mem_cons_self s v s' hp
        · exact hv n w hw
      split at h
      · simp only [Except.ok.injEq] at h
        subst h
        exact hset
      · exact runRules_from rs _ s' r hk' hset h

/-- `INSERT` statements which are read name their columns, and their rows have as many values -/
theorem parseInsert_named {s : Str} {r : Rows} {rest : Str} (h : parseInsert s = .ok (r, rest)) :
    r.Named ∧ ∀ values ∈ r.rawRows, r.numExplicit ≠ 0 → values.length = r.columns.length := by
  unfold parseInsert at h
  split at h
  · cases h
  · rename_i q hq
    split at h
    · rename_i hm
      simp only [Except.ok.injEq, Prod.mk.injEq] at h
      obtain ⟨rfl, _⟩ := h
      have h1 := (runRules_present _ _ _ _ hq hm).2 _ (List.mem_cons_of_mem _ (List.mem_cons_of_mem _ (List.mem_cons_of_mem _ List.mem_cons_self))) rfl
      obtain ⟨v, hv⟩ := Dict.exists_get? h1
      have h2 := runRules_from (P := fun n v => n = py"columns" → ∃ l, v = .simple (.list l) ∧ l ≠ []) _ _ _ _ (by
        intro x hx s v s' hp hn
        simp only [insertRules, List.mem_cons, List.not_mem_nil, or_false] at hx
        rcases hx with rfl | rfl | rfl | rfl | rfl | rfl | rfl | rfl
        · exact absurd hn (by decide)
        · exact absurd hn (by decide)
        · exact absurd hn (by decide)
        · simp only [Rule.top, delimited, TopKind.parse, Kind.parse, delimParse] at hp
          split at hp
          · cases hp
          · cases hp
          · rename_i w rest' hw
            simp only [Except.ok.injEq, Option.some.injEq, Prod.mk.injEq] at hp
            obtain ⟨rfl, _⟩ := hp
            split at hw
            · cases hw
            · split at hw
              · cases hw
              · rename_i hne
                simp only [Except.ok.injEq, Option.some.injEq, Prod.mk.injEq] at hw
                obtain ⟨rfl, _⟩ := hw
                exact ⟨_, rfl, hne⟩
        · exact absurd hn (by decide)
        · exact absurd hn (by decide)
        · exact absurd hn (by decide)
        · exact absurd hn (by decide)) (fun _ _ h => (by cases h)) hq _ v hv rfl
      obtain ⟨l, rfl, hl⟩ := h2
      have hv' : Dict.get? q.values py"columns" = some (.simple (.list l)) := hv
      refine ⟨fun h0 => ?_, fun values hvs _ => ?_⟩
      · simp only [insertProcess, topList, hv', List.length_eq_zero_iff] at h0
        exact absurd h0 hl
      · simp only [insertProcess, topList, hv', List.mem_map, List.mem_filter] at hvs ⊢
        obtain ⟨g, ⟨_, hg⟩, rfl⟩ := hvs
        have : l.length ≠ 0 := by rw [ne_eq, List.length_eq_zero_iff]; exact hl
        simpa [this] using hg
    · simp only [Except.ok.injEq, Prod.mk.injEq] at h
      obtain ⟨rfl, _⟩ := h
      exact ⟨fun _ => rfl, fun _ h => by cases h⟩

/-! ## What `add_rows` does, exactly -/

/-- the values are stored as this row -/
structure StoredAs (cols : List Str) (explicit : Bool) (values : List PyVal) (id : Str) (row : Row) : Prop where
  storable : Storable cols explicit values
  idOf : idText cols values = some id
  row : row = Dict.set (zipDict cols values) py"id" (.str id)

theorem addRowValues_stored {cols : List Str} {i : Nat} {explicit : Bool} {t t' : Table} {values : List PyVal}
    (hi : idIndex cols = some i) (h : addRowValues cols i explicit t values = .ok t') :
    t'.outline = t.outline ∧ t'.tracking = t.tracking ∧ ∀ k row, (k, row) ∈ t'.rows.getD [] → (k, row) ∈ t.rows.getD [] ∨ StoredAs cols explicit values k row := by
  unfold addRowValues at h
  split at h
  · cases h; exact ⟨rfl, rfl, fun k row h => .inl h⟩
  · rename_i hl
    have hid := idIndex_spec hi values
    split at h
    · cases h
    · rename_i v hv
      rw [hv, Option.map_some] at hid
      simp only at h
      split at h
      · cases h; exact ⟨rfl, rfl, fun k row h => .inl h⟩
      · rename_i he
        split at h
        · cases h; exact ⟨rfl, rfl, fun k row h => .inl h⟩
        · cases h
          refine ⟨rfl, rfl, fun k row hk => ?_⟩
          simp only [Option.getD_some] at hk
          rcases Dict.mem_set hk with ⟨rfl, rfl⟩ | hk
          · refine .inr ⟨⟨fun hx => ?_, _, hid, he⟩, hid, rfl⟩
            simp only [hx, Bool.not_false, Bool.true_and, bne_iff_ne, ne_eq, Decidable.not_not] at hl
            exact hl
          · exact .inl hk

theorem addRowsLoop_stored {cols : List Str} {i : Nat} {explicit : Bool} (hi : idIndex cols = some i) : ∀ (raw : List (List PyVal)) (t t' : Table),
    addRowsLoop cols i explicit t raw = .ok t' →
    t'.outline = t.outline ∧ t'.tracking = t.tracking ∧ ∀ k row, (k, row) ∈ t'.rows.getD [] → (k, row) ∈ t.rows.getD [] ∨ ∃ values ∈ raw, StoredAs cols explicit values k row
  | [], t, t', h => by cases h; exact ⟨rfl, rfl, fun k row h => .inl h⟩
  | v :: raw, t, t', h => by
    unfold addRowsLoop at h
    split at h
    · rename_i t1 h1
      obtain ⟨a1, a2, a3⟩ := addRowValues_stored hi h1
      obtain ⟨b1, b2, b3⟩ := addRowsLoop_stored hi raw t1 t' h
      refine ⟨b1.trans a1, b2.trans a2, fun k row hk => ?_⟩
      rcases b3 k row hk with hk | ⟨w, hw, hs⟩
      · rcases a3 k row hk with hk | hs
        · exact .inl hk
        · exact .inr ⟨v, List.mem_cons_self, hs⟩
      · exact .inr ⟨w, List.mem_cons_of_mem _ hw, hs⟩
    · cases h

theorem addRows_stored {t t' : Table} {x : Rows} (h : t.addRows x = .ok t') :
    t'.outline = t.outline ∧ t'.tracking = true ∧
      ∀ k row, (k, row) ∈ t'.rows.getD [] → (k, row) ∈ t.rows.getD [] ∨ ∃ values ∈ x.rawRows, StoredAs (insertColumns t x) (x.numExplicit ≠ 0) values k row := by
  unfold addRows at h
  simp only at h
  split at h
  · cases h
    refine ⟨rfl, rfl, fun k row hk => .inl ?_⟩
    simpa using hk
  · rename_i i hi
    obtain ⟨h1, h2, h3⟩ := addRowsLoop_stored hi _ _ _ h
    refine ⟨h1, h2, fun k row hk => ?_⟩
    rcases h3 k row hk with hk | hs
    · exact .inl (by simpa using hk)
    · exact .inr hs

/-- what is in the table comes from an `INSERT` of it, exactly -/
structure Exactly (inserts : Dict (List Rows)) (n : Str) (t : Table) : Prop where
  rows : ∀ i row, (i, row) ∈ t.rows.getD [] → ∃ rs x, (n, rs) ∈ inserts ∧ x ∈ rs ∧ ∃ values ∈ x.rawRows, StoredAs (insertColumns t x) (x.numExplicit ≠ 0) values i row
  tracking : t.tracking = true → ∃ rs x, (n, rs) ∈ inserts ∧ x ∈ rs

theorem same_columns_of_outline {t t' : Table} (h : t'.outline = t.outline) : t'.columns = t.columns := by
  have := congrArg Table.columns h
  exact this

theorem addRows_exactly {inserts : Dict (List Rows)} {n : Str} {t t' : Table} {x : Rows} {rs : List Rows} (hm : (n, rs) ∈ inserts) (hx : x ∈ rs)
    (h : Exactly inserts n t) (ha : t.addRows x = .ok t') : Exactly inserts n t' := by
  obtain ⟨h1, _, h3⟩ := addRows_stored ha
  have hc := same_columns_of_outline h1
  refine ⟨fun i row hr => ?_, fun _ => ⟨rs, x, hm, hx⟩⟩
  rcases h3 i row hr with hr | ⟨v, hv, hs⟩
  · obtain ⟨rs', y, h4, h5, v, h6, h7⟩ := h.rows i row hr
    exact ⟨rs', y, h4, h5, v, h6, by rw [insertColumns_eq hc]; exact h7⟩
  · exact ⟨rs, x, hm, hx, v, hv, by rw [insertColumns_eq hc]; exact hs⟩

namespace FileDatabase

theorem addInserts_exactly {inserts : Dict (List Rows)} {n : Str} {all : List Rows} (hm : (n, all) ∈ inserts) : ∀ (rs : List Rows) (ts ts' : Dict Table),
    (∀ x ∈ rs, x ∈ all) → (∀ k t, (k, t) ∈ ts → Exactly inserts k t) → addInserts n ts rs = .ok ts' →
    (∀ k t, (k, t) ∈ ts' → Exactly inserts k t) ∧ ts'.map (fun e => (e.1, e.2.outline)) = ts.map (fun e => (e.1, e.2.outline))
  | [], ts, ts', _, h, ha => by cases ha; exact ⟨h, rfl⟩
  | r :: rs, ts, ts', hr, h, ha => by
    unfold addInserts at ha
    split at ha
    · cases ha
    · rename_i t ht
      split at ha
      · cases ha
      · rename_i t1 h1
        obtain ⟨h2, h3⟩ := addInserts_exactly hm rs _ ts' (fun x hx => hr x (List.mem_cons_of_mem _ hx)) (by
          intro k x hkx
          rcases Dict.mem_set hkx with ⟨rfl, rfl⟩ | hkx
          · exact addRows_exactly hm (hr r List.mem_cons_self) (h _ t (Dict.mem_of_get? ht)) h1
          · exact h k x hkx) ha
        refine ⟨h2, h3.trans ?_⟩
        have hb := (addRows_stored h1).1
        clear h2 h3 ha h1 h
        induction ts with
        | nil => cases ht
        | cons e ts ih =>
          obtain ⟨k, u⟩ := e
          rw [Dict.get?_cons] at ht
          by_cases hk : k = n
          · rw [if_pos hk] at ht
            cases ht
            simp [Dict.set, hk, hb]
          · rw [if_neg hk] at ht
            simp only [Dict.set, hk, if_false, List.map_cons]
            rw [ih ht]

theorem combine_exactly {inserts : Dict (List Rows)} : ∀ (l : List (Str × List Rows)) (d d' : Database), (∀ e ∈ l, e ∈ inserts) → (∀ e ∈ l, e.2 ≠ []) →
    (∀ k t, (k, t) ∈ d.tables → Exactly inserts k t) → combine d l = .ok d' →
    (∀ k t, (k, t) ∈ d'.tables → Exactly inserts k t) ∧ d'.tables.map (fun e => (e.1, e.2.outline)) = d.tables.map (fun e => (e.1, e.2.outline)) ∧
    d'.globalErrors = d.globalErrors ∧ d'.rows = d.rows ∧ (∀ e ∈ l, e.1 ∈ d.tables.keys)
  | [], d, d', _, _, h, hc => by cases hc; exact ⟨h, rfl, rfl, rfl, fun _ h => by cases h⟩
  | (n, rs) :: l, d, d', hl, hne, h, hc => by
    unfold combine at hc
    simp only at hc
    split at hc
    · cases hc
    · rename_i ts hts
      have ht : ∀ (b : Bool) (x : List Str), (if b = true then d else { d with globalErrors := x }).tables = d.tables := by intro b x; cases b <;> rfl
      rw [ht] at hts
      have hin : n ∈ d.tables.keys := by
        cases rs with
        | nil => exact absurd rfl (hne _ List.mem_cons_self)
        | cons r rs =>
          unfold addInserts at hts
          split at hts
          · cases hts
          · rename_i t hg
            exact Dict.mem_keys_of_get? hg
      have hhas : d.tables.has n = true := Dict.has_iff.mpr hin
      rw [hhas] at hc
      simp only [if_true] at hc
      obtain ⟨h1, h2⟩ := addInserts_exactly (hl _ List.mem_cons_self) rs _ ts (fun _ h => h) h hts
      obtain ⟨h4, h5, h6, h7, h8⟩ := combine_exactly l _ d' (fun e he => hl e (List.mem_cons_of_mem _ he)) (fun e he => hne e (List.mem_cons_of_mem _ he)) h1 hc
      have hkeys : ts.keys = d.tables.keys := by
        have := congrArg (List.map Prod.fst) h2
        simpa [Dict.keys, Function.comp_def] using this
      refine ⟨h4, h5.trans h2, h6, h7, fun e he => ?_⟩
      rcases List.mem_cons.mp he with rfl | he
      · exact hin
      · have := h8 e he
        rw [← hkeys]
        exact this

theorem addInserts_ok {n : Str} : ∀ (rs : List Rows) (ts : Dict Table), n ∈ ts.keys →
    (∀ r ∈ rs, ∀ values ∈ r.rawRows, r.numExplicit ≠ 0 → values.length = r.columns.length) → ∃ ts', addInserts n ts rs = .ok ts' ∧ ts'.keys = ts.keys
  | [], ts, _, _ => ⟨ts, rfl, rfl⟩
  | r :: rs, ts, hn, h => by
    obtain ⟨t, ht⟩ := Dict.exists_get? hn
    obtain ⟨t', ht'⟩ := C23_returns t r (h r List.mem_cons_self)
    have hk : (ts.set n t').keys = ts.keys := Dict.keys_set_of_mem _ hn
    obtain ⟨ts', h1, h2⟩ := addInserts_ok rs (ts.set n t') (by rw [hk]; exact hn) (fun x hx => h x (List.mem_cons_of_mem _ hx))
    exact ⟨ts', by unfold addInserts; rw [ht]; simp only [ht', h1], h2.trans hk⟩

theorem combine_ok : ∀ (l : List (Str × List Rows)) (d : Database), (∀ e ∈ l, e.1 ∈ d.tables.keys) →
    (∀ e ∈ l, ∀ r ∈ e.2, ∀ values ∈ r.rawRows, r.numExplicit ≠ 0 → values.length = r.columns.length) → ∃ d', combine d l = .ok d'
  | [], d, _, _ => ⟨d, rfl⟩
  | (n, rs) :: l, d, hn, h => by
    have hin := hn _ List.mem_cons_self
    obtain ⟨ts, h1, h2⟩ := addInserts_ok rs d.tables hin (h _ List.mem_cons_self)
    obtain ⟨d', h3⟩ := combine_ok l { d with tables := ts, checked := d.checked.filter (· ≠ n) } (by
      intro e he
      show e.1 ∈ ts.keys
      rw [h2]
      exact hn e (List.mem_cons_of_mem _ he)) (fun e he => h e (List.mem_cons_of_mem _ he))
    refine ⟨d', ?_⟩
    unfold combine
    rw [show d.tables.has n = true from Dict.has_iff.mpr hin]
    simp only [if_true, h1, h3]

end FileDatabase

/-! ## Reading files which declare different tables -/

/-- the `INSERT`s of a file -/
def insertsIn (s : Str) : List Rows := (readSource s).1.rows.values.flatMap id

theorem readAll_filed [PyNum] : ∀ (files : List Str) (d : Database), (∀ f ∈ files, (readSource f).2 = none) →
    (Dict.keys d.tables ++ files.flatMap (fun f => Dict.keys (readSource f).1.tables)).Nodup →
    FileDatabase.readAll d files = .ok { d with tables := d.tables ++ files.flatMap (fun f => (readSource f).1.tables), rows := filed d.rows (files.flatMap insertsIn)
                                                globalErrors := d.globalErrors ++ files.flatMap (fun f => (readSource f).1.globalErrors) }
  | [], d, _, _ => by simp [FileDatabase.readAll, filed]
  | f :: fs, d, hq, hn => by
    obtain ⟨st, hst⟩ : ∃ st, readSource f = (st, none) := ⟨(readSource f).1, by rw [← hq f List.mem_cons_self]⟩
    have hnames := loop_names 10000 {} f ⟨List.nodup_nil, fun e he => by cases he⟩
    have h1 : (readSource f).1 = st := by rw [hst]
    have hnames' : ∀ e ∈ st.tables, e.2.name = e.1 := by rw [← h1]; exact hnames.2
    rw [List.flatMap_cons, h1, ← List.append_assoc] at hn
    have hstore := store_new st.tables d hnames' (List.nodup_append.mp hn).1
    let d1 : Database := { d with tables := d.tables ++ st.tables, rows := filed d.rows (st.rows.values.flatMap id), globalErrors := d.globalErrors ++ st.globalErrors }
    have hread : FileDatabase.read d f = .ok d1 := by
      unfold FileDatabase.read
      rw [hst]
      simp only [Option.filter_none, hstore]
      rfl
    have h2 := readAll_filed fs d1 (fun x hx => hq x (List.mem_cons_of_mem _ hx)) (by
      show (Dict.keys (d.tables ++ st.tables) ++ _).Nodup
      rw [Dict.keys_append]; exact hn)
    have h3 : insertsIn f = st.rows.values.flatMap id := by unfold insertsIn; rw [h1]
    simp only [FileDatabase.readAll, hread, h2]
    simp only [d1, List.flatMap_cons, h1, h3, List.append_assoc]
    simp only [filed, List.foldl_append]

theorem mem_filed {l : List Rows} {e : Str × List Rows} (he : e ∈ filed [] l) : e.2 ≠ [] ∧ ∀ r ∈ e.2, r.table = e.1 ∧ r ∈ l := by
  obtain ⟨h1, h2⟩ := filed_entries l [] (fun _ h => by cases h) e he
  refine ⟨h1, fun r hr => ⟨h2 r hr, ?_⟩⟩
  rcases filed_from l [] e r he hr with h | ⟨_, h, _⟩
  · exact h
  · cases h

theorem mem_allRows_filed {l : List Rows} {x : Str × Rows} : x ∈ Database.allRows (filed [] l) ↔ x.2 ∈ l ∧ x.1 = x.2.table := by
  constructor
  · intro h
    simp only [Database.allRows, List.mem_flatMap, List.mem_map] at h
    obtain ⟨e, he, r, hr, rfl⟩ := h
    have := (mem_filed he).2 r hr
    exact ⟨this.2, this.1.symm⟩
  · rintro ⟨h1, h2⟩
    obtain ⟨e, he, hr⟩ := filed_mem (x := []) (Or.inl h1) List.nodup_nil
    have := ((mem_filed he).2 x.2 hr).1
    simp only [Database.allRows, List.mem_flatMap, List.mem_map]
    exact ⟨e, he, x.2, hr, by rw [← this, ← h2]⟩

end Mygrations

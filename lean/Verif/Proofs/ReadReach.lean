import Verif.Proofs.ReadRows

/-! # What the reader gets to -/

namespace Mygrations

/-- The reader, given the text `s`, gets to the point where `data` is what is left, without the white space around it. -/
inductive Reaches : Str → Str → Prop
  | here {s : Str} : s ≠ [] → Reaches s (strip s)
  | comment {s d : Str} : startsComment (strip s) = true → Reaches (parseComment (strip s)) d → Reaches s d
  | create {s rest d : Str} {t : Table} : startsComment (strip s) = false → lower ((strip s).take 6) = py"create" →
      parseCreate (strip s) = .ok (t, rest) → Reaches rest d → Reaches s d
  | insert {s rest d : Str} {r : Rows} : startsComment (strip s) = false → lower ((strip s).take 6) = py"insert" →
      parseInsert (strip s) = .ok (r, rest) → Reaches rest d → Reaches s d

/-- what the loop keeps and adds -/
structure Grows (st st' : ReaderState) : Prop where
  tables : ∀ k ∈ Dict.keys st.tables, k ∈ Dict.keys st'.tables
  rows : ∀ r ∈ st.rows.values.flatMap id, r ∈ st'.rows.values.flatMap id
  errors : ∀ m ∈ st.globalErrors, m ∈ st'.globalErrors

theorem Grows.refl (st : ReaderState) : Grows st st := ⟨fun _ h => h, fun _ h => h, fun _ h => h⟩
theorem Grows.trans {a b c : ReaderState} (h : Grows a b) (h' : Grows b c) : Grows a c :=
  ⟨fun k hk => h'.tables k (h.tables k hk), fun k hk => h'.rows k (h.rows k hk), fun k hk => h'.errors k (h.errors k hk)⟩

theorem grows_table (st : ReaderState) (t : Table) : Grows st { st with tables := st.tables.set t.name t } :=
  ⟨fun _ hk => Dict.mem_keys_set.mpr (Or.inr hk), fun _ h => h, fun _ h => h⟩

theorem mem_set_rows {d : Dict (List Rows)} {k : Str} {x r : Rows} (h : r ∈ (Dict.values d).flatMap id ∨ r = x) :
    r ∈ (Dict.values (Dict.set d k ((Dict.get? d k).getD [] ++ [x]))).flatMap id := by
  induction d with
  | nil =>
    rcases h with h | h
    · cases h
    · simp [Dict.set, Dict.values, Dict.get?, h]
  | cons e d ih =>
    obtain ⟨j, l⟩ := e
    by_cases hj : j = k
    · subst hj
      have : Dict.set ((j, l) :: d) j ((Dict.get? ((j, l) :: d) j).getD [] ++ [x]) = (j, l ++ [x]) :: d := by
        simp [Dict.set, Dict.get?_cons]
      rw [this]
      simp only [Dict.values, List.map_cons, List.flatMap_cons, List.mem_append, id_eq, List.mem_singleton] at h ⊢
      rcases h with (h | h) | h
      · exact Or.inl (Or.inl h)
      · exact Or.inr h
      · exact Or.inl (Or.inr h)
    · have : Dict.set ((j, l) :: d) k ((Dict.get? ((j, l) :: d) k).getD [] ++ [x]) = (j, l) :: Dict.set d k ((Dict.get? d k).getD [] ++ [x]) := by
        simp [Dict.set, Dict.get?_cons, hj]
      rw [this]
      simp only [Dict.values, List.map_cons, List.flatMap_cons, List.mem_append, id_eq] at h ih ⊢
      rcases h with (h | h) | h
      · exact Or.inl h
      · exact Or.inr (ih (Or.inl h))
      · exact Or.inr (ih (Or.inr h))

theorem grows_rows (st : ReaderState) (r : Rows) : Grows st { st with rows := st.rows.set r.table ((st.rows.get? r.table).getD [] ++ [r]) } :=
  ⟨fun _ h => h, fun _ h => mem_set_rows (Or.inl h), fun _ h => h⟩

theorem loop_grows : ∀ (n : Nat) (st : ReaderState) (s : Str), Grows st (readLoop n st s).1
  | n, st, [] => by rw [readLoop_nil]; exact .refl st
  | 0, st, c :: cs => by rw [readLoop_zero st (by simp)]; exact .refl st
  | n + 1, st, c :: cs => by
    rw [readLoop_succ n st (by simp)]
    unfold readStep
    split
    · exact .refl st
    · split
      · exact loop_grows n st _
      · split
        · split
          · exact .refl st
          · exact (grows_table st _).trans (loop_grows n _ _)
        · split
          · split
            · exact .refl st
            · exact (grows_rows st _).trans (loop_grows n _ _)
          · exact ⟨fun _ h => h, fun _ h => h, fun _ h => List.mem_append_left _ h⟩

theorem loop_reaches {s d : Str} (h : Reaches s d) : ∀ (n : Nat) (st st' : ReaderState), readLoop n st s = (st', none) → d ≠ [] ∧ (startsComment d = false →
    (lower (d.take 6) = py"create" → ∃ t rest, parseCreate d = .ok (t, rest) ∧ t.name ∈ Dict.keys st'.tables) ∧
    (lower (d.take 6) = py"insert" → ∃ r rest, parseInsert d = .ok (r, rest) ∧ r ∈ st'.rows.values.flatMap id) ∧
    (lower (d.take 6) ≠ py"create" → lower (d.take 6) ≠ py"insert" → py"Unrecognized MySQL command: " ++ d ∈ st'.globalErrors)) := by
  have pos : ∀ {n : Nat} {st st' : ReaderState} {s : Str}, s ≠ [] → readLoop n st s = (st', none) → ∃ m, n = m + 1 ∧ strip s ≠ [] := by
    intro n st st' s hs h
    cases n with
    | zero => rw [readLoop_zero st hs] at h; cases h
    | succ m =>
      refine ⟨m, rfl, fun hz => ?_⟩
      rw [readLoop_blank m st hs hz] at h; cases h
  have ne_create : py"insert" ≠ py"create" := by decide
  induction h with
  | @here s hs =>
    intro n st st' h
    obtain ⟨m, rfl, hd⟩ := pos hs h
    refine ⟨hd, fun hc => ⟨fun h6 => ?_, fun h6 => ?_, fun h6 h6' => ?_⟩⟩
    · rw [readLoop_succ m st hs] at h
      cases hp : parseCreate (strip s) with
      | error e => simp only [readStep, hd, if_false, hc, Bool.false_eq_true, h6, if_true, hp] at h; cases h
      | ok x =>
        obtain ⟨t, rest⟩ := x
        simp only [readStep, hd, if_false, hc, Bool.false_eq_true, h6, if_true, hp] at h
        refine ⟨t, rest, rfl, ?_⟩
        have := (loop_grows m { st with tables := st.tables.set t.name t } rest).tables t.name (Dict.mem_keys_set.mpr (Or.inl rfl))
        rwa [h] at this
    · rw [readLoop_succ m st hs] at h
      cases hp : parseInsert (strip s) with
      | error e => simp only [readStep, hd, if_false, hc, Bool.false_eq_true, h6, ne_create, if_true, hp] at h; cases h
      | ok x =>
        obtain ⟨r, rest⟩ := x
        simp only [readStep, hd, if_false, hc, Bool.false_eq_true, h6, ne_create, if_true, hp] at h
        refine ⟨r, rest, rfl, ?_⟩
        have := (loop_grows m { st with rows := st.rows.set r.table ((st.rows.get? r.table).getD [] ++ [r]) } rest).rows r (mem_set_rows (Or.inr rfl))
        rwa [h] at this
    · rw [readLoop_unknown m st rfl hd hc h6 h6'] at h
      cases h
      simp
  | @comment s d hc _ ih =>
    intro n st st' h
    have hs : s ≠ [] := by rintro rfl; revert hc; decide
    obtain ⟨m, rfl, hd⟩ := pos hs h
    rw [readLoop_comment m st rfl hd hc] at h
    exact ih m st st' h
  | @create s rest d t hc h6 hp _ ih =>
    intro n st st' h
    have hs : s ≠ [] := by rintro rfl; revert h6; decide
    obtain ⟨m, rfl, hd⟩ := pos hs h
    rw [readLoop_create m st rfl hd hc h6 hp] at h
    exact ih m _ st' h
  | @insert s rest d r hc h6 hp _ ih =>
    intro n st st' h
    have hs : s ≠ [] := by rintro rfl; revert h6; decide
    obtain ⟨m, rfl, hd⟩ := pos hs h
    rw [readLoop_insert m st rfl hd hc h6 hp] at h
    exact ih m _ st' h

/-- tables are stored under their names -/
theorem loop_names : ∀ (n : Nat) (st : ReaderState) (s : Str), (Dict.keys st.tables).Nodup ∧ (∀ e ∈ st.tables, e.2.name = e.1) →
    (Dict.keys (readLoop n st s).1.tables).Nodup ∧ ∀ e ∈ (readLoop n st s).1.tables, e.2.name = e.1
  | n, st, [], h => by rw [readLoop_nil]; exact h
  | 0, st, c :: cs, h => by rw [readLoop_zero st (by simp)]; exact h
  | n + 1, st, c :: cs, h => by
    rw [readLoop_succ n st (by simp)]
    unfold readStep
    split
    · exact h
    · split
      · exact loop_names n st _ h
      · split
        · split
          · exact h
          · rename_i t rest _
            refine loop_names n _ _ ⟨Dict.keys_set_nodup _ _ h.1, ?_⟩
            intro e he
            have hg := Dict.get?_of_mem (Dict.keys_set_nodup _ _ h.1) (k := e.1) (v := e.2) he
            rw [Dict.get?_set] at hg
            split at hg
            · rename_i hk
              cases hg
              exact hk
            · exact h.2 (e.1, e.2) (Dict.mem_of_get? hg)
        · split
          · split
            · exact h
            · exact loop_names n _ _ h
          · exact h


theorem mem_of_set {V : Type} {e : Str × V} : ∀ {y : Dict V} {k : Str} {v : V}, e ∈ Dict.set y k v → e ∈ y ∨ e = (k, v)
  | [], k, v, h => by simp [Dict.set] at h; exact Or.inr h
  | a :: y, k, v, h => by
    simp only [Dict.set] at h
    split at h
    · rcases List.mem_cons.mp h with h | h
      · exact Or.inr h
      · exact Or.inl (List.mem_cons_of_mem _ h)
    · rcases List.mem_cons.mp h with h | h
      · exact Or.inl (by rw [h]; exact List.mem_cons_self)
      · rcases mem_of_set h with h | h
        · exact Or.inl (List.mem_cons_of_mem _ h)
        · exact Or.inr h

theorem filed_entries : ∀ (l : List Rows) (x : Dict (List Rows)), (∀ e ∈ x, e.2 ≠ [] ∧ ∀ r ∈ e.2, r.table = e.1) →
    ∀ e ∈ filed x l, e.2 ≠ [] ∧ ∀ r ∈ e.2, r.table = e.1
  | [], _, hx => hx
  | r :: l, x, hx => by
    refine filed_entries l _ ?_
    intro e he
    rcases mem_of_set he with h | h
    · exact hx e h
    · rw [h]
      refine ⟨by simp, ?_⟩
      intro q hq
      rcases List.mem_append.mp hq with hq | hq
      · cases hg : Dict.get? x r.table with
        | none => rw [hg] at hq; cases hq
        | some v => rw [hg] at hq; exact (hx _ (Dict.mem_of_get? hg)).2 q hq
      · rw [List.mem_singleton] at hq; rw [hq]

theorem filed_mem {r : Rows} {l : List Rows} {x : Dict (List Rows)} (h : r ∈ l ∨ ∃ e ∈ x, r ∈ e.2) (hk : (Dict.keys x).Nodup) : ∃ e ∈ filed x l, r ∈ e.2 := by
  induction l generalizing x with
  | nil =>
    rcases h with h | h
    · cases h
    · exact h
  | cons q l ih =>
    refine ih ?_ (Dict.keys_set_nodup _ _ hk)
    have key : r = q ∨ (∃ e ∈ x, r ∈ e.2) → ∃ e ∈ Dict.set x q.table ((Dict.get? x q.table).getD [] ++ [q]), r ∈ e.2 := by
      intro h
      have := mem_set_rows (d := x) (k := q.table) (x := q) (r := r) (by
        rcases h with h | ⟨e, he, hr⟩
        · exact Or.inr h
        · exact Or.inl (List.mem_flatMap.mpr ⟨e.2, List.mem_map.mpr ⟨e, he, rfl⟩, hr⟩))
      obtain ⟨v, hv, hr⟩ := List.mem_flatMap.mp this
      obtain ⟨e, he, rfl⟩ := List.mem_map.mp hv
      exact ⟨e, he, hr⟩
    rcases h with h | h
    · rcases List.mem_cons.mp h with h | h
      · exact Or.inr (key (Or.inl h))
      · exact Or.inl h
    · exact Or.inr (key (Or.inr h))

section
variable [PyNum]

/-- files with different tables are put together -/
theorem readAll_apart : ∀ (files : List Str) (d : Database), (∀ f ∈ files, (readSource f).2 = none) →
    (Dict.keys d.tables ++ files.flatMap (fun f => Dict.keys (readSource f).1.tables)).Nodup →
    ∃ rows, FileDatabase.readAll d files = .ok { d with tables := d.tables ++ files.flatMap (fun f => (readSource f).1.tables), rows := rows
                                                        globalErrors := d.globalErrors ++ files.flatMap (fun f => (readSource f).1.globalErrors) } ∧
      ((Dict.keys d.rows).Nodup → ∀ r, (∃ e ∈ d.rows, r ∈ e.2) → ∃ e ∈ rows, r ∈ e.2) ∧
      ((∀ e ∈ d.rows, e.2 ≠ [] ∧ ∀ r ∈ e.2, r.table = e.1) → ∀ e ∈ rows, e.2 ≠ [] ∧ ∀ r ∈ e.2, r.table = e.1) ∧
      ((Dict.keys d.rows).Nodup → ∀ f ∈ files, ∀ r ∈ (readSource f).1.rows.values.flatMap id, ∃ e ∈ rows, r ∈ e.2)
  | [], d, _, _ => ⟨d.rows, by simp [FileDatabase.readAll], fun _ _ h => h, fun h => h, (fun _ f hf => by cases hf)⟩
  | f :: fs, d, hq, hn => by
    obtain ⟨st, hst⟩ : ∃ st, readSource f = (st, none) := ⟨(readSource f).1, by rw [← hq f List.mem_cons_self]⟩
    have hnames := loop_names 10000 {} f ⟨List.nodup_nil, fun e he => by cases he⟩
    have h1 : (readSource f).1 = st := by rw [hst]
    have hnames' : ∀ e ∈ st.tables, e.2.name = e.1 := by rw [← h1]; exact hnames.2
    rw [List.flatMap_cons, h1, ← List.append_assoc] at hn
    have hstore := store_new st.tables d hnames' (List.nodup_append.mp hn).1
    let d1 : Database := { d with tables := d.tables ++ st.tables, rows := filed d.rows (st.rows.values.flatMap id), globalErrors := d.globalErrors ++ st.globalErrors }
    have hread : FileDatabase.read d f = .ok d1 := by
      unfold FileDatabase.read
      rw [hst]
      simp only [Option.filter_none, hstore]
      rfl
    obtain ⟨rows, h2, h3, h4, h5⟩ := readAll_apart fs d1 (fun x hx => hq x (List.mem_cons_of_mem _ hx)) (by
      show (Dict.keys (d.tables ++ st.tables) ++ _).Nodup
      rw [Dict.keys_append]; exact hn)
    refine ⟨rows, ?_, fun hk r hr => h3 (filed_nodup _ _ hk) r (filed_mem (Or.inr hr) hk), fun he => h4 (filed_entries _ _ he), ?_⟩
    · simp only [FileDatabase.readAll, hread, h2]
      simp [d1, h1]
    · intro hk g hg r hr
      rcases List.mem_cons.mp hg with rfl | hg
      · rw [h1] at hr
        exact h3 (filed_nodup _ _ hk) r (filed_mem (Or.inl hr) hk)
      · exact h5 (filed_nodup _ _ hk) g hg r hr

end

theorem addRowsLoop_keeps {cs : List Str} {i : Nat} {b : Bool} : ∀ (vs : List (List PyVal)) {t t' : Table}, Table.addRowsLoop cs i b t vs = .ok t' →
    t'.name = t.name ∧ t'.columns = t.columns
  | [], t, t', h => by simp only [Table.addRowsLoop, Except.ok.injEq] at h; subst h; exact ⟨rfl, rfl⟩
  | v :: vs, t, t', h => by
    simp only [Table.addRowsLoop] at h
    split at h
    · rename_i u hu
      have h1 := addRowsLoop_keeps vs h
      have h2 : u.name = t.name ∧ u.columns = t.columns := by
        unfold Table.addRowValues at hu
        split at hu
        · cases hu; exact ⟨rfl, rfl⟩
        · split at hu
          · cases hu
          · simp only at hu
            split at hu
            · cases hu; exact ⟨rfl, rfl⟩
            · split at hu <;> cases hu <;> exact ⟨rfl, rfl⟩
      exact ⟨h1.1.trans h2.1, h1.2.trans h2.2⟩
    · cases h

theorem addRows_keeps {t t' : Table} {r : Rows} (h : t.addRows r = .ok t') : t'.name = t.name ∧ t'.columns = t.columns := by
  unfold Table.addRows at h
  simp only at h
  split at h
  · cases h; exact ⟨rfl, rfl⟩
  · have := addRowsLoop_keeps _ h
    exact this

/-- the tables stay, with their names and columns -/
structure KeepsTables (ts ts' : Dict Table) : Prop where
  keys : Dict.keys ts' = Dict.keys ts
  tables : ∀ k t', Dict.get? ts' k = some t' → ∃ t, Dict.get? ts k = some t ∧ t'.name = t.name ∧ t'.columns = t.columns

theorem KeepsTables.refl (ts : Dict Table) : KeepsTables ts ts := ⟨rfl, fun _ t h => ⟨t, h, rfl, rfl⟩⟩
theorem KeepsTables.trans {a b c : Dict Table} (h : KeepsTables a b) (h' : KeepsTables b c) : KeepsTables a c := by
  refine ⟨h'.keys.trans h.keys, fun k t hk => ?_⟩
  obtain ⟨u, h1, h2, h3⟩ := h'.tables k t hk
  obtain ⟨v, h4, h5, h6⟩ := h.tables k u h1
  exact ⟨v, h4, h2.trans h5, h3.trans h6⟩

theorem addInserts_keeps {n : Str} : ∀ (rs : List Rows) {ts ts' : Dict Table}, FileDatabase.addInserts n ts rs = .ok ts' →
    KeepsTables ts ts' ∧ (rs ≠ [] → n ∈ Dict.keys ts)
  | [], ts, ts', h => by simp only [FileDatabase.addInserts, Except.ok.injEq] at h; subst h; exact ⟨.refl _, fun h => absurd rfl h⟩
  | r :: rs, ts, ts', h => by
    simp only [FileDatabase.addInserts] at h
    split at h
    · cases h
    · rename_i t ht
      split at h
      · cases h
      · rename_i u hu
        have h1 := (addInserts_keeps rs h).1
        have hk := Dict.mem_keys_of_get? ht
        have h2 := addRows_keeps hu
        refine ⟨KeepsTables.trans ⟨Dict.keys_set_of_mem _ hk, ?_⟩ h1, fun _ => hk⟩
        intro k t' hget
        rw [Dict.get?_set] at hget
        split at hget
        · rename_i he
          cases hget
          exact ⟨t, by rw [← he]; exact ht, h2.1, h2.2⟩
        · exact ⟨t', hget, rfl, rfl⟩

theorem combine_keeps : ∀ (todo : List (Str × List Rows)) {d d' : Database}, FileDatabase.combine d todo = .ok d' →
    KeepsTables d.tables d'.tables ∧ (∀ m ∈ d.globalErrors, m ∈ d'.globalErrors) ∧ d'.schemaCache = d.schemaCache ∧ (d.checked = [] → d'.checked = []) ∧
    ∀ e ∈ todo, e.2 ≠ [] → e.1 ∈ Dict.keys d.tables
  | [], d, d', h => by
    simp only [FileDatabase.combine, Except.ok.injEq] at h
    subst h
    exact ⟨.refl _, fun _ h => h, rfl, fun h => h, (fun e he => by cases he)⟩
  | (n, rs) :: rest, d, d', h => by
    simp only [FileDatabase.combine] at h
    split at h
    · cases h
    · rename_i ts hts
      have ht : ∀ (b : Bool) (x : List Str), (if b = true then d else { d with globalErrors := x }).tables = d.tables := by intro b x; cases b <;> rfl
      have hs : ∀ (b : Bool) (x : List Str), (if b = true then d else { d with globalErrors := x }).schemaCache = d.schemaCache := by intro b x; cases b <;> rfl
      have hc : ∀ (b : Bool) (x : List Str), (if b = true then d else { d with globalErrors := x }).checked = d.checked := by intro b x; cases b <;> rfl
      have hg : ∀ (b : Bool) (x : List Str) (m : Str), m ∈ d.globalErrors → m ∈ (if b = true then d else { d with globalErrors := d.globalErrors ++ x }).globalErrors := by
        intro b x m hm; cases b
        · exact List.mem_append_left _ hm
        · exact hm
      obtain ⟨h1, h2, h3, h4, h5⟩ := combine_keeps rest h
      rw [ht] at hts
      obtain ⟨h6, h7⟩ := addInserts_keeps rs hts
      refine ⟨h6.trans h1, fun m hm => h2 m (hg _ _ m hm), h3.trans (hs _ _), ?_, ?_⟩
      · intro hz
        refine h4 ?_
        show List.filter _ (Database.checked (if _ then _ else _)) = []
        rw [hc, hz]
        rfl
      · intro e he hne
        rcases List.mem_cons.mp he with rfl | he
        · exact h7 hne
        · have := h5 e he hne
          rw [h6.keys] at this
          exact this

theorem combine_rows : ∀ (todo : List (Str × List Rows)) {d d' : Database}, FileDatabase.combine d todo = .ok d' → d'.rows = d.rows ∧ d'.parsingCache = d.parsingCache
  | [], d, d', h => by
    simp only [FileDatabase.combine, Except.ok.injEq] at h
    subst h
    exact ⟨rfl, rfl⟩
  | (n, rs) :: rest, d, d', h => by
    simp only [FileDatabase.combine] at h
    split at h
    · cases h
    · obtain ⟨h1, h2⟩ := combine_rows rest h
      rw [h1, h2]
      simp only
      split <;> exact ⟨rfl, rfl⟩

end Mygrations

import Verif.Proofs.Nodes
import Verif.Proofs.Rows

/-!
# The values of the rows which are read from files are texts or `NULL`, whatever the files are
-/

namespace Mygrations

theorem Dict.mem_set {V : Type} : ∀ {d : Dict V} {k : Str} {v : V} {j : Str} {x : V}, (j, x) ∈ Dict.set d k v → (j = k ∧ x = v) ∨ (j, x) ∈ d
  | [], k, v, j, x, h => by
    rw [Dict.set_of_not_mem v (by simp [Dict.keys])] at h
    simpa using h
  | (k', v') :: d, k, v, j, x, h => by
    unfold Dict.set at h
    split at h
    · rcases List.mem_cons.mp h with h | h
      · cases h; exact Or.inl ⟨rfl, rfl⟩
      · exact Or.inr (List.mem_cons_of_mem _ h)
    · rcases List.mem_cons.mp h with h | h
      · cases h; exact Or.inr List.mem_cons_self
      · rcases Dict.mem_set h with h | h
        · exact Or.inl h
        · exact Or.inr (List.mem_cons_of_mem _ h)

/-- all values of the rows are texts or `NULL`, and each column has one value -/
def PlainRows (rows : Dict Row) : Prop := ∀ i r, (i, r) ∈ rows → (Dict.keys r).Nodup ∧ ∀ c v, (c, v) ∈ r → v.Plain

/-- all values of an `INSERT` are texts or `NULL` -/
def Rows.PlainValues (r : Rows) : Prop := ∀ vs ∈ r.rawRows, ∀ v ∈ vs, v.Plain

theorem PlainRows.fileValues {rows : Dict Row} (h : PlainRows rows) : FileValues rows :=
  fun k r c v hk hc => (h k r (Dict.mem_of_get? hk)).2 c v (Dict.mem_of_get? hc)

namespace Table

theorem zipDict_plain {cs : List Str} {vs : List PyVal} (h : ∀ v ∈ vs, v.Plain) : ∀ c v, (c, v) ∈ zipDict cs vs → v.Plain := by
  have key : ∀ (l : List (Str × PyVal)) (d : Dict PyVal), (∀ e ∈ l, e.2.Plain) → (∀ c v, (c, v) ∈ d → v.Plain) →
      ∀ c v, (c, v) ∈ l.foldl (fun d e => Dict.set d e.1 e.2) d → v.Plain := by
    intro l
    induction l with
    | nil => intro d _ hd; exact hd
    | cons e l ih =>
      intro d hl hd
      refine ih _ (fun x hx => hl x (List.mem_cons_of_mem _ hx)) ?_
      intro c v hcv
      rcases Dict.mem_set hcv with ⟨_, rfl⟩ | h
      · exact hl e List.mem_cons_self
      · exact hd c v h
  intro c v hcv
  exact key _ [] (fun e he => h e.2 (List.of_mem_zip he).2) (fun _ _ h => by cases h) c v hcv

theorem zipDict_nodup (cs : List Str) (vs : List PyVal) : (Dict.keys (zipDict cs vs)).Nodup := by
  have key : ∀ (l : List (Str × PyVal)) (d : Dict PyVal), (Dict.keys d).Nodup → (Dict.keys (l.foldl (fun d e => Dict.set d e.1 e.2) d)).Nodup := by
    intro l
    induction l with
    | nil => intro d hd; exact hd
    | cons e l ih => intro d hd; exact ih _ (Dict.keys_set_nodup _ _ hd)
  exact key _ [] List.nodup_nil

theorem addRowValues_plain {cols : List Str} {i : Nat} {ex : Bool} {t t' : Table} {vs : List PyVal} (hv : ∀ v ∈ vs, v.Plain)
    (ht : PlainRows (t.rows.getD [])) (h : addRowValues cols i ex t vs = .ok t') : PlainRows (t'.rows.getD []) := by
  unfold addRowValues at h
  split at h
  · cases h; exact ht
  · split at h
    · cases h
    · rename_i v _
      simp only at h
      split at h
      · cases h; exact ht
      · split at h
        · cases h; exact ht
        · cases h
          intro i r hir
          rcases Dict.mem_set hir with ⟨_, rfl⟩ | hir
          · refine ⟨Dict.keys_set_nodup _ _ (zipDict_nodup _ _), fun c w hcw => ?_⟩
            rcases Dict.mem_set hcw with ⟨_, rfl⟩ | hcw
            · exact Or.inr ⟨_, rfl⟩
            · exact zipDict_plain hv c w hcw
          · exact ht i r hir

theorem addRowsLoop_plain {cols : List Str} {i : Nat} {ex : Bool} : ∀ (raw : List (List PyVal)) (t t' : Table), (∀ vs ∈ raw, ∀ v ∈ vs, v.Plain) →
    PlainRows (t.rows.getD []) → addRowsLoop cols i ex t raw = .ok t' → PlainRows (t'.rows.getD [])
  | [], t, t', _, ht, h => by cases h; exact ht
  | vs :: raw, t, t', hv, ht, h => by
    unfold addRowsLoop at h
    split at h
    · rename_i t1 h1
      exact addRowsLoop_plain raw t1 t' (fun x hx => hv x (List.mem_cons_of_mem _ hx)) (addRowValues_plain (hv vs List.mem_cons_self) ht h1) h
    · cases h

theorem addRows_plain {t t' : Table} {r : Rows} (hr : r.PlainValues) (ht : PlainRows (t.rows.getD [])) (h : t.addRows r = .ok t') :
    PlainRows (t'.rows.getD []) := by
  unfold addRows at h
  simp only at h
  split at h
  · cases h; exact ht
  · exact addRowsLoop_plain _ _ _ hr (by simpa using ht) h

end Table

/-- the values of all stored `INSERT`s are texts or `NULL` -/
def PlainInserts (d : Dict (List Rows)) : Prop := ∀ n rs, (n, rs) ∈ d → ∀ r ∈ rs, r.PlainValues

theorem PlainInserts.add {d : Dict (List Rows)} (h : PlainInserts d) {r : Rows} (hr : r.PlainValues) (n : Str) :
    PlainInserts (Dict.set d n ((Dict.get? d n).getD [] ++ [r])) := by
  intro m rs hm x hx
  rcases Dict.mem_set hm with ⟨_, rfl⟩ | hm
  · rcases List.mem_append.mp hx with hx | hx
    · cases hg : Dict.get? d n with
      | none => rw [hg] at hx; cases hx
      | some l =>
        rw [hg] at hx
        exact h n l (Dict.mem_of_get? hg) x hx
    · simp only [List.mem_singleton] at hx
      subst hx
      exact hr
  · exact h m rs hm x hx

theorem readLoop_plain : ∀ (n : Nat) (st : ReaderState) (s : Str), PlainInserts st.rows → PlainInserts (readLoop n st s).1.rows
  | n, st, [], h => by rw [readLoop_nil]; exact h
  | 0, st, c :: cs, h => by rw [readLoop_zero st (by simp)]; exact h
  | n + 1, st, c :: cs, h => by
    rw [readLoop_succ n st (by simp)]
    unfold readStep
    split
    · exact h
    · split
      · exact readLoop_plain n _ _ h
      · split
        · split
          · exact h
          · exact readLoop_plain n _ _ h
        · split
          · split
            · exact h
            · rename_i r rest hr
              exact readLoop_plain n _ _ (h.add (parseInsert_plain hr) _)
          · exact h

namespace FileDatabase

theorem storeRows_plain : ∀ (rs : List Rows) (d : Dict (List Rows)), PlainInserts d → (∀ r ∈ rs, r.PlainValues) →
    PlainInserts (rs.foldl (fun acc r => acc.set r.table ((acc.get? r.table).getD [] ++ [r])) d)
  | [], d, h, _ => h
  | r :: rs, d, h, hr => storeRows_plain rs _ (h.add (hr r List.mem_cons_self) _) (fun x hx => hr x (List.mem_cons_of_mem _ hx))

theorem storeTables_plain [PyNum] : ∀ (ts : List Table) (d d' : Database), (∀ t ∈ ts, t.rows = none) → NoRows d.tables → storeTables d ts = .ok d' →
    d'.rows = d.rows ∧ NoRows d'.tables
  | [], d, d', _, hn, h => by cases h; exact ⟨rfl, hn⟩
  | t :: ts, d, d', ht, hn, h => by
    have hset : ∀ (x : Dict Table), x = d.tables → NoRows (Dict.set x t.name t) := by
      rintro x rfl k y hky
      rcases Dict.mem_set hky with ⟨_, rfl⟩ | hky
      · exact ht _ List.mem_cons_self
      · exact hn k y hky
    unfold storeTables at h
    split at h
    · split at h
      · cases h
      · rename_i d1 h1
        have e : d1.rows = d.rows ∧ d1.tables = d.tables := by
          have h2 := d.errors_rows
          have h3 := d.errors_tables
          rw [h1] at h2 h3
          exact ⟨h2, h3⟩
        obtain ⟨h4, h5⟩ := storeTables_plain ts _ d' (fun x hx => ht x (List.mem_cons_of_mem _ hx)) (hset _ e.2) h
        exact ⟨h4.trans e.1, h5⟩
    · have := storeTables_plain ts { d with tables := d.tables.set t.name t } d' (fun x hx => ht x (List.mem_cons_of_mem _ hx)) (hset _ rfl) h
      exact this

theorem read_plain [PyNum] {d d' : Database} {s : Str} (h : NoRows d.tables ∧ PlainInserts d.rows) (hr : read d s = .ok d') :
    NoRows d'.tables ∧ PlainInserts d'.rows := by
  unfold read at hr
  split at hr
  rename_i st exc hst
  split at hr
  · cases hr
  · split at hr
    · cases hr
    · rename_i d1 h1
      cases hr
      have hk := (readSource_kept s).2
      have hp : PlainInserts (readSource s).1.rows := readLoop_plain 10000 {} s (fun _ _ h => by cases h)
      rw [hst] at hk hp
      obtain ⟨h2, h3⟩ := storeTables_plain st.tables.values d d1 (fun t ht => by
        obtain ⟨k, hkt⟩ := Dict.mem_values.mp ht
        exact hk k t hkt) h.1 h1
      refine ⟨h3, storeRows_plain _ _ (by rw [h2]; exact h.2) ?_⟩
      intro r hr
      obtain ⟨rs, hrs, hr⟩ := List.mem_flatMap.mp hr
      obtain ⟨k, hk⟩ := Dict.mem_values.mp hrs
      exact hp k rs hk r hr

theorem readAll_plain [PyNum] : ∀ (ss : List Str) (d d' : Database), NoRows d.tables ∧ PlainInserts d.rows → readAll d ss = .ok d' →
    NoRows d'.tables ∧ PlainInserts d'.rows
  | [], d, d', h, hr => by cases hr; exact h
  | s :: ss, d, d', h, hr => by
    unfold readAll at hr
    split at hr
    · cases hr
    · rename_i d1 h1
      exact readAll_plain ss d1 d' (read_plain h h1) hr

/-- the values of all rows of the tables are texts or `NULL` -/
def PlainTables (d : Dict Table) : Prop := ∀ k t, (k, t) ∈ d → PlainRows (t.rows.getD [])

theorem addInserts_plain {n : Str} : ∀ (rs : List Rows) (ts ts' : Dict Table), PlainTables ts → (∀ r ∈ rs, r.PlainValues) →
    addInserts n ts rs = .ok ts' → PlainTables ts'
  | [], ts, ts', h, _, ha => by cases ha; exact h
  | r :: rs, ts, ts', h, hr, ha => by
    unfold addInserts at ha
    split at ha
    · cases ha
    · rename_i t ht
      split at ha
      · cases ha
      · rename_i t1 h1
        refine addInserts_plain rs _ ts' ?_ (fun x hx => hr x (List.mem_cons_of_mem _ hx)) ha
        intro k x hkx
        rcases Dict.mem_set hkx with ⟨_, rfl⟩ | hkx
        · exact Table.addRows_plain (hr r List.mem_cons_self) (h n t (Dict.mem_of_get? ht)) h1
        · exact h k x hkx

theorem combine_plain : ∀ (l : List (Str × List Rows)) (d d' : Database), PlainTables d.tables → (∀ n rs, (n, rs) ∈ l → ∀ r ∈ rs, r.PlainValues) →
    combine d l = .ok d' → PlainTables d'.tables
  | [], d, d', h, _, hc => by cases hc; exact h
  | (n, rs) :: l, d, d', h, hl, hc => by
    unfold combine at hc
    simp only at hc
    split at hc
    · cases hc
    · rename_i ts hts
      refine combine_plain l _ d' ?_ (fun m x hm => hl m x (List.mem_cons_of_mem _ hm)) hc
      refine addInserts_plain rs _ ts ?_ (hl n rs List.mem_cons_self) hts
      split
      · exact h
      · exact h

/-- Whatever the files are. -/
theorem new_plain [PyNum] {sources : List Str} {d : Database} (h : new sources = .ok d) : PlainTables d.tables := by
  unfold new at h
  split at h
  · cases h
  · rename_i d1 h1
    obtain ⟨h2, h3⟩ := readAll_plain sources {} d1 ⟨fun _ _ h => (by cases h), fun _ _ h => (by cases h)⟩ h1
    refine combine_plain d1.rows d1 d ?_ h3 h
    intro k t hk
    rw [h2 k t hk]
    intro _ _ h; cases h

end FileDatabase

end Mygrations

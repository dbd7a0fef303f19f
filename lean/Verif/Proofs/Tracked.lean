import Verif.Proofs.Plain

/-!
# The rows of the live database which a plan sees
-/

namespace Mygrations
namespace Table

theorem foldl_set_value {V W : Type} (f : Str × W → V) : ∀ (l : Dict W) (d : Dict V), (Dict.keys l).Nodup → ∀ c,
    Dict.get? (l.foldl (fun d e => Dict.set d e.1 (f e)) d) c = ((Dict.get? l c).map (fun w => f (c, w))).or (Dict.get? d c)
  | [], d, _, c => by simp [Dict.get?]
  | (k, w) :: l, d, hn, c => by
    have hk : k ∉ Dict.keys l := (List.nodup_cons.mp hn).1
    rw [List.foldl_cons, foldl_set_value f l _ (List.nodup_cons.mp hn).2 c, Dict.get?_set, Dict.get?_cons]
    by_cases hc : k = c
    · subst hc
      rw [Dict.get?_eq_none.mpr hk]
      simp
    · simp only [if_neg hc]

/-- what is stored of a row which the server answers -/
theorem convertRow_get {t : Table} (h : t.Keyed) (row : Row) (i c : Str) : Dict.get? (t.convertRow row i) c =
    if c = py"id" then some (.str i)
    else (t.columns.get? c).map (fun col => match Dict.get? row c with
      | some v => v
      | none => match col.default with | none => PyVal.none | some s => .str s) := by
  unfold convertRow
  rw [Dict.get?_set]
  by_cases hc : c = py"id"
  · rw [if_pos hc, if_pos hc.symm]
  · rw [if_neg hc, if_neg (fun e => hc e.symm), foldl_set_value (V := PyVal) (W := Column) _ t.columns [] h.colNodup c]
    simp only [Dict.get?, Option.or_none]
    rfl

end Table

namespace LiveDatabase
open Table

theorem addRawRows_spec : ∀ (rs : List Row) (t t' : Table), t.Kept → addRawRows t rs = .ok t' →
    (∀ r ∈ rs, rawId r ≠ []) ∧ t'.columns = t.columns ∧
    ∀ i, Dict.get? (t'.rows.getD []) i = (Dict.get? (t.rows.getD []) i).or ((rs.find? (fun r => rawId r = i)).map (fun r => t.convertRow r i))
  | [], t, t', hk, h => by cases h; exact ⟨fun _ h => (by cases h), rfl, fun i => by simp⟩
  | r :: rs, t, t', hk, h => by
    unfold addRawRows at h
    split at h
    · cases h
    · rename_i t1 h1
      have hk1 := (hk.addRawRow h1).1
      obtain ⟨h2, h3, h4⟩ := addRawRows_spec rs t1 t' hk1 h
      rw [addRawRow_eq] at h1
      split at h1
      · cases h1
      · rename_i hid
        have conv : ∀ (a b : Table) r i, a.columns = b.columns → a.convertRow r i = b.convertRow r i := by
          intro a b r i e; unfold convertRow; rw [e]
        split at h1
        · rename_i hhas
          cases h1
          refine ⟨?_, h3, fun i => ?_⟩
          · intro x hx
            rcases List.mem_cons.mp hx with rfl | hx
            · exact hid
            · exact h2 x hx
          · rw [h4 i]
            simp only [markTracking, Option.getD_some]
            rw [List.find?_cons]
            by_cases hi : rawId r = i
            · obtain ⟨v, hv⟩ := Dict.exists_get? (Dict.has_iff.mp hhas)
              rw [← hi, hv]
              simp
            · simp only [hi, decide_false]
              congr 2
        · cases h1
          refine ⟨?_, h3, fun i => ?_⟩
          · intro x hx
            rcases List.mem_cons.mp hx with rfl | hx
            · exact hid
            · exact h2 x hx
          · rename_i hhas
            rw [h4 i]
            simp only [markTracking, Option.getD_some]
            rw [Dict.get?_set, List.find?_cons]
            by_cases hi : rawId r = i
            · subst hi
              have : Dict.get? (t.rows.getD []) (rawId r) = none := by
                rw [Dict.get?_eq_none]
                exact fun hm => hhas (Dict.has_iff.mpr hm)
              simp [this]
            · simp only [hi, decide_false, if_false]
              congr 2

theorem addRawRows_returns : ∀ (rs : List Row) (t : Table), (∀ r ∈ rs, rawId r ≠ []) → ∃ t', addRawRows t rs = .ok t'
  | [], t, _ => ⟨t, rfl⟩
  | r :: rs, t, h => by
    have h1 : ∃ t1, t.addRawRow r = .ok t1 := by
      rw [addRawRow_eq, if_neg (h r List.mem_cons_self)]
      split <;> exact ⟨_, rfl⟩
    obtain ⟨t1, h1⟩ := h1
    obtain ⟨t', h'⟩ := addRawRows_returns rs t1 (fun x hx => h x (List.mem_cons_of_mem _ hx))
    refine ⟨t', ?_⟩
    unfold addRawRows
    rw [h1]
    exact h'

end LiveDatabase

namespace Command
open LiveDatabase

theorem readRows_result {srv : Server} {d d' : Database} {n : Str} (h : (readRows srv d n).result = .ok d') :
    ∃ x rs x', d.tables.get? n = some x ∧ srv.select n = .ok rs ∧ addRawRows x rs = .ok x' ∧ d'.tables = d.tables.set n x'.markTracking := by
  unfold readRows at h
  split at h
  · cases h
  · rename_i x hx
    obtain ⟨rs, hrs, h⟩ := Run.bind_result h
    split at h
    · cases h
    · rename_i x' hx'
      cases h
      exact ⟨x, rs, x', hx, hrs, hx', rfl⟩

/-- which tables have their rows read, and what becomes of them -/
theorem readTracked_get {srv : Server} : ∀ (ts : List Table) (d d' : Database), (ts.map Table.name).Nodup → (readTracked srv d ts).result = .ok d' →
    (∀ n, (∀ t ∈ ts, t.tracking = true → t.name ≠ n) → d'.tables.get? n = d.tables.get? n) ∧
    (∀ t ∈ ts, t.tracking = true →
      (d.tables.get? t.name = none → d'.tables.get? t.name = none) ∧
      ∀ x, d.tables.get? t.name = some x → ∃ rs x', srv.select t.name = .ok rs ∧ addRawRows x rs = .ok x' ∧ d'.tables.get? t.name = some x'.markTracking)
  | [], d, d', _, h => by cases h; exact ⟨fun _ _ => rfl, fun _ h => by cases h⟩
  | t :: ts, d, d', hn, h => by
    have hnt : t.name ∉ ts.map Table.name := (List.nodup_cons.mp hn).1
    have hne : ∀ x ∈ ts, x.name ≠ t.name := fun x hx e => hnt (List.mem_map.mpr ⟨x, hx, e⟩)
    unfold readTracked at h
    split at h
    · rename_i hc
      obtain ⟨d1, h1, h⟩ := Run.bind_result h
      obtain ⟨x, rs, x', hx, hrs, hx', hd1⟩ := readRows_result h1
      obtain ⟨h2, h3⟩ := readTracked_get ts d1 d' (List.nodup_cons.mp hn).2 h
      constructor
      · intro n hnn
        rw [h2 n (fun y hy => hnn y (List.mem_cons_of_mem _ hy)), hd1, Dict.get?_set, if_neg (hnn t List.mem_cons_self hc.1)]
      · intro y hy hyt
        rcases List.mem_cons.mp hy with rfl | hy
        · constructor
          · intro hnone; rw [hnone] at hx; cases hx
          · intro z hz
            rw [hx] at hz
            cases hz
            refine ⟨rs, x', hrs, hx', ?_⟩
            rw [h2 y.name (fun z hz _ => hne z hz), hd1, Dict.get?_set, if_pos rfl]
        · have e : d1.tables.get? y.name = d.tables.get? y.name := by rw [hd1, Dict.get?_set, if_neg (fun e => hne y hy e.symm)]
          rw [← e]
          exact h3 y hy hyt
    · rename_i hc
      obtain ⟨h2, h3⟩ := readTracked_get ts d d' (List.nodup_cons.mp hn).2 h
      constructor
      · exact fun n hnn => h2 n (fun y hy => hnn y (List.mem_cons_of_mem _ hy))
      · intro y hy hyt
        rcases List.mem_cons.mp hy with rfl | hy
        · have hnone : d.tables.get? y.name = none := by
            rw [Dict.get?_eq_none]
            exact fun hm => hc ⟨hyt, Dict.has_iff.mpr hm⟩
          refine ⟨fun _ => ?_, fun x hx => by rw [hnone] at hx; cases hx⟩
          rw [h2 y.name (fun z hz _ => hne z hz), hnone]
        · exact h3 y hy hyt

theorem readTracked_returns {srv : Server} : ∀ (ts : List Table) (d : Database),
    (∀ t ∈ ts, t.tracking = true → t.name ∈ d.tables.keys → ∃ rs, srv.select t.name = .ok rs ∧ ∀ r ∈ rs, Table.rawId r ≠ []) →
    ∃ d', (readTracked srv d ts).result = .ok d'
  | [], d, _ => ⟨d, rfl⟩
  | t :: ts, d, h => by
    unfold readTracked
    split
    · rename_i hc
      obtain ⟨rs, hrs, hids⟩ := h t List.mem_cons_self hc.1 (Dict.has_iff.mp hc.2)
      obtain ⟨x, hx⟩ := Dict.exists_get? (Dict.has_iff.mp hc.2)
      obtain ⟨x', hx'⟩ := addRawRows_returns rs x hids
      have h1 : (readRows srv d t.name).result = .ok { d with tables := d.tables.set t.name x'.markTracking, checked := d.checked.filter (· ≠ t.name) } := by
        unfold readRows
        rw [hx]
        simp only [Driver.rows, hrs]
        rw [Run.bind_ok (a := rs) rfl]
        rw [hx']
        rfl
      rw [Run.bind_ok h1]
      refine readTracked_returns ts _ ?_
      intro y hy hyt hm
      rcases Dict.mem_keys_set.mp hm with e | hm
      · exact h y (List.mem_cons_of_mem _ hy) hyt (e ▸ Dict.has_iff.mp hc.2)
      · exact h y (List.mem_cons_of_mem _ hy) hyt hm
    · exact readTracked_returns ts d (fun y hy => h y (List.mem_cons_of_mem _ hy))

end Command
end Mygrations

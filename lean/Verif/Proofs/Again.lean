import Verif.Props.C53
import Verif.Props.C69

/-! # Wherever a migration is, the conditions of C69 hold again -/

namespace Mygrations
open Sql MySQL Mygration Table Command

section
variable [PyNum] {c : Bool} {f t d : Dict Table} {N : Str → Dict Column} {w : Where}

/-- the columns of a table, wherever the migration is -/
theorem Mid.columns (h : Mid c f t N w d) {n : Str} {s : Table} (hs : d.get? n = some s) :
    (∃ a, f.get? n = some a ∧ s.columns.keys = a.columns.keys) ∨ ∃ b, t.get? n = some b ∧ ∀ x, x ∈ s.columns.keys ↔ x ∈ b.columns.keys := by
  rcases h.view hs with ⟨a, ha, h1, _⟩ | ⟨a, b, ha, hb, h1, _⟩ | ⟨b, _, hb, h1, _⟩
  · exact .inl ⟨a, ha, by rw [h1]⟩
  · refine .inr ⟨b, hb, fun x => ?_⟩
    rw [h1]
    exact (h.setup.cols n a b ha hb).names x
  · exact .inr ⟨b, hb, fun x => by rw [h1]⟩

theorem Mid.there (h : Mid c f t N w d) {n : Str} {s : Table} (hs : d.get? n = some s) : f.get? n ≠ none ∨ t.get? n ≠ none := by
  rcases h.view hs with ⟨a, ha, _⟩ | ⟨a, b, ha, _⟩ | ⟨b, _, hb, _⟩
  · exact .inl (by simp [ha])
  · exact .inl (by simp [ha])
  · exact .inr (by simp [hb])

/-- a table which is there and declared stays -/
theorem Mid.stays (h : Mid c f t N w d) {n : Str} (hf : n ∈ f.keys) (ht : n ∈ t.keys) : n ∈ d.keys := by
  obtain ⟨a, ha⟩ := Dict.exists_get? hf
  obtain ⟨b, hb⟩ := Dict.exists_get? ht
  have := h.get n
  simp only [tabsAt, ha, hb] at this
  cases hd : d.get? n with
  | none => rw [hd] at this; cases this
  | some s => exact Dict.mem_keys_of_get? hd

theorem Mid.named (h : Mid c f t N w d) (hf : ∀ x ∈ f.values, x.Named) (ht : ∀ x ∈ t.values, x.Sound) : ∀ x ∈ d.values, x.Named := by
  intro s hsv
  have hs := get?_own_name h.keyed hsv
  have ks := h.keyedTable hs
  have hft : ∀ a, f.get? s.name = some a → a.Named ∧ a.name = s.name := fun a ha =>
    ⟨hf a (values_of_get? ha), h.setup.src.name _ _ (Dict.mem_of_get? ha)⟩
  have htt : ∀ b, t.get? s.name = some b → b.Sound ∧ b.name = s.name := fun b hb =>
    ⟨ht b (values_of_get? hb), h.setup.tgt.name _ _ (Dict.mem_of_get? hb)⟩
  have hcol : ∀ x ∈ s.columns.keys, Ident x := by
    intro x hx
    rcases h.columns hs with ⟨a, ha, he⟩ | ⟨b, hb, he⟩
    · rw [he] at hx
      obtain ⟨u, hu⟩ := Dict.exists_get? hx
      have := (hft a ha).1.columns u (values_of_get? hu)
      rwa [(h.setup.src.keyedTable ha).colName _ _ (Dict.mem_of_get? hu)] at this
    · obtain ⟨u, hu⟩ := Dict.exists_get? ((he x).mp hx)
      have := ((htt b hb).1.columns u (values_of_get? hu)).1.plain.name
      rwa [(h.setup.tgt.keyedTable hb).colName _ _ (Dict.mem_of_get? hu)] at this
  refine ⟨?_, ?_, ?_, ?_⟩
  · rcases h.there hs with h1 | h1
    · obtain ⟨a, ha⟩ := Option.ne_none_iff_exists'.mp h1
      rw [← (hft a ha).2]; exact (hft a ha).1.name
    · obtain ⟨b, hb⟩ := Option.ne_none_iff_exists'.mp h1
      rw [← (htt b hb).2]; exact (htt b hb).1.name
  · intro u hu
    obtain ⟨k, hk⟩ := Dict.mem_values.mp hu
    rw [ks.colName _ _ hk]
    exact hcol k (Dict.mem_keys_of_get? (Dict.get?_of_mem ks.colNodup hk))
  · intro i hi
    rcases h.view hs with ⟨a, ha, _, h2, _⟩ | ⟨a, b, ha, hb, _, h2, _⟩ | ⟨b, _, hb, _, h2, _⟩
    · rw [h2] at hi
      exact (hft a ha).1.indexes i hi
    · rw [h2] at hi
      obtain ⟨x, hx⟩ := mem_named hi
      rcases (mem_finalKeys (h.setup.src.keyedTable ha) (h.setup.tgt.keyedTable hb) hx).2 with ⟨h3, _⟩ | ⟨h3, _⟩
      · exact (hft a ha).1.indexes i (values_of_get? h3)
      · exact (htt b hb).1.indexes i (values_of_get? h3)
    · rw [h2] at hi
      exact (htt b hb).1.indexes i hi
  · intro k hk
    rcases h.fk hs hk with ⟨⟨a, ha, hka⟩, _⟩ | ⟨⟨b, k', hb, hkb, e1, e2, e3, e4, e5, e6⟩, _⟩
    · exact (hft a ha).1.constraints k (values_of_get? hka)
    · have hp := (htt b hb).1.constraints k' (values_of_get? hkb)
      exact ⟨e1 ▸ hp.name, e2 ▸ hp.column, e3 ▸ hp.ftable, e4 ▸ hp.fcolumn, e5 ▸ hp.onDelete, e6 ▸ hp.onUpdate⟩

/-- wherever a migration is, it can be made again -/
theorem Mid.migratable (h : Mid c f t N w d) (hm : Migratable c f t) : Migratable false d t where
  source := h.accepted
  target := hm.target
  untroubled := h.untroubled
  named := h.named hm.named hm.sound
  sound := hm.sound
  tables := by
    intro n hn hnt
    obtain ⟨s, hs⟩ := Dict.exists_get? hn
    rcases h.there hs with h1 | h1
    · obtain ⟨a, ha⟩ := Option.ne_none_iff_exists'.mp h1
      exact hm.tables n (Dict.mem_keys_of_get? ha) hnt
    · obtain ⟨b, hb⟩ := Option.ne_none_iff_exists'.mp h1
      exact absurd (Dict.mem_keys_of_get? hb) hnt
  columns := by
    intro n s b hs hb x hx hxb
    rcases h.columns hs with ⟨a, ha, he⟩ | ⟨b', hb', he⟩
    · exact hm.columns n a b ha hb x (he ▸ hx) hxb
    · rw [hb] at hb'
      cases hb'
      exact absurd ((he x).mp hx) hxb

theorem Mid.rowsFit (h : Mid c f t N w d) (hr : RowsFit f t) : RowsFit d t where
  id := hr.id
  columns := hr.columns
  idLive := by
    intro b hb htt s hs
    have hbn := get?_own_name h.setup.tgt.toKeyedTables hb
    rcases h.columns hs with ⟨a, ha, he⟩ | ⟨b', hb', he⟩
    · rw [he]
      exact hr.idLive b hb htt a ha
    · rw [hbn] at hb'
      cases hb'
      exact (he _).mpr (hr.id b hb htt)

end

end Mygrations

import Verif.Spec.Tables
import Verif.Proofs.Dict

/-! # Deciding the table conditions, for concrete examples -/

namespace Mygrations
namespace Table

/-- decides `Table.Keyed` -/
def keyedB (t : Table) : Bool :=
  decide t.columns.keys.Nodup && t.columns.all (fun e => e.2.name == e.1) &&
  decide t.indexes.keys.Nodup && t.indexes.all (fun e => e.2.name == e.1) &&
  decide t.constraints.keys.Nodup && t.constraints.all (fun e => e.2.name == e.1)

theorem keyed_of_check {t : Table} (h : t.keyedB = true) : t.Keyed := by
  simp only [keyedB, Bool.and_eq_true, decide_eq_true_eq, List.all_eq_true, beq_iff_eq] at h
  obtain ⟨⟨⟨⟨⟨h1, h2⟩, h3⟩, h4⟩, h5⟩, h6⟩ := h
  exact ⟨h1, fun k c hc => h2 _ hc, h3, fun k c hc => h4 _ hc, h5, fun k c hc => h6 _ hc⟩

/-- decides `Table.Valid` -/
def validB (t : Table) : Bool :=
  decide t.columns.keys.Nodup && t.columns.all (fun e => e.2.name == e.1) &&
  decide t.indexes.keys.Nodup && t.indexes.all (fun e => e.2.name == e.1) &&
  decide t.constraints.keys.Nodup && t.constraints.all (fun e => e.2.name == e.1) &&
  !t.columns.isEmpty &&
  t.indexes.values.all (fun i => t.indexes.values.all (fun j => !(i.isPrimary && j.isPrimary) || i == j)) &&
  t.indexes.values.all (fun i => i.isPrimary || i.name != py"PRIMARY") &&
  t.indexes.values.all (fun i => !i.columns.isEmpty && i.columns.all t.columns.has) &&
  t.constraints.values.all (fun k => t.columns.has k.column)

theorem valid_of_check {t : Table} (h : t.validB = true) : t.Valid := by
  simp only [validB, Bool.and_eq_true, decide_eq_true_eq, List.all_eq_true, beq_iff_eq,
    List.isEmpty_eq_false_iff, Bool.or_eq_true, Bool.and_eq_false_iff, bne_iff_ne, Dict.has_iff, Bool.not_eq_eq_eq_not, Bool.not_true] at h
  obtain ⟨⟨⟨⟨⟨⟨⟨⟨⟨⟨h1, h2⟩, h3⟩, h4⟩, h5⟩, h6⟩, h7⟩, h8⟩, h9⟩, h10⟩, h11⟩ := h
  refine ⟨⟨h1, fun k c hc => h2 _ hc, h3, fun k c hc => h4 _ hc, h5, fun k c hc => h6 _ hc⟩, h7, ?_, ?_, h10, h11⟩
  · intro i j hi hj pi pj
    rcases h8 i hi j hj with h | h
    · rcases h with h | h
      · simp [pi] at h
      · simp [pj] at h
    · exact h
  · intro i hi hp
    rcases h9 i hi with h | h
    · simp [hp] at h
    · exact h

/-- decides `Table.Plain` -/
def plainB (t : Table) : Bool :=
  t.indexes.values.all (fun i => !i.name.contains '`' && i.columns.all (fun c => !c.contains '`')) &&
  t.constraints.values.all (fun k => !k.name.contains '`' && !k.column.contains '`' && !k.ftable.contains '`' && !k.fcolumn.contains '`')

theorem plain_of_check {t : Table} (h : t.plainB = true) : t.Plain := by
  simp only [plainB, Bool.and_eq_true, List.all_eq_true, Bool.not_eq_true', List.contains_eq_mem, decide_eq_false_iff_not] at h
  exact ⟨h.1, fun k hk => let ⟨⟨⟨a, b⟩, c⟩, d⟩ := h.2 k hk; ⟨a, b, c, d⟩⟩

/-- decides `PrimaryKept` -/
def primaryKeptB (s t : Table) : Bool :=
  s.indexes.all (fun e => !e.2.isPrimary || e.1 == py"PRIMARY" ||
    match t.indexes.get? e.1 with
    | none => true
    | some b => b.isPrimary && e.2.columns == b.columns)

theorem primaryKept_of_check {s t : Table} (h : primaryKeptB s t = true) : PrimaryKept s t := by
  intro k a b ha hb pa
  simp only [primaryKeptB, List.all_eq_true] at h
  have := h _ (Dict.mem_of_get? ha)
  simpa [pa, hb] using this

end Table
end Mygrations

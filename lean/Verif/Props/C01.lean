import Verif.Model.Mygration
import Verif.Proofs.Dict
import Verif.Props.Examples

/-! # C01: diffing a table against itself yields nothing -/

namespace Mygrations
open Table

theorem changedColumnOps_self [PyNum] (t : Table) (ks : List Str) (h : ∀ k ∈ ks, k ∈ t.columns.keys) :
    changedColumnOps t t ks = .ok [] := by
  induction ks with
  | nil => rfl
  | cons k ks ih =>
    obtain ⟨c, hc⟩ := Dict.exists_get? (h k (List.mem_cons_self))
    simp only [changedColumnOps, hc, if_true]
    exact ih (fun j hj => h j (List.mem_cons_of_mem _ hj))

theorem keyOps_self (t : Table) : keyOps t t = [] := by
  simp only [keyOps, added_self, removed_self, List.filter_nil, List.filterMap_nil, List.nil_append]
  rw [List.filterMap_eq_nil_iff]
  intro k _
  cases t.indexes.get? k <;> simp

theorem changedConstraints_self (t : Table) : changedConstraints t t = [] := by
  simp only [changedConstraints]
  rw [List.filter_eq_nil_iff]
  intro k _
  cases t.constraints.get? k <;> simp

/-- **C01** (split form).  `table.to(table, True)` is the empty dict. -/
theorem C01_split [PyNum] (t : Table) : t.toSplit t = .ok ⟨[], [], []⟩ := by
  simp only [toSplit, added_self, addedColumnOps]
  rw [changedColumnOps_self t _ (fun k hk => (mem_overlap.mp hk).1)]
  simp [removed_self, removedColumnOps, keyOps_self, removedFkOps, addedFkOps, changedConstraints_self, added_self]

/-- **C01**.  `table.to(table)` is the empty list, for every table. -/
theorem C01 [PyNum] (t : Table) : t.to t = .ok [] := by
  simp [to, C01_split, alterIf]

/-- a table with columns, keys and foreign keys -/
example : @to exactNum Examples.posts Examples.posts = .ok [] := @C01 exactNum Examples.posts

/-- and `to` is not constantly empty -/
example : @to exactNum Examples.posts Examples.posts' ≠ .ok [] := by decide

end Mygrations

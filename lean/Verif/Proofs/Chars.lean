import Verif.Py.Basic

/-! # Facts about characters -/

namespace Mygrations

theorem toUpper_range (x : Char) : x.toUpper = x ∨ (65 ≤ x.toUpper.toNat ∧ x.toUpper.toNat ≤ 90) := by
  unfold Char.toUpper
  split
  · rename_i h
    right
    simp only [Char.toNat]
    have h1 := UInt32.le_iff_toNat_le.mp h.1
    have h2 := UInt32.le_iff_toNat_le.mp h.2
    simp at h1 h2
    rw [UInt32.toNat_add]
    simp
    omega
  · simp
theorem toLower_range (x : Char) : x.toLower = x ∨ (97 ≤ x.toLower.toNat ∧ x.toLower.toNat ≤ 122) := by
  unfold Char.toLower
  split
  · rename_i h
    right
    simp only [Char.toNat]
    have h1 := UInt32.le_iff_toNat_le.mp h.1
    have h2 := UInt32.le_iff_toNat_le.mp h.2
    simp at h1 h2
    rw [UInt32.toNat_add]
    simp
    omega
  · simp

theorem toUpper_eq {x c : Char} (hc : c.toNat < 65 ∨ 90 < c.toNat) (h : x.toUpper = c) : x = c := by
  rcases toUpper_range x with e | e
  · rw [← h, e]
  · rw [h] at e; omega

theorem toLower_eq {x c : Char} (hc : c.toNat < 97 ∨ 122 < c.toNat) (h : x.toLower = c) : x = c := by
  rcases toLower_range x with e | e
  · rw [← h, e]
  · rw [h] at e; omega

end Mygrations

import Mathlib.Tactic.Ring
import Mathlib.Tactic.Linarith

/-!
One dimension of the decomposition: extent `a` of the array, requested extent `p` of the partitions.
-/
namespace Lue.Decomposition.Dim

/-- Extent of partition `k`. -/
def extent (a p k : Nat) : Nat := if k = a / p - 1 then p + a - a / p * p else p

/-- Partition containing cell `i`. -/
def locate (a p i : Nat) : Nat := min (i / p) (a / p - 1)

variable {a p : Nat}

theorem nr_pos (hp : 0 < p) (hpa : p ≤ a) : 0 < a / p := Nat.div_pos hpa hp

theorem nr_mul_le : a / p * p ≤ a := Nat.div_mul_le_self a p

theorem lt_nr_succ_mul (hp : 0 < p) : a < a / p * p + p := by
  have := Nat.lt_div_mul_add (a := a) hp
  omega

theorem extent_ge (hp : 0 < p) (k : Nat) : p ≤ extent a p k := by
  unfold extent; have := @nr_mul_le a p; split <;> omega

theorem extent_lt (hp : 0 < p) (k : Nat) : extent a p k < 2 * p := by
  unfold extent; have := lt_nr_succ_mul (a := a) hp; split <;> omega

theorem extent_pos (hp : 0 < p) (k : Nat) : 0 < extent a p k := lt_of_lt_of_le hp (extent_ge hp k)

/-- End of partition `k`. -/
theorem offset_add_extent (hp : 0 < p) (hpa : p ≤ a) {k : Nat} (hk : k < a / p) :
    k * p + extent a p k = if k = a / p - 1 then a else (k + 1) * p := by
  unfold extent
  have h1 := @nr_mul_le a p
  split
  · rename_i h
    have : (k + 1) = a / p := by omega
    have h2 : k * p + p = a / p * p := by rw [← this]; ring
    omega
  · ring

theorem offset_add_extent_le (hp : 0 < p) (hpa : p ≤ a) {k : Nat} (hk : k < a / p) :
    k * p + extent a p k ≤ a := by
  rw [offset_add_extent hp hpa hk]
  split
  · exact le_refl _
  · have : (k + 1) * p ≤ a / p * p := Nat.mul_le_mul_right _ hk
    have := @nr_mul_le a p
    omega

theorem locate_lt (hp : 0 < p) (hpa : p ≤ a) (i : Nat) : locate a p i < a / p := by
  have := nr_pos hp hpa; unfold locate; omega

theorem locate_mul_le (i : Nat) : locate a p i * p ≤ i := by
  have h1 : locate a p i ≤ i / p := by unfold locate; omega
  calc locate a p i * p ≤ i / p * p := Nat.mul_le_mul_right _ h1
    _ ≤ i := Nat.div_mul_le_self i p

theorem lt_locate_end (hp : 0 < p) (hpa : p ≤ a) {i : Nat} (hi : i < a) :
    i < locate a p i * p + extent a p (locate a p i) := by
  rw [offset_add_extent hp hpa (locate_lt hp hpa i)]
  split
  · exact hi
  · rename_i h
    have : locate a p i = i / p := by unfold locate at *; omega
    rw [this]
    have := Nat.lt_div_mul_add (a := i) hp
    rw [Nat.add_mul]; omega

theorem locate_unique (hp : 0 < p) (hpa : p ≤ a) {k l : Nat} (hk : k < a / p) (hl : l < extent a p k) :
    locate a p (k * p + l) = k := by
  unfold locate
  have e : (k * p + l) / p = k + l / p := by
    rw [Nat.add_comm, Nat.add_mul_div_right _ _ hp, Nat.add_comm]
  rw [e]
  unfold extent at hl
  split at hl
  · rename_i h
    rw [← h]; exact Nat.min_eq_right (Nat.le_add_right _ _)
  · rw [Nat.div_eq_of_lt hl]; omega

theorem decompose_lt (hp : 0 < p) (hpa : p ≤ a) {k l : Nat} (hk : k < a / p) (hl : l < extent a p k) :
    k * p + l < a := by
  have := offset_add_extent_le hp hpa hk
  omega

/-- A partition index is the last one or its extent is the requested one. -/
theorem extent_of_not_last {k : Nat} (h : k + 1 < a / p) : extent a p k = p := by
  unfold extent; rw [if_neg (by omega)]

end Lue.Decomposition.Dim

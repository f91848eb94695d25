import Verif.NoData.Properties
import Verif.FocalRounding.Examples

/-! C80: concrete cases which meet the hypotheses of the theorems, and cases in which no-data is not handled as documented. -/
namespace Lue.NoData

open Lue.Focal Lue.FocalStats

/-- No-data is marked by -9. -/
def nine (y : Int) : Bool := decide (y = -9)

/-- A valid value in the first cell, no-data in all others -/
def lonely (i j : Nat) : Int := if i = 0 ∧ j = 0 then 5 else -9

/-- A partition of 3 × 4 cells, and a kernel -/
example : Represents (store ⟨3, 4, 3, 4⟩ lonely) lonely ∧ LargeEnough ⟨3, 4, 3, 4⟩ (2 * 1 + 1) ∧ IsOrder 1 [0] ∧
    IsKernel (boxKernel 1 true) 1 (fun _ _ => true) ∧ nine (-9) = true :=
  ⟨store_represents ⟨by decide, by decide, by decide, by decide⟩ _,
    largeEnough ⟨by decide, by decide, by decide, by decide⟩ _ (by decide), List.Perm.refl _, boxKernel_spec 1 true, rfl⟩

/-- Valid cells see themselves and neighbouring cells do too, cells further away do not. -/
example : SeesValid nine (fun _ _ => True) 1 3 4 lonely 0 0 ∧ SeesValid nine (fun _ _ => True) 1 3 4 lonely 1 1 ∧
    ¬ SeesValid nine (fun _ _ => True) 1 3 4 lonely 0 2 := by
  refine ⟨⟨0, 0, by decide, by decide, by decide, by decide, trivial, by decide⟩,
    ⟨0, 0, by decide, by decide, by decide, by decide, trivial, by decide⟩, ?_⟩
  rintro ⟨i, j, h1, h2, h3, h4, _, h5⟩
  have : lonely i j = -9 := by unfold lonely; rw [if_neg]; omega
  rw [this] at h5
  cases h5

/-- `focal_minimum` -/
example : ((focal1 (noDataHalo (-9)) (fun _ => 0) (fun _ => 0) (boxKernel 1 true).radius
      (focalMinimum nine (boxKernel 1 1) 0 (-9)) [0] (store ⟨3, 4, 3, 4⟩ lonely)).map (·.parts)).toOption =
    some [[5, 5, -9, -9, 5, 5, -9, -9, -9, -9, -9, -9]] := by decide +kernel

/-- C80 (finding): a valid value is found in all neighbourhoods of all cells, but the result of `focal_high_pass` in the
cell which contains that value is no-data. -/
theorem highPass_lonely : SeesValid nine (fun _ _ => True) 1 3 4 lonely 0 0 ∧
    ((focal1 (noDataHalo (-9)) (fun _ => 0) (fun _ => 0) (boxKernel 1 true).radius
      (focalHighPass nine (boxKernel 1 1) (-9)) [0] (store ⟨3, 4, 3, 4⟩ lonely)).map fun o => (o.parts.map List.head?)).toOption =
      some [some (-9)] :=
  ⟨⟨0, 0, by decide, by decide, by decide, by decide, trivial, by decide⟩, by decide +kernel⟩

/-- C80 (finding): if a sum of valid values happens to equal the number which marks no-data, the result of `focal_sum` is
no-data, although all values in the neighbourhood are valid. -/
theorem sum_marked : (∀ i j, nine (-1) = false ∧ (fun (_ _ : Nat) => (-1 : Int)) i j = -1) ∧
    ((focal1 (noDataHalo (-9)) (fun _ => 0) (fun _ => 0) (boxKernel 1 true).radius
      (focalSum nine (boxKernel 1 1) (-9)) [0] (store ⟨3, 3, 3, 3⟩ fun _ _ => -1)).map (·.parts)).toOption =
      some [[-4, -6, -4, -6, -9, -6, -4, -6, -4]] :=
  ⟨fun _ _ => ⟨rfl, rfl⟩, by decide +kernel⟩

/-- Counts of at most nine cells are less than the largest 8 bit number. -/
example : (2 * 1 + 1) * (2 * 1 + 1) < 255 := by decide

/-- Numbers which are not negative -/
example : ∀ i j, lonely i j = -9 ∨ 0 ≤ lonely i j := by
  intro i j
  unfold lonely
  split
  · exact .inr (by decide)
  · exact .inl rfl

/-- The largest 8 bit number is not a flow direction. -/
example : (255 : Nat) ∉ [1, 2, 3, 4, 5, 6, 7, 8, 9] := by decide

/-- A flow direction array with two cells: the first one drains into the second one. -/
example : Routing.Drains 1 2 (fun _ j => if j = 0 then 6 else 5) (0, 0) (0, 1) := by
  refine ⟨by decide, by decide, by decide, by decide, (0, 1), rfl, ?_, ?_⟩ <;> rfl

open FloatOps FocalRounding in
/-- Floating point numbers: the array of the examples of C78 -/
example : SeesValid isNaN (used fun _ _ => 1) 1 3 6 exField 0 0 :=
  ⟨0, 1, by decide, by decide, by decide, by decide, by decide, rfl⟩

end Lue.NoData

import Verif.FocalRounding.Model
import Verif.MassBalance.Spec

/-! C78: what the results of focal operations on floating point numbers must be. -/
namespace Lue.FocalRounding

open Lue.FloatOps Lue.Rounding

/-- The cells of an array which are within reach of a kernel with radius `r` around cell (`i`, `j`) -/
def windowCells (g : Grid) (r i j : Nat) : List (Nat × Nat) :=
  (cellIdxs g.a0 g.a1).filter fun c => i ≤ c.1 + r ∧ c.1 ≤ i + r ∧ j ≤ c.2 + r ∧ c.2 ≤ j + r

/-- The weight of cell `c` -/
def weight {W : Type} (wt : Nat → Nat → W) (r i j : Nat) (c : Nat × Nat) : W := wt (c.1 + r - i) (c.2 + r - j)

section
variable {W : Type} [DecidableEq W] [Zero W]

/-- The numbers in the cells around a cell which have a weight -/
noncomputable def windowNumbers (g : Grid) (v : Arr Fl) (wt : Nat → Nat → W) (r i j : Nat) : List ℝ :=
  ((windowCells g r i j).filter fun c => weight wt r i j c ≠ 0).filterMap fun c => number (v c.1 c.2)

/-- Same, without the number in the cell itself -/
noncomputable def neighbourNumbers (g : Grid) (v : Arr Fl) (wt : Nat → Nat → W) (r i j : Nat) : List ℝ :=
  ((windowCells g r i j).filter fun c => c ≠ (i, j) ∧ weight wt r i j c ≠ 0).filterMap fun c => number (v c.1 c.2)

end

/-- The weighted numbers in the cells around a cell -/
noncomputable def weightedNumbers (g : Grid) (v : Arr Fl) (wt : Nat → Nat → ℝ) (r i j : Nat) : List ℝ :=
  (windowCells g r i j).filterMap fun c => (number (v c.1 c.2)).map fun y => weight wt r i j c * y

/-- Numbers which can be multiplied and then added without a result becoming too large -/
def FitsProducts (L : Lib) (u η : ℝ) (xs : List ℝ) : Prop :=
  (1 + u) ^ xs.length * magnitude xs + xs.length * (1 + u) ^ (xs.length - 1) * η ≤ L.big

/-- `r` is the sum of products, apart from the accumulated effect of rounding the products and the sums. -/
def IsSumOfProducts (u η : ℝ) (xs : List ℝ) (r : Fl) : Prop :=
  ∃ v, r = .fin v ∧ |v - xs.sum| ≤ ((1 + u) ^ xs.length - 1) * magnitude xs + xs.length * (1 + u) ^ (xs.length - 1) * η

/-- A bound for the magnitude of what is computed by a high pass filter -/
noncomputable def highPassMagnitude (y : ℝ) (xs : List ℝ) : ℝ := 2 * |y| * xs.length + magnitude xs

/-- The effect of very small products being rounded -/
noncomputable def highPassSmall (u η : ℝ) (xs : List ℝ) : ℝ := (1 + u) * (1 + (1 + u) * xs.length) * η

/-- Numbers for which the results are not too large -/
def FitsHighPass (L : Lib) (u η y : ℝ) (xs : List ℝ) : Prop :=
  (1 + u) ^ max 3 xs.length * highPassMagnitude y xs + highPassSmall u η xs ≤ L.big

/-- `r` is twice the number in the cell, times the number of neighbours, minus the sum of the neighbours, apart from the
effect of rounding. -/
def IsHighPass (u η y : ℝ) (xs : List ℝ) (r : Fl) : Prop :=
  ∃ v, r = .fin v ∧ |v - (2 * y * xs.length - xs.sum)| ≤
    ((1 + u) ^ max 3 xs.length - 1) * highPassMagnitude y xs + highPassSmall u η xs

end Lue.FocalRounding

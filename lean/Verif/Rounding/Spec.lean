import Verif.Rounding.Model
import Verif.FloatOps.Spec
import Verif.Accu.Spec

/-! C76: what the results of operations which add up numbers must be. -/
namespace Lue.Rounding

open Lue.FloatOps

/-- Numbers are added and divided as accurately as possible (IEEE 754): the relative error of a sum is at most `u`, and
that of a quotient also, unless it is very small (`η`). Numbers which can be represented are not rounded. For type
`double` rounding to nearest, `u` is `2⁻⁵³` and `η` is `2⁻¹⁰⁷⁵`. -/
structure Accurate (L : Lib) (u η : ℝ) : Prop where
  u_nonneg : 0 ≤ u
  η_nonneg : 0 ≤ η
  exact : ∀ y, L.Rep y → L.round .add y = .fin y
  add : ∀ a b s, L.Rep a → L.Rep b → L.round .add (a + b) = .fin s → |s - (a + b)| ≤ u * |a + b|
  divide : ∀ a b s, L.Rep a → L.Rep b → b ≠ 0 → L.round .divide (a / b) = .fin s → |s - a / b| ≤ u * |a / b| + η

/-- The sum of the magnitudes of numbers -/
def magnitude (xs : List ℝ) : ℝ := (xs.map fun x => |x|).sum

/-- Numbers which can be added without a result becoming too large for the type, in any order -/
def Fits (L : Lib) (u : ℝ) (xs : List ℝ) : Prop := (1 + u) ^ (xs.length - 1) * magnitude xs ≤ L.big

/-- `r` is the sum of numbers, apart from the accumulated effect of rounding the results of `n - 1` additions of `n`
numbers. -/
def IsSum (u : ℝ) (xs : List ℝ) (r : Fl) : Prop :=
  ∃ v, r = .fin v ∧ |v - xs.sum| ≤ ((1 + u) ^ (xs.length - 1) - 1) * magnitude xs

/-- `r` is the mean of numbers, apart from the accumulated effect of rounding. -/
def IsMean (u η : ℝ) (xs : List ℝ) (r : Fl) : Prop :=
  ∃ v, r = .fin v ∧ |v - xs.sum / xs.length| ≤ ((1 + u) ^ xs.length - 1) * (magnitude xs / xs.length) + η

/-- Whichever of the numbers are added, the result can be represented. For example, whole numbers whose magnitudes add up
to less than `2⁵³`. -/
def ExactlyAdded (L : Lib) (xs : List ℝ) : Prop := ∀ ys : List ℝ, ys.Subperm xs → L.Rep ys.sum

/-- The numbers in an array -/
noncomputable def numbers (g : Grid) (v : Arr Fl) : List ℝ := (cellIdxs g.a0 g.a1).filterMap fun c => number (v c.1 c.2)

/-- The numbers in the cells in a zone -/
noncomputable def zoneNumbers {Z : Type} [DecidableEq Z] (g : Grid) (v : Arr Fl) (w : Arr Z) (z : Z) : List ℝ :=
  ((cellIdxs g.a0 g.a1).filter fun c => decide (w c.1 c.2 = z)).filterMap fun c => number (v c.1 c.2)

open Lue.Routing Lue.Accu

/-- The amounts entering the cells in the catchment of a cell -/
noncomputable def catchmentNumbers (a0 a1 : Nat) (fd : Arr Nat) (x : Cell → ℝ) (c : Cell) : List ℝ :=
  (catchment a0 a1 fd c).toList.map x

/-- Less than zero -/
def Negative (x : Fl) : Prop := x = .inf true ∨ ∃ r, x = .fin r ∧ r < 0

/-- A cell whose flow direction or inflow is no-data, or whose inflow is negative -/
def Unusable (isNoDataFd : Nat → Bool) (v : Arr Nat) (f : Arr (Option Fl)) (c : Cell) : Prop :=
  isNoDataFd (v c.1 c.2) = true ∨ f c.1 c.2 = none ∨ ∃ a, f c.1 c.2 = some a ∧ Negative a

end Lue.Rounding

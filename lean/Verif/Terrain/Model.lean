import Verif.FocalStats.Model
import Verif.LocalOp.Model
import Mathlib.Analysis.SpecialFunctions.Pow.Real
import Mathlib.Analysis.SpecialFunctions.Trigonometric.Arctan

/-!
C39: gradients, slope and aspect of an elevation surface.
`A` below is `source/framework/algorithm/include/lue/framework/algorithm`.

Simplifications: floating point numbers are real numbers, computed without rounding and overflow, or NaN, which is no-data.
-/
namespace Lue.Terrain

open Lue.Focal Lue.FocalStats Lue.LocalOp

/-- A floating point number -/
inductive Fl where
  | nan
  | num (x : ℝ)

noncomputable section

/-- Arithmetic propagates NaN. -/
def Fl.op (f : ℝ → ℝ → ℝ) : Fl → Fl → Fl
  | .num x, .num y => .num (f x y)
  | _, _ => .nan

instance : Zero Fl := ⟨.num 0⟩
instance : Add Fl := ⟨Fl.op (· + ·)⟩
instance : Mul Fl := ⟨Fl.op (· * ·)⟩

/-- `DetectNoDataByNaN::is_no_data`, `A/policy/detect_no_data_by_nan.hpp` -/
def isNaN : Fl → Bool
  | .nan => true
  | .num _ => false

/-- The value in a floating point number which is not NaN. -/
def Fl.get : Fl → ℝ
  | .nan => 0
  | .num x => x

/-- The halo, filled with the no-data value: `A/value_policies/convolve.hpp:24-28` -/
def nanHalo : Halo Fl := ⟨.nan, .nan, .nan, .nan, .nan, .nan, .nan, .nan⟩

/-- `dz_dx_kernel`: `A/definition/gradients.hpp:29-41` -/
def dzDxKernel : Kernel Fl := ⟨3, [.num (-1), .num 0, .num 1, .num (-2), .num 0, .num 2, .num (-1), .num 0, .num 1]⟩

/-- `dz_dy_kernel`: `A/definition/gradients.hpp:43-55` -/
def dzDyKernel : Kernel Fl := ⟨3, [.num (-1), .num (-2), .num (-1), .num 0, .num 0, .num 0, .num 1, .num 2, .num 1]⟩

open Classical in
/-- `DividePolicies`: `A/definition/gradients.hpp:62-69`, `A/divide.hpp:33-46` -/
def dividePolicies : Policies2 Fl Fl Fl where
  indp1 := isNaN
  indp2 := isNaN
  dp := fun _ y => decide (y ≠ .num 0)
  rp := fun _ _ _ => true
  mark := .nan

/-- Orders in which the tasks of an operation on arrays complete, and the initial contents of memory -/
structure Exec where
  order : List Nat
  garbage : Nat → Fl

/-- `gradients`: `A/definition/gradients.hpp:13-79` -/
def gradients (e1 e2 e3 e4 : Exec) (elevation : PArr Fl) (cellSize : Fl) : M (PArr Fl × PArr Fl) := do
  let x ← focal1 nanHalo e1.garbage e1.garbage dzDxKernel.radius (convolve isNaN dzDxKernel .nan) e1.order elevation
  let dzDx ← binaryArrayAS dividePolicies (Fl.op (· / ·)) e2.garbage e2.order x (.num 8 * cellSize)
  let y ← focal1 nanHalo e3.garbage e3.garbage dzDyKernel.radius (convolve isNaN dzDyKernel .nan) e3.order elevation
  let dzDy ← binaryArrayAS dividePolicies (Fl.op (· / ·)) e4.garbage e4.order y (.num 8 * cellSize)
  return (dzDx, dzDy)

/-- `PowPolicies`: `A/definition/slope.hpp:20-25`. The exponent is not tested for no-data. -/
def powPolicies : Policies2 Fl Fl Fl where
  indp1 := isNaN
  indp2 := fun _ => false
  dp := fun _ _ => true
  rp := fun _ _ _ => true
  mark := .nan

/-- `AddPolicies`: `A/definition/slope.hpp:26-31` -/
def addPolicies : Policies2 Fl Fl Fl where
  indp1 := isNaN
  indp2 := isNaN
  dp := fun _ _ => true
  rp := fun _ _ _ => true
  mark := .nan

open Classical in
/-- `SqrtPolicies`: `A/definition/slope.hpp:32-38`, `A/sqrt.hpp:30-42` -/
def sqrtPolicies : Policies1 Fl Fl where
  indp := isNaN
  dp := fun x => decide (0 ≤ x.get)
  rp := fun _ _ => true
  mark := .nan

/-- `std::sqrt` -/
def Fl.sqrt : Fl → Fl
  | .nan => .nan
  | .num x => .num (Real.sqrt x)

/-- `slope(policies, gradients)`: `A/definition/slope.hpp:12-50` -/
def slopeOfGradients (e1 e2 e3 e4 : Exec) (dzDx dzDy : PArr Fl) : M (PArr Fl) := do
  let x2 ← binaryArrayAS powPolicies (Fl.op (· ^ ·)) e1.garbage e1.order dzDx (.num 2)
  let y2 ← binaryArrayAS powPolicies (Fl.op (· ^ ·)) e2.garbage e2.order dzDy (.num 2)
  let sum ← binaryArray addPolicies (Fl.op (· + ·)) e3.garbage e3.order x2 y2
  unaryArray sqrtPolicies Fl.sqrt e4.garbage e4.order sum

/-- `slope(policies, elevation, cell_size)`: `A/definition/slope.hpp:104-110` -/
def slope (e : Fin 8 → Exec) (elevation : PArr Fl) (cellSize : Fl) : M (PArr Fl) := do
  let (dzDx, dzDy) ← gradients (e 0) (e 1) (e 2) (e 3) elevation cellSize
  slopeOfGradients (e 4) (e 5) (e 6) (e 7) dzDx dzDy

open Classical in
/-- `Aspect::operator()`, for numbers: `A/definition/aspect.hpp:24-64` -/
def aspectAngle (gx gy : ℝ) : ℝ :=
  if gx = 0 then
    if gy < 0 then 0
    else if gy > 0 then Real.pi
    else 0
  else if gy = 0 then
    if gx < 0 then Real.pi + Real.pi / 2
    else if gx > 0 then Real.pi / 2
    else 0
  else Real.arctan (gx / gy) + (if gx < 0 then Real.pi + Real.pi / 2 else Real.pi / 2)

/-- `AspectPolicies`: `A/definition/aspect.hpp:76-83` -/
def aspectPolicies : Policies2 Fl Fl Fl where
  indp1 := isNaN
  indp2 := isNaN
  dp := fun _ _ => true
  rp := fun _ _ _ => true
  mark := .nan

/-- `aspect(policies, elevation)`: `A/definition/aspect.hpp:70-103`. The cell size used is 1. -/
def aspect (e : Fin 5 → Exec) (elevation : PArr Fl) : M (PArr Fl) := do
  let (dzDx, dzDy) ← gradients (e 0) (e 1) (e 2) (e 3) elevation (.num 1)
  binaryArray aspectPolicies (Fl.op aspectAngle) (e 4).garbage (e 4).order dzDx dzDy

end

end Lue.Terrain

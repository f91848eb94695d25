import Verif.FloatOps.Model
import Verif.FocalStats.Model

/-!
C78: focal operations which add up the values of cells, for elements of floating point types.
`A` below is `source/framework/algorithm/include/lue/framework/algorithm`.

The models of the functors (C16) and of focal operations (C14) are generic in the type of the elements. Here they are used
with the floating point numbers of C58, in which the results of operations are rounded.
-/
namespace Lue.FocalRounding

open Lue.FloatOps Lue.Focal Lue.FocalStats

variable {W : Type} [DecidableEq W] [Zero W]

/-- The values of the cells surrounding the array: `Policies{fill_value}`, with `no_data_value<Element>`, which is NaN:
`A/value_policies/focal_sum.hpp:9-27`, `focal_mean.hpp:9-29`, `focal_high_pass.hpp:9-29`, `convolve.hpp:9-27` -/
def nanHalo : Halo Fl := ⟨.nan, .nan, .nan, .nan, .nan, .nan, .nan, .nan⟩

/-- `lue::value_policies::focal_sum`, for a floating point type: `A/definition/focal_sum.hpp:38-71`,
`A/value_policies/focal_sum.hpp:17-27` -/
noncomputable def focalSum (L : Lib) (k : Kernel W) (garbage : Nat → Fl) (order : List Nat) (x : PArr Fl) : M (PArr Fl) :=
  focal1 nanHalo garbage garbage k.radius (@FocalStats.focalSum Fl W _ _ isNaN k ⟨add L⟩ ⟨.fin 0⟩ .nan) order x

/-- `sum /= sum_of_weights`: `A/definition/focal_mean.hpp:78-81`. The number of values is converted to the type of the
elements. -/
noncomputable def divide (L : Lib) (sum : Fl) (count : Nat) : Fl := div L sum (.fin (count : ℝ))

/-- `lue::value_policies::focal_mean`: `A/definition/focal_mean.hpp:24-86`, `A/value_policies/focal_mean.hpp:17-29` -/
noncomputable def focalMean (L : Lib) (k : Kernel W) (garbage : Nat → Fl) (order : List Nat) (x : PArr Fl) : M (PArr Fl) :=
  focal1 nanHalo garbage garbage k.radius
    (@FocalStats.focalMean Fl W _ _ isNaN k ⟨add L⟩ ⟨.fin 0⟩ (divide L) .nan) order x

/-- `lue::value_policies::focal_high_pass`: `A/definition/focal_high_pass.hpp:22-85`,
`A/value_policies/focal_high_pass.hpp:17-29`. Whole numbers are converted to the type of the elements. -/
noncomputable def focalHighPass (L : Lib) (k : Kernel W) (garbage : Nat → Fl) (order : List Nat) (x : PArr Fl) :
    M (PArr Fl) :=
  focal1 nanHalo garbage garbage k.radius
    (@FocalStats.focalHighPass Fl W _ _ isNaN k ⟨add L⟩ ⟨sub L⟩ ⟨mul L⟩ ⟨.fin 0⟩ ⟨fun n => .fin (n : ℝ)⟩ .nan) order x

/-- `lue::value_policies::convolve`, for a kernel with weights of the type of the elements:
`A/definition/convolve.hpp:22-75`, `A/value_policies/convolve.hpp:17-27` -/
noncomputable def convolve (L : Lib) (k : Kernel Fl) (garbage : Nat → Fl) (order : List Nat) (x : PArr Fl) : M (PArr Fl) :=
  focal1 nanHalo garbage garbage k.radius (@FocalStats.convolve Fl ⟨add L⟩ ⟨mul L⟩ ⟨.fin 0⟩ isNaN k .nan) order x

end Lue.FocalRounding

import Verif.FloatOps.Model
import Verif.Aggregate.Model
import Verif.Zonal.Model
import Verif.Accu.Model

/-!
C76: operations which add up the values of many cells, for elements of floating point types.
`A` below is `source/framework/algorithm/include/lue/framework/algorithm`.

The models of the operations (C08, C10, C19) are generic in the type of the elements. Here they are used with the floating
point types of C58, in which the result of an addition is rounded, and in which numbers can become too large. Adding such
numbers is neither associative nor exact.
-/
namespace Lue.Rounding

open Lue.FloatOps

/-- `A/definition/sum.hpp:13-48`, for a floating point type -/
noncomputable def sumFunctor (L : Lib) : Aggregate.Functor Fl Fl := @Aggregate.sum Fl ⟨.fin 0⟩ ⟨add L⟩

/-- `A/definition/zonal_sum.hpp:33-65`, for a floating point type -/
noncomputable def zonalSum (L : Lib) : Zonal.Aggregator Fl Fl Fl := @Zonal.sum Fl ⟨add L⟩

/-- The default value policies of `sum`: NaN is no-data, all other values are aggregated. `A/value_policies/sum.hpp`,
`A/policy/default_value_policies.hpp:16-27`, `A/policy/mark_no_data_by_nan.hpp` -/
def sumPolicies : Aggregate.Policies Fl Fl where
  indp := isNaN
  dp := fun _ => true
  mark := fun _ => Fl.nan
  isNoData := isNaN

/-- `lue::value_policies::sum`: `A/value_policies/sum.hpp:20-27` -/
noncomputable def sum (L : Lib) (order : List Nat) (x : PArr Fl) : M Fl :=
  Aggregate.aggregateArray sumPolicies (sumFunctor L) order x

/-- The default value policies of `zonal_sum` and `zonal_mean`: `A/value_policies/zonal_sum.hpp`,
`A/value_policies/zonal_mean.hpp` -/
def zonalPolicies {Z : Type} (isNoData : Z → Bool) : Zonal.Policies Z Fl Fl where
  indp1 := isNaN
  indp2 := isNoData
  dp := fun _ _ => true
  mark := Fl.nan

/-- `sum / count`: `A/definition/zonal_mean.hpp:84-91`. The number of values is converted to the type of the elements. -/
noncomputable def divide (L : Lib) (sum : Fl) (count : Nat) : Fl := div L sum (.fin (count : ℝ))

/-- `A/definition/zonal_mean.hpp:30-90`, for a floating point type -/
noncomputable def zonalMean (L : Lib) : Zonal.Aggregator Fl (Fl × Nat) Fl := @Zonal.mean Fl ⟨add L⟩ (divide L)

/-- The domain of `accu`: `A/value_policies/accu.hpp:9-19` -/
noncomputable def accuWithin (inflow : Fl) : Bool := geq inflow 0

/-- `A/definition/accu.hpp:74-94`, for a floating point type -/
noncomputable def enterInter (L : Lib) : Option Fl → Option Fl → Option Fl := @Accu.accuEnterInter Fl ⟨add L⟩

/-- `A/definition/accu.hpp:103-127`, for a floating point type -/
noncomputable def enterCell (L : Lib) : Option Fl → Option Fl → Option Fl :=
  @Accu.accuEnterCell Fl ⟨add L⟩ accuWithin

/-- `A/definition/accu.hpp:74-160`, for a floating point type -/
noncomputable def accuFunctor (L : Lib) (inflow : Accu.Arg (Option Fl)) :
    Router.CellAccumulator (Option Fl) (Option Fl) := @Accu.accuCells Fl ⟨.fin 0⟩ ⟨add L⟩ accuWithin inflow

/-- `y` is a possible outcome of `accu(flow_direction, inflow)`, for a floating point type: `A/definition/accu.hpp:222-246`.
Elements of `inflow` and of the result which are NaN are `none`, see `Accu/Model`. -/
def AccuYields (L : Lib) (isNoData : Nat → Bool) (fd : PArr Nat) (inflow : Accu.Arg (Option Fl))
    (y : PArr (Option Fl)) : Prop := @Accu.AccuYields Fl ⟨.fin 0⟩ ⟨add L⟩ accuWithin isNoData fd inflow y

end Lue.Rounding

import Verif.FloatOps.Model
import Verif.Accu.Model

/-!
C77: operations which route material and split it into outflow and remainder, for elements of floating point types.
`A` below is `source/framework/algorithm/include/lue/framework/algorithm`.

The model of routing (C20) is generic in the type of the elements and in how material is split. Here it is used with the
floating point numbers of C58. Elements which are NaN are `none`, see `Accu/Model`.
-/
namespace Lue.MassBalance

open Lue.FloatOps Lue.Accu

/-- The domains of `accu_threshold`, `accu_capacity` and `accu_trigger`: `A/value_policies/accu_threshold.hpp:9-22`,
`accu_capacity.hpp:9-22`, `accu_trigger.hpp:9-22` -/
noncomputable def withinAmounts (inflow amount : Fl) : Bool := geq inflow 0 && geq amount 0

/-- The domain of `accu_fraction`: `A/value_policies/accu_fraction.hpp:9-22` -/
noncomputable def withinFraction (inflow fraction : Fl) : Bool := geq inflow 0 && geq fraction 0 && leq fraction 1

/-- `A/definition/accu_threshold.hpp:155-166` -/
noncomputable def thresholdSplit (L : Lib) (threshold outflow : Fl) : Fl × Fl :=
  if compare .gt outflow threshold then (sub L outflow threshold, threshold) else (.fin 0, outflow)

/-- `A/definition/accu_fraction.hpp:155-159` -/
noncomputable def fractionSplit (L : Lib) (fraction outflow : Fl) : Fl × Fl :=
  let delta := mul L fraction outflow
  (delta, sub L outflow delta)

/-- `A/definition/accu_capacity.hpp:149-161` -/
noncomputable def capacitySplit (L : Lib) (capacity outflow : Fl) : Fl × Fl :=
  let remainder := .fin 0
  if compare .gt outflow capacity then (capacity, sub L outflow capacity) else (outflow, remainder)

/-- `A/definition/accu_trigger.hpp:147-161` -/
noncomputable def triggerSplit (trigger outflow : Fl) : Fl × Fl :=
  let remainder := .fin 0
  if compare .lt outflow trigger then (remainder, outflow) else (outflow, remainder)

/-- `A/definition/accu_threshold.hpp:29-262`, `accu_fraction.hpp:29-255`, `accu_capacity.hpp:29-257`,
`accu_trigger.hpp:29-257`, for a floating point type -/
noncomputable def splitFunctor (L : Lib) (within : Fl → Fl → Bool) (split : Fl → Fl → Fl × Fl)
    (inflow parameter : Arg (Option Fl)) : Router.CellAccumulator (Option Fl × Option Fl) (Option Fl) :=
  @splitCells Fl ⟨.fin 0⟩ ⟨add L⟩ within split inflow parameter

/-- What may be the result of an operation which splits material, see `Accu.SplitYields` -/
def Yields (L : Lib) (within : Fl → Fl → Bool) (split : Fl → Fl → Fl × Fl) (isNoData : Nat → Bool) (fd : PArr Nat)
    (inflow parameter : Arg (Option Fl)) (outflow remainder : PArr (Option Fl)) : Prop :=
  @SplitYields Fl ⟨.fin 0⟩ ⟨add L⟩ within split isNoData fd inflow parameter outflow remainder

/-- `lue::value_policies::accu_threshold`: `A/definition/accu_threshold.hpp:296-358` -/
def ThresholdYields (L : Lib) := Yields L withinAmounts (thresholdSplit L)

/-- `lue::value_policies::accu_fraction`: `A/definition/accu_fraction.hpp:288-350` -/
def FractionYields (L : Lib) := Yields L withinFraction (fractionSplit L)

/-- `lue::value_policies::accu_capacity`: `A/definition/accu_capacity.hpp:291-353` -/
def CapacityYields (L : Lib) := Yields L withinAmounts (capacitySplit L)

/-- `lue::value_policies::accu_trigger`: `A/definition/accu_trigger.hpp:291-353` -/
def TriggerYields (L : Lib) := Yields L withinAmounts triggerSplit

end Lue.MassBalance

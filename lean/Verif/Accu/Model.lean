import Verif.Router.Model

/-!
C19, C20, C21: operations based on the accumulating router.
`A` below is `source/framework/algorithm/include/lue/framework/algorithm`.

Material is modelled by the type `Option K`: `none` is no-data, other values are elements of a type with exact arithmetic.
Rounding and overflow are not modelled. With the default value policies a NaN is no-data. With the default policies nothing
is no-data: all values are `some`, all values are within the domain.

Assertions about the signs of values, and about both results of a cell being no-data or not (`lue_hpx_assert`, not part of
release builds), are not modelled as errors. They hold for the final states of the cells given inflow which is not negative,
see `split_correct` and `operations_bounds`.
-/
namespace Lue.Accu

open Lue.Routing Lue.InflowCount Lue.Router

/-- An argument of an operation: an array or a scalar. -/
inductive Arg (α : Type) where
  | array (x : PArr α)
  | scalar (a : α)

/-- The value of a cell, given the linear index of the partition, and the linear index of the cell in it:
`A/definition/accumulating_router.hpp:760-786` (to_value). -/
def Arg.toValue {α : Type} : Arg α → Nat → Nat → M α
  | .array x, k, e => do rd (← rd x.parts k) e
  | .scalar a, _, _ => .ok a

/-- `detail::verify_compatible`: only called for arrays -/
def Arg.verifyCompatible {α : Type} (fd : PArr Nat) : Arg α → M Unit
  | .array x => Lue.verifyCompatible fd x
  | .scalar _ => .ok ()

variable {K : Type}

/-! ### accu -/

section
variable [Zero K] [Add K]

/-- `A/definition/accu.hpp:74-94` (enter_inter_partition_stream): `outflow` has been received from upstream. -/
def accuEnterInter (outflow inflow : Option K) : Option K :=
  match inflow with
  | none => none
  | some i =>
    match outflow with
    | none => none
    | some o => some (i + o)

/-- `A/definition/accu.hpp:103-127` (enter_cell) -/
def accuEnterCell (within : K → Bool) (external outflow : Option K) : Option K :=
  match outflow with
  | none => none
  | some o =>
    match external with
    | none => none
    | some x => if !within x then none else some (o + x)

/-- `A/definition/accu.hpp:130-160` (leave_cell) -/
def accuLeaveCell (outflow inflow : Option K) : Option K :=
  match inflow with
  | none => none
  | some i =>
    match outflow with
    | none => none
    | some o => some (i + o)

/-- `A/definition/accu.hpp:28-195` (CellAccumulator) -/
def accuCells (within : K → Bool) (inflow : Arg (Option K)) : CellAccumulator (Option K) (Option K) where
  init := some 0
  enterInter := accuEnterInter
  enterCell := fun k e s => do return accuEnterCell within (← inflow.toValue k e) s
  leaveCell := accuLeaveCell
  outflow := id
  markNoData := fun _ => none

end

/-! ### accu_threshold, accu_fraction, accu_capacity, accu_trigger

The four operations only differ in how the amount of material in a cell is split into outflow and remainder. -/

section
variable [Zero K] [Add K]

/-- `A/definition/accu_threshold.hpp:92-115`, and the same lines in `accu_fraction.hpp`, `accu_capacity.hpp` and
`accu_trigger.hpp` (enter_inter_partition_stream). The state is the pair of outflow and remainder. -/
def splitEnterInter (outflow : Option K) (s : Option K × Option K) : Option K × Option K :=
  match s.1 with
  | none => s
  | some i =>
    match outflow with
    | none => (none, none)
    | some o => (some (i + o), s.2)

/-- `A/definition/accu_threshold.hpp:124-169`, `accu_fraction.hpp:124-162`, `accu_capacity.hpp:124-164` and
`accu_trigger.hpp:124-164` (enter_cell) -/
def splitEnterCell (within : K → K → Bool) (split : K → K → K × K) (external parameter : Option K)
    (s : Option K × Option K) : Option K × Option K :=
  match s.1 with
  | none => s
  | some o =>
    match external with
    | none => (none, none)
    | some x =>
      match parameter with
      | none => (none, none)
      | some p =>
        if !within x p then (none, none)
        else
          let (out, rem) := split p (o + x)
          (some out, some rem)

/-- `A/definition/accu_threshold.hpp:172-207`, `accu_fraction.hpp:165-200`, `accu_capacity.hpp:167-202`,
`accu_trigger.hpp:167-202` (leave_cell) -/
def splitLeaveCell (upstream s : Option K × Option K) : Option K × Option K :=
  match s.1 with
  | none => s
  | some i =>
    match upstream.1 with
    | none => (none, none)
    | some o => (some (i + o), s.2)

/-- `A/definition/accu_threshold.hpp:29-262`, `accu_fraction.hpp:29-255`, `accu_capacity.hpp:29-257`,
`accu_trigger.hpp:29-257` (CellAccumulator) -/
def splitCells (within : K → K → Bool) (split : K → K → K × K) (inflow parameter : Arg (Option K)) :
    CellAccumulator (Option K × Option K) (Option K) where
  init := (some 0, some 0)
  enterInter := splitEnterInter
  enterCell := fun k e s => do return splitEnterCell within split (← inflow.toValue k e) (← parameter.toValue k e) s
  leaveCell := splitLeaveCell
  outflow := Prod.fst
  markNoData := fun _ => (none, none)

end

section
variable [Field K] [LinearOrder K]

/-- `A/definition/accu_threshold.hpp:155-166` -/
def thresholdSplit (threshold outflow : K) : K × K :=
  if outflow > threshold then (outflow - threshold, threshold) else (0, outflow)

/-- `A/definition/accu_fraction.hpp:155-159` -/
def fractionSplit (fraction outflow : K) : K × K :=
  let delta := fraction * outflow
  (delta, outflow - delta)

/-- `A/definition/accu_capacity.hpp:152-161` -/
def capacitySplit (capacity outflow : K) : K × K :=
  let remainder := 0
  if outflow > capacity then (capacity, outflow - capacity) else (outflow, remainder)

/-- `A/definition/accu_trigger.hpp:150-161` -/
def triggerSplit (trigger outflow : K) : K × K :=
  let remainder := 0
  if outflow < trigger then (remainder, outflow) else (outflow, remainder)

end

/-! ### The operations -/

/-- A possible outcome of routing material: `A/definition/accumulating_router.hpp:1300-1470` (accumulating_router). -/
def Routed {σ μ : Type} (F : CellAccumulator σ μ) (isNoData : Nat → Bool) (fd : PArr Nat) (y : PArr σ) : Prop :=
  ∃ order1 order2 s, IsOrder (fd.grid.n0 * fd.grid.n1) order1 ∧ IsOrder (fd.grid.n0 * fd.grid.n1) order2 ∧
    Reachable F isNoData order1 order2 fd s ∧ Finished fd.grid s ∧ y = results fd.grid s

/-- `y` is a possible outcome of `accu(flow_direction, inflow)`: `A/definition/accu.hpp:222-246` -/
def AccuYields [Zero K] [Add K] (within : K → Bool) (isNoData : Nat → Bool) (fd : PArr Nat) (inflow : Arg (Option K))
    (y : PArr (Option K)) : Prop :=
  inflow.verifyCompatible fd = .ok () ∧ Routed (accuCells within inflow) isNoData fd y

/-- `(outflow, remainder)` is a possible outcome of an operation which splits the material:
`A/definition/accu_threshold.hpp:296-358`, `accu_fraction.hpp:288-350`, `accu_capacity.hpp:291-353`,
`accu_trigger.hpp:291-353` -/
def SplitYields [Zero K] [Add K] (within : K → K → Bool) (split : K → K → K × K) (isNoData : Nat → Bool) (fd : PArr Nat)
    (inflow parameter : Arg (Option K)) (outflow remainder : PArr (Option K)) : Prop :=
  inflow.verifyCompatible fd = .ok () ∧ parameter.verifyCompatible fd = .ok () ∧
    ∃ y, Routed (splitCells within split inflow parameter) isNoData fd y ∧
      outflow = ⟨y.grid, y.parts.map fun p => p.map Prod.fst⟩ ∧ remainder = ⟨y.grid, y.parts.map fun p => p.map Prod.snd⟩

end Lue.Accu

import Verif.Accu.Model
import Mathlib.Algebra.BigOperators.Group.Finset.Basic
import Mathlib.Data.Finset.Prod
import Mathlib.Logic.Relation

/-!
What the operations which route material are supposed to compute, in terms of whole arrays.
-/
namespace Lue.Accu

open Lue.Routing

/-- The cells of an array of `a0` × `a1` cells. -/
def allCells (a0 a1 : Nat) : Finset Cell := Finset.range a0 ×ˢ Finset.range a1

open Classical in
/-- The cells which drain into cell `c`, given flow directions `fd`. -/
noncomputable def inflowing (a0 a1 : Nat) (fd : Arr Nat) (c : Cell) : Finset Cell :=
  (allCells a0 a1).filter fun u => Drains a0 a1 fd u c

open Classical in
/-- The catchment of a cell: the cell and all cells upstream of it. -/
noncomputable def catchment (a0 a1 : Nat) (fd : Arr Nat) (c : Cell) : Finset Cell :=
  (allCells a0 a1).filter fun u => Relation.ReflTransGen (Drains a0 a1 fd) u c

/-- Material flows in circles somewhere upstream of the cell (or through it). -/
def OnCycle (a0 a1 : Nat) (fd : Arr Nat) (c : Cell) : Prop :=
  ∃ u, Relation.ReflTransGen (Drains a0 a1 fd) u c ∧ Relation.TransGen (Drains a0 a1 fd) u u

/-- The values of an argument: an array, partitioned like the flow directions, or a scalar. -/
def Arg.IsValues {α : Type} (g : Grid) (values : Arr α) : Arg α → Prop
  | .array x => x.grid = g ∧ Represents x values
  | .scalar a => ∀ i j, values i j = a

/-- Whether a cell lacks a valid value: its flow direction or external inflow is no-data, or the inflow is out of domain. -/
def Invalid {K : Type} (isNoData : Nat → Bool) (within : K → Bool) (fd : Arr Nat) (inflow : Arr (Option K)) (c : Cell) : Prop :=
  isNoData (fd c.1 c.2) = true ∨ ∀ a, inflow c.1 c.2 = some a → within a = false

/-- Same, for operations with a parameter. -/
def Invalid₂ {K : Type} (isNoData : Nat → Bool) (within : K → K → Bool) (fd : Arr Nat) (inflow parameter : Arr (Option K))
    (c : Cell) : Prop :=
  isNoData (fd c.1 c.2) = true ∨
    ∀ a p, inflow c.1 c.2 = some a → parameter c.1 c.2 = some p → within a p = false

open Classical in
/-- The sum of values which may be no-data: no-data if one of them is. -/
noncomputable def total {K : Type} [AddCommMonoid K] (us : Finset Cell) (w : Cell → Option K) : Option K :=
  if ∃ u ∈ us, w u = none then none else some (∑ u ∈ us, (w u).getD 0)

end Lue.Accu

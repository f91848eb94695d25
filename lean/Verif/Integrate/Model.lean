import Verif.Walk.Model

/-!
# Model of `integrate`: accumulating along routes

Models `source/framework/image_land/include/lue/framework/algorithm/definition/integrate.hpp` and
`source/framework/algorithm/include/lue/framework/algorithm/routing/walk/{accumulator,cell_counter}.hpp`. The protocol is in
`Verif.Walk.Model`.

Elements are of any type with an addition of which nothing is assumed (that of floating-point values, for example). A cell is
`none` when it contains no-data. Not modelled: an integrand of which the partitions differ in shape from those of the route
(the code does not check this).
-/
namespace Lue.Integrate

open Lue.FirstN (Err need CellCounter)

/-- `Data`: integrate.hpp:20-52: a `CellCounter` and an `Accumulator` (accumulator.hpp:9-40). -/
structure Data (α : Type) where
  counter : CellCounter
  values : AMap Int α
  deriving DecidableEq

/-- `Data(max_nr_cells)`: integrate.hpp:33-40. -/
def Data.new {α : Type} (max : Int) : Data α := ⟨CellCounter.new max, []⟩

/-- `Accumulator::value(route_id)`: a value of zero is inserted if there is none: accumulator.hpp:18-23. -/
def Data.value {α : Type} (zero : α) (d : Data α) (r : Int) : α := (d.values.get r).getD zero

/-- Assignment through the reference returned by `Accumulator::value`: integrate.hpp:195, 201. -/
def Data.setValue {α : Type} (d : Data α) (r : Int) (a : α) : Data α := { d with values := d.values.put r a }

/-- `++data`: integrate.hpp:197. -/
def Data.inc {α : Type} (d : Data α) : Data α := { d with counter := d.counter.inc }

variable {α : Type} (add : α → α → α) (zero : α)

/-- The body of the loop over the cells of a fragment: integrate.hpp:199-203. -/
def visitCell (r : Int) (x : Option α) (i : Nat) (out : List (Option α)) (d : Data α) :
    Except Err (List (Option α) × Data α) :=
  match x with
  | none => .ok (out, d)
  | some x =>
    let a := add (d.value zero r) x
    if i < out.length then .ok (out.set i (some a), d.setValue r a) else .error .fault

/-- The loop over the cells of a fragment: integrate.hpp:197-204. -/
def visitCells (integrand : List (Option α)) (r : Int) : List Nat → List (Option α) → Data α →
    Except Err (List (Option α) × Data α)
  | [], out, d => .ok (out, d)
  | i :: l, out, d =>
    if d.counter.keepWalking then do
      let x ← need integrand[i]?
      let (out, d) ← visitCell add zero r x i out d
      visitCells integrand r l out d.inc
    else .ok (out, d)

/-- `integrate`, given the cells of each partition of the integrand: integrate.hpp:462-560. -/
def algo (integrand : Nat → List (Option α)) (maxNrCells : Int) : Walk.Algo (Option α) (Data α) where
  noData := none
  start := Data.new maxNrCells
  keepWalking := fun d => d.counter.keepWalking
  visit := fun p r cells out d => visitCells add zero (integrand p) r cells out (d.setValue r (d.value zero r))

end Lue.Integrate

import Verif.FocalStats.Properties
import Verif.Random.Uses

/-!
# Model of the Game of Life, the example of the quick start

Models `document/doc/quick_start/game_of_life.py` (`G` below): a model of which the state is a raster, built from
operations of `lue.framework`. Elements of the rasters are unsigned integers of 8 bits: this is the type of the result of
a comparison (`BooleanElement`), and the type of the result of `focal_sum` is the type of its argument. Which functions
the operators call is the subject of C48. Computations with elements wrap around.

Simplifications: an operation starts when its arguments are ready (see C75). The files are pairs of the iteration number
and the generation. The kernel is converted to an array of elements of the same type.
-/
namespace Lue.Life

open Lue.LocalOp Lue.Focal Lue.FocalStats Lue.FloatOps

/-- `std::uint8_t` -/
abbrev Cell := Fin 256

/-- `source/framework/algorithm/include/lue/framework/algorithm/policy/detect_no_data_by_value.hpp:37-56`: no-data is the
largest value of an unsigned integral type. -/
def noData : Cell := 255

/-- `source/framework/algorithm/include/lue/framework/algorithm/policy/detect_no_data_by_value.hpp`: `is_no_data` -/
def isNoData (x : Cell) : Bool := x == noData

/-- An integer as condition -/
def truth (x : Cell) : Bool := x != 0

/-- `bool` converted to the type of the elements -/
def ofBool (b : Bool) : Cell := if b then 1 else 0

/-- `source/framework/algorithm/include/lue/framework/algorithm/value_policies/logical_not.hpp:8-16` -/
def policies1 : Policies1 Cell Cell := ⟨isNoData, fun _ => true, fun _ _ => true, noData⟩

/-- `source/framework/algorithm/include/lue/framework/algorithm/value_policies/less_than.hpp:8-16`, `greater_than.hpp`,
`equal_to.hpp`, `logical_inclusive_or.hpp` -/
def policies2 : Policies2 Cell Cell Cell := ⟨isNoData, isNoData, fun _ _ => true, fun _ _ _ => true, noData⟩

/-- `source/framework/algorithm/include/lue/framework/algorithm/value_policies/where.hpp:8-20` -/
def policies3 : Policies3 Cell Cell Cell Cell := ⟨isNoData, isNoData, isNoData, fun _ _ _ => true, noData⟩

/-- `source/framework/algorithm/include/lue/framework/algorithm/value_policies/focal_sum.hpp:20-34`: the fill value is
no-data. -/
def halo : Halo Cell := ⟨noData, noData, noData, noData, noData, noData, noData, noData⟩

/-- G:33-40 -/
def kernel : Kernel Cell := ⟨3, [1, 1, 1, 1, 0, 1, 1, 1, 1]⟩

/-- What is not determined by the program: what is in new memory and the order in which tasks complete, per operation -/
structure Sched where
  garbage : Nat → Nat → Cell
  order : Nat → List Nat

/-- `next_generation`: G:32-58 -/
def nextGeneration (s : Sched) (generation : PArr Cell) : M (PArr Cell) := do
  -- G:41
  let nrAliveCells ← focal1 halo (s.garbage 0) (s.garbage 0) kernel.radius (focalSum isNoData kernel noData) (s.order 0) generation
  -- G:44-45
  let underpopulated ← binaryArrayAS policies2 (fun x y => ofBool (decide (x < y))) (s.garbage 1) (s.order 1) nrAliveCells 2
  let overpopulated ← binaryArrayAS policies2 (fun x y => ofBool (decide (x > y))) (s.garbage 2) (s.order 2) nrAliveCells 3
  -- G:48
  let reproducing ← binaryArrayAS policies2 (fun x y => ofBool (decide (x = y))) (s.garbage 3) (s.order 3) nrAliveCells 3
  -- G:50-56
  let either ← binaryArray policies2 (fun x y => ofBool (truth x || truth y)) (s.garbage 4) (s.order 4) underpopulated overpopulated
  let surviving ← unaryArray policies1 (fun x => ofBool (!truth x)) (s.garbage 5) (s.order 5) either
  array3 (wherePartition policies3 truth (s.garbage 6)) (s.order 6) generation surviving reproducing

/-- `fraction_alive_cells`: G:19 -/
noncomputable def fractionAliveCells : Fl := .fin (1 / 4)

/-- `source/framework/algorithm/include/lue/framework/algorithm/value_policies/less_than_equal_to.hpp:8-16` -/
def comparePolicies : Policies2 Fl Fl Cell := ⟨isNaN, isNaN, fun _ _ => true, fun _ _ _ => true, noData⟩

/-- `initialize_generation`: G:16-29, given the shape of the partitions used. `dist` is the distribution (C64). -/
noncomputable def initializeGeneration (dist : Random.Dist Fl) (device : Nat → Nat) (garbageField : Nat → Nat → Fl)
    (garbage : Nat → Cell) (order : List Nat) (arrayShape partitionShape : Nat × Nat) (nrLocalities : Nat) : M (PArr Cell) := do
  let randomField ← Random.randomShape dist garbageField (.fin 0) (.fin 1) device arrayShape partitionShape nrLocalities
  binaryArrayAS comparePolicies (fun x y => ofBool (compare .le x y)) garbage order
    ⟨⟨arrayShape.1, arrayShape.2, partitionShape.1, partitionShape.2⟩, randomField.partitions.map (·.data)⟩ fractionAliveCells

/-- The calls of `GameOfLife.simulate` (G:79-83) by `run_deterministic` (G:101-103, C28), for iterations `t + 1`, ..., `t + n`:
the files written. -/
def simulate (s : Nat → Sched) : Nat → Nat → PArr Cell → M (List (Nat × PArr Cell))
  | _, 0, _ => .ok []
  | t, n + 1, generation => do
    let generation ← nextGeneration (s (t + 1)) generation
    let files ← simulate s (t + 1) n generation
    return (t + 1, generation) :: files

/-- `run_deterministic`, given the initial generation -/
def gameOfLife (s : Nat → Sched) (nrGenerations : Nat) (generation : PArr Cell) : M (List (Nat × PArr Cell)) :=
  simulate s 0 nrGenerations generation

end Lue.Life

import Verif.Index.Properties
import Mathlib.Analysis.SpecialFunctions.Pow.Real

/-!
Model of the shape of chunks of HDF5 datasets, source/data_model/hdf5/source/chunk.cpp.

Simplification: floating point numbers are real numbers, computed without rounding.
-/
namespace Lue.Chunk

open Lue.Index

/-- `lower_chunk_size_limit`: chunk.cpp:13-18 -/
def lowerLimit : Nat := 10240

/-- `upper_chunk_size_limit`: chunk.cpp:24-29 -/
def upperLimit : Nat := 1048576

/-- `size_of_shape`: source/data_model/hdf5/source/shape.cpp:15-18 -/
def sizeOfShape (shape : List Nat) (sizeOfElement : Nat) : Nat := shape.foldl (· * ·) sizeOfElement

/-- The orders in which dimensions are visited: chunk.cpp:89-105. Pairs of extents and indices, sorted by extent. The
order of dimensions with the same extent is not specified. -/
def IsOrder (valueShape : List Nat) (order : List (Nat × Nat)) : Prop :=
  order.Perm valueShape.zipIdx ∧ order.Pairwise (·.1 ≤ ·.1)

/-- The loop over the dimensions: chunk.cpp:108-125. `c` is `chunk_size_elements_per_dimension`: `none` is infinity or not a
number, which cannot be converted to an integer. `none` is returned if the behaviour is undefined. -/
noncomputable def visit : Option ℝ → List (Nat × Nat) → List Nat → Option (List Nat)
  | _, [], result => some result
  | none, _ :: _, _ => none
  | some c, (extent, index) :: order, result =>
    let d := min ⌊c⌋₊ extent
    visit (if d = 0 then none else some (c * (c / d))) order (result.set (index + 1) d)

/-- `chunk_shape`: chunk.cpp:45-131 -/
noncomputable def chunkShape (order : List (Nat × Nat)) (valueShape : List Nat) (sizeOfElement : Nat) : Option (List Nat) :=
  let valueSize := sizeOfShape valueShape sizeOfElement
  if valueSize = 0 then none
  else
    let nr : ℝ := (upperLimit : ℝ) / valueSize
    if 1 ≤ nr then some (⌊nr⌋₊ :: valueShape)
    else
      let chunkSize := (valueSize : ℝ) * nr
      let sizePerDimension := chunkSize ^ ((1 : ℝ) / (valueShape.length : ℝ))
      let c := sizePerDimension / sizeOfElement
      visit (some c) order ((List.replicate (valueShape.length + 1) 0).set 0 1)

end Lue.Chunk

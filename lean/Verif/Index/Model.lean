/-
Model of the conversions between linear and per-dimension indices.

Simplification: `Index` and `Count` (64 bit signed integers in the code) are natural numbers. A shape or a
set of indices of rank `n` is a list of length `n`.
-/
namespace Lue.Index

/-- `source/framework/core/include/lue/framework/core/index_util.hpp:22-23, 43-44`:
`std::accumulate(shape.begin() + dimension_idx + 1, shape.end(), Count{1}, std::multiplies<Count>())` -/
def trailingProduct (shape : List Nat) (d : Nat) : Nat :=
  (shape.drop (d + 1)).foldl (· * ·) 1

/-- `source/framework/core/include/lue/framework/core/index_util.hpp:10-28` `linear_idx_to_idxs`:
the loop over the dimensions. -/
def linearIdxToIdxs (linearIdx : Nat) (shape : List Nat) : List Nat :=
  (List.range shape.length).map fun d =>
    (linearIdx / trailingProduct shape d) % shape.getD d 0

/-- `source/framework/core/include/lue/framework/core/index_util.hpp:31-48` `idxs_to_linear_idx`:
the loop over the dimensions accumulating in `idx`. -/
def idxsToLinearIdx (idxs : List Nat) (shape : List Nat) : Nat :=
  (List.range shape.length).foldl
    (fun idx d => idx + idxs.getD d 0 * trailingProduct shape d) 0

/-- Loop of `linear_to_shape_index`, iterating over the shape by pointer, see `linearToShapeIndex`. -/
def linearToShapeIndexLoop : List Nat → Nat → List Nat
  | [], _ => []
  | _ :: shape, idx =>
    let nrCells := shape.foldl (· * ·) 1
    let dimensionIndex := idx / nrCells
    dimensionIndex :: linearToShapeIndexLoop shape (idx - dimensionIndex * nrCells)

/-- `source/framework/core/include/lue/framework/core/domain_decomposition.hpp:260-293`
`linear_to_shape_index` -/
def linearToShapeIndex (shape : List Nat) (idx : Nat) : List Nat :=
  linearToShapeIndexLoop shape idx

/-- `source/framework/core/include/lue/framework/core/shape.hpp` `nr_elements`: product of the extents. -/
def nrElements (shape : List Nat) : Nat := shape.foldl (· * ·) 1

end Lue.Index

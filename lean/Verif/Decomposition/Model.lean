import Verif.Index.Model
import Verif.Visitor.Model

/-
Model of the decomposition of an array into partitions. Shapes are lists of natural numbers (any rank).
-/
namespace Lue.Decomposition

open Lue.Index Lue.Visitor

/-- `source/framework/core/include/lue/framework/core/domain_decomposition.hpp:71-85` `is_all_less`,
`is_subset_of`: `std::mismatch` with `std::less_equal` reaching the end of both shapes. -/
def isSubsetOf (small large : List Nat) : Bool :=
  (List.zipWith (fun s l => decide (s ≤ l)) small large).all id

/-- The array of shapes being built: partition indices ↦ shape. In the code it is an `Array<Shape, rank>`, addressed
by linear index; that the linear index is injective is C02. -/
abbrev Shapes := List Nat → List Nat

/-- `domain_decomposition.hpp:16-68` `ReshapeVisitor`, `reshape_shapes`: visit the shapes selected by the begin and
end indices and set the extent along `d` of each of them. -/
def reshapeShapes (shapes : Shapes) (beginIdxs endIdxs : List Nat) (d newExtent : Nat) : Shapes :=
  (visitArray beginIdxs endIdxs).foldl
    (fun shapes idx => fun i => if i = idx then (shapes i).set d newExtent else shapes i) shapes

/-- `domain_decomposition.hpp:90-182` `partition_shapes`. Returns the shape in partitions and the shapes. -/
def partitionShapes (arrayShape partitionShape : List Nat) : Except String (List Nat × Shapes) :=
  if nrElements arrayShape = 0 then
    .error "Array shape must not be empty"
  else if nrElements partitionShape = 0 then
    .error "Partition shape must not be empty"
  else if ¬ isSubsetOf partitionShape arrayShape then
    .error "Partition size must be smaller than or equal to array size"
  else
    let shapeInPartitions := List.zipWith (fun area partition => area / partition) arrayShape partitionShape
    let shapes : Shapes := fun _ => partitionShape
    let beginIdxs := shapeInPartitions.map fun _ => 0
    let endIdxs := shapeInPartitions
    let shapes := (List.range arrayShape.length).foldl (fun shapes d =>
      let newExtent := partitionShape.getD d 0 + arrayShape.getD d 0 -
        shapeInPartitions.getD d 0 * partitionShape.getD d 0
      if newExtent ≠ partitionShape.getD d 0 then
        reshapeShapes shapes (beginIdxs.set d (shapeInPartitions.getD d 0 - 1))
          (endIdxs.set d (shapeInPartitions.getD d 0)) d newExtent
      else
        shapes) shapes
    .ok (shapeInPartitions, shapes)

/-- Indices of a partition multiplied by a partition shape, see `offsetInArray`. -/
def partitionOffset (partitionIdxs partitionShape : List Nat) : List Nat :=
  List.zipWith (fun i p => i * p) partitionIdxs partitionShape

/-- `source/framework/algorithm/include/lue/framework/algorithm/create_partitioned_array.hpp:77, 142-153` `offset`: the
offset in the array of a partition is the product of its indices and the shape of the first partition. -/
def offsetInArray (shapes : Shapes) (partitionIdxs : List Nat) : List Nat :=
  partitionOffset partitionIdxs (shapes (partitionIdxs.map fun _ => 0))

/-- `domain_decomposition.hpp:185-200` `shape_in_partitions`: rounded up. Simplification: `std::ceil` of the
quotient of two doubles is computed exactly. -/
def shapeInPartitions (areaShape partitionShape : List Nat) : List Nat :=
  List.zipWith (fun a p => (a + p - 1) / p) areaShape partitionShape

/-- `domain_decomposition.hpp:203-210` `nr_partitions` -/
def nrPartitions (areaShape partitionShape : List Nat) : Nat :=
  (shapeInPartitions areaShape partitionShape).foldl (· * ·) 1

/-- `domain_decomposition.hpp:296-317` `clamp_area_shape` -/
def clampAreaShape (areaShape partitionShape : List Nat) : List Nat :=
  List.zipWith (fun a p => (a + p - 1) / p * p) areaShape partitionShape

/-- Loop over the extents in `max_partition_shape`, lines 244-251; `k` is `nr_partitions_per_dimension`. -/
def maxPartitionShapeLoop (k minNr : Nat) : Nat → List Nat → List Nat
  | _, [] => []
  | nr, extent :: extents =>
    if nr < minNr then extent / k :: maxPartitionShapeLoop k minNr (nr + k) extents
    else extent :: maxPartitionShapeLoop k minNr nr extents

/-- `ceil(pow(min_nr_partitions, 1 / rank))`: the smallest `k` with `k ^ rank ≥ n` (exact arithmetic), searched for
from `k` upwards with `fuel` steps. -/
def ceilRootFrom (rank n : Nat) : Nat → Nat → Nat
  | 0, k => k
  | fuel + 1, k => if n ≤ k ^ rank then k else ceilRootFrom rank n fuel (k + 1)

/-- See `ceilRootFrom`. -/
def ceilRoot (rank n : Nat) : Nat := ceilRootFrom rank n n 0

/-- `domain_decomposition.hpp:227-257` `max_partition_shape` -/
def maxPartitionShape (arrayShape : List Nat) (minNr : Nat) : List Nat :=
  maxPartitionShapeLoop (ceilRoot arrayShape.length minNr) minNr 0 arrayShape

/-- `floor(pow(n, 1 / rank))`: the largest `k` with `k ^ rank ≤ n` (exact arithmetic). -/
def floorRootFrom (rank n : Nat) : Nat → Nat
  | 0 => 0
  | k + 1 => if (k + 1) ^ rank ≤ n then k + 1 else floorRootFrom rank n k

/-- `domain_decomposition.hpp:330-375` `default_partition_shape`. `defaultSize` is `default_partition_size`, the
constant 2000 * 2000 in the code; `dimSize` is the value computed at lines 366-367 (2000 for rank 2). -/
def defaultPartitionShape (defaultSize dimSize : Nat) (arrayShape : List Nat) (nrThreads : Nat) : List Nat :=
  let arraySize := nrElements arrayShape
  if arraySize = 0 ∨ nrThreads = 1 then
    arrayShape
  else if arraySize / nrThreads < defaultSize then
    let minExtent := arrayShape.min?.getD 0
    arrayShape.map fun _ => max 1 (minExtent / nrThreads)
  else
    arrayShape.map fun _ => max 1 dimSize

end Lue.Decomposition

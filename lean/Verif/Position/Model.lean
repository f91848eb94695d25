import Verif.Create.Properties
import Verif.Partitioned.Loops
import Verif.Index.Properties

/-!
# Model of operations whose result depends on where cells and partitions are

`A` below is `source/framework/algorithm/include/lue/framework/algorithm`.

Simplifications: 2D arrays; elements computed are integers which don't overflow. The partitions of the input arrays are
those of the grid of an array (C01): the shape of partition `k` is `shapeOf g k` and its offset is `offsetOf g k`.
-/
namespace Lue.Position

open Lue.Create

/-! ### range -/

/-- `range_partition`: `A/range.hpp:11-53`. -/
def rangePartition (shape : Nat × Nat) (startValue : Int) (stride : Nat) (garbage : Nat → Int) : M (List Int) :=
  if stride ≥ shape.2 then do
    let offset : Int := stride - shape.2
    let (data, _) ← forLoop shape.1 (fun idx0 s => do
      let (data, value) ← forLoop shape.2 (fun idx1 (s : List Int × Int) => do
        let data ← wr s.1 (idx0 * shape.2 + idx1) s.2
        .ok (data, s.2 + 1)) s
      .ok (data, value + offset)) (uninitialised (shape.1 * shape.2) garbage, startValue)
    .ok data
  else .error .thrown

/-- `range`: `A/range.hpp:85-172`, the start values of the partitions, computed in order. `shapes` are the shapes of the
partitions. -/
def rangeStarts (n0 n1 stride : Nat) (shapes : Nat → Nat × Nat) (startValue : Int) : M (List Int × Int) :=
  forLoop n0 (fun idx0 s => do
    let shape := shapes (idx0 * n1 + 0)
    let (starts, value) ← forLoop n1 (fun _ (s : List Int × Int) => .ok (s.1 ++ [s.2], s.2 + shape.2)) s
    .ok (starts, value + ((shape.1 : Int) - 1) * stride)) ([], startValue)

/-- `range`: `A/range.hpp:85-172`. The partitions of the array are updated in place; `order` is the order in which the
tasks finish. -/
def range (g : Grid) (startValue : Int) (garbage : Nat → Nat → Int) (order : List Nat) : M (PArr Int) := do
  let (starts, _) ← rangeStarts g.n0 g.n1 g.a1 (shapeOf g) startValue
  let parts ← runTasks (g.n0 * g.n1) (fun k => do
    let start ← rd starts k
    rangePartition (shapeOf g k) start g.a1 (garbage k)) order
  .ok ⟨g, parts⟩

/-! ### mesh_grid -/

/-- `mesh_grid_partition`: `A/mesh_grid.hpp:11-83` -/
def meshGridPartition (offset shape : Nat × Nat) (firstValue step : Int) (dimension : Nat) (garbage : Nat → Int) :
    M (Part Int) := do
  let data := uninitialised (shape.1 * shape.2) garbage
  if dimension = 0 then
    let (data, _) ← forLoop shape.1 (fun idx0 s => forLoop shape.2 (fun _idx1 (s : List Int × Nat) => do
      let data ← wr s.1 s.2 (firstValue + ((offset.1 : Int) + idx0) * step)
      .ok (data, s.2 + 1)) s) (data, 0)
    .ok ⟨offset, shape, data⟩
  else if dimension = 1 then
    let (data, _) ← forLoop shape.1 (fun _idx0 s => forLoop shape.2 (fun idx1 (s : List Int × Nat) => do
      let data ← wr s.1 s.2 (firstValue + ((offset.2 : Int) + idx1) * step)
      .ok (data, s.2 + 1)) s) (data, 0)
    .ok ⟨offset, shape, data⟩
  else .error .thrown

/-- `mesh_grid`: `A/mesh_grid.hpp:110-163`, the array for one of the dimensions. `x` is the input array. -/
def meshGrid {α : Type} (x : Created α) (firstValue step : Int) (dimension : Nat) (garbage : Nat → Nat → Int)
    (order : List Nat) : M (Created Int) := do
  let parts ← runTasks x.partitions.length (fun k => do
    let p ← rd x.partitions k
    meshGridPartition p.offset p.shape firstValue step dimension (garbage k)) order
  .ok ⟨x.shape, x.shapeInPartitions, x.localities, parts⟩

/-! ### array_like, array_partition_id -/

/-- `array_like_partition`: `A/array_like.hpp:12-65` -/
def arrayLikePartition {β : Type} (offset shape : Nat × Nat) (fillValue : β) (garbage : Nat → β) : M (Part β) := do
  let data ← forLoop (shape.1 * shape.2) (fun i data => wr data i fillValue)
    (uninitialised (shape.1 * shape.2) garbage)
  .ok ⟨offset, shape, data⟩

/-- `array_like`: `A/array_like.hpp:96-122` -/
def arrayLike {α β : Type} (x : Created α) (fillValue : β) (garbage : Nat → Nat → β) (order : List Nat) :
    M (Created β) := do
  let parts ← runTasks x.partitions.length (fun k => do
    let p ← rd x.partitions k
    arrayLikePartition p.offset p.shape fillValue (garbage k)) order
  .ok ⟨x.shape, x.shapeInPartitions, x.localities, parts⟩

/-- `array_partition_id`: `A/array_partition_id.hpp:7-46` -/
def arrayPartitionId {α : Type} (x : Created α) (garbage : Nat → Nat → Nat) (order : List Nat) : M (Created Nat) := do
  let parts ← runTasks x.partitions.length (fun k => do
    let p ← rd x.partitions k
    arrayLikePartition p.offset p.shape k (garbage k)) order
  .ok ⟨x.shape, x.shapeInPartitions, x.localities, parts⟩

/-! ### One element per partition -/

/-- The task computing the only element of an output partition: `A/locality_id.hpp:11-43`, `A/timestamp.hpp:14-46`, and
`A/locality_id.hpp:66-78`, `A/timestamp.hpp:65-77`. Each output partition has a single element, computed on the locality
of the partition: `value`, given the locality. -/
def elementTask {α β : Type} (x : Created α) (value : Nat → β) (k : Nat) : M (Part β) := do
  let _ ← rd x.partitions k
  let locality ← rd x.localities k
  match Lue.Index.linearIdxToIdxs k [x.shapeInPartitions.1, x.shapeInPartitions.2] with
  | [o0, o1] => .ok (⟨(o0, o1), (1, 1), [value locality]⟩ : Part β)
  | _ => .error .thrown

/-- `locality_id`: `A/locality_id.hpp:11-84`, and `timestamp`: `A/timestamp.hpp:14-83`. -/
def elementPerPartition {α β : Type} (x : Created α) (value : Nat → β) (order : List Nat) : M (Created β) := do
  let parts ← runTasks x.partitions.length (elementTask x value) order
  .ok ⟨x.shapeInPartitions, x.shapeInPartitions, x.localities, parts⟩

/-- `offset_in_partitions`: `A/partition_operation.hpp:10-24`. `asserts` tells whether assertions are checked. -/
def offsetInPartitions (asserts : Bool) (partitionOffset partitionShape : Nat × Nat) : M (Nat × Nat) :=
  if asserts && !(partitionOffset.1 % partitionShape.1 == 0 && partitionOffset.2 % partitionShape.2 == 0) then
    .error .thrown
  else .ok (partitionOffset.1 / partitionShape.1, partitionOffset.2 / partitionShape.2)

/-- `CountUnique::add_value`: `A/partition_count_unique.hpp:22-25`: `std::set::insert` -/
def addValue {α : Type} [DecidableEq α] (values : List α) (x : α) : List α :=
  if x ∈ values then values else values ++ [x]

/-- `partition_aggregate_operation_partition`: `A/partition_operation.hpp:27-77`, with functor `CountUnique`:
`A/partition_count_unique.hpp:13-55`. `mark` is the no-data value. -/
def countUniquePartition {α : Type} [DecidableEq α] (asserts : Bool) (isNoData : α → Bool) (mark : Nat) (p : Part α) :
    M (Part Nat) := do
  let values ← forLoop p.data.length (fun idx values => do
    let x ← rd p.data idx
    if !isNoData x then .ok (addValue values x) else .ok values) []
  let result := if values ≠ [] then values.length else mark
  let offset ← offsetInPartitions asserts p.offset p.shape
  .ok ⟨offset, (1, 1), [result]⟩

/-- `partition_count_unique`: `A/partition_count_unique.hpp:80-98`, `A/partition_operation.hpp:99-139` -/
def partitionCountUnique {α : Type} [DecidableEq α] (asserts : Bool) (isNoData : α → Bool) (mark : Nat) (x : Created α)
    (order : List Nat) : M (Created Nat) := do
  let parts ← runTasks x.partitions.length (fun k => do
    let p ← rd x.partitions k
    countUniquePartition asserts isNoData mark p) order
  .ok ⟨x.shapeInPartitions, x.shapeInPartitions, x.localities, parts⟩

end Lue.Position

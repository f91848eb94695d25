import Verif.Partitioned.Cells
import Verif.Localities.Properties

/-!
# Model of creating partitioned arrays

Models `source/framework/algorithm/include/lue/framework/algorithm/create_partitioned_array.hpp`: the partitions are
visited along a Hilbert curve; partitions which are close along the curve are created on the same locality. The
functions whose partitions are created one locality at a time, and those whose partitions are created one by one, are
modelled by `createPerLocality` and `createEach`.

Simplifications: 2D arrays; the computation of the curve, of the shapes of the partitions and of the localities are those
modelled in `Verif.Localities` and `Verif.Decomposition`.
-/
namespace Lue.Create

open Lue.Localities Lue.Decomposition

/-- A partition, as stored by a partition component server: its offset in the array, its shape, and its elements.
`source/framework/partitioned_array/include/lue/framework/partitioned_array/array_partition_decl.hpp` and
`server/array_partition_impl.hpp` -/
structure Part (α : Type) where
  offset : Nat × Nat
  shape : Nat × Nat
  data : List α
  deriving DecidableEq, Repr

/-- A newly created array: its shape, the number of partitions, and the localities and partitions in row-major order:
`PartitionedArray`, `source/framework/partitioned_array/include/lue/framework/partitioned_array_decl.hpp` -/
structure Created (α : Type) where
  shape : Nat × Nat
  shapeInPartitions : Nat × Nat
  localities : List Nat
  partitions : List (Part α)

/-- An exception -/
def orThrow {α : Type} : Except String α → M α
  | .ok x => .ok x
  | .error _ => .error .thrown

/-- The indices of the partitions, in the order in which the curve visits these:
`create_partitioned_array.hpp:419-420` -/
def curve (n0 n1 : Nat) : M (List (Nat × Nat)) :=
  match hilbertCurve (n0 + n1) n0 n1 with
  | some l => .ok (l.map fun c => (c.1.toNat, c.2.toNat))
  | none => .error .diverged

/-- `this->_localities(idxs...) = locality_id; this->_partitions(idxs...) = partition`:
`create_partitioned_array.hpp:376-378`, `231-232` -/
def assignPartition {α : Type} (n1 : Nat) (s : List (Option Nat) × List (Option (Part α))) (idxs : Nat × Nat)
    (locality : Nat) (partition : Part α) : M (List (Option Nat) × List (Option (Part α))) := do
  let ls ← wr s.1 (idxs.1 * n1 + idxs.2) (some locality)
  let ps ← wr s.2 (idxs.1 * n1 + idxs.2) (some partition)
  .ok (ls, ps)

/-- An element which must have been set. -/
def filled {β : Type} : Option β → M β
  | some x => .ok x
  | none => .error .thrown

/-- `assert_invariants`: all localities are set, `create_partitioned_array.hpp:118-128`, `434-436`. And the partitions of
the array. -/
def finish {α : Type} (a n : Nat × Nat) (s : List (Option Nat) × List (Option (Part α))) : M (Created α) := do
  let ls ← s.1.mapM filled
  let ps ← s.2.mapM filled
  .ok ⟨a, n, ls, ps⟩

/-- `InstantiatePartitionsBase::offset`: `create_partitioned_array.hpp:141-153`. `_partition_shape` is the shape of the
first partition. -/
def offset (shapes : Shapes) (idxs : Nat × Nat) : M (Nat × Nat) :=
  match offsetInArray shapes [idxs.1, idxs.2] with
  | [o0, o1] => .ok (o0, o1)
  | _ => .error .thrown

/-- `InstantiatePartitionsBase::partition_shape`: `create_partitioned_array.hpp:156-160` -/
def partitionShape (shapes : Shapes) (idxs : Nat × Nat) : M (Nat × Nat) :=
  match shapes [idxs.1, idxs.2] with
  | [s0, s1] => .ok (s0, s1)
  | _ => .error .thrown

/-- `create_partitioned_array`, for functors which instantiate all partitions of a locality in one go:
`create_partitioned_array.hpp:249-397` `InstantiatePartitions`, `400-442`, `445-537`. Function `instantiate` receives a
locality and the offsets and shapes of the partitions to create there. -/
def createPerLocality {α : Type} (a p : Nat × Nat) (nrLocalities : Nat)
    (instantiate : Nat → List (Nat × Nat) → List (Nat × Nat) → M (List (Part α))) : M (Created α) := do
  let (n, shapes) ← orThrow (partitionShapes [a.1, a.2] [p.1, p.2])
  match n with
  | [n0, n1] =>
    let cells ← curve n0 n1
    let requests ← orThrow (instantiatePartitions nrLocalities cells)
    let s ← requests.foldlM (fun s (r : Nat × List (Nat × Nat)) => do
      let offsets ← r.2.mapM (offset shapes)
      let partitionShapes ← r.2.mapM (partitionShape shapes)
      let partitions ← instantiate r.1 offsets partitionShapes
      if partitions.length = r.2.length then
        forLoop partitions.length (fun i s => do
          let idxs ← rd r.2 i
          let partition ← rd partitions i
          assignPartition n1 s idxs r.1 partition) s
      else .error .thrown)
      (List.replicate (n0 * n1) (none : Option Nat), List.replicate (n0 * n1) (none : Option (Part α)))
    finish a (n0, n1) s
  | _ => .error .thrown

/-- `create_partitioned_array`, for functors which instantiate partitions one by one:
`create_partitioned_array.hpp:194-246` `InstantiatePartition`, `400-442`, `445-537`. Function `instantiate` receives the
locality, the shape of the array, the shape of the array in partitions, the index of the partition along the curve, the
linear index of the partition, and the offset and shape of the partition. -/
def createEach {α : Type} (a p : Nat × Nat) (nrLocalities : Nat)
    (instantiate : Nat → Nat × Nat → Nat × Nat → Nat → Nat → Nat × Nat → Nat × Nat → M (Part α)) : M (Created α) := do
  let (n, shapes) ← orThrow (partitionShapes [a.1, a.2] [p.1, p.2])
  match n with
  | [n0, n1] =>
    let cells ← curve n0 n1
    if cells.length < nrLocalities then .error .thrown else
    let s ← forLoop cells.length (fun i s => do
      let idxs ← rd cells i
      let o ← offset shapes idxs
      let sh ← partitionShape shapes idxs
      let locality := localityIdx cells.length nrLocalities i
      let partition ← instantiate locality a (n0, n1) i (idxs.1 * n1 + idxs.2) o sh
      assignPartition n1 s idxs locality partition)
      (List.replicate (n0 * n1) (none : Option Nat), List.replicate (n0 * n1) (none : Option (Part α)))
    finish a (n0, n1) s
  | _ => .error .thrown

end Lue.Create

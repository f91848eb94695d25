import Verif.GdalIO.Model

/-!
# Model of converting between NumPy arrays and partitioned arrays: `from_numpy`, `to_numpy`, `create_array`

Models `source/framework/python/source/numpy/from_numpy.cpp` (`F` below), `source/framework/python/source/numpy/to_numpy.cpp`
(`T` below), `source/framework/python/source/core/create_partitioned_array.cpp` (`C` below), and the functors
`InstantiateFromBuffer` and `InstantiateFilled` of
`source/framework/algorithm/include/lue/framework/algorithm/create_partitioned_array.hpp` (`P` below).

Simplifications: NumPy arrays are contiguous and row-major (F:50: `c_style`). The extents of shapes passed in are not
negative. The element type of the array has been selected already, except in `create_array`. Reading or writing outside
of a buffer is an error. A fill value is a value; that it may become available later is not modelled.
-/
namespace Lue.Numpy

open Lue.Create Lue.GdalIO

/-- A NumPy array: its shape and its buffer. -/
structure NumpyArray (α : Type) where
  shape : List Nat
  data : List α
  deriving DecidableEq, Repr

/-- `std::copy_n(source, n, destination)`, `std::copy`: the elements are copied one by one. -/
def copyN {α : Type} (source : List α) (from_ n : Nat) (destination : List α) (to_ : Nat) : M (List α) :=
  forLoop n (fun i d => do
    let x ← rd source (from_ + i)
    wr d (to_ + i) x) destination

/-- The loop over the elements of a row, replacing elements. P:815-825, T:78-84 -/
def replaceN {α : Type} (pred : α → Bool) (value : α) (n : Nat) (destination : List α) (to_ : Nat) : M (List α) :=
  forLoop n (fun i d => do
    let x ← rd d (to_ + i)
    if pred x then wr d (to_ + i) value else .ok d) destination

/-- `if (no_data_value) { ... }`: P:813, T:76. -/
def ifSet {α β : Type} (value : Option α) (f : α → β → M β) (x : β) : M β :=
  match value with
  | none => .ok x
  | some v => f v x

/-- `InstantiateFromBuffer::instantiate`: P:766-836. `garbage` is what happens to be in the memory of the partition. -/
def instantiateFromBuffer {α : Type} (T : ElementType α) (buffer : List α) (noDataValue : Option α) (arrayShape : Nat × Nat)
    (offset partitionShape : Nat × Nat) (garbage : Nat → α) : M (Part α) := do
  let data := uninitialised (partitionShape.1 * partitionShape.2) garbage
  let (data, _) ← forLoop partitionShape.1 (fun idx0 (s : List α × Nat) => do
    let destination := idx0 * partitionShape.2
    let data ← copyN buffer s.2 partitionShape.2 s.1 destination
    let data ← ifSet noDataValue (fun v data =>
      replaceN (fun x => T.eq x v) T.noData partitionShape.2 data destination) data
    .ok (data, s.2 + arrayShape.2)) (data, offset.1 * arrayShape.2 + offset.2)
  .ok ⟨offset, partitionShape, data⟩

/-- A shape with two extents. F:66-80; `source/framework/python/source/shape.hpp:29-36` -/
def twoExtents : List Nat → M (Nat × Nat)
  | [e0, e1] => .ok (e0, e1)
  | _ => .error .thrown

/-- The partition shape, if it is not passed in: F:82-85, with
`source/framework/core/include/lue/framework/core/domain_decomposition.hpp:330-375` -/
def selectPartitionShape (shape : Nat × Nat) (nrThreads : Nat) : Option (List Nat) → M (Nat × Nat)
  | some p => twoExtents p
  | none => twoExtents (Decomposition.defaultPartitionShape (2000 * 2000) 2000 [shape.1, shape.2] nrThreads)

/-- `from_numpy`: F:47-119. The buffer is copied first (F:106-107): `nr_elements` of its elements. -/
def fromNumpy {α : Type} (T : ElementType α) (array : NumpyArray α) (partitionShape : Option (List Nat))
    (noDataValue : Option α) (nrLocalities nrThreads : Nat) (garbage : Nat → Nat → α) : M (Created α) := do
  let shape ← twoExtents array.shape
  let partitionShape ← selectPartitionShape shape nrThreads partitionShape
  let buffer ← copyN array.data 0 (shape.1 * shape.2) (uninitialised (shape.1 * shape.2) (garbage 0)) 0
  createEach shape partitionShape nrLocalities fun _ arrayShape _ _ k offset pshape =>
    instantiateFromBuffer T buffer noDataValue arrayShape offset pshape (garbage (k + 1))

/-- `DefaultInputNoDataPolicy::is_no_data`: NaN in case of floating point elements, otherwise the default no-data value.
`source/framework/algorithm/include/lue/framework/algorithm/policy/default_value_policies.hpp:20-24` -/
def isNoData {α : Type} (T : ElementType α) (x : α) : Bool :=
  if T.floating then T.isNaN x else T.eq x T.noData

/-- Copying the rows of a partition: T:66-88 -/
def copyPartition {α : Type} (T : ElementType α) (noDataValue : Option α) (shape : Nat × Nat) (partition : Part α)
    (result : List α) : M (List α) := do
  let (result, _, _) ← forLoop partition.shape.1 (fun _ (s : List α × Nat × Nat) => do
    let result ← copyN partition.data s.2.1 partition.shape.2 s.1 s.2.2
    let result ← ifSet noDataValue (fun v result =>
      replaceN (isNoData T) v partition.shape.2 result s.2.2) result
    .ok (result, s.2.1 + partition.shape.2, s.2.2 + shape.2))
    (result, 0, partition.offset.1 * shape.2 + partition.offset.2)
  .ok result

/-- `to_numpy`: T:19-96. `garbage` is what happens to be in the memory NumPy allocates. -/
def toNumpy {α : Type} (T : ElementType α) (array : Created α) (noDataValue : Option α) (garbage : Nat → α) :
    M (NumpyArray α) := do
  let result := uninitialised (array.shape.1 * array.shape.2) garbage
  let result ← forLoop array.partitions.length (fun k result => do
    let partition ← rd array.partitions k
    copyPartition T noDataValue array.shape partition result) result
  .ok ⟨[array.shape.1, array.shape.2], result⟩

/-! ### Filled arrays -/

/-- Element types: `i`nteger, `u`nsigned integer, or `f`loating point, and size in bytes. -/
structure DType where
  kind : Char
  itemsize : Nat
  deriving DecidableEq, Repr

/-- The switch on the data type, C:44-167. `supported` are the element types for which LUE was built. -/
def selectElement (supported : DType → Bool) (dtype : DType) : Option DType :=
  match dtype.kind with
  | 'i' =>
    match dtype.itemsize with
    | 1 | 2 | 4 | 8 => if supported ⟨'i', dtype.itemsize⟩ then some ⟨'i', dtype.itemsize⟩ else none
    | _ => none
  | 'u' =>
    match dtype.itemsize with
    | 1 | 2 | 4 | 8 => if supported ⟨'u', dtype.itemsize⟩ then some ⟨'u', dtype.itemsize⟩ else none
    | _ => none
  | 'f' =>
    match dtype.itemsize with
    | 4 | 8 => if supported ⟨'f', dtype.itemsize⟩ then some ⟨'f', dtype.itemsize⟩ else none
    | _ => none
  | _ => none

/-- `create_array(array_shape, dtype, fill_value, partition_shape)`: C:178-249, for arrays of rank 2, with
`InstantiateFilled::instantiate`: P:673-690. `cast` is the conversion of the fill value to the element type; it fails if
the value is not representable. The result consists of the element type and the array. -/
def createArray {α β : Type} (supported : DType → Bool) (cast : DType → β → M α) (arrayShape : List Nat) (dtype : DType)
    (fillValue : β) (partitionShape : Option (List Nat)) (nrLocalities nrThreads : Nat) : M (DType × Created α) := do
  let shape ← twoExtents arrayShape
  let partitionShape ← selectPartitionShape shape nrThreads partitionShape
  match selectElement supported dtype with
  | none => .error .thrown
  | some element => do
    let value ← cast element fillValue
    let array ← createEach shape partitionShape nrLocalities fun _ _ _ _ _ offset pshape =>
      .ok ⟨offset, pshape, List.replicate (pshape.1 * pshape.2) value⟩
    .ok (element, array)

end Lue.Numpy

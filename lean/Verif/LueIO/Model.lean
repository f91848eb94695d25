import Verif.Partitioned.Cells
import Verif.Index.Properties

/-!
# Model of reading and writing partitioned arrays: `from_lue`, `to_lue`

Models which elements of an array in a LUE dataset (an HDF5 dataset) are read and written, by
`source/framework/io/include/lue/framework/io/{util,to_lue,from_lue}.hpp` and
`source/data_model/hdf5/source/{hyperslab,dataset}.cpp`. When the reading and writing happens is modelled elsewhere
(`Verif.Serializer`).

Simplifications: 2D arrays; opening and closing of the dataset, finding the property and object and conversion between
element types by the HDF5 library are left out; the HDF5 library is modelled by what it does with a hyperslab
selection (`H5Sselect_hyperslab`, `H5Dread`, `H5Dwrite`). Failing assertions are exceptions.
-/
namespace Lue.LueIO

open Lue.Index (linearIdxToIdxs nrElements)

/-- `hdf5::Hyperslab`: source/data_model/hdf5/include/lue/hdf5/hyperslab.hpp -/
structure Hyperslab where
  start : List Nat
  stride : List Nat
  count : List Nat
  deriving DecidableEq, Repr

/-- `Hyperslab(start, count)`: hyperslab.cpp:36-45 -/
def Hyperslab.ofCount (start count : List Nat) : Hyperslab := ⟨start, List.replicate start.length 1, count⟩

/-- `Hyperslab(shape)`: hyperslab.cpp:59-68 -/
def Hyperslab.ofShape (shape : List Nat) : Hyperslab :=
  ⟨List.replicate shape.length 0, List.replicate shape.length 1, shape⟩

/-- `shape_to_hyperslab`: util.hpp:33-38 -/
def shapeToHyperslab (shape : List Nat) : Hyperslab := .ofShape shape

/-- `hyperslab_to_shape`: util.hpp:41-55 -/
def hyperslabToShape (h : Hyperslab) : M (List Nat) :=
  if h.stride.all (· == 1) then .ok h.count else .error .thrown

/-- `hyperslab(array_hyperslab_start, partition_offset, partition_shape)`: util.hpp:72-92 -/
def hyperslab (arrayStart offset shape : List Nat) : Hyperslab :=
  .ofCount (List.zipWith (· + ·) arrayStart offset) shape

/-- `hyperslab(array_hyperslab_start, partition_offset, partition_shape, location_in_time_idx, time_step_idx)`:
util.hpp:115-141 -/
def hyperslabAt (arrayStart offset shape : List Nat) (locationInTime timeStep : Nat) : Hyperslab :=
  .ofCount (locationInTime :: timeStep :: List.zipWith (· + ·) arrayStart offset) (1 :: 1 :: shape)

/-- An HDF5 dataset: its extent and its elements. -/
structure H5 (α : Type) where
  shape : List Nat
  data : List Nat → α

/-- HDF5: index in the dataset of the n-th element, in row-major order, of a hyperslab selection. -/
def Hyperslab.coord (h : Hyperslab) (n : Nat) : List Nat :=
  List.zipWith (· + ·) h.start (List.zipWith (· * ·) h.stride (linearIdxToIdxs n h.count))

/-- HDF5: a selection must be within the extent of the dataset. -/
def Hyperslab.fits (h : Hyperslab) (shape : List Nat) : Bool :=
  h.start.length == shape.length && h.stride.length == shape.length && h.count.length == shape.length &&
  (List.range shape.length).all fun d =>
    h.start.getD d 0 + h.stride.getD d 0 * (h.count.getD d 0 - 1) < shape.getD d 0

/-- `Dataset::write(datatype, hyperslab, transfer_property_list, buffer)`: dataset.cpp:293-365. The writes done to
elements of the dataset: index and value. -/
def h5Writes {α : Type} (shape : List Nat) (h : Hyperslab) (buffer : List α) : M (List (List Nat × α)) :=
  if h.fits shape then
    (List.range (nrElements h.count)).mapM fun n => do
      let x ← rd buffer n
      .ok (h.coord n, x)
  else .error .thrown

/-- A write to an element of the dataset -/
def H5.put {α : Type} (d : H5 α) (w : List Nat × α) : H5 α :=
  { d with data := fun i => if i = w.1 then w.2 else d.data i }

/-- Writes to elements of the dataset, one after the other -/
def H5.apply {α : Type} (d : H5 α) (ws : List (List Nat × α)) : H5 α := ws.foldl H5.put d

/-- `Dataset::read(datatype, hyperslab, transfer_property_list, buffer)`: dataset.cpp:208-275. Elements read are stored
in consecutive elements of the buffer. -/
def h5Read {α : Type} (d : H5 α) (h : Hyperslab) (buffer : List α) : M (List α) :=
  if h.fits d.shape then
    (List.range (nrElements h.count)).foldlM (fun b n => wr b n (d.data (h.coord n))) buffer
  else .error .thrown

/-- The hyperslab of a partition: the function `create_hyperslab` in `write_partitions_constant` (to_lue.hpp:296-298),
`write_partitions_variable` (to_lue.hpp:500-502), `read_partitions_constant` (from_lue.hpp:227-229) and
`read_partitions_variable` (from_lue.hpp:400-402). `time` is the time step index, for temporal arrays. The offset and
shape of the partition are those computed when the array was created, see `Grid.shapes_eq`. -/
def partitionHyperslab (g : Grid) (arrayStart : List Nat) (time : Option Nat) (k : Nat) : Hyperslab :=
  let offset := [k / g.n1 * g.p0, k % g.n1 * g.p1]
  let shape := [g.rows (k / g.n1), g.cols (k % g.n1)]
  match time with
  | none => hyperslab arrayStart offset shape
  | some t => hyperslabAt arrayStart offset shape 0 t

/-- `result[locality].push_back(partition_idx)`, after adding an empty collection if there is none: the collections
are ordered by locality. util.hpp:275-294 -/
def addIdx : List (Nat × List Nat) → Nat → Nat → List (Nat × List Nat)
  | [], l, k => [(l, [k])]
  | (m, ks) :: r, l, k =>
    if l < m then (l, [k]) :: (m, ks) :: r
    else if l = m then (m, ks ++ [k]) :: r
    else (m, ks) :: addIdx r l k

/-- `partition_idxs_by_locality`: util.hpp:255-301; `loc` is the locality of each of the `n` partitions. The assertions
are modelled by `idxsByLocalityAsserts`. -/
def idxsByLocality (loc : Nat → Nat) (n : Nat) : List (Nat × List Nat) :=
  (List.range n).foldl (fun r k => addIdx r (loc k) k) []

/-- The assertion in `partition_idxs_by_locality`, util.hpp:290, done before each of the indices is added: room is
reserved for `nr_partitions / nr_localities + 1` indices. -/
def idxsByLocalityAsserts (loc : Nat → Nat) (n nrLocalities : Nat) : Bool :=
  (List.range n).all fun k =>
    let size := (((idxsByLocality loc k).find? fun e => e.1 == loc k).map (·.2.length)).getD 0
    decide (n / nrLocalities + 1 > size)

/-- `write_partition`: to_lue.hpp:96-119. The writes done. -/
def partitionWrites {α : Type} (shape : List Nat) (x : PArr α) (arrayStart : List Nat) (time : Option Nat) (k : Nat) :
    M (List (List Nat × α)) := do
  let buffer ← rd x.parts k
  h5Writes shape (partitionHyperslab x.grid arrayStart time k) buffer

/-- `to_lue`: to_lue.hpp:615-733 (`time = none`), 758-893 (`time = some t`), and `write_partitions`, to_lue.hpp:122-186.
The partitions are written one after the other, in the given order. See `SerialOrder` for the orders possible. -/
def toLue {α : Type} (d : H5 α) (x : PArr α) (time : Option Nat) (order : List Nat) : M (H5 α) :=
  order.foldlM (fun d k => do
    let ws ← partitionWrites d.shape x (shapeToHyperslab [x.grid.a0, x.grid.a1]).start time k
    .ok (d.apply ws)) d

/-- The orders in which partitions are written. One locality after the other, to_lue.hpp:654-693, 799-842. Within a
locality, the partitions are written in order if the HDF5 library is not thread-safe (to_lue.hpp:171-174), otherwise in
the order in which these become ready, to_lue.hpp:146-157. -/
def SerialOrder (loc : Nat → Nat) (n : Nat) (order : List Nat) : Prop :=
  ∃ groups : List (List Nat), List.Forall₂ List.Perm groups ((idxsByLocality loc n).map (·.2)) ∧
    order = groups.flatten

/-- `to_lue`, with parallel I/O: all element writes of all partitions happen in any order, interleaved. -/
def ParallelToLue {α : Type} (d : H5 α) (x : PArr α) (time : Option Nat) (result : M (H5 α)) : Prop :=
  match (List.range (x.grid.n0 * x.grid.n1)).mapM
      (partitionWrites d.shape x (shapeToHyperslab [x.grid.a0, x.grid.a1]).start time) with
  | .error e => result = .error e
  | .ok wss => ∃ ws : List (List Nat × α), ws.Perm wss.flatten ∧ result = .ok (d.apply ws)

/-- `read_partitions`: from_lue.hpp:87-127. The partitions of a locality, after reading. -/
def readPartitions {α : Type} (d : H5 α) (g : Grid) (arrayStart : List Nat) (time : Option Nat) (parts : List (List α))
    (idxs : List Nat) : M (List (List α)) :=
  idxs.mapM fun k => do
    let buffer ← rd parts k
    h5Read d (partitionHyperslab g arrayStart time k) buffer

/-- Store the results of the read action of a locality in the collection of partitions of the array:
from_lue.hpp:609-628, 787-806 -/
def storePartitions {α : Type} (parts : List (List α)) (idxs : List Nat) (read : List (List α)) : M (List (List α)) :=
  (List.range idxs.length).foldlM (fun parts i => do
    let k ← rd idxs i
    let p ← rd read i
    wr parts k p) parts

/-- `from_lue`, given an array: from_lue.hpp:493-640 (`time = none`), 646-818 (`time = some t`). `groups` are the
localities and the indices of their partitions, in the order in which the localities finish reading. -/
def fromLueInto {α : Type} (d : H5 α) (arrayStart : List Nat) (time : Option Nat) (x : PArr α)
    (groups : List (Nat × List Nat)) : M (PArr α) := do
  let parts ← groups.foldlM (fun parts e => do
    let read ← readPartitions d x.grid arrayStart time x.parts e.2
    storePartitions parts e.2 read) x.parts
  .ok ⟨x.grid, parts⟩

/-- `from_lue`: from_lue.hpp:917-933, 1005-1023: read a hyperslab of the array, using partitions of a certain shape.
`garbage` are the contents of memory of the newly created partitions; `loc` tells to which localities these are
assigned. Throws if the partition shape and the shape of the hyperslab don't go together (C01). -/
def fromLue {α : Type} (d : H5 α) (h : Hyperslab) (p0 p1 : Nat) (time : Option Nat) (garbage : Nat → Nat → α)
    (groups : List (Nat × List Nat)) : M (PArr α) := do
  match ← hyperslabToShape h with
  | [a0, a1] =>
    let g : Grid := ⟨a0, a1, p0, p1⟩
    if 0 < p0 ∧ 0 < p1 ∧ p0 ≤ a0 ∧ p1 ≤ a1 then
      fromLueInto d h.start time
        ⟨g, (List.range (g.n0 * g.n1)).map fun k => uninitialised (g.rows (k / g.n1) * g.cols (k % g.n1)) (garbage k)⟩
        groups
    else .error .thrown
  | _ => .error .thrown

/-- `from_lue` of the whole array, from_lue.hpp:961-970, 1051-1068. The shape of the array is obtained from the
discretization of the raster (`grid_shape`, from_lue.hpp:821-879). -/
def fromLueAll {α : Type} (d : H5 α) (gridShape : List Nat) (p0 p1 : Nat) (time : Option Nat) (garbage : Nat → Nat → α)
    (groups : List (Nat × List Nat)) : M (PArr α) :=
  fromLue d (shapeToHyperslab gridShape) p0 p1 time garbage groups

end Lue.LueIO

import Verif.LueIO.Model
import Verif.RasterView.Spec
import Verif.Numpy.Model

/-!
# Model of reading and writing rasters from Python

`read_array` and `write_array`: `source/framework/python/source/io/read_array.cpp` (`R` below) and
`source/framework/python/source/io/write_array.cpp` (`W` below), with `parse_array_pathname`
(`source/data_model/hl/source/util.cpp`, `U` below), on top of the raster views of C49 and the I/O of C29.

Simplifications: datasets are found by their pathname, a string; symbolic links, `.` and `..` are left out (`normalize`). The
contents of files which are not LUE datasets, and other users of the files, are left out. Assertions in `hdf5::hyperslab` are
left out (they are in release builds): the code continues. Conversion of elements is left out, see `dispatch`.
-/
namespace Lue.PyIO

open Lue.LueIO Lue.RasterView Lue.DataModel

/-! ### Pathnames of arrays -/

/-- `boost::algorithm::split` at slashes: U:18-21, U:55-57. There is always at least one token. -/
def splitSlash : Name → List Name
  | [] => [[]]
  | c :: cs =>
    if c = '/' then [] :: splitSlash cs
    else
      match splitSlash cs with
      | t :: ts => (c :: t) :: ts
      | [] => [[c]]

/-- `std::filesystem::path::operator/=`, with a right hand side without slashes. A separator is added if the path has a
filename. -/
def appendPath (p q : Name) : Name :=
  if p = [] ∨ p.getLast? = some '/' then p ++ q else p ++ '/' :: q

/-- `std::filesystem::path::is_absolute` -/
def isAbsolute (p : Name) : Bool := p.head? == some '/'

/-- The parts of the pathname of an array -/
structure ArrayPath where
  dataset : Name
  phenomenon : Name
  propertySet : Name
  layer : Name
  deriving DecidableEq, Repr

/-- `parse_array_pathname`: U:42-96. The tokens are taken from the back. -/
def parseArrayPathname (pathname : Name) : M ArrayPath :=
  match (splitSlash pathname).reverse with
  | property :: propertySet :: phenomenon :: last :: rest =>
    match (last :: rest).reverse with
    | front :: others =>
      let dataset := others.foldl appendPath front
      .ok ⟨if isAbsolute pathname then '/' :: dataset else dataset, phenomenon, propertySet, property⟩
    | [] => .error .outOfBounds
  | _ => .error .thrown

/-! ### Datatypes -/

/-- File datatypes -/
inductive Datatype where
  | int8le | uint8le | int16le | uint16le | int32le | uint32le | int64le | uint64le | float32le | float64le | other
  deriving DecidableEq, Repr

/-- Element types of arrays -/
inductive Element where
  | int8 | uint8 | int16 | uint16 | int32 | uint32 | int64 | uint64 | float | double
  deriving DecidableEq, Repr

/-- `read<Element, rank>`: R:43-58. If the element type is not supported, there is no result. -/
def readAs (supported : Element → Bool) (e : Element) : Option Element := if supported e then some e else none

/-- There has to be a result: R:114-117. -/
def required : Option Element → M Element
  | some e => .ok e
  | none => .error .thrown

/-- `read`: R:61-120. The type of the elements of the array read. -/
def dispatch (supported : Element → Bool) (t : Datatype) : M Element :=
  let result :=
    if t = .int8le then readAs supported .int8
    else if t = .uint8le then readAs supported .uint8
    else if t = .uint16le then readAs supported .uint16
    else if t = .int16le then readAs supported .int16
    else if t = .uint32le then readAs supported .uint32
    else if t = .int32le then readAs supported .int32
    else if t = .uint64le then readAs supported .uint64
    else if t = .int64le then readAs supported .int64
    else if t = .float32le then readAs supported .float
    else if t = .float64le then readAs supported .double
    else none
  required result

/-! ### Datasets on disk -/

/-- The datasets, by pathname -/
abbrev Disk (α β τ : Type) := Items (File α β τ)

/-- `probe_raster`: `source/data_model/hl/source/raster_view.cpp:361-373` (constant), 694-706 (variable): the ID of the object
and the shape of the raster -/
def probeRaster {α β τ : Type} (disk : Disk α β τ) (kind : Kind) (path : ArrayPath) : M (Nat × List Nat) := do
  let d ← item disk path.dataset
  let view ← openView d kind path.phenomenon path.propertySet
  let _ ← layer d view path.layer
  .ok (view.objectId, view.grid)

/-- The array of an object: `source/framework/io/include/lue/framework/io/from_lue.hpp:200-225` (constant), 370-398
(variable), and `to_lue.hpp:270-294`, 470-498 -/
def openArray {α β τ : Type} (d : File α β τ) (kind : Kind) (path : ArrayPath) (id : Nat) : M (Dataset α) := do
  let p ← item d.phenomena path.phenomenon
  let s ← item p.propertySets path.propertySet
  let property ← item (s.layers kind).get path.layer
  openChild property.value id

/-- Arrays of rasters that vary through time are stored in another collection. -/
def kindOf (time : Option Nat) : Kind := if time.isSome then .varying else .constant

/-! ### Reading -/

/-- Conversion of a 64 bit signed integer to a 64 bit unsigned integer (`hsize_t`) -/
def u64 (n : Int) : Nat := (n % 2 ^ 64).toNat

/-- Subtraction of 64 bit unsigned integers -/
def subU64 (a b : Nat) : Nat := (a + (2 ^ 64 - b % 2 ^ 64)) % 2 ^ 64

/-- `tuple_to_shape`: `source/framework/python/source/shape.hpp:16-27`: conversion of Python integers to 64 bit signed
integers. It is an error if these don't fit. -/
def tupleToShape (tuple : List Int) : M (List Int) :=
  if tuple.all fun n => decide (-2 ^ 63 ≤ n ∧ n < 2 ^ 63) then .ok tuple else .error .thrown

/-- A static shape of two extents: `shape.hpp:30-37`. Simplification: partition shapes with negative extents are refused. -/
def staticShape : List Int → M (Nat × Nat)
  | [p0, p1] => if 0 ≤ p0 ∧ 0 ≤ p1 then .ok (p0.toNat, p1.toNat) else .error .thrown
  | _ => .error .thrown

/-- The partition shape used: R:249-270, R:330-350, R:391-412. `shape` is the shape of the array in the dataset. -/
def choosePartitionShape (nrThreads : Nat) (shape : List Nat) : Option (List Int) → M (Nat × Nat)
  | some tuple => do
    let partitionShape ← tupleToShape tuple
    if shape.length ≠ partitionShape.length then .error .thrown else staticShape partitionShape
  | none => Numpy.twoExtents (Decomposition.defaultPartitionShape (2000 * 2000) 2000 shape nrThreads)

/-- `hdf5::hyperslab(center, shape, array_shape)`: `source/data_model/hdf5/source/hyperslab.cpp:163-190`, with
`shape_to_offset` and `shape_to_shape`: R:18-41 -/
def centredHyperslab (c0 c1 s0 s1 : Int) : Hyperslab :=
  .ofCount [subU64 (u64 c0) (u64 s0 / 2), subU64 (u64 c1) (u64 s1 / 2)] [u64 s0, u64 s1]

/-- `Hyperslab::empty`: `source/data_model/hdf5/source/hyperslab.cpp:133-137` -/
def isEmpty (h : Hyperslab) : Bool := h.start.length == 0 || h.count.contains 0 || h.stride.contains 0

/-- How partitions are read: what is in the memory of new partitions, and the localities with their partitions, in the order in
which these finish reading. -/
structure Run (α : Type) where
  garbage : Nat → Nat → α
  groups : List (Nat × List Nat)

/-- `read_array` of a raster which does not vary: R:224-279, with R:123-136 (an empty hyperslab stands for the whole raster)
and `from_lue.hpp:821-850`, 961-970 -/
def readConstant {α β τ : Type} (nrThreads : Nat) (disk : Disk α β τ) (pathname : Name) (partitionShape : Option (List Int))
    (run : Run α) : M (PArr α) := do
  let path ← parseArrayPathname pathname
  let (id, shape) ← probeRaster disk .constant path
  let p ← choosePartitionShape nrThreads shape partitionShape
  let array ← openArray (← item disk path.dataset) .constant path id
  fromLueAll array.toH5 shape p.1 p.2 none run.garbage run.groups

/-- `read_array` of part of a raster: R:282-365 -/
def readSubset {α β τ : Type} (nrThreads : Nat) (disk : Disk α β τ) (pathname : Name) (center subset : List Int)
    (partitionShape : Option (List Int)) (run : Run α) : M (PArr α) := do
  let center ← tupleToShape center
  let subset ← tupleToShape subset
  let path ← parseArrayPathname pathname
  let (id, shape) ← probeRaster disk .constant path
  match center, subset with
  | [c0, c1], [s0, s1] => do
    let p ← choosePartitionShape nrThreads shape partitionShape
    let array ← openArray (← item disk path.dataset) .constant path id
    let h := centredHyperslab c0 c1 s0 s1
    if isEmpty h then fromLueAll array.toH5 shape p.1 p.2 none run.garbage run.groups
    else fromLue array.toH5 h p.1 p.2 none run.garbage run.groups
  | _, _ => .error .thrown

/-- `read_array` of a raster which varies through time: R:368-421, `from_lue.hpp:853-879`, 1051-1068 -/
def readVariable {α β τ : Type} (nrThreads : Nat) (disk : Disk α β τ) (pathname : Name) (timeStep : Int)
    (partitionShape : Option (List Int)) (run : Run α) : M (PArr α) := do
  let path ← parseArrayPathname pathname
  let (id, shape) ← probeRaster disk .varying path
  let p ← choosePartitionShape nrThreads shape partitionShape
  let array ← openArray (← item disk path.dataset) .varying path id
  fromLueAll array.toH5 shape p.1 p.2 (some (u64 timeStep)) run.garbage run.groups

/-! ### Writing -/

/-- Writing (part of) the array of an object. -/
def writeObject {α β τ : Type} (d : File α β τ) (kind : Kind) (path : ArrayPath) (id : Nat) (h : Hyperslab)
    (buffer : List α) : M (File α β τ) := do
  let p ← item d.phenomena path.phenomenon
  let s ← item p.propertySets path.propertySet
  let property ← item (s.layers kind).get path.layer
  let array ← openChild property.value id
  let array ← writeHyperslab array h buffer
  .ok (d.setPropertySet path.phenomenon path.propertySet p
    (s.setLayer kind path.layer { property with value := setChild property.value id array }))

/-- Writing a partition: `to_lue.hpp:96-119` -/
def writePart {α β τ : Type} (x : PArr α) (time : Option Nat) (path : ArrayPath) (id : Nat) (d : File α β τ) (k : Nat) :
    M (File α β τ) := do
  let buffer ← rd x.parts k
  writeObject d (kindOf time) path id
    (partitionHyperslab x.grid (shapeToHyperslab [x.grid.a0, x.grid.a1]).start time k) buffer

/-- Writing the partitions, one after the other: `to_lue`, see C29. Partitions which were written before an exception is thrown
stay in the dataset. -/
def writeParts {α β τ : Type} (x : PArr α) (time : Option Nat) (path : ArrayPath) (id : Nat) :
    File α β τ → List Nat → M Unit × File α β τ
  | d, [] => (.ok (), d)
  | d, k :: ks =>
    match writePart x time path id d k with
    | .ok d' => writeParts x time path id d' ks
    | .error e => (.error e, d)

/-- `write_array`: W:15-29 (constant), W:32-49 (variable). The result and the datasets after it. `order`: the order in which
partitions are written. -/
def writeArray {α β τ : Type} (disk : Disk α β τ) (x : PArr α) (timeStep : Option Int) (pathname : Name)
    (order : List Nat) : M Unit × Disk α β τ :=
  let time := timeStep.map u64
  match (do
    let path ← parseArrayPathname pathname
    let probed ← probeRaster disk (kindOf time) path
    let d ← item disk path.dataset
    .ok (path, probed.1, d) : M (ArrayPath × Nat × File α β τ)) with
  | .error e => (.error e, disk)
  | .ok (path, id, d) =>
    let r := writeParts x time path id d order
    (r.1, RasterView.insert disk path.dataset r.2)

end Lue.PyIO

import Verif.LueIO.Model
import Mathlib.Data.Nat.Digits.Defs

/-!
Model of the value arrays of the LUE data model: the arrays in which the values of objects are stored.
`V` below is `source/data_model/cxx/source/array`.

HDF5 is modelled by what it does with extents, hyperslab selections, links in groups and attributes. Conversion between
the type of elements in memory and in the file is left out. Failing assertions about existing links are left out too: the
code continues, and throws when creating a link which already exists.
-/
namespace Lue.DataModel

open Lue.LueIO Lue.Index

/-- An HDF5 dataset with its fill value. Elements which have never been written contain the fill value. -/
structure Dataset (α : Type) extends H5 α where
  fill : α

/-- Whether an element is within the extent of a dataset. -/
def inExtent (idxs shape : List Nat) : Bool :=
  idxs.length == shape.length && (List.zipWith (fun i n => decide (i < n)) idxs shape).all id

/-- `create_dataset`: source/data_model/hdf5/source/dataset.cpp:459-492 -/
def createDataset {α : Type} (shape : List Nat) (fill : α) : Dataset α := ⟨⟨shape, fun _ => fill⟩, fill⟩

/-- `Dataset::resize` (`H5Dset_extent`), source/data_model/hdf5/source/dataset.cpp:164-174: elements which were not
within the extent get the fill value. -/
def resize {α : Type} (d : Dataset α) (shape : List Nat) : Dataset α :=
  { d with
    shape := shape
    data := fun i => if inExtent i d.shape then d.data i else d.fill }

/-- HDF5: a selection is valid if nothing is selected, or if all selected elements are within the extent of the
dataset. -/
def selectionValid (h : Hyperslab) (shape : List Nat) : Bool :=
  h.start.length == shape.length && h.stride.length == shape.length && h.count.length == shape.length &&
  (h.count.any (· == 0) || h.fits shape)

/-- `Dataset::read(datatype, hyperslab, buffer)`: source/data_model/hdf5/source/dataset.cpp:208-275 -/
def readHyperslab {α : Type} (d : Dataset α) (h : Hyperslab) (buffer : List α) : M (List α) :=
  if selectionValid h d.shape then
    (List.range (nrElements h.count)).foldlM (fun b n => wr b n (d.data (h.coord n))) buffer
  else .error .thrown

/-- `Dataset::write(datatype, hyperslab, buffer)`: source/data_model/hdf5/source/dataset.cpp:293-365 -/
def writeHyperslab {α : Type} (d : Dataset α) (h : Hyperslab) (buffer : List α) : M (Dataset α) :=
  if selectionValid h d.shape then do
    let ws ← (List.range (nrElements h.count)).mapM fun n => do
      let x ← rd buffer n
      .ok (h.coord n, x)
    .ok { d with toH5 := d.toH5.apply ws }
  else .error .thrown

/-! ### Values with object arrays of the same shape -/

namespace SameShape

/-- `create_value`: V/same_shape/value.cpp:174-205, V/same_shape/constant_shape/value.cpp:180-211 -/
def create {α : Type} (arrayShape : List Nat) (fill : α) : Dataset α := createDataset (0 :: arrayShape) fill

/-- `Value::expand`: V/same_shape/value.cpp:43-52, V/same_shape/constant_shape/value.cpp:43-52 -/
def expand {α : Type} (d : Dataset α) (nrArrays : Nat) : Dataset α :=
  resize d (match d.shape with
    | [] => []
    | n :: s => (n + nrArrays) :: s)

/-- `Value::nr_arrays`: V/same_shape/value.cpp:58-61 -/
def nrArrays {α : Type} (d : Dataset α) : Nat := d.shape.headD 0

/-- `Value::array_shape`: V/same_shape/value.cpp:70-77 -/
def arrayShape {α : Type} (d : Dataset α) : List Nat := d.shape.tail

/-- `Value::hyperslab(range)`: V/same_shape/value.cpp:80-91. The range is `begin .. end`, `end` excluded. -/
def hyperslab {α : Type} (d : Dataset α) (b e : Nat) : Hyperslab :=
  .ofCount ((List.replicate d.shape.length 0).set 0 b) (d.shape.set 0 (e - b))

/-- `Value::read(range, buffer)`: V/same_shape/value.cpp:106-109 -/
def read {α : Type} (d : Dataset α) (b e : Nat) (buffer : List α) : M (List α) := readHyperslab d (hyperslab d b e) buffer

/-- `Value::read(idx, buffer)`: V/same_shape/value.cpp:94-103 -/
def readAt {α : Type} (d : Dataset α) (idx : Nat) (buffer : List α) : M (List α) :=
  readHyperslab d (hyperslab d idx (idx + 1)) buffer

/-- `Value::write(range, buffer)`: V/same_shape/value.cpp:118-121 -/
def write {α : Type} (d : Dataset α) (b e : Nat) (buffer : List α) : M (Dataset α) :=
  writeHyperslab d (hyperslab d b e) buffer

/-- `Value::write(idx, buffer)`: V/same_shape/value.cpp:112-115 -/
def writeAt {α : Type} (d : Dataset α) (idx : Nat) (buffer : List α) : M (Dataset α) :=
  writeHyperslab d (hyperslab d idx (idx + 1)) buffer

end SameShape

/-! ### Groups of values -/

/-- `std::to_string`: the decimal digits -/
def name (n : Nat) : List Char :=
  if n = 0 then ['0'] else ((Nat.digits 10 n).map Nat.digitChar).reverse

/-- An HDF5 group with an attribute containing a number of items (`nr_objects_tag`, `nr_locations_in_time_tag`) and a
value per item. -/
structure Group (χ : Type) where
  nrAttr : Nat
  child : List Char → Option χ

/-- A C++ object representing a group: it keeps its own copy of the number of items. -/
structure Handle where
  nr : Nat
  deriving DecidableEq, Repr

/-- `create_value`: V/different_shape/value.cpp:165-177, V/different_shape/constant_shape/value.cpp:140-152,
V/different_shape/variable_shape/value.cpp:92-104, V/same_shape/variable_shape/value.cpp:89-101 -/
def createGroup {χ : Type} : Group χ := ⟨0, fun _ => none⟩

/-- The constructors opening a value, e.g. V/different_shape/value.cpp:10-35: the attribute is read. -/
def openGroup {χ : Type} (g : Group χ) : Handle := ⟨g.nrAttr⟩

/-- Creating a dataset or a group in a group: dataset.cpp:459-492, group.cpp:295-312. Whether an exception is thrown, and
the contents of the file. -/
def createChild {χ : Type} (g : Group χ) (key : Nat) (c : χ) : M Unit × Group χ :=
  match g.child (name key) with
  | some _ => (.error .thrown, g)
  | none => (.ok (), { g with child := fun n => if n = name key then some c else g.child n })

/-- The loops creating something for each object: items which have been created before an exception is thrown stay in
the file. -/
def createChildren {χ : Type} : Group χ → List (Nat × χ) → M Unit × Group χ
  | g, [] => (.ok (), g)
  | g, (key, c) :: items =>
    match createChild g key c with
    | (.ok (), g') => createChildren g' items
    | (.error err, g') => (.error err, g')

/-- Creating items and updating the number of items, in the C++ object and in the attribute. -/
def expandGroup {χ : Type} (h : Handle) (g : Group χ) (items : List (Nat × χ)) : M Unit × Handle × Group χ :=
  match createChildren g items with
  | (.ok (), g') => (.ok (), ⟨h.nr + items.length⟩, { g' with nrAttr := h.nr + items.length })
  | (.error err, g') => (.error err, h, g')

/-- Opening an item: an exception is thrown if there is none. -/
def openChild {χ : Type} (g : Group χ) (key : Nat) : M χ :=
  match g.child (name key) with
  | some c => .ok c
  | none => .error .thrown

/-- Storing a changed item. -/
def setChild {χ : Type} (g : Group χ) (key : Nat) (c : χ) : Group χ :=
  { g with child := fun n => if n = name key then some c else g.child n }

/-! ### Values with object arrays of different shapes -/

namespace DifferentShape

/-- `Value::expand(nr_objects, ids, shapes)`: V/different_shape/value.cpp:52-62, `expand_core`: 109-131 -/
def expand {α : Type} (fill : α) (h : Handle) (g : Group (Dataset α)) (ids : List Nat) (shapes : List (List Nat)) :
    M Unit × Handle × Group (Dataset α) :=
  expandGroup h g ((ids.zip shapes).map fun e => (e.1, createDataset e.2 fill))

/-- `Value::expand(id, shape, no_data_value)`: V/different_shape/value.cpp:94-100 -/
def expandOne {α : Type} (fill : α) (h : Handle) (g : Group (Dataset α)) (id : Nat) (shape : List Nat) :
    M Unit × Handle × Group (Dataset α) :=
  expandGroup h g [(id, createDataset shape fill)]

/-- The shapes used by `Value::expand(nr_objects, ids, shapes)` with the sizes of all shapes in one array:
V/different_shape/value.cpp:73-86. For each object two sizes are read, starting at an index which is increased by the
rank for each object. -/
def flatShapes (rank nrObjects : Nat) (sizes : List Nat) : M (List (List Nat)) :=
  (List.range nrObjects).mapM fun o => do
    let a ← rd sizes (o * rank)
    let b ← rd sizes (o * rank + 1)
    .ok [a, b]

/-- `Value::expand(nr_objects, ids, shapes)`: V/different_shape/value.cpp:73-86. Reading outside of the array of sizes is
undefined behaviour: here nothing is created then. -/
def expandFlat {α : Type} (fill : α) (h : Handle) (g : Group (Dataset α)) (rank : Nat) (ids : List Nat)
    (sizes : List Nat) : M Unit × Handle × Group (Dataset α) :=
  match flatShapes rank ids.length sizes with
  | .ok shapes => expand fill h g ids shapes
  | .error err => (.error err, h, g)

/-- `value[id].write(buffer)`: V/different_shape/value.cpp:141-148, source/data_model/cxx/source/core/array.cpp:85-88,
`Dataset::write(datatype, buffer)`: dataset.cpp -/
def write {α : Type} (g : Group (Dataset α)) (id : Nat) (buffer : List α) : M (Group (Dataset α)) := do
  let d ← openChild g id
  let d' ← writeHyperslab d (.ofShape d.shape) buffer
  .ok (setChild g id d')

/-- `value[id].read(buffer)` -/
def read {α : Type} (g : Group (Dataset α)) (id : Nat) (buffer : List α) : M (List α) := do
  let d ← openChild g id
  readHyperslab d (.ofShape d.shape) buffer

end DifferentShape

namespace DifferentShapeConstantShape

/-- `Value::expand(nr_objects, ids, shapes, nr_locations_in_time)`: V/different_shape/constant_shape/value.cpp:67-78,
`expand_`: 103-115 -/
def expand {α : Type} (fill : α) (h : Handle) (g : Group (Dataset α)) (items : List (Nat × List Nat × Nat)) :
    M Unit × Handle × Group (Dataset α) :=
  expandGroup h g (items.map fun e => (e.1, SameShape.expand (SameShape.create e.2.1 fill) e.2.2))

/-- `value[id].write(range, buffer)`: V/different_shape/constant_shape/value.cpp:118-123 -/
def write {α : Type} (g : Group (Dataset α)) (id b e : Nat) (buffer : List α) : M (Group (Dataset α)) := do
  let d ← openChild g id
  let d' ← SameShape.write d b e buffer
  .ok (setChild g id d')

/-- `value[id].expand(nr_locations_in_time)` -/
def expandItem {α : Type} (g : Group (Dataset α)) (id n : Nat) : M (Group (Dataset α)) := do
  let d ← openChild g id
  .ok (setChild g id (SameShape.expand d n))

/-- `value[id].read(range, buffer)` -/
def read {α : Type} (g : Group (Dataset α)) (id b e : Nat) (buffer : List α) : M (List α) := do
  let d ← openChild g id
  SameShape.read d b e buffer

end DifferentShapeConstantShape

namespace SameShapeVariableShape

/-- `Value::expand(idx, nr_arrays, array_shape)`: V/same_shape/variable_shape/value.cpp:54-65. `idx` is the index of a
location in time. -/
def expand {α : Type} (fill : α) (h : Handle) (g : Group (Dataset α)) (idx nrArrays : Nat) (arrayShape : List Nat) :
    M Unit × Handle × Group (Dataset α) :=
  expandGroup h g [(idx, SameShape.expand (SameShape.create arrayShape fill) nrArrays)]

end SameShapeVariableShape

namespace DifferentShapeVariableShape

/-- `Value::expand(idx, nr_objects, ids, shapes)`: V/different_shape/variable_shape/value.cpp:55-67. A value for the
location in time is created, and expanded. If expanding it fails, the new value stays in the file. -/
def expand {α : Type} (fill : α) (h : Handle) (g : Group (Group (Dataset α))) (idx : Nat) (ids : List Nat)
    (shapes : List (List Nat)) : M Unit × Handle × Group (Group (Dataset α)) :=
  match createChild g idx createGroup with
  | (.error err, g') => (.error err, h, g')
  | (.ok (), g') =>
    match DifferentShape.expand fill (openGroup (createGroup (χ := Dataset α))) createGroup ids shapes with
    | (.error err, _, c) => (.error err, h, setChild g' idx c)
    | (.ok (), _, c) =>
      let g'' := setChild g' idx c
      (.ok (), ⟨h.nr + 1⟩, { g'' with nrAttr := h.nr + 1 })

end DifferentShapeVariableShape

end Lue.DataModel

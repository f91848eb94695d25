import Verif.Validate.Properties
import Verif.DataModel.Proofs
import Verif.Partitioned.Store

/-!
# Model of exporting to Shapefiles

Models `source/data_model/translate/source/format/gdal_vector.cpp` (`G` below), and what it uses of
`source/data_model/utility/source/metadata.cpp` (`J` below).

Assertions are not part of release builds. Coordinates are of an arbitrary type `V`: conversion to 64-bit floats is not modelled.
Strings are lists of characters. GDAL is modelled by a dataset with named layers with geometries; creating a dataset or a layer may fail.
-/
namespace Lue.Shapefile

open Lue.Validate

/-- Strings -/
abbrev Str := List Char

/-! ### JSON -/

/-- A JSON value (nlohmann::json). Numbers are not distinguished from each other. -/
inductive Json where
  | null
  | bool (b : Bool)
  | number
  | string (s : Str)
  | array (l : List Json)
  | object (l : List (Str × Json))

/-- `json::has_key(object, name)`: `J:12-15` -/
def Json.hasKey : Json → Str → Bool
  | .object l, k => (l.lookup k).isSome
  | _, _ => false

/-- `json::object(object, name)`: `J:43-48` -/
def Json.member : Json → Str → M Json
  | .object l, k =>
    match l.lookup k with
    | some j => .ok j
    | none => .error .thrown
  | _, _ => .error .thrown

/-- `json::string(object, name)`: `J:110-113`. The conversion throws an exception if the value is not a string. -/
def Json.str (j : Json) (k : Str) : M Str := do
  match ← j.member k with
  | .string s => .ok s
  | _ => .error .thrown

/-- `size()` -/
def Json.size : Json → Nat
  | .null => 0
  | .array l => l.length
  | .object l => l.length
  | _ => 1

/-- `front()` -/
def Json.front : Json → M Json
  | .null => .error .thrown
  | .array (j :: _) => .ok j
  | .array [] => .error .outOfBounds
  | .object ((_, j) :: _) => .ok j
  | .object [] => .error .outOfBounds
  | j => .ok j

/-- An exception unless the condition holds -/
def demand (b : Bool) : M Unit := if b then .ok () else .error .thrown

/-- The names of the phenomenon and the property set to export: `G:253-318` -/
def selection (root : Json) (dataset : Str) : M (Str × Str) := do
  demand (root.hasKey dataset)
  let datasetJson ← root.member dataset
  demand (datasetJson.hasKey "phenomena".toList)
  let phenomena ← datasetJson.member "phenomena".toList
  demand (phenomena.size == 1)
  let phenomenon ← phenomena.front
  let phenomenonName ← phenomenon.str "name".toList
  demand (phenomenon.hasKey "property_sets".toList)
  let propertySets ← phenomenon.member "property_sets".toList
  demand (propertySets.size == 1)
  let propertySet ← propertySets.front
  let propertySetName ← propertySet.str "name".toList
  .ok (phenomenonName, propertySetName)

/-! ### Paths -/

/-- `path::filename()`: everything after the last slash -/
def fileName (path : Str) : Str := (path.reverse.takeWhile (· ≠ '/')).reverse

/-- The part before the last dot, and the part from the last dot on. Names which start with their only dot, `.` and `..` do not have an
extension. -/
def splitExtension (f : Str) : Str × Str :=
  match f.reverse.dropWhile (· ≠ '.') with
  | [] => (f, [])
  | [_] => (f, [])
  | _ :: s => if f = "..".toList then (f, []) else (s.reverse, '.' :: (f.reverse.takeWhile (· ≠ '.')).reverse)

/-- `path::stem()`: `G:22-25` -/
def stem (path : Str) : Str := (splitExtension (fileName path)).1

/-- `path::has_extension()`: `G:10-13` -/
def hasExtension (path : Str) : Bool := (splitExtension (fileName path)).2 ≠ []

/-! ### Data -/

variable {V : Type}

/-- The items of a space domain: per object, or per active object, an array with `width` coordinates. -/
structure Space (V : Type) where
  mobile : Bool
  isBox : Bool
  width : Nat
  rows : List (List V)

/-- What is used of a property set -/
structure PropertySet (V : Type) where
  tracker : Tracker
  time : Option TimeItems
  space : Option (Space V)

/-- Phenomena, and in each of these property sets, by name -/
abbrev Dataset (V : Type) := Str → Option (Str → Option (PropertySet V))

/-- Geometries: `OGRPoint`, and `OGRPolygon` with a single ring. -/
inductive Geometry (V : Type) where
  | point (x y : V)
  | polygon (ring : List (V × V))

structure Layer (V : Type) where
  name : Str
  features : List (Geometry V)

/-- A GDAL dataset -/
structure Out (V : Type) where
  name : Str
  layers : List (Layer V)

/-- When GDAL refuses to create things: `gdal::create_dataset`, `CreateLayer`, besides layers whose name is in use -/
structure Gdal where
  refusesDataset : Str → Bool
  refusesLayer : Str → Bool

/-- `gdal::create_dataset("ESRI Shapefile", name)`: `source/data_model/gdal/source/dataset.cpp:132-178` -/
def createDataset (gdal : Gdal) (name : Str) : M (Out V) := if gdal.refusesDataset name then .error .thrown else .ok ⟨name, []⟩

/-- `gdal_dataset.CreateLayer(name, ...)`: `G:47-52`, `84-89` -/
def createLayer (gdal : Gdal) (out : Out V) (name : Str) : M Unit :=
  if gdal.refusesLayer name || out.layers.any (·.name == name) then .error .thrown else .ok ()

/-- `add_point_layer`: `G:42-76` -/
def addPointLayer (gdal : Gdal) (out : Out V) (name : Str) (coordinates : List V) : M (Out V) := do
  createLayer gdal out name
  let features ← (List.range ((coordinates.length + 1) / 2)).mapM fun k => do
    let x ← rd coordinates (2 * k)
    let y ← rd coordinates (2 * k + 1)
    .ok (Geometry.point x y)
  .ok ⟨out.name, out.layers ++ [⟨name, features⟩]⟩

/-- `add_box_layer`: `G:79-121` -/
def addBoxLayer (gdal : Gdal) (out : Out V) (name : Str) (coordinates : List V) : M (Out V) := do
  createLayer gdal out name
  let features ← (List.range ((coordinates.length + 3) / 4)).mapM fun k => do
    let xMin ← rd coordinates (4 * k)
    let yMin ← rd coordinates (4 * k + 1)
    let xMax ← rd coordinates (4 * k + 2)
    let yMax ← rd coordinates (4 * k + 3)
    .ok (Geometry.polygon [(xMin, yMin), (xMax, yMin), (xMax, yMax), (xMin, yMax), (xMin, yMin)])
  .ok ⟨out.name, out.layers ++ [⟨name, features⟩]⟩

/-- Read values into a buffer with `size` elements, initialised with `zero` -/
def readInto (zero : V) (size : Nat) (values : List V) : M (List V) :=
  if values.length ≤ size then .ok (values ++ List.replicate (size - values.length) zero) else .error .outOfBounds

/-- `write_shapefile`: `G:124-146` -/
def writeShapefile (gdal : Gdal) (zero : V) (shapefile propertySet : Str) (space : Space V) : M (Out V) := do
  let out ← createDataset gdal shapefile
  let coordinates ← readInto zero (4 * space.rows.length) space.rows.flatten
  addBoxLayer gdal out propertySet coordinates

/-- `lue_space_point.read(IndexRange(b, e), buffer)`: see `DataModel/` (C36). HDF5 refuses to read non-existing arrays. -/
def readRows (rows : List (List V)) (b e : Nat) : M (List V) :=
  if e ≤ rows.length then .ok ((rows.drop b).take (e - b)).flatten else .error .thrown

/-- The name of a Shapefile with points: `G:171-177` -/
def outputName (shapefile : Str) : Str := if hasExtension shapefile then stem shapefile else shapefile

/-- The name of a layer: `G:240` -/
def layerName (propertySet : Str) (cell : Nat) : Str := propertySet ++ '-' :: DataModel.name (cell + 1)

/-- Differences between subsequent indices: `G:211-223`. Negative differences become huge sizes: reserving memory fails then
(`G:227`). The maximum of an empty collection does not exist. -/
def maxSetSize (idxs : List Nat) : M Nat :=
  match idxs.zip idxs.tail with
  | [] => .error .outOfBounds
  | l => if l.any fun e => e.2 < e.1 then .error .thrown else .ok ((l.map fun e => e.2 - e.1).foldl max 0)

/-- One iteration of the loop over time cells: `G:236-249`. The state consists of the current index and what has been written. -/
def writeCell (gdal : Gdal) (propertySet : Str) (idxs : List Nat) (rows : List (List V)) (cell : Nat) (s : Nat × Out V) :
    M (Nat × Out V) := do
  let next ← rd idxs (cell + 1)
  let coordinates ← readRows rows s.1 next
  let out ← addPointLayer gdal s.2 (layerName propertySet cell) coordinates
  .ok (next, out)

/-- `write_shapefiles`: `G:149-251` -/
def writeShapefiles (gdal : Gdal) (shapefile propertySet : Str) (t : Tracker) (boxes : List (Nat × Nat)) (counts : List Nat)
    (space : Space V) : M (Out V) := do
  demand (boxes.length == 1)
  let out ← createDataset gdal (outputName shapefile)
  let nrCells ← rd counts 0
  let idxs := t.setIdx ++ [t.ids.length]
  demand (space.width == 2)
  let _ ← maxSetSize idxs
  let s ← forLoop nrCells (writeCell gdal propertySet idxs space.rows) (0, out)
  .ok s.2

/-- An existing item, or an exception -/
def orThrow {β : Type} : Option β → M β
  | some x => .ok x
  | none => .error .thrown

/-- The time domain of a property set which must have one: `G:455-457`. Only asserted. -/
def timeItems (s : PropertySet V) : M TimeItems :=
  match s.time with
  | some t => .ok t
  | none => .error .outOfBounds

/-- `G:334-523`: stationary boxes (without properties) and mobile points (in time cells) are supported -/
def writePropertySet (gdal : Gdal) (zero : V) (shapefile name : Str) (s : PropertySet V) (space : Space V) : M (Out V) :=
  match space.mobile, space.isBox with
  | false, true =>
    match s.time with
    | none => .error .thrown
    | some _ => writeShapefile gdal zero shapefile name space
  | false, false => .error .thrown
  | true, false =>
    match timeItems s with
    | .error e => .error e
    | .ok (.cell boxes counts) => writeShapefiles gdal shapefile name s.tracker boxes counts space
    | .ok _ => .error .thrown
  | true, true => .error .thrown

/-- `translate_lue_dataset_to_shapefile`: `G:253-524`. `path` is the name of the dataset. -/
def translate (gdal : Gdal) (zero : V) (path : Str) (dataset : Dataset V) (shapefile : Str) (metadata : Json) : M (Out V) := do
  let names ← selection metadata (stem path)
  let phenomenon ← orThrow (dataset names.1)
  let propertySet ← orThrow (phenomenon names.2)
  let space ← orThrow propertySet.space
  writePropertySet gdal zero shapefile names.2 propertySet space

end Lue.Shapefile

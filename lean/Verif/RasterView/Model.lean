import Verif.DataModel.Model
import Verif.Validate.Model
import Verif.Util.AMap
import Mathlib.Data.List.Lex
import Mathlib.Data.List.Sort
import Mathlib.Data.Char

/-!
# Model of raster views on datasets

Models `source/data_model/hl/source/raster_view.cpp` (`R` below), with the parts of `source/data_model/cxx/source/object`
(`O` below) and `source/data_model/cxx/source/info/property/property_group.cpp` (`G` below) it uses: rasters which are
stored as property values of a single object, in a property set with a box as space domain.

Simplifications: there is a single C++ object representing the dataset, so that the items in its collections are the ones in
the file. Names do not contain slashes. Object arrays are those of C36. Datatypes of elements are left out: elements are of
type `α`, boxes in space of type `β`, boxes in time of type `τ`; the clock is left out. Failing assertions are left out: the
code continues. Using a space or time domain which isn't there is an error. Paths of properties identify them.
-/
namespace Lue.RasterView

open Lue.DataModel Lue.LueIO

/-- Names: `std::string` -/
abbrev Name := List Char

/-- R:11 -/
def timeGrid : Name := ['t', 'i', 'm', 'e', '_', 'g', 'r', 'i', 'd', '_', 's', 'h', 'a', 'p', 'e']

/-- R:13 -/
def spaceGrid : Name := ['s', 'p', 'a', 'c', 'e', '_', 'g', 'r', 'i', 'd', '_', 's', 'h', 'a', 'p', 'e']

/-- The two kinds of raster views: namespaces `constant` and `variable`. -/
inductive Kind where
  | constant | varying
  deriving DecidableEq, Repr

/-- Collections of properties in a property set: O/property/properties.cpp:12-17. Properties of raster layers are in
`different` or `differentConstant`. -/
inductive Coll where
  | same | sameConstant | different | differentConstant
  deriving DecidableEq, Repr

/-- The pathname of a property, stored in a soft link. -/
structure Path where
  phenomenon : Name
  propertySet : Name
  coll : Coll
  property : Name
  deriving DecidableEq, Repr

/-- Discretization of a property value: whether the type of discretization is a regular grid, and a link to the property
describing it. G:68-90 -/
structure Discr where
  regular : Bool
  link : Path
  deriving DecidableEq, Repr

/-- A property in collections `same_shape` or `same_shape/constant_shape`. Only those with numbers as values matter here.
`isCount`: the file datatype is the one used for shapes. -/
structure ShapeProperty where
  isCount : Bool
  arrayShape : List Nat
  arrays : List (List Nat)
  time : Option Discr
  space : Option Discr

/-- A property in collections `different_shape` or `different_shape/constant_shape`. -/
structure Property (α : Type) where
  time : Option Discr
  space : Option Discr
  value : DataModel.Group (Dataset α)

/-- Space domain: configuration, whether the presence is discretized, and its boxes. -/
structure SpaceDomain (β : Type) where
  stationary : Bool
  isBox : Bool
  discretized : Bool
  boxes : List β

/-- Time domain -/
structure TimeDomain (τ : Type) where
  isBox : Bool
  boxes : List τ

/-- A collection of items, each with a name. -/
abbrev Items (χ : Type) := Name → Option χ

/-- Property set: O/property/property_set.cpp:23-41, O/property/properties.cpp. `others` are the names of the properties in
the two collections of which the shape varies through time. -/
structure PropertySet (α β τ : Type) where
  tracker : Validate.Tracker
  time : Option (TimeDomain τ)
  space : Option (SpaceDomain β)
  same : Items ShapeProperty
  sameConstant : Items ShapeProperty
  layers : Kind → AMap Name (Property α)
  others : Name → Bool

/-- Phenomenon: O/phenomenon.cpp -/
structure Phenomenon (α β τ : Type) where
  ids : List Nat
  propertySets : Items (PropertySet α β τ)

/-- Dataset: O/dataset.cpp -/
structure File (α β τ : Type) where
  phenomena : Items (Phenomenon α β τ)

/-- An item is added or changed. -/
def insert {χ : Type} (m : Items χ) (k : Name) (x : χ) : Items χ := fun n => if n = k then some x else m n

/-- `Collection::operator[]`: source/data_model/cxx/include/lue/core/collection.hpp:196-225 -/
def item {χ : Type} (m : Items χ) (k : Name) : M χ :=
  match m k with
  | some x => .ok x
  | none => .error .thrown

/-- Reading the first of a collection of arrays: an exception is thrown if there is none. -/
def first {χ : Type} : List χ → M χ
  | x :: _ => .ok x
  | [] => .error .thrown

/-- Using an optional that must not be empty. -/
def deref {χ : Type} : Option χ → M χ
  | some x => .ok x
  | none => .error .outOfBounds

/-- The collection in which layers are stored: R:234, R:487 -/
def Kind.coll : Kind → Coll
  | .constant => .different
  | .varying => .differentConstant

/-- Opening the property at the end of a link: whether it exists. G:93-106 -/
def File.exists {α β τ : Type} (d : File α β τ) (l : Path) : Bool :=
  match d.phenomena l.phenomenon with
  | none => false
  | some p =>
    match p.propertySets l.propertySet with
    | none => false
    | some s =>
      match l.coll with
      | .same => (s.same l.property).isSome
      | .sameConstant => (s.sameConstant l.property).isSome
      | .different => ((s.layers .constant).get l.property).isSome
      | .differentConstant => ((s.layers .varying).get l.property).isSome

/-- A raster view. -/
structure View (β τ : Type) where
  kind : Kind
  phenomenon : Name
  propertySet : Name
  objectId : Nat
  box : β
  grid : List Nat
  /-- Time box and number of time steps of a variable view -/
  time : Option (τ × Nat)
  layers : List Name
  deriving DecidableEq, Repr

/-- The names of items, in the order of `std::map`: source/data_model/cxx/include/lue/core/collection.hpp:141-157 -/
def names {χ : Type} (m : AMap Name χ) : List Name := (m.map Prod.fst).insertionSort (· ≤ ·)

/-- The constructor of the base class: R:17-51 -/
def openBase {α β τ : Type} (d : File α β τ) (kind : Kind) (phenomenon propertySet : Name) : M (View β τ) := do
  let p ← item d.phenomena phenomenon
  let s ← item p.propertySets propertySet
  let objectId ← first p.ids
  let space ← deref s.space
  let box ← if space.stationary && space.isBox then first space.boxes else .error .thrown
  let property ← item s.same spaceGrid
  let grid ← first property.arrays
  .ok ⟨kind, phenomenon, propertySet, objectId, box, grid, none, []⟩

/-- Following a link and comparing the property found with another one. -/
def linksTo {α β τ : Type} (d : File α β τ) (l target : Path) : M Bool :=
  if d.exists l then .ok (l == target) else .error .thrown

/-- Whether a property contains a raster: R:239-257. -/
def isConstantLayer {α β τ : Type} (d : File α β τ) (target : Path) (property : Property α) : M Bool :=
  match property.space with
  | some ⟨true, l⟩ => linksTo d l target
  | _ => .ok false

/-- Whether a property contains rasters: R:493-521. -/
def isVariableLayer {α β τ : Type} (d : File α β τ) (timeTarget spaceTarget : Path) (property : Property α) : M Bool :=
  match property.time, property.space with
  | some ⟨true, lt⟩, some ⟨true, ls⟩ => do
    let bt ← linksTo d lt timeTarget
    let bs ← linksTo d ls spaceTarget
    .ok (bt && bs)
  | _, _ => .ok false

/-- The loop over the properties of a collection. -/
def scan {α : Type} (m : AMap Name (Property α)) (isLayer : Property α → M Bool) : List Name → M (List Name)
  | [] => .ok []
  | n :: ns => do
    let property ← item m.get n
    let b ← isLayer property
    let rest ← scan m isLayer ns
    .ok (if b then n :: rest else rest)

/-- `constant::RasterView`: R:214-262 -/
def openConstant {α β τ : Type} (d : File α β τ) (phenomenon propertySet : Name) : M (View β τ) := do
  let v ← openBase d .constant phenomenon propertySet
  let p ← item d.phenomena phenomenon
  let s ← item p.propertySets propertySet
  let _ ← item s.same spaceGrid
  let layers ← scan (s.layers .constant) (isConstantLayer d ⟨phenomenon, propertySet, .same, spaceGrid⟩)
    (names (s.layers .constant))
  .ok { v with layers := layers }

/-- `variable::RasterView`: R:452-524 -/
def openVariable {α β τ : Type} (d : File α β τ) (phenomenon propertySet : Name) : M (View β τ) := do
  let v ← openBase d .varying phenomenon propertySet
  let p ← item d.phenomena phenomenon
  let s ← item p.propertySets propertySet
  let time ← deref s.time
  let timeBox ← if time.isBox then first time.boxes else .error .thrown
  let timeProperty ← item s.sameConstant timeGrid
  let timeSteps ← first timeProperty.arrays
  let nrTimeSteps ← first timeSteps
  let _ ← item s.same spaceGrid
  let layers ← scan (s.layers .varying)
    (isVariableLayer d ⟨phenomenon, propertySet, .sameConstant, timeGrid⟩ ⟨phenomenon, propertySet, .same, spaceGrid⟩)
    (names (s.layers .varying))
  .ok { v with time := some (timeBox, nrTimeSteps), layers := layers }

/-- `open_raster_view` -/
def openView {α β τ : Type} (d : File α β τ) : Kind → Name → Name → M (View β τ)
  | .constant => openConstant d
  | .varying => openVariable d

/-! ### Creating views and layers -/

/-- A property set is stored. -/
def File.setPropertySet {α β τ : Type} (d : File α β τ) (phenomenon propertySet : Name) (p : Phenomenon α β τ)
    (s : PropertySet α β τ) : File α β τ :=
  ⟨insert d.phenomena phenomenon { p with propertySets := insert p.propertySets propertySet s }⟩

/-- The phenomenon with a single object: R:394-407, R:720-733. If there is no phenomenon yet, it is added, without objects.
If there are no objects, one with ID 5 is added. -/
def preparePhenomenon {α β τ : Type} (d : File α β τ) (phenomenon : Name) : Phenomenon α β τ :=
  let p := (d.phenomena phenomenon).getD ⟨[], fun _ => none⟩
  if p.ids.length = 0 then { p with ids := [5] } else p

/-- The property with the shape of the grid: R:425-435, R:783-793 -/
def gridProperty (grid : Nat × Nat) : ShapeProperty := ⟨true, [2], [[grid.1, grid.2]], none, none⟩

/-- `constant::create_raster_view`: R:382-438. The result, and the contents of the file. -/
def createConstant {α β τ : Type} (d : File α β τ) (phenomenon propertySet : Name) (grid : Nat × Nat) (box : β) :
    M (View β τ) × File α β τ :=
  let p := preparePhenomenon d phenomenon
  match p.propertySets propertySet with
  | some _ => (.error .thrown, ⟨insert d.phenomena phenomenon p⟩)
  | none =>
    let s : PropertySet α β τ :=
      { tracker := ⟨[], [], []⟩
        time := none
        space := some ⟨true, true, false, [box]⟩
        same := insert (fun _ => none) spaceGrid (gridProperty grid)
        sameConstant := fun _ => none
        layers := fun _ => []
        others := fun _ => false }
    let d' := d.setPropertySet phenomenon propertySet p s
    (openConstant d' phenomenon propertySet, d')

/-- `variable::create_raster_view`: R:705-796 -/
def createVariable {α β τ : Type} (d : File α β τ) (phenomenon propertySet : Name) (nrTimeSteps : Nat) (timeBox : τ)
    (grid : Nat × Nat) (box : β) : M (View β τ) × File α β τ :=
  let p := preparePhenomenon d phenomenon
  match p.propertySets propertySet with
  | some _ => (.error .thrown, ⟨insert d.phenomena phenomenon p⟩)
  | none =>
    let s : PropertySet α β τ :=
      { tracker := ⟨[0], [5], [0]⟩
        time := some ⟨true, [timeBox]⟩
        space := some ⟨true, true, false, [box]⟩
        same := insert (fun _ => none) spaceGrid (gridProperty grid)
        sameConstant := insert (fun _ => none) timeGrid ⟨true, [1], [[nrTimeSteps]], none, none⟩
        layers := fun _ => []
        others := fun _ => false }
    let d' := d.setPropertySet phenomenon propertySet p s
    (openVariable d' phenomenon propertySet, d')

/-- Storing the property of a layer. -/
def PropertySet.setLayer {α β τ : Type} (s : PropertySet α β τ) (kind : Kind) (name : Name) (property : Property α) :
    PropertySet α β τ :=
  { s with layers := fun k => if k = kind then (s.layers k).put name property else s.layers k }

/-- The value of a new layer. Constant: R:294-296 and C36; the default fill value of HDF5 is used if no value is passed in.
Variable: R:572-582. -/
def newValue {α β τ : Type} (zero : α) (v : View β τ) (noData : Option α) : M Unit × DataModel.Group (Dataset α) :=
  match v.kind with
  | .constant =>
    let r := DifferentShape.expandOne (noData.getD zero) (openGroup (createGroup : DataModel.Group (Dataset α))) createGroup v.objectId v.grid
    (r.1, r.2.2)
  | .varying =>
    let r := DifferentShapeConstantShape.expand zero (openGroup (createGroup : DataModel.Group (Dataset α))) createGroup
      [(v.objectId, (v.time.elim 0 Prod.snd) :: v.grid, 1)]
    (r.1, r.2.2)

/-- The properties of which the existence is checked when adding a layer: R:281-282, R:557-560. -/
def findGrids {α β τ : Type} (s : PropertySet α β τ) : Kind → M Unit
  | .constant => do
    let _ ← item s.same spaceGrid
    .ok ()
  | .varying => do
    let _ ← item s.sameConstant timeGrid
    let _ ← item s.same spaceGrid
    .ok ()

/-- The discretizations of a new layer: R:298-299, R:584-587 -/
def layerDiscr (v : Name × Name) : Kind → Option Discr × Option Discr
  | .constant => (none, some ⟨true, ⟨v.1, v.2, .same, spaceGrid⟩⟩)
  | .varying =>
    (some ⟨true, ⟨v.1, v.2, .sameConstant, timeGrid⟩⟩, some ⟨true, ⟨v.1, v.2, .same, spaceGrid⟩⟩)

/-- The body of `add_layer`: the property set with the layer added. -/
def addLayerTo {α β τ : Type} (zero : α) (v : View β τ) (s : PropertySet α β τ) (name : Name) (noData : Option α) :
    M (PropertySet α β τ) := do
  findGrids s v.kind
  -- A group with this name exists already
  if ((s.layers v.kind).get name).isSome then .error .thrown
  else
    match newValue zero v noData with
    | (.error err, _) => .error err
    | (.ok (), value) =>
      let discr := layerDiscr (v.phenomenon, v.propertySet) v.kind
      .ok (s.setLayer v.kind name ⟨discr.1, discr.2, value⟩)

/-- `add_layer`: R:265-306, R:542-594. The view and the file that result. -/
def addLayer {α β τ : Type} (zero : α) (d : File α β τ) (v : View β τ) (name : Name) (noData : Option α) :
    M (View β τ × File α β τ) :=
  if v.layers.contains name then .error .thrown
  else do
    let p ← item d.phenomena v.phenomenon
    let s ← item p.propertySets v.propertySet
    let s ← addLayerTo zero v s name noData
    .ok ({ v with layers := v.layers ++ [name] }, d.setPropertySet v.phenomenon v.propertySet p s)

/-- `layer`: R:309-334, R:597-623 -/
def layer {α β τ : Type} (d : File α β τ) (v : View β τ) (name : Name) : M (Dataset α) :=
  if !v.layers.contains name then .error .thrown
  else do
    let p ← item d.phenomena v.phenomenon
    let s ← item p.propertySets v.propertySet
    let property ← item (s.layers v.kind).get name
    openChild property.value v.objectId

/-- `view.layer(name).read(hyperslab, buffer)` -/
def readLayer {α β τ : Type} (d : File α β τ) (v : View β τ) (name : Name) (h : Hyperslab) (buffer : List α) :
    M (List α) := do
  let array ← layer d v name
  readHyperslab array h buffer

/-- `view.layer(name).write(hyperslab, buffer)` -/
def writeLayer {α β τ : Type} (d : File α β τ) (v : View β τ) (name : Name) (h : Hyperslab) (buffer : List α) :
    M (File α β τ) := do
  let array ← layer d v name
  let array ← writeHyperslab array h buffer
  let p ← item d.phenomena v.phenomenon
  let s ← item p.propertySets v.propertySet
  let property ← item (s.layers v.kind).get name
  .ok (d.setPropertySet v.phenomenon v.propertySet p
    (s.setLayer v.kind name { property with value := setChild property.value v.objectId array }))

/-! ### Other contents -/

/-- Adding a phenomenon with objects: O/phenomena.cpp:24-27, O/phenomenon.cpp:78-101 -/
def addPhenomenon {α β τ : Type} (d : File α β τ) (phenomenon : Name) (ids : List Nat) : M (File α β τ) :=
  match d.phenomena phenomenon with
  | some _ => .error .thrown
  | none => .ok ⟨insert d.phenomena phenomenon ⟨ids, fun _ => none⟩⟩

/-- Adding a property without values: `properties.collection<...>().add(...)`,
O/property/different_shape/properties.cpp:24-31, O/property/different_shape/constant_shape/properties.cpp, optionally
followed by `set_space_discretization` with the space grid of a raster, G:86-90. -/
def addProperty {α β τ : Type} (d : File α β τ) (phenomenon propertySet : Name) (kind : Kind) (name : Name)
    (discr : Option (Bool × Name × Name)) : M (File α β τ) := do
  let p ← item d.phenomena phenomenon
  let s ← item p.propertySets propertySet
  if ((s.layers kind).get name).isSome then .error .thrown
  else
    match discr with
    | none => .ok (d.setPropertySet phenomenon propertySet p (s.setLayer kind name ⟨none, none, createGroup⟩))
    | some (regular, phenomenon', propertySet') => do
      let p' ← item d.phenomena phenomenon'
      let s' ← item p'.propertySets propertySet'
      let _ ← item s'.same spaceGrid
      .ok (d.setPropertySet phenomenon propertySet p
        (s.setLayer kind name ⟨none, some ⟨regular, ⟨phenomenon', propertySet', .same, spaceGrid⟩⟩, createGroup⟩))

/-! ### Recognizing rasters -/

/-- `Properties::contains`: O/property/properties.cpp:70-78 -/
def PropertySet.contains {α β τ : Type} (s : PropertySet α β τ) (n : Name) : Bool :=
  (s.same n).isSome || (s.sameConstant n).isSome || ((s.layers .constant).get n).isSome ||
    ((s.layers .varying).get n).isSome || s.others n

/-- The space domain is OK: R:144-163 -/
def spaceDomainOk {α β τ : Type} (s : PropertySet α β τ) : Bool :=
  match s.space with
  | none => false
  | some space => space.stationary && space.isBox && !space.discretized && space.boxes.length == 1

/-- A discretization property is OK: R:176-196, R:664-689. In case of the time grid it is checked twice that time is not
discretized; that space is not discretized is not checked then. -/
def gridOk (checkSpace : Bool) (extent : Nat) : Option ShapeProperty → Bool
  | none => false
  | some property =>
    property.time.isNone && (!checkSpace || property.space.isNone) && property.arrays.length == 1 &&
      property.arrayShape == [extent] && property.isCount

/-- `contains_raster`: R:116-203 -/
def containsRasterBase {α β τ : Type} (d : File α β τ) (phenomenon propertySet : Name) : M Bool := do
  let p ← item d.phenomena phenomenon
  let s ← item p.propertySets propertySet
  .ok (p.ids.length == 1 && (spaceDomainOk s && gridOk true 2 (s.same spaceGrid)))

/-- `constant::contains_raster`: R:337-356 -/
def containsConstant {α β τ : Type} (d : File α β τ) (phenomenon propertySet : Name) : M Bool := do
  let b ← containsRasterBase d phenomenon propertySet
  if b then do
    let p ← item d.phenomena phenomenon
    let s ← item p.propertySets propertySet
    .ok (!s.contains timeGrid)
  else .ok false

/-- The time domain is OK: R:641-657 -/
def timeDomainOk {α β τ : Type} (s : PropertySet α β τ) : Bool :=
  match s.time with
  | none => false
  | some time => time.isBox && time.boxes.length == 1

/-- `variable::contains_raster`: R:626-697. If the name of the property for the time grid is used in collection
`same_shape` too, the variability found is constant. -/
def containsVariable {α β τ : Type} (d : File α β τ) (phenomenon propertySet : Name) : M Bool := do
  let b ← containsRasterBase d phenomenon propertySet
  if b then do
    let p ← item d.phenomena phenomenon
    let s ← item p.propertySets propertySet
    .ok (timeDomainOk s && ((s.same timeGrid).isNone && gridOk false 1 (s.sameConstant timeGrid)))
  else .ok false

/-- `contains_raster` in namespaces `constant` and `variable` -/
def containsRaster {α β τ : Type} (d : File α β τ) : Kind → Name → Name → M Bool
  | .constant => containsConstant d
  | .varying => containsVariable d

end Lue.RasterView

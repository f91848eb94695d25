import Verif.Partitioned.Store
import Verif.Util.AMap
import Mathlib.Data.Rat.Cast.Defs

/-!
Model of the import of a dataset described by a JSON document: `translate_json_to_lue`.
`T` below is `source/data_model/translate/source/format/json.cpp`, `D` is `source/data_model/cxx/source`.

A document is modelled by the values its entries have. Required entries which are missing, and entries of the wrong type,
are refused by the JSON library. This, the descriptions of epochs (only compared with each other) and the space
discretization properties (T:331-346) are not modelled. What is stored when an import is refused half-way is not modelled
either.
-/
namespace Lue.JsonImport

abbrev Name := String
abbrev Shape := List Nat

/-- `size_of_shape(shape, 1)`: `source/data_model/hdf5/source/shape.cpp:15-18` -/
def size (shape : Shape) : Nat := shape.foldl (· * ·) 1

/-! ### Documents -/

/-- The array of an object, stored in a raster (of which these are the shape and the cells), or in the document -/
inductive Source (V : Type) where
  | dataset (shape : Shape) (values : List V)
  | inline (shape : Shape) (values : List V)

structure ObjectJson (V : Type) where
  id : Nat
  source : Source V

/-- A property, given the values of `value_variability`, `shape_per_object` and `shape_variability`: T:610-873 -/
inductive PropJson (V : Type) where
  | same (name : Name) (datatype : String) (shape : Option Shape) (values : List V)
  | different (name : Name) (datatype : String) (rank : Nat) (objects : List (ObjectJson V))
  | sameConstant (name : Name) (datatype : String) (shape : Option Shape) (values : List V)
  | sameVariable
  | differentConstant (name : Name) (datatype : String) (rank : Nat) (objects : List (ObjectJson V))
  | differentVariable (name : Name) (datatype : String) (rank : Nat) (ids : List Nat) (shapes : List Shape)
      (values : List (List V))

structure TrackerJson where
  setIndex : Option (List Nat)
  objectIndex : Option (List Nat)
  ids : Option (List Nat)

/-- A clock: the description of the epoch, and of the period -/
structure Clock where
  epoch : String
  unit : String
  period : Nat
  deriving DecidableEq

structure TimeJson where
  clock : Clock
  points : List Int
  tracker : TrackerJson

/-- The extent of a raster: the elements of the geo-transform that are used -/
structure Raster where
  nrRows : Nat
  nrCols : Nat
  west : ℚ
  cellWidth : ℚ
  north : ℚ
  cellHeight : ℚ

inductive BoxesJson (V : Type) where
  | rasters (l : List Raster)
  | inline (l : List V)

structure SpaceJson (V : Type) where
  rank : Nat
  boxes : BoxesJson V

structure PropSetJson (V : Type) where
  name : Name
  time : Option TimeJson
  space : Option (SpaceJson V)
  properties : List (PropJson V)

structure PhenomenonJson (V : Type) where
  name : Name
  ids : Option (List Nat)
  collectionSets : List (PropSetJson V)
  sets : List (PropSetJson V)

structure UniverseJson (V : Type) where
  name : Name
  phenomena : List (PhenomenonJson V)

structure Doc (V : Type) where
  universes : List (UniverseJson V)
  phenomena : List (PhenomenonJson V)

/-! ### Datasets -/

/-- `same_shape::Value`: arrays with the same shape -/
structure Coll (V : Type) where
  shape : Shape
  rows : List (List V)

/-- `different_shape::Value`: per object an array, in order of creation -/
abbrev Objects (V : Type) := List (Nat × Shape × List V)

structure Tracker where
  setIndex : List Nat
  objectIndex : List Nat
  ids : List Nat

structure PropertySet (V : Type) where
  time : Option Clock
  points : List Int
  tracker : Tracker
  /-- Boxes, in case there is a space domain -/
  space : Option (Coll V)
  same : AMap Name (Coll V)
  different : AMap Name (Objects V)
  sameConstant : AMap Name (Coll V)
  differentConstant : AMap Name (Objects V)
  /-- Per location in time the objects -/
  differentVariable : AMap Name (List (Objects V))

structure Phenomenon (V : Type) where
  ids : List Nat
  collectionSets : AMap Name (PropertySet V)
  sets : AMap Name (PropertySet V)

structure Dataset (V : Type) where
  universes : AMap Name (AMap Name (Phenomenon V))
  phenomena : AMap Name (Phenomenon V)

def PropertySet.new (V : Type) (time : Option Clock) : PropertySet V :=
  ⟨time, [], ⟨[], [], []⟩, none, [], [], [], [], []⟩

def Phenomenon.new (V : Type) : Phenomenon V := ⟨[], [], []⟩

def Dataset.new (V : Type) : Dataset V := ⟨[], []⟩

section
variable {V : Type} (fill : V) (coord : ℚ → V)

/-! ### Arrays -/

/-- `n` arrays of `k` values each, stored after each other -/
def chunks (k n : Nat) (data : List V) : List (List V) := (List.range n).map fun i => (data.drop (i * k)).take k

/-- `same_shape::Value::expand`: D/array/same_shape/value.cpp:41-50. New elements have the fill value. -/
def Coll.expand (c : Coll V) (n : Nat) : Coll V :=
  { c with rows := c.rows ++ List.replicate n (List.replicate (size c.shape) fill) }

/-- `same_shape::Value::write`: D/array/same_shape/value.cpp:78-89, 117-120. The hyperslab selected must exist, and all its
elements are read from the buffer. -/
def Coll.write (c : Coll V) (begin_ end_ : Nat) (data : List V) : M (Coll V) :=
  if c.rows.length < end_ then .error .thrown
  else if data.length < (end_ - begin_) * size c.shape then .error .outOfBounds
  else .ok { c with
    rows := c.rows.take begin_ ++ chunks (size c.shape) (end_ - begin_) data ++ c.rows.drop end_ }

/-- Expanding, and writing the new arrays: T:275-279 and similar -/
def Coll.append (c : Coll V) (n : Nat) (data : List V) : M (Coll V) :=
  (c.expand fill n).write c.rows.length (c.rows.length + n) data

/-- `add_same_shape_property`: T:245-285, and `add_same_shape_constant_shape_property`: T:405-451. In the latter the
property is added before the number of values is tested. In case the shape contains a zero, the behaviour is undefined. -/
def addSame (props : AMap Name (Coll V)) (name : Name) (shape : Option Shape) (values : List V) :
    M (AMap Name (Coll V)) :=
  if size (shape.getD []) = 0 then .error .outOfBounds
  else if values.length % size (shape.getD []) ≠ 0 then .error .thrown
  else
    (((props.get name).getD ⟨shape.getD [], []⟩).append fill (values.length / size (shape.getD [])) values).map
      fun c => props.put name c

/-- `different_shape::Value::expand`: D/array/different_shape/value.cpp:52-60, 110-133 -/
def expandObjects (m : Objects V) (id : Nat) (shape : Shape) : M (Objects V) :=
  if (m.any fun e => e.1 == id) = true then .error .thrown
  else .ok (m ++ [(id, shape, List.replicate (size shape) fill)])

/-- `different_shape::Value::operator[]` and `Array::write`: D/array/different_shape/value.cpp:144-151. All elements are
read from the buffer. -/
def writeObject (m : Objects V) (id : Nat) (values : List V) : M (Objects V) :=
  if (m.any fun e => e.1 == id && decide (values.length < size e.2.1)) = true then .error .outOfBounds
  else .ok (m.map fun e => if e.1 = id then (e.1, e.2.1, values.take (size e.2.1)) else e)

/-- T:303-329, the body of the loop -/
def addDifferentObject (m : Objects V) (o : ObjectJson V) : M (Objects V) :=
  match o.source with
  | .dataset shape values => expandObjects fill m o.id shape >>= fun m => writeObject m o.id values
  | .inline shape values => expandObjects fill m o.id shape >>= fun m => writeObject m o.id values

/-- `add_different_shape_property`: T:288-346 -/
def addDifferent (props : AMap Name (Objects V)) (name : Name) (objects : List (ObjectJson V)) :
    M (AMap Name (Objects V)) :=
  (objects.foldlM (addDifferentObject fill) ((props.get name).getD [])).map fun m => props.put name m

/-- T:526-547, the body of the loop. Variables `shape` and `values` are declared outside of the loop, and are only assigned
to if the value is stored in a raster. -/
def addConstantObject (s : Objects V × Shape × List V) (o : ObjectJson V) : M (Objects V × Shape × List V) :=
  match o.source with
  | .dataset shape values =>
    expandObjects fill s.1 o.id shape >>= fun m => (writeObject m o.id values).map fun m => (m, shape, values)
  | .inline _ _ =>
    expandObjects fill s.1 o.id s.2.1 >>= fun m => (writeObject m o.id s.2.2).map fun m => (m, s.2.1, s.2.2)

/-- `add_different_shape_constant_shape_property`: T:509-568 -/
def addDifferentConstant (props : AMap Name (Objects V)) (name : Name) (objects : List (ObjectJson V)) :
    M (AMap Name (Objects V)) :=
  (objects.foldlM (addConstantObject fill) ((props.get name).getD [], [], [])).map fun s => props.put name s.1

/-- `different_shape::variable_shape::Value::expand` (D/array/different_shape/variable_shape/value.cpp:57-70), followed
by writing each of the arrays: T:599-606 -/
def addLocation (ids : List Nat) (shapes : List Shape) (values : List (List V)) : M (Objects V) :=
  if ids.length < shapes.length then .error .outOfBounds
  else if values.length < shapes.length then .error .outOfBounds
  else
    (ids.zip shapes).foldlM (fun m e => expandObjects fill m e.1 e.2) [] >>= fun m =>
      ((ids.zip shapes).zip values).foldlM (fun m e => writeObject m e.1.1 e.2) m

/-- `add_different_shape_variable_shape_property`: T:571-607 -/
def addDifferentVariable (props : AMap Name (List (Objects V))) (name : Name) (ids : List Nat) (shapes : List Shape)
    (values : List (List V)) : M (AMap Name (List (Objects V))) :=
  (addLocation fill ids shapes values).map fun o => props.put name ((props.get name).getD [] ++ [o])

/-- T:636-677, 684-725 -/
def isDatatype (s : String) : Bool := s == "uint32" || s == "uint64" || s == "float32" || s == "float64" || s == "string"

/-- T:750-784, 828-862 -/
def isNumericDatatype (s : String) : Bool := s == "uint32" || s == "uint64" || s == "float32" || s == "float64"

/-- `add_property`: T:610-873 -/
def addProperty (ps : PropertySet V) (p : PropJson V) : M (PropertySet V) :=
  match p with
  | .same name datatype shape values =>
    if isDatatype datatype then (addSame fill ps.same name shape values).map fun m => { ps with same := m }
    else .error .thrown
  | .different name datatype _ objects =>
    if isDatatype datatype then (addDifferent fill ps.different name objects).map fun m => { ps with different := m }
    else .error .thrown
  | .sameConstant name datatype shape values =>
    if isNumericDatatype datatype
      then (addSame fill ps.sameConstant name shape values).map fun m => { ps with sameConstant := m }
    else .error .thrown
  | .sameVariable => .error .thrown
  | .differentConstant name datatype _ objects =>
    if datatype == "uint8"
      then (addDifferentConstant fill ps.differentConstant name objects).map fun m => { ps with differentConstant := m }
    else .ok ps
  | .differentVariable name datatype _ ids shapes values =>
    if isNumericDatatype datatype
      then (addDifferentVariable fill ps.differentVariable name ids shapes values).map fun m =>
        { ps with differentVariable := m }
    else .error .thrown

/-! ### Domains -/

/-- T:56-75 -/
def addSetIndex (t : Tracker) (j : TrackerJson) : Tracker :=
  match j.setIndex with
  | none => t
  | some idxs => { t with setIndex := t.setIndex ++ idxs.map (· + t.ids.length) }

/-- T:77-93: space is added at the end, and indices are written at the start -/
def addObjectIndex (t : Tracker) (j : TrackerJson) : Tracker :=
  match j.objectIndex with
  | none => t
  | some idxs => { t with objectIndex := idxs ++ (t.objectIndex ++ List.replicate idxs.length 0).drop idxs.length }

/-- T:95-105 -/
def addIds (t : Tracker) (j : TrackerJson) : Tracker :=
  match j.ids with
  | none => t
  | some ids => { t with ids := t.ids ++ ids }

/-- `add_object_tracker`: T:56-106 -/
def addTracker (t : Tracker) (j : TrackerJson) : Tracker := addIds (addObjectIndex (addSetIndex t j) j) j

/-- `read_space_box`: T:121-134 -/
def spaceBox (r : Raster) : List V :=
  let east := r.west + r.nrCols * r.cellWidth
  let south := r.north - r.nrRows * r.cellHeight
  [coord r.west, coord south, coord east, coord r.north]

/-- T:149-164: the boxes are copied to a buffer with room for all boxes, one after another -/
def boxValues (k : Nat) (l : List Raster) : M (List V) :=
  let boxes := l.flatMap (spaceBox coord)
  if l.length * k < boxes.length then .error .outOfBounds
  else .ok (boxes ++ List.replicate (l.length * k - boxes.length) fill)

/-- T:165-179 -/
def boxesOf (k : Nat) : BoxesJson V → M (List V)
  | .rasters l => boxValues fill coord k l
  | .inline l =>
    if k = 0 then .error .outOfBounds
    else if l.length % k ≠ 0 then .error .thrown
    else .ok l

def BoxesJson.isEmpty : BoxesJson V → Bool
  | .rasters l => l.isEmpty
  | .inline l => l.isEmpty

/-- `add_space_domain_items` (T:189-242), `add_space_boxes` (T:137-186): the property set is new, the shape of its boxes is
`2 * rank` -/
def addBoxes (s : SpaceJson V) : M (Coll V) :=
  if s.boxes.isEmpty then .ok ⟨[2 * s.rank], []⟩
  else boxesOf fill coord (2 * s.rank) s.boxes >>= fun values =>
    Coll.append fill ⟨[2 * s.rank], []⟩ (values.length / (2 * s.rank)) values

/-- `verify_time_domain_is_compatible`: T:903-925. If the existing property set has no time domain, the behaviour is
undefined: `D/object/property/property_set.cpp:112-116`. -/
def verifyTime (ps : PropertySet V) (clock : Clock) : M (PropertySet V) :=
  match ps.time with
  | none => .error .outOfBounds
  | some c => if c = clock then .ok ps else .error .thrown

def newSpace (time : Option Clock) (s : SpaceJson V) : M (PropertySet V) :=
  (addBoxes fill coord s).map fun c => { PropertySet.new V time with space := some c }

/-- Finding or adding the property set, and adding boxes: T:930-1066 -/
def findPropertySet (existing : Option (PropertySet V)) (time : Option TimeJson) (space : Option (SpaceJson V)) :
    M (PropertySet V) :=
  match existing, time, space with
  | some ps, none, none => .ok ps
  | none, none, none => .ok (PropertySet.new V none)
  | some _, none, some _ => .error .thrown
  | none, none, some s => newSpace fill coord none s
  | some ps, some t, none => verifyTime ps t.clock
  | none, some t, none => .ok (PropertySet.new V (some t.clock))
  | some ps, some t, some _ => verifyTime ps t.clock >>= fun _ => .error .thrown
  | none, some t, some s => newSpace fill coord (some t.clock) s

/-- T:1068-1073 and `add_time_points`: T:109-118 -/
def addTime (ps : PropertySet V) : Option TimeJson → PropertySet V
  | none => ps
  | some t => { ps with tracker := addTracker ps.tracker t.tracker, points := ps.points ++ t.points }

/-- `add_property_set`: T:928-1087 -/
def addPropertySet (sets : AMap Name (PropertySet V)) (j : PropSetJson V) : M (AMap Name (PropertySet V)) :=
  findPropertySet fill coord (sets.get j.name) j.time j.space >>= fun ps =>
    (j.properties.foldlM (addProperty fill) (addTime ps j.time)).map fun ps => sets.put j.name ps

/-- `add_phenomenon`: T:1090-1125 -/
def addPhenomenon (phenomena : AMap Name (Phenomenon V)) (j : PhenomenonJson V) : M (AMap Name (Phenomenon V)) :=
  let p := (phenomena.get j.name).getD (Phenomenon.new V)
  j.collectionSets.foldlM (addPropertySet fill coord) p.collectionSets >>= fun cs =>
    (j.sets.foldlM (addPropertySet fill coord) p.sets).map fun ss =>
      phenomena.put j.name ⟨p.ids ++ j.ids.getD [], cs, ss⟩

/-- `add_universe`: T:1128-1142 -/
def addUniverse (universes : AMap Name (AMap Name (Phenomenon V))) (j : UniverseJson V) :
    M (AMap Name (AMap Name (Phenomenon V))) :=
  (j.phenomena.foldlM (addPhenomenon fill coord) ((universes.get j.name).getD [])).map fun u => universes.put j.name u

/-- `translate_json_to_lue`: T:1145-1169 -/
def translate (d : Doc V) (s : Dataset V) : M (Dataset V) :=
  d.universes.foldlM (addUniverse fill coord) s.universes >>= fun us =>
    (d.phenomena.foldlM (addPhenomenon fill coord) s.phenomena).map fun ps => ⟨us, ps⟩

end

end Lue.JsonImport

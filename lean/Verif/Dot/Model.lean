import Verif.Structure.Model
import Verif.DataModel.Model

/-!
# Model of exporting the structure of a dataset to a DOT graph

Models `source/data_model/translate/source/format/dot.cpp` (`T/` below) and `source/data_model/translate/source/command/export.cpp`. The
dataset, and what one sees when it is opened, are those of `Verif.Structure.Model`. Labels and names of nodes are texts: lists of
characters.

What is written to the stream is modelled by a list of statements (one for each formatted text that is written), and the text of each of
them. An exception is modelled by `none`.

Not modelled: opening the output file, and exporting multiple datasets to one graph, which the `lue_translate` command doesn't do.
Validating the dataset before it is exported (`export.cpp:66-80`) is the subject of `Verif.Validate`.
-/
namespace Lue.Dot
open Lue.Structure

abbrev Text := List Char

/-- What is asked for in the metadata: `metadata.boolean(pointer, default)` and `metadata.string(pointer, default)`
(`source/data_model/utility/source/metadata.cpp:201-210`), for the pointers mentioned -/
structure Settings where
  /-- `/lue/object_tracker/show` -/
  showTracker : Bool := false
  /-- `/lue/value/show` -/
  showValue : Bool := false
  /-- `/lue/value/show_details` -/
  valueDetails : Bool := false
  /-- `/lue/time_domain/show_details` -/
  timeDetails : Bool := false
  /-- `/lue/space_domain/show_details` -/
  spaceDetails : Bool := false
  /-- `/hdf5/group/shape`: `T/dot.cpp:75-78` -/
  groupShape : Text := "oval".toList
  /-- `/hdf5/dataset/shape`: `T/dot.cpp:81-84` -/
  datasetShape : Text := "box".toList
  /-- `/lue/value/fillcolor`. The defaults are those of `T/dot.cpp:88-98`. -/
  valueFill : Text := "transparent".toList
  /-- `/lue/property/fillcolor` -/
  propertyFill : Text := "transparent".toList
  /-- `/lue/time_domain/fillcolor` -/
  timeFill : Text := "transparent".toList
  /-- `/lue/space_domain/fillcolor` -/
  spaceFill : Text := "transparent".toList
  /-- `/lue/object_tracker/fillcolor` -/
  trackerFill : Text := "transparent".toList
  /-- `/lue/property_set/fillcolor` -/
  setFill : Text := "transparent".toList
  /-- `/lue/phenomenon/fillcolor` -/
  phenomenonFill : Text := "transparent".toList
  /-- `/dot/node/fontcolor` -/
  fontcolor : Text := "black".toList

/-- What is shown of a value array. Which of these are used depends on the kind of array. -/
structure ValueInfo where
  nrArrays : Nat
  arrayShape : List Nat
  rank : Nat
  nrObjects : Nat
  nrLocations : Nat
  /-- `standard_datatype_as_string`: `source/data_model/hdf5/source/datatype.cpp:80-134` -/
  datatype : Text

structure Env where
  cfg : Settings
  /-- `id.info().addr()`: the address in the file of the object at a location -/
  addr : Path → Nat
  /-- Information about the value arrays at a location -/
  info : Path → ValueInfo

/-! ## Statements -/

inductive Stmt
  /-- The text written for each kind of item: `T/dot.cpp:223-234` and similar -/
  | node (name label shape fill : Text)
  /-- `link_nodes`: `T/dot.cpp:139-163` -/
  | edge (tail head : Text) (weight : Nat) (style label : Text)
  /-- The constructor of `Subgraph`: `T/dot.cpp:106-117` -/
  | enter (name label : Text)
  /-- The destructor of `Subgraph`: `T/dot.cpp:129-132` -/
  | leave
  /-- `mark_as_empty`: `T/dot.cpp:178-194` -/
  | empty (name : Text)

/-- The text of a number -/
abbrev number (n : Nat) : Text := DataModel.name n

def Stmt.text : Stmt → Text
  | .node name label shape fill =>
    "\n    ".toList ++ name ++ " [\n        label=<".toList ++ label ++ ">\n        shape=\"".toList ++ shape
      ++ "\"\n        fillcolor=\"".toList ++ fill ++ "\"\n    ];\n".toList
  | .edge tail head weight style label =>
    "\n    ".toList ++ tail ++ " -> ".toList ++ head ++ " [\n        weight=".toList ++ number weight ++ "\n        style=\"".toList
      ++ style ++ "\"\n        label=<".toList ++ label ++ ">\n    ];\n".toList
  | .enter name label => "\nsubgraph cluster_".toList ++ name ++ " {\n    label=<".toList ++ label ++ ">\n".toList
  | .leave => "}\n\n".toList
  | .empty name =>
    "\n    ".toList ++ name
      ++ " [\n        label=\"<empty>\"\n        shape=\"plaintext\"\n        fillcolor=\"red\"\n    ];\n".toList

/-! ## Names and labels -/

/-- `dot_name`: `T/dot.cpp:62-71` -/
def dotName (E : Env) (p : Path) : Text := "node_".toList ++ number (E.addr p)

/-- `link_nodes`: `T/dot.cpp:139-163` -/
def link (E : Env) (tail head : Path) (weight : Nat := 10) : Stmt := .edge (dotName E tail) (dotName E head) weight "solid".toList []

/-- `soft_link_nodes`: `T/dot.cpp:166-175` -/
def softLink (E : Env) (tail head : Path) (label : Text := []) : Stmt :=
  .edge (dotName E tail) (dotName E head) 0 "dashed".toList label

/-- `to_dot(Record)`: `T/dot.cpp:17-35` -/
def recordText (r : Text × Text) : Text :=
  if r.2.isEmpty then "<tr><td align=\"center\" colspan=\"2\">".toList ++ r.1 ++ "</td></tr>".toList
  else "<tr><td align=\"left\">".toList ++ r.1 ++ "</td><td align=\"left\">".toList ++ r.2 ++ "</td></tr>".toList

/-- `to_dot(Table)`: `T/dot.cpp:38-51` -/
def tableText (rs : List (Text × Text)) : Text :=
  "<table border=\"0\">".toList ++ rs.flatMap recordText ++ "</table>".toList

/-- `boost::join` -/
def joinTexts (sep : Text) : List Text → Text
  | [] => []
  | [t] => t
  | t :: ts => t ++ sep ++ joinTexts sep ts

/-- `to_string(hdf5::Shape)`: `T/dot.cpp:54-60` -/
def shapeText (shape : List Nat) : Text := "(".toList ++ joinTexts ", ".toList (shape.map number) ++ ")".toList

/-- The tables with details of value arrays: `T/dot.cpp:207-217`, `243-252`, `279-290`, `316-327`, `353-364`, `390-401` -/
def valueTable (name : Text) (k : Kind) (i : ValueInfo) : List (Text × Text) :=
  match k with
  | .same =>
    [(name, []), ("shape_per_object".toList, "same".toList), ("nr_arrays".toList, number i.nrArrays),
     ("array_shape".toList, shapeText i.arrayShape), ("file_datatype".toList, i.datatype)]
  | .different =>
    [(name, []), ("shape_per_object".toList, "different".toList), ("rank".toList, number i.rank),
     ("file_datatype".toList, i.datatype)]
  | .sameConstant =>
    [(name, []), ("shape_per_object".toList, "same".toList), ("shape_variability".toList, "constant".toList),
     ("nr_arrays".toList, number i.nrArrays), ("array_shape".toList, shapeText i.arrayShape), ("file_datatype".toList, i.datatype)]
  | .differentConstant =>
    [(name, []), ("shape_per_object".toList, "different".toList), ("shape_variability".toList, "constant".toList),
     ("nr_objects".toList, number i.nrObjects), ("rank".toList, number i.rank), ("file_datatype".toList, i.datatype)]
  | .sameVariable =>
    [(name, []), ("shape_per_object".toList, "same".toList), ("shape_variability".toList, "variable".toList),
     ("nr_locations_in_time".toList, number i.nrLocations), ("rank".toList, number i.rank), ("file_datatype".toList, i.datatype)]
  | .differentVariable =>
    [(name, []), ("shape_per_object".toList, "different".toList), ("shape_variability".toList, "variable".toList),
     ("nr_locations_in_time".toList, number i.nrLocations), ("rank".toList, number i.rank), ("file_datatype".toList, i.datatype)]

/-- Labels are either a name or a table with details. -/
def labelText (details : Bool) (name : Text) (table : List (Text × Text)) : Text := if details then tableText table else name

/-- `shape`: value arrays which are stored as groups (`array/value_group.hpp:9`) or as a dataset (`core/array.hpp:8`) -/
def valueShape (c : Settings) : Kind → Text
  | .same => c.datasetShape
  | .sameConstant => c.datasetShape
  | .sameVariable => c.groupShape
  | .different => c.groupShape
  | .differentConstant => c.groupShape
  | .differentVariable => c.groupShape

/-! ## Items -/

/-- `to_dot(Value)`: `T/dot.cpp:203-421`. The name of the array is the last part of its path name. -/
def valueToDot (E : Env) (k : Kind) (name : Text) (p : Path) : Stmt :=
  .node (dotName E p) (labelText E.cfg.valueDetails name (valueTable name k (E.info p))) (valueShape E.cfg k) E.cfg.valueFill

/-- The label of a link to a discretization property: `T/dot.cpp:453-461, 465-473`, given the result of
`time_discretization_type()` and `space_discretization_type()` -/
def discretizationLabel (details : Bool) (type : Option Discretization) : Option Text :=
  if details then type.map fun t => (discretizations.asString t).toList else some []

/-- The link to the property with details about the discretization: `T/dot.cpp:451-474` -/
def discretizationLink (E : Env) (f : File) (details present : Bool) (tag : Tag) (attr : AttrName) (h : Path) : Option (List Stmt) :=
  if present then
    (linkedProperty f h (.tag tag)).bind fun q =>
      (discretizationLabel details ((readStr f h attr).bind discretizations.asValue)).map fun l => [softLink E h q.1 l]
  else some []

/-- `to_dot(PropertyGroup)`: `T/dot.cpp:435-475` -/
def propertyGroupToDot (E : Env) (f : File) (n : Name) (v : PropertyView) : Option (List Stmt) :=
  (discretizationLink E f E.cfg.timeDetails v.timeDiscretized .timeDisc .timeDisc v.path).bind fun t =>
    (discretizationLink E f E.cfg.spaceDetails v.spaceDiscretized .spaceDisc .spaceDisc v.path).map fun s =>
      .node (dotName E v.path) n.toList E.cfg.groupShape E.cfg.propertyFill :: t ++ s

/-- A value array, if these must be shown, and the link to it: `T/dot.cpp:483-487` and similar -/
def valuePart (E : Env) (k : Kind) (name : Text) (owner p : Path) : List Stmt :=
  if E.cfg.showValue then [valueToDot E k name p, link E owner p] else []

/-- `to_dot(Property)`: `T/dot.cpp:478-551` -/
def propertyToDot (E : Env) (f : File) (k : Kind) (n : Name) (v : PropertyView) : Option (List Stmt) :=
  (propertyGroupToDot E f n v).map fun g => g ++ valuePart E k "lue_value".toList v.path (v.path ++ [.tag .value])

/-- `to_dot(TimeBox)`, `to_dot(TimeCell)`, `to_dot(TimePoint)`: `T/dot.cpp:424-432, 583-606`. The count of a time cell is a
value array next to the coordinates (`source/data_model/cxx/source/info/time/time_cell.cpp:7-17`). -/
def timeValueToDot (E : Env) (i : TimeItem) (h : Path) : List Stmt :=
  match i with
  | .box => [valueToDot E .sameConstant "lue_coordinates".toList (h ++ [.tag .coordinates])]
  | .point => [valueToDot E .sameConstant "lue_coordinates".toList (h ++ [.tag .coordinates])]
  | .cell =>
    [valueToDot E .sameConstant "lue_coordinates".toList (h ++ [.tag .coordinates]),
     valueToDot E .sameConstant "lue_time_discretization".toList (h ++ [.tag .timeDisc]),
     link E (h ++ [.tag .coordinates]) (h ++ [.tag .timeDisc])]

/-- `to_dot(TimeDomain)`: `T/dot.cpp:554-609` -/
def timeToDot (E : Env) (t : TimeView) : List Stmt :=
  .node (dotName E t.location)
      (labelText E.cfg.timeDetails "lue_time_domain".toList
        [("lue_time_domain".toList, []), ("unit".toList, (units.asString t.clock.unit).toList),
         ("nr_units".toList, number t.clock.nrUnits), ("item_type".toList, (timeItems.asString t.item).toList)])
      E.cfg.groupShape E.cfg.timeFill
    :: (if E.cfg.showValue then timeValueToDot E t.item t.location ++ [link E t.location (t.location ++ [.tag .coordinates])] else [])

/-- The type of the array with coordinates of a space domain: `T/dot.cpp:644-690` -/
def coordinatesKind : Mobility → Kind
  | .mobile => .sameConstant
  | .stationary => .same

/-- `to_dot(SpaceDomain)`: `T/dot.cpp:612-693`. `h` is the location of the space domain. -/
def spaceToDot (E : Env) (s : SpaceView) (h : Path) : List Stmt :=
  .node (dotName E h)
      (labelText E.cfg.spaceDetails "lue_space_domain".toList
        [("lue_space_domain".toList, []), ("mobility".toList, (mobilities.asString s.mobility).toList),
         ("item_type".toList, (spaceItems.asString s.item).toList)])
      E.cfg.groupShape E.cfg.spaceFill
    :: valuePart E (coordinatesKind s.mobility) "lue_coordinates".toList h (h ++ [.tag .coordinates])

/-- `to_dot(ObjectTracker)`: `T/dot.cpp:696-734` -/
def trackerToDot (E : Env) (h : Path) : List Stmt :=
  .node (dotName E h) "lue_object_tracker".toList E.cfg.groupShape E.cfg.trackerFill
    :: valuePart E .sameConstant "lue_active_set_index".toList h (h ++ [.tag .activeSetIndex])
    ++ valuePart E .sameConstant "lue_active_object_index".toList h (h ++ [.tag .activeObjectIndex])
    ++ valuePart E .sameConstant "lue_active_object_id".toList h (h ++ [.tag .activeObjectId])

/-- `T/dot.cpp:757-770` -/
def trackerPart (E : Env) (h : Path) (v : SetView) : List Stmt :=
  if E.cfg.showTracker then
    (if v.ownsTracker then trackerToDot E v.tracker ++ [link E h v.tracker] else [softLink E h v.tracker])
  else []

/-- `T/dot.cpp:772-785` -/
def timePart (E : Env) (h : Path) : Option TimeView → List Stmt
  | some t => if t.owned then timeToDot E t ++ [link E h t.location] else [softLink E h t.location]
  | none => []

/-- `T/dot.cpp:793-797` -/
def presencePart (E : Env) (f : File) (h : Path) (s : SpaceView) : Option (List Stmt) :=
  if s.discretized then
    (presenceDiscretization f h).map fun q => [softLink E (h ++ [.tag .spaceDomain]) q.1]
  else some []

/-- `T/dot.cpp:787-798` -/
def spacePart (E : Env) (f : File) (h : Path) : Option SpaceView → Option (List Stmt)
  | some s =>
    (presencePart E f h s).map fun p =>
      spaceToDot E s (h ++ [.tag .spaceDomain]) ++ [link E h (h ++ [.tag .spaceDomain])] ++ p
  | none => some []

/-- Write items one after the other. -/
def items {α : Type} (g : α → Option (List Stmt)) : List α → Option (List Stmt)
  | [] => some []
  | a :: l => (g a).bind fun x => (items g l).map fun y => x ++ y

/-- `T/dot.cpp:802-838`: the properties of one of the collections -/
def propertiesPart (E : Env) (f : File) (h : Path) (k : Kind) (l : List (Name × PropertyView)) : Option (List Stmt) :=
  items (fun e => (propertyToDot E f k e.1 e.2).map fun g => g ++ [link E h e.2.path 0]) l

/-- `to_dot(PropertySet)`: `T/dot.cpp:740-839`. `h` is the location of the property-set. -/
def setToDot (E : Env) (f : File) (n : Name) (h : Path) (v : SetView) : Option (List Stmt) := do
  let space ← spacePart E f h v.space
  let a ← propertiesPart E f h .same v.properties.same
  let b ← propertiesPart E f h .different v.properties.different
  let c ← propertiesPart E f h .sameConstant v.properties.sameConstant
  let d ← propertiesPart E f h .differentConstant v.properties.differentConstant
  let e ← propertiesPart E f h .sameVariable v.properties.sameVariable
  let g ← propertiesPart E f h .differentVariable v.properties.differentVariable
  pure (.node (dotName E h) n.toList E.cfg.groupShape E.cfg.setFill :: trackerPart E h v ++ timePart E h v.time ++ space
    ++ a ++ b ++ c ++ d ++ e ++ g)

/-- `T/dot.cpp:872-889`: the property-sets of one of the collections. `h` is the location of the phenomenon. -/
def setsPart (E : Env) (f : File) (h : Path) (c : Coll) (l : List (Name × SetView)) : Option (List Stmt) :=
  items (fun e => (setToDot E f e.1 (h ++ [.tag (.sets c), .user e.1]) e.2).map
    fun g => g ++ [link E h (h ++ [.tag (.sets c), .user e.1]) 0]) l

/-- `to_dot(Phenomenon)`: `T/dot.cpp:845-890` -/
def phenomenonToDot (E : Env) (f : File) (n : Name) (h : Path) (v : PhenomenonView) : Option (List Stmt) := do
  let a ← setsPart E f h .objects v.objects
  let b ← setsPart E f h .collection v.collection
  pure (.node (dotName E h) n.toList E.cfg.groupShape E.cfg.phenomenonFill
    :: (if E.cfg.showTracker then valuePart E .same "lue_object_id".toList h (h ++ [.tag .objectId]) else []) ++ a ++ b)

/-- `T/dot.cpp:902-905, 934-937`: `h` is the location of the dataset or the universe. -/
def worldToDot (E : Env) (f : File) (h : Path) (w : WorldView) : Option (List Stmt) :=
  items (fun e => phenomenonToDot E f e.1 (h ++ [.tag .phenomena, .user e.1]) e.2) w

/-- `to_dot(Universe)`: `T/dot.cpp:896-911` -/
def universeToDot (E : Env) (f : File) (u : Name) (w : WorldView) : Option (List Stmt) :=
  (worldToDot E f [.tag .universes, .user u] w).map fun g =>
    .enter (dotName E [.tag .universes, .user u]) u.toList
      :: g ++ (if w.isEmpty then [.empty (dotName E [.tag .universes, .user u])] else []) ++ [.leave]

/-- `to_dot(Dataset)`: `T/dot.cpp:920-946` -/
def datasetToDot (E : Env) (f : File) (pathname : Text) (v : DatasetView) : Option (List Stmt) :=
  (items (fun e => universeToDot E f e.1 e.2) v.universes).bind fun us =>
    (worldToDot E f [] v.phenomena).map fun g =>
      .enter (dotName E []) pathname :: us ++ g
        ++ (if v.universes.isEmpty && v.phenomena.isEmpty then [.empty (dotName E [])] else []) ++ [.leave]

/-- `T/dot.cpp:964-987` -/
def header (fontcolor : Text) : Text :=
  "digraph {\n    fontname=\"Courier\"\n    fontsize=10\n\n    graph [\n        bgcolor=\"transparent\"\n    ];\n\n    node [\n        fontname=\"Courier\"\n        fontsize=10\n        fontcolor=\"".toList
    ++ fontcolor
    ++ "\"\n        style=\"filled\"\n    ];\n\n    edge [\n        fontname=\"Courier\"\n        fontsize=10\n        arrowhead=\"open\"\n        arrowtail=\"open\"\n    ];\n\n".toList

/-- `translate_lue_dataset_to_dot`: `T/dot.cpp:952-997, 1006-1037`, `export.cpp:52-64, 85-89`: the dataset is opened, and the
text is written. -/
def exportDot (E : Env) (f : File) (pathname : Text) : Option Text :=
  (openDataset f).bind fun v => (datasetToDot E f pathname v).map fun ss =>
    header E.cfg.fontcolor ++ ss.flatMap Stmt.text ++ "}\n".toList

end Lue.Dot

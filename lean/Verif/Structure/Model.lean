import Verif.Util.AMap

/-!
# Model of creating, extending and opening a dataset

Models the part of the data model which stores the structure of a dataset in an HDF5 file:
`source/data_model/cxx/source/object/*.cpp` (`O/` below), `source/data_model/cxx/source/info/*` (`I/`),
`source/data_model/cxx/include/lue/core/*` (`K/`) and `source/data_model/hdf5/source/*` (`H/`).

An HDF5 file is a finite collection of nodes, addressed by paths. The components of a path are either names chosen by the user or one of
the fixed names of `K/tag.hpp`. In the files written by LUE these never occur in the same group. Names are assumed to be valid names of
HDF5 links (not empty, no `/`). A node is a group with attributes, a soft link, or an array with values. The contents of arrays are not
modelled here (see `DataModel`), so an array is a node without further structure, also where LUE stores it as a group with datasets.
Opening a value array is assumed to succeed when it is there.

The order in which HDF5 iterates over the links in a group doesn't matter: the items of a collection end up in a `std::map`.

Each function that creates something is modelled by the list of its HDF5 calls, which are performed one after the other until one fails.
What has been written before that stays in the file.

It is assumed that the objects in memory (the cached items of collections) correspond with the file: all changes are made through one
`Dataset` instance. A failing assertion is modelled as a failing call. There is no concurrency and files don't fill up.
-/
namespace Lue.Structure

/-! ## Values -/

/-- The two collections of property-sets of a phenomenon: `O/phenomenon.cpp:61-85` -/
inductive Coll | collection | objects
  deriving DecidableEq, Repr

/-- The six collections of properties: `O/property/properties.cpp:10-22` -/
inductive Kind | same | sameConstant | sameVariable | different | differentConstant | differentVariable
  deriving DecidableEq, Repr

/-- The fixed names of links: `K/tag.hpp:8-62` -/
inductive Tag
  | universes | phenomena | objectId | sets (c : Coll) | tracker | activeObjectId | activeSetIndex | activeObjectIndex
  | timeDomain | coordinates | spaceDomain | presence | properties | kind (k : Kind) | value | timeDisc | spaceDisc
  deriving DecidableEq, Repr

abbrev Name := String

inductive Comp | tag (t : Tag) | user (n : Name)
  deriving DecidableEq, Repr

/-- An absolute path name -/
abbrev Path := List Comp

/-- The names of attributes: `K/tag.hpp:8-62` -/
inductive AttrName
  | version | description | epochKind | epochOrigin | epochCalendar | timeItem | spaceItem | mobility | timeDisc | spaceDisc
  | timeUnit | nrUnits
  deriving DecidableEq, Repr

inductive Attr | str (s : String) | num (n : Nat)
  deriving DecidableEq, Repr

abbrev Attrs := AttrName → Option Attr

def Attrs.empty : Attrs := fun _ => none

def Attrs.set (a : Attrs) (n : AttrName) (v : Attr) : Attrs := fun m => if m = n then some v else a m

inductive Node | group (attrs : Attrs) | array | soft (target : Path)

/-- An HDF5 file -/
abbrev File := AMap Path Node

inductive TimeItem | box | cell | point
  deriving DecidableEq, Repr
inductive SpaceItem | point | box
  deriving DecidableEq, Repr
inductive Mobility | mobile | stationary
  deriving DecidableEq, Repr
inductive Discretization | regularGrid
  deriving DecidableEq, Repr
inductive Unit' | nanosecond | microsecond | millisecond | second | minute | hour | day | week | month | year
  deriving DecidableEq, Repr
inductive Calendar | gregorian
  deriving DecidableEq, Repr
inductive EpochKind | commonEra | formationOfEarth
  deriving DecidableEq, Repr

/-- `time::Epoch`: `source/data_model/cxx/source/core/time/epoch.cpp:8-87`. The three constructors: a calendar implies an origin. -/
inductive Epoch
  | kind (k : EpochKind)
  | origin (k : EpochKind) (o : String)
  | calendar (k : EpochKind) (o : String) (c : Calendar)
  deriving DecidableEq, Repr

/-- `Clock`: `source/data_model/cxx/source/core/clock.cpp:6-40` -/
structure Clock where
  epoch : Epoch
  unit : Unit'
  nrUnits : Nat
  deriving DecidableEq, Repr

/-! ## Aspects: the translation between enumerators and strings, `K/aspect.hpp:60-122` -/

/-- `EnumStringBimap<T>`: `K/enum_string_bimap.hpp:28-88` -/
abbrev Bimap (α : Type) := List (α × String)

/-- `as_string`: the empty string stands for `at` throwing an exception. -/
def Bimap.asString {α : Type} [DecidableEq α] (m : Bimap α) (a : α) : String :=
  ((m.find? fun e => e.1 = a).map Prod.snd).getD ""

/-- `string_to_aspect`: `K/aspect.hpp:136-147`, `none`: throws -/
def Bimap.asValue {α : Type} (m : Bimap α) (s : String) : Option α := (m.find? fun e => e.2 = s).map Prod.fst

/-- `K/aspect.hpp:75-80` -/
def timeItems : Bimap TimeItem := [(.box, "box"), (.cell, "cell"), (.point, "point")]
/-- `K/aspect.hpp:81-82` -/
def mobilities : Bimap Mobility := [(.mobile, "mobile"), (.stationary, "stationary")]
/-- `K/aspect.hpp:83-86` -/
def spaceItems : Bimap SpaceItem := [(.point, "point"), (.box, "box")]
/-- `K/aspect.hpp:87-92` -/
def discretizations : Bimap Discretization := [(.regularGrid, "regular_grid")]
/-- `K/aspect.hpp:93-106`, `K/time/unit_traits.hpp:26-35` -/
def units : Bimap Unit' :=
  [(.nanosecond, "nanosecond"), (.microsecond, "microsecond"), (.millisecond, "millisecond"), (.second, "second"), (.minute, "minute"),
   (.hour, "hour"), (.day, "day"), (.week, "week"), (.month, "month"), (.year, "year")]
/-- `K/aspect.hpp:107` -/
def calendars : Bimap Calendar := [(.gregorian, "gregorian")]
/-- `K/aspect.hpp:108-112` -/
def epochKinds : Bimap EpochKind := [(.commonEra, "common_era"), (.formationOfEarth, "formation_of_earth")]

/-! ## HDF5 -/

/-- Is there a group at the path? -/
def isGroup (f : File) (p : Path) : Bool :=
  match f.get p with
  | some (.group _) => true
  | _ => false

/-- Traverse the components of a path, starting at a group. A soft link restarts the traversal with `again`. -/
def walk (f : File) (again : Path → Option Path) : Path → Path → Option Path
  | pre, [] => some pre
  | pre, c :: rest =>
    match f.get (pre ++ [c]) with
    | none => none
    | some (.soft target) => again (target ++ rest)
    | some _ => walk f again (pre ++ [c]) rest

/-- The location of the object at path `rest`, relative to the group at `pre`. At most `n` soft links are followed. -/
def resolve (f : File) : Nat → Path → Path → Option Path
  | 0, pre, rest => walk f (fun _ => none) pre rest
  | n + 1, pre, rest => walk f (resolve f n []) pre rest

/-- The default limit of the number of soft links followed by HDF5: `H5L_NUM_LINKS` -/
def maxLinks : Nat := 16

/-- `H5Lexists`: `H/link.cpp:44-47` -/
def linkExists (f : File) (h : Path) (c : Comp) : Bool := (f.get (h ++ [c])).isSome

/-- `soft_link_exists`: `H/soft_link.cpp:34-37` -/
def softLinkExists (f : File) (h : Path) (c : Comp) : Bool :=
  match f.get (h ++ [c]) with
  | some (.soft _) => true
  | _ => false

/-- `object_type`: `H/link.cpp:50-63`, `none`: throws. -/
def nodeOf (f : File) (h : Path) (c : Comp) : Option Node := (resolve f maxLinks h [c]).bind f.get

/-- `group_exists`: `H/group.cpp:284-287`, `none`: throws -/
def groupExists (f : File) (h : Path) (c : Comp) : Option Bool :=
  if linkExists f h c then
    (nodeOf f h c).map fun n => match n with | .group _ => true | _ => false
  else
    some false

/-- `Group::Group(parent, name)`: `H/group.cpp:93-126`. Returns the location of the group. `none`: throws -/
def openGroupAt (f : File) (h : Path) (p : Path) : Option Path :=
  (resolve f maxLinks h p).bind fun r => if isGroup f r then some r else none

def openGroup (f : File) (h : Path) (c : Comp) : Option Path := openGroupAt f h [c]

/-- Open an array with values -/
def openArray (f : File) (h : Path) (c : Comp) : Option Unit :=
  (nodeOf f h c).bind fun n => match n with | .array => some () | _ => none

/-- The attributes of the group at `h` -/
def attrsOf (f : File) (h : Path) : Attrs :=
  match f.get h with
  | some (.group a) => a
  | _ => Attrs.empty

/-- `Attributes::exists`: `H/attributes.cpp:37-40` -/
def attrExists (f : File) (h : Path) (n : AttrName) : Bool := (attrsOf f h n).isSome

/-- `Attributes::read<std::string>`: `hdf5/attributes.hpp:47-51`. `none`: throws, or, in case the attribute isn't a string, unspecified -/
def readStr (f : File) (h : Path) (n : AttrName) : Option String :=
  match attrsOf f h n with
  | some (.str s) => some s
  | _ => none

/-- `Attributes::read<time::TickPeriodCount>` -/
def readNum (f : File) (h : Path) (n : AttrName) : Option Nat :=
  match attrsOf f h n with
  | some (.num k) => some k
  | _ => none

/-- An HDF5 call, or a check -/
inductive Step
  /-- `create_group(parent, name)`: `H/group.cpp:295-314`. Also fails in case a link of another kind exists. -/
  | group (p : Path) (c : Comp)
  /-- Create a value array in a group. -/
  | array (p : Path) (c : Comp)
  /-- `create_soft_link(group, target, name)`: `H/soft_link.cpp:40-54` -/
  | link (p : Path) (c : Comp) (target : Path)
  /-- `Attributes::write(name, value)`: `hdf5/attributes.hpp:27-40` -/
  | attr (p : Path) (n : AttrName) (v : Attr)
  /-- Code that only inspects the file and throws an exception if the result is `false` -/
  | check (g : File → Bool)

/-- Can the attribute be written? An attribute that doesn't exist is created. HDF5 refuses a string datatype of size zero
(`H/datatype.cpp:348-361`, `hdf5/attribute.hpp:200-214`). When the attribute exists its size doesn't change: a longer string would be
truncated and a shorter string would make HDF5 read beyond it. Both are treated as failures here. -/
def writable (old : Option Attr) (v : Attr) : Bool :=
  match old, v with
  | none, .str s => s ≠ ""
  | none, .num _ => true
  | some (.str s), .str t => s.utf8ByteSize = t.utf8ByteSize
  | some (.num _), .num _ => true
  | _, _ => false

/-- Add a node to a group. -/
def addNode (f : File) (p : Path) (c : Comp) (n : Node) : Bool × File :=
  if isGroup f p && !linkExists f p c then (true, f.put (p ++ [c]) n) else (false, f)

def Step.run (f : File) : Step → Bool × File
  | .group p c => addNode f p c (.group Attrs.empty)
  | .array p c => addNode f p c .array
  | .link p c target => addNode f p c (.soft target)
  | .attr p n v =>
    match f.get p with
    | some (.group a) => if writable (a n) v then (true, f.put p (.group (a.set n v))) else (false, f)
    | _ => (false, f)
  | .check g => (g f, f)

/-- Perform calls until one fails. -/
def run (f : File) : List Step → Bool × File
  | [] => (true, f)
  | s :: rest => if (s.run f).1 then run (s.run f).2 rest else (false, (s.run f).2)

/-! ## Opening -/

/-- `attributes().exists(description_tag) ? attributes().read<std::string>(description_tag) : ""` -/
def readDescription (f : File) (h : Path) : Option String :=
  if attrExists f h .description then readStr f h .description else some ""

/-- `Collection(parent, name)`: `K/collection.hpp:76-95,226-230`, `H/group.cpp:189-195`: open the groups in a group. `none`: throws -/
def groupNames (f : File) (h : Path) : List Name :=
  f.filterMap fun e =>
    match e.1.getLast? with
    | some (.user n) => if e.1 = h ++ [.user n] ∧ isGroup f e.1 = true then some n else none
    | _ => none

def openItems {α : Type} (f : File) (h : Path) (item : Path → Option α) : Option (List (Name × α)) :=
  (groupNames f h).mapM fun n => (openGroup f h (.user n)).bind fun r => (item r).map fun a => (n, a)

def openCollection {α : Type} (f : File) (h : Path) (c : Comp) (item : Path → Option α) : Option (List (Name × α)) :=
  (openGroup f h c).bind fun r => openItems f r item

/-- `PropertyGroup`, `Property`: `I/property/property_group.cpp:9-51`, `I/property/same_shape/property.cpp:7-14` -/
structure PropertyView where
  /-- The location of the group: `id().pathname()` -/
  path : Path
  description : String
  /-- `time_is_discretized()` -/
  timeDiscretized : Bool
  /-- `space_is_discretized()` -/
  spaceDiscretized : Bool
  deriving DecidableEq, Repr

def openProperty (f : File) (h : Path) : Option PropertyView := do
  let d ← readDescription f h
  let _ ← openArray f h (.tag .value)
  pure ⟨h, d, attrExists f h .timeDisc, attrExists f h .spaceDisc⟩

/-- `read_epoch`: `O/time_domain.cpp:23-53` -/
def readEpoch (f : File) (h : Path) : Option Epoch := do
  let k ← (← readStr f h .epochKind) |> epochKinds.asValue
  if !attrExists f h .epochOrigin then
    pure (.kind k)
  else do
    let o ← readStr f h .epochOrigin
    if !attrExists f h .epochCalendar then
      pure (.origin k o)
    else do
      let c ← (← readStr f h .epochCalendar) |> calendars.asValue
      pure (.calendar k o c)

/-- `read_clock`: `O/time_domain.cpp:63-70` -/
def readClock (f : File) (h : Path) : Option Clock := do
  let e ← readEpoch f h
  let u ← (← readStr f h .timeUnit) |> units.asValue
  let n ← readNum f h .nrUnits
  pure ⟨e, u, n⟩

/-- `TimeDomain`: `O/time_domain.cpp:73-102` -/
structure TimeView where
  /-- The location of the group: where the locations in time of the domain are stored. -/
  location : Path
  /-- `owns_time_domain()`: `O/property/property_set.cpp:90-93` -/
  owned : Bool
  item : TimeItem
  clock : Clock
  deriving DecidableEq, Repr

def openTimeDomain (f : File) (h : Path) : Option TimeView := do
  let r ← openGroup f h (.tag .timeDomain)
  let i ← (← readStr f r .timeItem) |> timeItems.asValue
  let c ← readClock f r
  pure ⟨r, !softLinkExists f h (.tag .timeDomain), i, c⟩

/-- `SpaceDomain`: `O/space_domain.cpp:11-44` -/
structure SpaceView where
  mobility : Mobility
  item : SpaceItem
  /-- `presence_is_discretized()` -/
  discretized : Bool
  deriving DecidableEq, Repr

def openSpaceDomain (f : File) (h : Path) : Option SpaceView := do
  let r ← openGroup f h (.tag .spaceDomain)
  let m ← (← readStr f r .mobility) |> mobilities.asValue
  let i ← (← readStr f r .spaceItem) |> spaceItems.asValue
  pure ⟨m, i, softLinkExists f r (.tag .presence)⟩

/-- `ObjectTracker`: `O/identity/object_tracker.cpp:12-20`. Returns the location of the group. -/
def openTracker (f : File) (h : Path) : Option Path := do
  let r ← openGroup f h (.tag .tracker)
  let _ ← openArray f r (.tag .activeObjectId)
  let _ ← openArray f r (.tag .activeSetIndex)
  let _ ← openArray f r (.tag .activeObjectIndex)
  pure r

/-- `Properties`: `O/property/properties.cpp:10-22` -/
structure PropertiesView where
  same : List (Name × PropertyView)
  sameConstant : List (Name × PropertyView)
  sameVariable : List (Name × PropertyView)
  different : List (Name × PropertyView)
  differentConstant : List (Name × PropertyView)
  differentVariable : List (Name × PropertyView)

def PropertiesView.get (v : PropertiesView) : Kind → List (Name × PropertyView)
  | .same => v.same
  | .sameConstant => v.sameConstant
  | .sameVariable => v.sameVariable
  | .different => v.different
  | .differentConstant => v.differentConstant
  | .differentVariable => v.differentVariable

def openProperties (f : File) (h : Path) : Option PropertiesView := do
  let r ← openGroup f h (.tag .properties)
  let a ← openCollection f r (.tag (.kind .same)) (openProperty f)
  let b ← openCollection f r (.tag (.kind .sameConstant)) (openProperty f)
  let c ← openCollection f r (.tag (.kind .sameVariable)) (openProperty f)
  let d ← openCollection f r (.tag (.kind .different)) (openProperty f)
  let e ← openCollection f r (.tag (.kind .differentConstant)) (openProperty f)
  let g ← openCollection f r (.tag (.kind .differentVariable)) (openProperty f)
  pure ⟨a, b, c, d, e, g⟩

/-- `PropertySet`: `O/property/property_set.cpp:12-43` -/
structure SetView where
  /-- The location of the object tracker: where the IDs of the active objects are stored. -/
  tracker : Path
  /-- `owns_object_tracker()`: `O/property/property_set.cpp:67-70` -/
  ownsTracker : Bool
  /-- `has_time_domain()`, `time_domain()` -/
  time : Option TimeView
  /-- `has_space_domain()`, `space_domain()` -/
  space : Option SpaceView
  properties : PropertiesView

/-- `if (exists(*this)) { _domain = Domain{*this}; }` -/
def openOptional {α : Type} (present : Option Bool) (o : Option α) : Option (Option α) :=
  present.bind fun b => if b then o.map some else some none

def openSet (f : File) (h : Path) : Option SetView := do
  let t ← openTracker f h
  let ps ← openProperties f h
  let td ← openOptional (groupExists f h (.tag .timeDomain)) (openTimeDomain f h)
  let sd ← openOptional (groupExists f h (.tag .spaceDomain)) (openSpaceDomain f h)
  pure ⟨t, !softLinkExists f h (.tag .tracker), td, sd, ps⟩

/-- `Phenomenon`: `O/phenomenon.cpp:7-30` -/
structure PhenomenonView where
  description : String
  collection : List (Name × SetView)
  objects : List (Name × SetView)

def PhenomenonView.sets (v : PhenomenonView) : Coll → List (Name × SetView)
  | .collection => v.collection
  | .objects => v.objects

def openPhenomenon (f : File) (h : Path) : Option PhenomenonView := do
  let d ← readDescription f h
  let _ ← openArray f h (.tag .objectId)
  let a ← openCollection f h (.tag (.sets .collection)) (openSet f)
  let b ← openCollection f h (.tag (.sets .objects)) (openSet f)
  pure ⟨d, a, b⟩

abbrev WorldView := List (Name × PhenomenonView)

/-- `Phenomena`, `Universe`: `O/phenomena.cpp:7-12`, `O/universe.cpp:6-21` -/
def openWorld (f : File) (h : Path) : Option WorldView := openCollection f h (.tag .phenomena) (openPhenomenon f)

/-- `Dataset`: `O/dataset.cpp:8-60` -/
structure DatasetView where
  version : String
  description : String
  universes : List (Name × WorldView)
  phenomena : WorldView

def openDataset (f : File) : Option DatasetView := do
  let d ← readDescription f []
  let us ← openCollection f [] (.tag .universes) (openWorld f)
  let w ← openWorld f []
  let v ← readStr f [] .version
  pure ⟨v, d, us, w⟩

/-- `SoftLink::path`: `H/soft_link.cpp:17-31`. `none`: the link doesn't exist (an assertion fails). -/
def softLinkPath (f : File) (h : Path) (c : Comp) : Option Path :=
  match f.get (h ++ [c]) with
  | some (.soft t) => some t
  | _ => none

/-- `PropertyGroup{*this, SoftLink{*this, tag}.path()}`: `I/property/property_group.cpp:100-113`, `O/space_domain.cpp:53-58`. Returns the
location and the description of the linked property. -/
def linkedProperty (f : File) (h : Path) (c : Comp) : Option (Path × String) := do
  let t ← softLinkPath f h c
  let r ← openGroupAt f [] t
  let d ← readDescription f r
  pure (r, d)

/-- `time_discretization_type()` and `time_discretization_property()`: `I/property/property_group.cpp:54-59,100-105` -/
def timeDiscretization (f : File) (h : Path) : Option (Discretization × Path × String) := do
  let t ← (← readStr f h .timeDisc) |> discretizations.asValue
  let p ← linkedProperty f h (.tag .timeDisc)
  pure (t, p)

/-- `space_discretization_type()` and `space_discretization_property()`: `I/property/property_group.cpp:62-67,108-113` -/
def spaceDiscretization (f : File) (h : Path) : Option (Discretization × Path × String) := do
  let t ← (← readStr f h .spaceDisc) |> discretizations.asValue
  let p ← linkedProperty f h (.tag .spaceDisc)
  pure (t, p)

/-- `discretized_presence_property()` of the space domain of a property-set: `O/space_domain.cpp:53-58` -/
def presenceDiscretization (f : File) (h : Path) : Option (Path × String) := do
  let r ← openGroup f h (.tag .spaceDomain)
  linkedProperty f r (.tag .presence)

/-! ## Creating -/

/-- `if (!description.empty()) group.attributes().write(description_tag, description)` -/
def writeDescription (p : Path) (d : String) : List Step :=
  if d ≠ "" then [.attr p .description (.str d)] else []

/-- `if (group_exists(parent, name)) throw` -/
def refuseGroup (p : Path) (c : Comp) : Step := .check fun f => groupExists f p c = some false

/-- `O/phenomena.cpp:29-38`, `K/collection.hpp:239-249` -/
def createPhenomena (p : Path) : List Step := [refuseGroup p (.tag .phenomena), .group p (.tag .phenomena)]

/-- `O/universes.cpp:29-38` -/
def createUniverses (p : Path) : List Step := [refuseGroup p (.tag .universes), .group p (.tag .universes)]

/-- `O/universe.cpp:42-49` -/
def createUniverse (p : Path) (u : Name) : List Step :=
  .group p (.user u) :: createPhenomena (p ++ [.user u])
    ++ [.check fun f => (openWorld f (p ++ [.user u])).isSome]

/-- `O/property_sets.cpp:127-136` -/
def createPropertySets (p : Path) (c : Coll) : List Step := [refuseGroup p (.tag (.sets c)), .group p (.tag (.sets c))]

/-- `O/phenomenon.cpp:88-110` -/
def createPhenomenon (p : Path) (n : Name) (d : String) : List Step :=
  refuseGroup p (.user n) :: .group p (.user n) :: writeDescription (p ++ [.user n]) d
    ++ [.array (p ++ [.user n]) (.tag .objectId)]
    ++ createPropertySets (p ++ [.user n]) .collection ++ createPropertySets (p ++ [.user n]) .objects
    ++ [.check fun f => (openPhenomenon f (p ++ [.user n])).isSome]

/-- `O/identity/object_tracker.cpp:93-102` -/
def createTracker (p : Path) : List Step :=
  [.group p (.tag .tracker), .array (p ++ [.tag .tracker]) (.tag .activeObjectId),
   .array (p ++ [.tag .tracker]) (.tag .activeSetIndex), .array (p ++ [.tag .tracker]) (.tag .activeObjectIndex)]

/-- `O/identity/object_tracker.cpp:105-108`. `t` is the path name of the tracker. -/
def linkTracker (p : Path) (t : Path) : List Step := [.link p (.tag .tracker) t]

/-- `write_epoch`: `O/time_domain.cpp:8-21` -/
def writeEpoch (p : Path) (e : Epoch) : List Step :=
  match e with
  | .kind k => [.attr p .epochKind (.str (epochKinds.asString k))]
  | .origin k o => [.attr p .epochKind (.str (epochKinds.asString k)), .attr p .epochOrigin (.str o)]
  | .calendar k o c =>
    [.attr p .epochKind (.str (epochKinds.asString k)), .attr p .epochOrigin (.str o),
     .attr p .epochCalendar (.str (calendars.asString c))]

/-- `write_clock`: `O/time_domain.cpp:55-60` -/
def writeClock (p : Path) (c : Clock) : List Step :=
  writeEpoch p c.epoch ++ [.attr p .timeUnit (.str (units.asString c.unit)), .attr p .nrUnits (.num c.nrUnits)]

/-- `create_time_domain`: `O/time_domain.cpp:105-135`. Each kind of item stores its coordinates in one array. -/
def createTimeDomain (p : Path) (i : TimeItem) (c : Clock) : List Step :=
  [.group p (.tag .timeDomain), .array (p ++ [.tag .timeDomain]) (.tag .coordinates)]
    ++ writeClock (p ++ [.tag .timeDomain]) c ++ [.attr (p ++ [.tag .timeDomain]) .timeItem (.str (timeItems.asString i))]

/-- `link_time_domain`: `O/time_domain.cpp:138-141`. `t` is the path name of the time domain. -/
def linkTimeDomain (p : Path) (t : Path) : List Step := [.link p (.tag .timeDomain) t]

/-- `create_space_domain`: `O/space_domain.cpp:61-112` -/
def createSpaceDomain (p : Path) (m : Mobility) (i : SpaceItem) : List Step :=
  [.group p (.tag .spaceDomain), .array (p ++ [.tag .spaceDomain]) (.tag .coordinates),
   .attr (p ++ [.tag .spaceDomain]) .mobility (.str (mobilities.asString m)),
   .attr (p ++ [.tag .spaceDomain]) .spaceItem (.str (spaceItems.asString i))]

/-- `create_properties`: `O/property/properties.cpp:246-264`, `O/property/same_shape/properties.cpp:37-42` and similar -/
def createProperties (p : Path) : List Step :=
  [refuseGroup p (.tag .properties), .group p (.tag .properties),
   .group (p ++ [.tag .properties]) (.tag (.kind .same)),
   .group (p ++ [.tag .properties]) (.tag (.kind .sameConstant)),
   .group (p ++ [.tag .properties]) (.tag (.kind .sameVariable)),
   .group (p ++ [.tag .properties]) (.tag (.kind .different)),
   .group (p ++ [.tag .properties]) (.tag (.kind .differentConstant)),
   .group (p ++ [.tag .properties]) (.tag (.kind .differentVariable))]

/-- A phenomenon in the dataset or in one of its universes -/
structure PhenomenonAddr where
  world : Option Name
  name : Name
  deriving DecidableEq, Repr

structure SetAddr where
  phenomenon : PhenomenonAddr
  coll : Coll
  name : Name
  deriving DecidableEq, Repr

structure PropertyAddr where
  set : SetAddr
  kind : Kind
  name : Name
  deriving DecidableEq, Repr

/-- The path name of the dataset or a universe -/
def worldPath : Option Name → Path
  | none => []
  | some u => [.tag .universes, .user u]

def phenomenonPath (a : PhenomenonAddr) : Path := worldPath a.world ++ [.tag .phenomena, .user a.name]

def setPath (s : SetAddr) : Path := phenomenonPath s.phenomenon ++ [.tag (.sets s.coll), .user s.name]

def propertyPath (p : PropertyAddr) : Path := setPath p.set ++ [.tag .properties, .tag (.kind p.kind), .user p.name]

/-- The path name of the object tracker of a property-set. The path name of an object opened through a soft link is the path name of the
link. -/
def trackerPath (s : SetAddr) : Path := setPath s ++ [.tag .tracker]

/-- The path name of the time domain of a property-set -/
def timePath (s : SetAddr) : Path := setPath s ++ [.tag .timeDomain]

/-- The arguments of the overloads of `PropertySets::add`: `O/property_sets.cpp:22-124` -/
inductive SetArgs
  | plain
  | space (m : Mobility) (i : SpaceItem)
  | time (t : TimeItem) (c : Clock)
  | sharedTime (t : SetAddr)
  | timeTracker (t : TimeItem) (c : Clock) (o : SetAddr)
  | sharedTimeTracker (t o : SetAddr)
  | timeSpace (t : TimeItem) (c : Clock) (m : Mobility) (i : SpaceItem)
  | sharedTimeSpace (t : SetAddr) (m : Mobility) (i : SpaceItem)
  | sharedTimeTrackerSpace (t o : SetAddr) (m : Mobility) (i : SpaceItem)

/-- The part of `create_property_set` that depends on the overload, in the order of the code: `O/property/property_set.cpp:177-181`,
`199-204`, `217-222`, `240-245`, `263-268`, `283-288`, `308-314`, `333-339`, `359-365` -/
def createDomains (p : Path) : SetArgs → List Step
  | .plain => createTracker p
  | .space m i => createTracker p ++ createSpaceDomain p m i
  | .sharedTime t => createTracker p ++ linkTimeDomain p (timePath t)
  | .time t c => createTracker p ++ createTimeDomain p t c
  | .timeTracker t c o => linkTracker p (trackerPath o) ++ createTimeDomain p t c
  | .sharedTimeTracker t o => linkTracker p (trackerPath o) ++ linkTimeDomain p (timePath t)
  | .timeSpace t c m i => createTracker p ++ createTimeDomain p t c ++ createSpaceDomain p m i
  | .sharedTimeSpace t m i => createTracker p ++ linkTimeDomain p (timePath t) ++ createSpaceDomain p m i
  | .sharedTimeTrackerSpace t o m i =>
    linkTracker p (trackerPath o) ++ linkTimeDomain p (timePath t) ++ createSpaceDomain p m i

/-- `create_property_set`: `O/property/property_set.cpp:169-366` -/
def createPropertySet (p : Path) (n : Name) (a : SetArgs) : List Step :=
  [refuseGroup p (.user n), .group p (.user n)] ++ createDomains (p ++ [.user n]) a ++ createProperties (p ++ [.user n])
    ++ [.check fun f => (openSet f (p ++ [.user n])).isSome]

/-- `create_property`: `I/property/property_group.cpp:116-126`, `I/property/same_shape/property.cpp:80-92` and similar -/
def createProperty (p : Path) (n : Name) (d : String) : List Step :=
  .group p (.user n) :: writeDescription (p ++ [.user n]) d ++ [.array (p ++ [.user n]) (.tag .value)]

/-- `verify_property_does_not_exist`: `O/property/properties.cpp:73-81,203-209`. `p` is the path of the group with all properties. -/
def refuseProperty (p : Path) (n : Name) : Step :=
  .check fun f =>
    !(linkExists f (p ++ [.tag (.kind .same)]) (.user n) || linkExists f (p ++ [.tag (.kind .sameConstant)]) (.user n)
      || linkExists f (p ++ [.tag (.kind .sameVariable)]) (.user n) || linkExists f (p ++ [.tag (.kind .different)]) (.user n)
      || linkExists f (p ++ [.tag (.kind .differentConstant)]) (.user n)
      || linkExists f (p ++ [.tag (.kind .differentVariable)]) (.user n))

/-! ## The operations of the user -/

/-- `dataset.phenomena()["…"].property_sets()["…"]`: looking up an item that doesn't exist fails (`K/collection.hpp:166-195`). -/
def navigate (p : Path) : Step := .check fun f => isGroup f p

/-- The tracker of a property-set, passed as argument -/
def trackerArg : SetArgs → List Step
  | .timeTracker _ _ o => [.check fun f => (openTracker f (setPath o)).isSome]
  | .sharedTimeTracker _ o => [.check fun f => (openTracker f (setPath o)).isSome]
  | .sharedTimeTrackerSpace _ o _ _ => [.check fun f => (openTracker f (setPath o)).isSome]
  | _ => []

/-- The time domain of a property-set, passed as argument. The property-set must have one (`O/property/property_set.cpp:122-127`). -/
def timeArg : SetArgs → List Step
  | .sharedTime t => [.check fun f => (openTimeDomain f (setPath t)).isSome]
  | .sharedTimeTracker t _ => [.check fun f => (openTimeDomain f (setPath t)).isSome]
  | .sharedTimeSpace t _ _ => [.check fun f => (openTimeDomain f (setPath t)).isSome]
  | .sharedTimeTrackerSpace t _ _ _ => [.check fun f => (openTimeDomain f (setPath t)).isSome]
  | _ => []

inductive Op
  /-- `dataset.add_universe(name)`: `O/dataset.cpp:67-70`, `O/universes.cpp:23-26` -/
  | addUniverse (u : Name)
  /-- `dataset.add_phenomenon(name, description)`, `universe.add_phenomenon(name, description)`: `O/dataset.cpp:77-80`,
  `O/universe.cpp:36-39`, `O/phenomena.cpp:23-26` -/
  | addPhenomenon (a : PhenomenonAddr) (d : String)
  /-- `phenomenon.property_sets().add(name, …)`, `phenomenon.collection_property_sets().add(name, …)`: `O/property_sets.cpp:22-124` -/
  | addSet (s : SetAddr) (a : SetArgs)
  /-- `property_set.properties().add<Property>(name, …, description)`: `O/property/properties.cpp:212-243`, `properties.hpp:134-211` -/
  | addProperty (p : PropertyAddr) (d : String)
  /-- `property.set_time_discretization(type, other)`: `I/property/property_group.cpp:78-82` -/
  | discretizeTime (p : PropertyAddr) (t : Discretization) (q : PropertyAddr)
  /-- `property.set_space_discretization(type, other)`: `I/property/property_group.cpp:93-97` -/
  | discretizeSpace (p : PropertyAddr) (t : Discretization) (q : PropertyAddr)
  /-- `property_set.space_domain().set_presence_discretization(property)`: `O/space_domain.cpp:47-50` -/
  | discretizePresence (s : SetAddr) (q : PropertyAddr)

def steps : Op → List Step
  | .addUniverse u => createUniverse [.tag .universes] u
  | .addPhenomenon a d =>
    navigate (worldPath a.world) :: createPhenomenon (worldPath a.world ++ [.tag .phenomena]) a.name d
  | .addSet s a =>
    navigate (phenomenonPath s.phenomenon) :: timeArg a ++ trackerArg a
      ++ createPropertySet (phenomenonPath s.phenomenon ++ [.tag (.sets s.coll)]) s.name a
  | .addProperty p d =>
    [navigate (setPath p.set), refuseProperty (setPath p.set ++ [.tag .properties]) p.name]
      ++ createProperty (setPath p.set ++ [.tag .properties, .tag (.kind p.kind)]) p.name d
  | .discretizeTime p t q =>
    [navigate (propertyPath p), navigate (propertyPath q), .attr (propertyPath p) .timeDisc (.str (discretizations.asString t)),
     .link (propertyPath p) (.tag .timeDisc) (propertyPath q)]
  | .discretizeSpace p t q =>
    [navigate (propertyPath p), navigate (propertyPath q), .attr (propertyPath p) .spaceDisc (.str (discretizations.asString t)),
     .link (propertyPath p) (.tag .spaceDisc) (propertyPath q)]
  | .discretizePresence s q =>
    [navigate (setPath s), navigate (propertyPath q),
     .link (setPath s ++ [.tag .spaceDomain]) (.tag .presence) (propertyPath q)]

/-- Perform an operation. Whether it succeeds, and the file that results -/
def perform (f : File) (op : Op) : Bool × File := run f (steps op)

/-- `create_dataset(file, description)`: `O/dataset.cpp:139-154`. A new file contains the root group. -/
def createDataset (version d : String) : Bool × File :=
  run [([], .group Attrs.empty)]
    (createUniverses [] ++ createPhenomena [] ++ [.attr [] .version (.str version)] ++ writeDescription [] d
      ++ [.check fun f => (openDataset f).isSome])

end Lue.Structure

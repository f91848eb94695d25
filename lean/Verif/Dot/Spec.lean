import Verif.Dot.Model
import Verif.Structure.Spec

/-!
# Specification: the DOT language, and the graph of a dataset

The first part is a reader of (a part of) the DOT language, as documented by Graphviz: the text is split in tokens, the tokens form
statements, and the statements tell which nodes, edges and (nested) clusters there are. It doesn't know about LUE. Not supported are
escapes in strings and entities in HTML labels: text which uses these can't be read.

The second part tells, in terms of the description of a dataset (`Structure.DatasetD`), which items must be shown, and how these are
related.
-/
namespace Lue.Dot
open Lue.Structure

/-! ## Tokens -/

/-- The value of an attribute: a string (with or without quotes), or an HTML string -/
inductive Val | text (t : Text) | html (t : Text)
  deriving DecidableEq, Repr

inductive Tok | word (t : Text) | val (v : Val) | sym (c : Char) | arrow
  deriving DecidableEq, Repr

def isWord (c : Char) : Bool := c.isAlphanum || c == '_'
def isSpace (c : Char) : Bool := c == ' ' || c == '\n'
def isSym (c : Char) : Bool := c == '{' || c == '}' || c == '[' || c == ']' || c == ';' || c == '='

/-- In between tokens, or within one of them: the characters so far, and for HTML also the number of brackets that are open -/
inductive Scan | idle | word (t : Text) | quoted (t : Text) | html (depth : Nat) (t : Text) | minus
  deriving DecidableEq, Repr

/-- The next character, in between tokens -/
def scanIdle (c : Char) : Option (Scan × List Tok) :=
  if isWord c then some (.word [c], [])
  else if isSpace c then some (.idle, [])
  else if isSym c then some (.idle, [.sym c])
  else if c == '"' then some (.quoted [], [])
  else if c == '<' then some (.html 0 [], [])
  else if c == '-' then some (.minus, [])
  else none

def scan : Scan → Char → Option (Scan × List Tok)
  | .idle, c => scanIdle c
  | .word t, c => if isWord c then some (.word (t ++ [c]), []) else (scanIdle c).map fun r => (r.1, .word t :: r.2)
  | .quoted t, c =>
    if c == '"' then some (.idle, [.val (.text t)]) else if c == '\\' then none else some (.quoted (t ++ [c]), [])
  | .html d t, c =>
    if c == '&' then none
    else if c == '<' then some (.html (d + 1) (t ++ [c]), [])
    else if c == '>' then (match d with | 0 => some (.idle, [.val (.html t)]) | d + 1 => some (.html d (t ++ [c]), []))
    else some (.html d (t ++ [c]), [])
  | .minus, c => if c == '>' then some (.idle, [.arrow]) else none

def scanAll : Scan → Text → Option (Scan × List Tok)
  | s, [] => some (s, [])
  | s, c :: cs => (scan s c).bind fun r => (scanAll r.1 cs).map fun q => (q.1, r.2 ++ q.2)

/-- The tokens in a text. A text must not end within a token. -/
def tokens (t : Text) : Option (List Tok) :=
  (scanAll .idle t).bind fun r => match r.1 with | .idle => some r.2 | _ => none

/-! ## Statements -/

abbrev Attributes := List (Text × Val)

inductive Line
  | node (name : Text) (attrs : Attributes)
  | edge (tail head : Text) (attrs : Attributes)
  /-- `graph [...]`, `node [...]`, `edge [...]` -/
  | default (kind : Text) (attrs : Attributes)
  | setting (name : Text) (v : Val)
  | enter (name : Text)
  | leave
  deriving DecidableEq, Repr

def valOf : Tok → Option Val
  | .word t => some (.text t)
  | .val v => some v
  | _ => none

/-- Attributes, until the closing bracket. What is left -/
def attributes : List Tok → Option (Attributes × List Tok)
  | .sym ']' :: ts => some ([], ts)
  | .word k :: .sym '=' :: t :: ts => (valOf t).bind fun v => (attributes ts).map fun r => ((k, v) :: r.1, r.2)
  | _ => none

/-- A semicolon after a statement may be left out. -/
def skip : List Tok → List Tok
  | .sym ';' :: ts => ts
  | ts => ts

def isKeyword (t : Text) : Bool := t = "graph".toList || t = "node".toList || t = "edge".toList

def line : List Tok → Option (Line × List Tok)
  | .sym '}' :: ts => some (.leave, ts)
  | .word a :: .word b :: .sym '{' :: ts => if a = "subgraph".toList then some (.enter b, ts) else none
  | .word a :: .sym '=' :: t :: ts => (valOf t).map fun v => (.setting a v, skip ts)
  | .word a :: .arrow :: .word b :: .sym '[' :: ts => (attributes ts).map fun r => (.edge a b r.1, skip r.2)
  | .word a :: .sym '[' :: ts =>
    (attributes ts).map fun r => (if isKeyword a then .default a r.1 else .node a r.1, skip r.2)
  | _ => none

/-- All statements. At most `n` of them. -/
def linesOf : Nat → List Tok → Option (List Line)
  | _, [] => some []
  | 0, _ => none
  | n + 1, ts => (line ts).bind fun r => (linesOf n r.2).map fun ls => r.1 :: ls

/-! ## Graphs -/

structure Node where
  name : Text
  attrs : Attributes
  /-- The names of the clusters the node is in, the innermost one first -/
  clusters : List Text
  deriving DecidableEq, Repr

structure Edge where
  tail : Text
  head : Text
  attrs : Attributes
  deriving DecidableEq, Repr

structure Cluster where
  name : Text
  clusters : List Text
  deriving DecidableEq, Repr

structure Setting where
  clusters : List Text
  name : Text
  value : Val
  deriving DecidableEq, Repr

structure Graph where
  nodes : List Node := []
  edges : List Edge := []
  clusters : List Cluster := []
  settings : List Setting := []
  deriving DecidableEq, Repr

/-- The graph described by the lines, given the clusters we are in. `none` is the graph itself. The last line must close the graph. -/
def graphOf : List (Option Text) → List Line → Option Graph
  | [], [] => some {}
  | _ :: st, .leave :: ls => graphOf st ls
  | o :: st, .enter n :: ls =>
    (graphOf (some n :: o :: st) ls).map fun g => { g with clusters := ⟨n, (o :: st).filterMap id⟩ :: g.clusters }
  | o :: st, .node n a :: ls => (graphOf (o :: st) ls).map fun g => { g with nodes := ⟨n, a, (o :: st).filterMap id⟩ :: g.nodes }
  | o :: st, .edge t h a :: ls => (graphOf (o :: st) ls).map fun g => { g with edges := ⟨t, h, a⟩ :: g.edges }
  | o :: st, .default _ _ :: ls => graphOf (o :: st) ls
  | o :: st, .setting n v :: ls =>
    (graphOf (o :: st) ls).map fun g => { g with settings := ⟨(o :: st).filterMap id, n, v⟩ :: g.settings }
  | _, _ => none

/-- The graph described by the tokens -/
def graphOfTokens : List Tok → Option Graph
  | .word k :: .sym '{' :: ts => if k = "digraph".toList then (linesOf ts.length ts).bind (graphOf [none]) else none
  | _ => none

/-- Read a text in the DOT language. -/
def readDot (t : Text) : Option Graph := (tokens t).bind graphOfTokens

/-! ## The items of a dataset -/

inductive Item
  | phenomenon (a : PhenomenonAddr)
  | set (s : SetAddr)
  | tracker (s : SetAddr)
  | time (s : SetAddr)
  | space (s : SetAddr)
  | property (p : PropertyAddr)
  /-- Arrays with values -/
  | objectId (a : PhenomenonAddr)
  | activeSetIndex (s : SetAddr)
  | activeObjectIndex (s : SetAddr)
  | activeObjectId (s : SetAddr)
  | timeValue (s : SetAddr)
  | timeCount (s : SetAddr)
  | spaceValue (s : SetAddr)
  | value (p : PropertyAddr)
  deriving DecidableEq, Repr

/-- The dataset contains the item, and according to the settings it must be shown. Object trackers and time domains which are shared are
items of the property-set that owns them. -/
def Shown (D : DatasetD) (c : Settings) : Item → Prop
  | .phenomenon a => (D.phenomenon? a).isSome
  | .objectId a => (D.phenomenon? a).isSome ∧ c.showTracker = true ∧ c.showValue = true
  | .set s => (D.set? s).isSome
  | .tracker s => (∃ S, D.set? s = some S ∧ S.tracker = .own) ∧ c.showTracker = true
  | .activeSetIndex s => (∃ S, D.set? s = some S ∧ S.tracker = .own) ∧ c.showTracker = true ∧ c.showValue = true
  | .activeObjectIndex s => (∃ S, D.set? s = some S ∧ S.tracker = .own) ∧ c.showTracker = true ∧ c.showValue = true
  | .activeObjectId s => (∃ S, D.set? s = some S ∧ S.tracker = .own) ∧ c.showTracker = true ∧ c.showValue = true
  | .time s => ∃ S i k, D.set? s = some S ∧ S.time = .own i k
  | .timeValue s => (∃ S i k, D.set? s = some S ∧ S.time = .own i k) ∧ c.showValue = true
  | .timeCount s => (∃ S k, D.set? s = some S ∧ S.time = .own .cell k) ∧ c.showValue = true
  | .space s => ∃ S x, D.set? s = some S ∧ S.space = some x
  | .spaceValue s => (∃ S x, D.set? s = some S ∧ S.space = some x) ∧ c.showValue = true
  | .property p => (D.property? p).isSome
  | .value p => (D.property? p).isSome ∧ c.showValue = true

/-- What the item is part of -/
def Item.parent : Item → Option Item
  | .phenomenon _ => none
  | .objectId a => some (.phenomenon a)
  | .set s => some (.phenomenon s.phenomenon)
  | .tracker s => some (.set s)
  | .time s => some (.set s)
  | .space s => some (.set s)
  | .property p => some (.set p.set)
  | .activeSetIndex s => some (.tracker s)
  | .activeObjectIndex s => some (.tracker s)
  | .activeObjectId s => some (.tracker s)
  | .timeValue s => some (.time s)
  | .timeCount s => some (.timeValue s)
  | .spaceValue s => some (.space s)
  | .value p => some (.property p)

/-- An item refers to another one, for a reason: the property-set shares an object tracker or a time domain, or a property contains
information about the discretization. The label tells about the kind of discretization, if details are asked for. -/
inductive Refers (D : DatasetD) (c : Settings) : Item → Item → Text → Prop
  | tracker {s o : SetAddr} {S : SetD} {t : SetAddr} (hs : D.set? s = some S) (ht : S.tracker = .shared t)
      (ho : owner D.trackerFrom maxLinks s = some o) (hc : c.showTracker = true) : Refers D c (.set s) (.tracker o) []
  | time {s o : SetAddr} {S : SetD} {t : SetAddr} (hs : D.set? s = some S) (ht : S.time = .shared t)
      (ho : owner D.timeFrom maxLinks s = some o) : Refers D c (.set s) (.time o) []
  | presence {s : SetAddr} {S : SetD} {x : SpaceD} {q : PropertyAddr} (hs : D.set? s = some S) (hx : S.space = some x)
      (hq : x.presence = some q) : Refers D c (.space s) (.property q) []
  | timeDiscretization {p q : PropertyAddr} {x : PropertyD} {k : Discretization} (hp : D.property? p = some x)
      (hx : x.timeDisc = some (k, q)) :
      Refers D c (.property p) (.property q) (if c.timeDetails then (discretizations.asString k).toList else [])
  | spaceDiscretization {p q : PropertyAddr} {x : PropertyD} {k : Discretization} (hp : D.property? p = some x)
      (hx : x.spaceDisc = some (k, q)) :
      Refers D c (.property p) (.property q) (if c.spaceDetails then (discretizations.asString k).toList else [])

/-- The dataset, or the universe the item is in -/
def Item.world : Item → Option Name
  | .phenomenon a => a.world
  | .objectId a => a.world
  | .set s => s.phenomenon.world
  | .tracker s => s.phenomenon.world
  | .time s => s.phenomenon.world
  | .space s => s.phenomenon.world
  | .property p => p.set.phenomenon.world
  | .activeSetIndex s => s.phenomenon.world
  | .activeObjectIndex s => s.phenomenon.world
  | .activeObjectId s => s.phenomenon.world
  | .timeValue s => s.phenomenon.world
  | .timeCount s => s.phenomenon.world
  | .spaceValue s => s.phenomenon.world
  | .value p => p.set.phenomenon.world

/-! ## How items are shown -/

/-- Where an item is stored in the file -/
def Item.location : Item → Path
  | .phenomenon a => phenomenonPath a
  | .objectId a => phenomenonPath a ++ [.tag .objectId]
  | .set s => setPath s
  | .tracker s => trackerPath s
  | .time s => timePath s
  | .space s => setPath s ++ [.tag .spaceDomain]
  | .property p => propertyPath p
  | .activeSetIndex s => trackerPath s ++ [.tag .activeSetIndex]
  | .activeObjectIndex s => trackerPath s ++ [.tag .activeObjectIndex]
  | .activeObjectId s => trackerPath s ++ [.tag .activeObjectId]
  | .timeValue s => timePath s ++ [.tag .coordinates]
  | .timeCount s => timePath s ++ [.tag .timeDisc]
  | .spaceValue s => setPath s ++ [.tag .spaceDomain, .tag .coordinates]
  | .value p => propertyPath p ++ [.tag .value]

/-- The name of an item: as chosen by the user, or the name used by LUE -/
def Item.name : Item → Text
  | .phenomenon a => a.name.toList
  | .objectId _ => "lue_object_id".toList
  | .set s => s.name.toList
  | .tracker _ => "lue_object_tracker".toList
  | .time _ => "lue_time_domain".toList
  | .space _ => "lue_space_domain".toList
  | .property p => p.name.toList
  | .activeSetIndex _ => "lue_active_set_index".toList
  | .activeObjectIndex _ => "lue_active_object_index".toList
  | .activeObjectId _ => "lue_active_object_id".toList
  | .timeValue _ => "lue_coordinates".toList
  | .timeCount _ => "lue_time_discretization".toList
  | .spaceValue _ => "lue_coordinates".toList
  | .value _ => "lue_value".toList

inductive Look | group | dataset
  deriving DecidableEq, Repr

/-- The kind of array in which values are stored -/
def Item.arrayKind (D : DatasetD) : Item → Option Kind
  | .objectId _ => some .same
  | .activeSetIndex _ => some .sameConstant
  | .activeObjectIndex _ => some .sameConstant
  | .activeObjectId _ => some .sameConstant
  | .timeValue _ => some .sameConstant
  | .timeCount _ => some .sameConstant
  | .spaceValue s =>
    (D.set? s).bind fun S => S.space.map fun x => match x.mobility with | .mobile => .sameConstant | .stationary => .same
  | .value p => some p.kind
  | _ => none

/-- A table with a title, and names and values -/
def table (title : Text) (rows : List (Text × Text)) : Text :=
  "<table border=\"0\"><tr><td align=\"center\" colspan=\"2\">".toList ++ title ++ "</td></tr>".toList
    ++ rows.flatMap (fun r =>
      "<tr><td align=\"left\">".toList ++ r.1 ++ "</td><td align=\"left\">".toList ++ r.2 ++ "</td></tr>".toList)
    ++ "</table>".toList

def commaSeparated : List Nat → Text
  | [] => []
  | [n] => number n
  | n :: ns => number n ++ ", ".toList ++ commaSeparated ns

/-- Whether or not the arrays of all objects have the same shape -/
def shapePerObject : Kind → Text
  | .same | .sameConstant | .sameVariable => "same".toList
  | .different | .differentConstant | .differentVariable => "different".toList

/-- Whether or not the shapes of arrays vary through time -/
def shapeVariability : Kind → List (Text × Text)
  | .same | .different => []
  | .sameConstant | .differentConstant => [("shape_variability".toList, "constant".toList)]
  | .sameVariable | .differentVariable => [("shape_variability".toList, "variable".toList)]

def arraySizes (i : ValueInfo) : Kind → List (Text × Text)
  | .same | .sameConstant =>
    [("nr_arrays".toList, number i.nrArrays), ("array_shape".toList, '(' :: commaSeparated i.arrayShape ++ [')'])]
  | .different => [("rank".toList, number i.rank)]
  | .differentConstant => [("nr_objects".toList, number i.nrObjects), ("rank".toList, number i.rank)]
  | .sameVariable | .differentVariable => [("nr_locations_in_time".toList, number i.nrLocations), ("rank".toList, number i.rank)]

/-- What is known about an array -/
def arrayDetails (k : Kind) (i : ValueInfo) : List (Text × Text) :=
  [("shape_per_object".toList, shapePerObject k)] ++ shapeVariability k ++ arraySizes i k ++ [("file_datatype".toList, i.datatype)]

/-- The label of an item: its name, and if that is asked for, details -/
def Item.label (D : DatasetD) (E : Env) (i : Item) : Text :=
  match i with
  | .time s =>
    match (D.set? s).map SetD.time, E.cfg.timeDetails with
    | some (.own t k), true =>
      table i.name [("unit".toList, (units.asString k.unit).toList), ("nr_units".toList, number k.nrUnits),
        ("item_type".toList, (timeItems.asString t).toList)]
    | _, _ => i.name
  | .space s =>
    match (D.set? s).bind SetD.space, E.cfg.spaceDetails with
    | some x, true =>
      table i.name [("mobility".toList, (mobilities.asString x.mobility).toList), ("item_type".toList, (spaceItems.asString x.item).toList)]
    | _, _ => i.name
  | _ =>
    match i.arrayKind D, E.cfg.valueDetails with
    | some k, true => table i.name (arrayDetails k (E.info i.location))
    | _, _ => i.name

/-- Items have the shape of what is used in HDF5 to store them. -/
def Item.shape (D : DatasetD) (c : Settings) (i : Item) : Text :=
  match i.arrayKind D with
  | some .same => c.datasetShape
  | some .sameConstant => c.datasetShape
  | _ => c.groupShape

def Item.fill (c : Settings) : Item → Text
  | .phenomenon _ => c.phenomenonFill
  | .set _ => c.setFill
  | .tracker _ => c.trackerFill
  | .time _ => c.timeFill
  | .space _ => c.spaceFill
  | .property _ => c.propertyFill
  | _ => c.valueFill

/-- The name of the node of what is stored at a location -/
def nodeName (E : Env) (p : Path) : Text := "node_".toList ++ number (E.addr p)

/-- The clusters something in the dataset or a universe is in -/
def clustersOf (E : Env) : Option Name → List Text
  | none => ["cluster_".toList ++ nodeName E []]
  | some u => ["cluster_".toList ++ nodeName E (worldPath (some u)), "cluster_".toList ++ nodeName E []]

def Item.node (D : DatasetD) (E : Env) (i : Item) : Node :=
  ⟨nodeName E i.location,
    [("label".toList, .html (i.label D E)), ("shape".toList, .text (i.shape D E.cfg)), ("fillcolor".toList, .text (i.fill E.cfg))],
    clustersOf E i.world⟩

/-- An edge between items: solid if the head is part of the tail, dashed otherwise -/
def edgeOf (E : Env) (tail head : Item) (style : Text) (weight : Nat) (label : Text) : Edge :=
  ⟨nodeName E tail.location, nodeName E head.location,
    [("weight".toList, .text (number weight)), ("style".toList, .text style), ("label".toList, .html label)]⟩

/-- Property-sets and properties are not pulled towards what they are part of. -/
def Item.weight : Item → Nat
  | .set _ => 0
  | .property _ => 0
  | _ => 10

/-- The node shown in a dataset or universe without contents -/
def emptyNode (E : Env) (w : Option Name) : Node :=
  ⟨nodeName E (worldPath w),
    [("label".toList, .text "<empty>".toList), ("shape".toList, .text "plaintext".toList), ("fillcolor".toList, .text "red".toList)],
    clustersOf E w⟩

/-- There is nothing in the dataset or the universe. -/
def IsEmpty (D : DatasetD) : Option Name → Prop
  | none => (∀ u, D.universes u = none) ∧ ∀ n, D.phenomena n = none
  | some u => ∃ W, D.universes u = some W ∧ ∀ n, W n = none

/-- The graph shows the dataset. -/
structure Depicts (D : DatasetD) (E : Env) (pathname : Text) (g : Graph) : Prop where
  /-- No two nodes have the same name. -/
  unique : (g.nodes.map Node.name).Nodup
  /-- The nodes are those of the items that must be shown. Nothing is also shown. -/
  nodes : ∀ n, n ∈ g.nodes ↔ (∃ i, Shown D E.cfg i ∧ n = i.node D E) ∨ (∃ w, IsEmpty D w ∧ n = emptyNode E w)
  /-- Edges point from items to their parts, or to the items they refer to. -/
  edges : ∀ e, e ∈ g.edges ↔
    (∃ i j, Shown D E.cfg j ∧ j.parent = some i ∧ e = edgeOf E i j "solid".toList j.weight []) ∨
    (∃ i j l, Refers D E.cfg i j l ∧ e = edgeOf E i j "dashed".toList 0 l)
  /-- Each part is pointed at once. -/
  once : ((g.edges.filter fun e => ("style".toList, Val.text "solid".toList) ∈ e.attrs).map Edge.head).Nodup
  /-- All edges are between nodes. -/
  connected : ∀ e ∈ g.edges, e.tail ∈ g.nodes.map Node.name ∧ e.head ∈ g.nodes.map Node.name
  /-- The dataset is a cluster, and each universe is a cluster in that one. -/
  clusters : ∀ c, c ∈ g.clusters ↔ c = ⟨"cluster_".toList ++ nodeName E [], []⟩ ∨
    ∃ u, (D.universes u).isSome ∧ c = ⟨"cluster_".toList ++ nodeName E (worldPath (some u)), clustersOf E none⟩
  once_clusters : g.clusters.Nodup
  /-- The label of a cluster is the name of the dataset or the universe. -/
  labels : ∀ s, s ∈ g.settings ∧ s.clusters ≠ [] ↔ s = ⟨clustersOf E none, "label".toList, .html pathname⟩ ∨
    ∃ u, (D.universes u).isSome ∧ s = ⟨clustersOf E (some u), "label".toList, .html u.toList⟩

/-! ## Texts which can be used as they are -/

/-- There are no characters with a special meaning in HTML. -/
def Plain (t : Text) : Prop := '<' ∉ t ∧ '>' ∉ t ∧ '&' ∉ t

/-- There are no characters with a special meaning in a string in between quotes. -/
def Quotable (t : Text) : Prop := '"' ∉ t ∧ '\\' ∉ t

/-- All names chosen by the user are plain. -/
structure PlainNames (D : DatasetD) : Prop where
  universes : ∀ u, (D.universes u).isSome → Plain u.toList
  phenomena : ∀ a, (D.phenomenon? a).isSome → Plain a.name.toList
  sets : ∀ s, (D.set? s).isSome → Plain s.name.toList
  properties : ∀ p, (D.property? p).isSome → Plain p.name.toList

structure QuotableSettings (c : Settings) : Prop where
  groupShape : Quotable c.groupShape
  datasetShape : Quotable c.datasetShape
  valueFill : Quotable c.valueFill
  propertyFill : Quotable c.propertyFill
  timeFill : Quotable c.timeFill
  spaceFill : Quotable c.spaceFill
  trackerFill : Quotable c.trackerFill
  setFill : Quotable c.setFill
  phenomenonFill : Quotable c.phenomenonFill
  fontcolor : Quotable c.fontcolor

end Lue.Dot

import Verif.JsonImport.Model

/-!
C59, specification: what is stored in a dataset, what is listed in a document, and which documents are consistent.
-/
namespace Lue.JsonImport

variable {V : Type}

/-- Things which are stored -/
inductive Item (V : Type) where
  /-- A value of an array. The shape of the arrays is stored elsewhere. -/
  | value (v : V)
  /-- The ID of an object -/
  | id (n : Nat)
  /-- A point in time -/
  | point (t : Int)
  /-- The IDs of the objects in an active set -/
  | active (ids : List Nat)
  /-- The array of an object -/
  | object (id : Nat) (shape : Shape) (values : List V)
  /-- The arrays of objects at a location in time -/
  | location (objects : Objects V)

/-- Where things are stored in a property set -/
inductive What where
  | points | activeIds | activeSets | boxes
  | same (property : Name)
  | different (property : Name)
  | sameConstant (property : Name)
  | differentConstant (property : Name)
  | differentVariable (property : Name)
  deriving DecidableEq

/-- Where things are stored in a phenomenon: the IDs, or in one of the two kinds of property sets -/
inductive PhPath where
  | ids
  | inSet (collection : Bool) (set : Name) (what : What)
  deriving DecidableEq

/-- Where things are stored in a dataset -/
structure Path where
  /-- `none`: the phenomenon is not part of a universe -/
  world : Option Name
  phenomenon : Name
  path : PhPath

/-! ### Stored -/

/-- Active sets: the indices tell where in the collection of IDs each of the sets starts -/
def activeSets : List Nat → List Nat → List (List Nat)
  | [], _ => []
  | [a], ids => [ids.drop a]
  | a :: b :: t, ids => (ids.take b).drop a :: activeSets (b :: t) ids

def Coll.items (c : Option (Coll V)) : List (Item V) :=
  match c with
  | none => []
  | some c => c.rows.flatten.map .value

def Objects.items (o : Option (Objects V)) : List (Item V) :=
  (o.getD []).map fun e => .object e.1 e.2.1 e.2.2

def PropertySet.content (ps : PropertySet V) : What → List (Item V)
  | .points => ps.points.map .point
  | .activeIds => ps.tracker.ids.map .id
  | .activeSets => (activeSets ps.tracker.setIndex ps.tracker.ids).map .active
  | .boxes => Coll.items ps.space
  | .same p => Coll.items (ps.same.get p)
  | .different p => Objects.items (ps.different.get p)
  | .sameConstant p => Coll.items (ps.sameConstant.get p)
  | .differentConstant p => Objects.items (ps.differentConstant.get p)
  | .differentVariable p => ((ps.differentVariable.get p).getD []).map .location

def setContent (sets : AMap Name (PropertySet V)) (name : Name) (what : What) : List (Item V) :=
  match sets.get name with
  | none => []
  | some ps => ps.content what

def Phenomenon.content (ph : Phenomenon V) : PhPath → List (Item V)
  | .ids => ph.ids.map .id
  | .inSet true name what => setContent ph.collectionSets name what
  | .inSet false name what => setContent ph.sets name what

def phenomenonContent (m : AMap Name (Phenomenon V)) (name : Name) (p : PhPath) : List (Item V) :=
  match m.get name with
  | none => []
  | some ph => ph.content p

/-- What is stored in a dataset -/
def Dataset.content (s : Dataset V) (p : Path) : List (Item V) :=
  match p.world with
  | none => phenomenonContent s.phenomena p.phenomenon p.path
  | some u => phenomenonContent ((s.universes.get u).getD []) p.phenomenon p.path

/-! ### Listed -/

def ObjectJson.item (o : ObjectJson V) : Item V :=
  match o.source with
  | .dataset shape values => .object o.id shape (values.take (size shape))
  | .inline shape values => .object o.id shape (values.take (size shape))

/-- The objects of a location in time -/
def locationOf : List Nat → List Shape → List (List V) → Objects V
  | i :: ids, s :: shapes, v :: values => (i, s, v.take (size s)) :: locationOf ids shapes values
  | _, _, _ => []

def PropJson.listed : PropJson V → What → List (Item V)
  | .same name _ _ values, what => if what = .same name then values.map .value else []
  | .different name _ _ objects, what => if what = .different name then objects.map ObjectJson.item else []
  | .sameConstant name _ _ values, what => if what = .sameConstant name then values.map .value else []
  | .sameVariable, _ => []
  | .differentConstant name _ _ objects, what =>
    if what = .differentConstant name then objects.map ObjectJson.item else []
  | .differentVariable name _ _ ids shapes values, what =>
    if what = .differentVariable name then [.location (locationOf ids shapes values)] else []

def TimeJson.listed (t : TimeJson) : What → List (Item V)
  | .points => t.points.map .point
  | .activeIds => (t.tracker.ids.getD []).map .id
  | .activeSets => (JsonImport.activeSets (t.tracker.setIndex.getD []) (t.tracker.ids.getD [])).map .active
  | _ => []

def BoxesJson.listed (coord : ℚ → V) : BoxesJson V → List (Item V)
  | .rasters l => (l.flatMap (spaceBox coord)).map .value
  | .inline l => l.map .value

def SpaceJson.listed (coord : ℚ → V) (s : SpaceJson V) (what : What) : List (Item V) :=
  if what = .boxes then s.boxes.listed coord else []

def timeListed (time : Option TimeJson) (what : What) : List (Item V) :=
  match time with
  | none => []
  | some t => t.listed what

def spaceListed (coord : ℚ → V) (space : Option (SpaceJson V)) (what : What) : List (Item V) :=
  match space with
  | none => []
  | some s => s.listed coord what

def PropSetJson.listed (coord : ℚ → V) (j : PropSetJson V) (what : What) : List (Item V) :=
  timeListed j.time what ++ spaceListed coord j.space what ++ j.properties.flatMap fun p => p.listed what

def PhenomenonJson.listed (coord : ℚ → V) (j : PhenomenonJson V) : PhPath → List (Item V)
  | .ids => (j.ids.getD []).map .id
  | .inSet true name what => j.collectionSets.flatMap fun s => if s.name = name then s.listed coord what else []
  | .inSet false name what => j.sets.flatMap fun s => if s.name = name then s.listed coord what else []

def phenomenaListed (coord : ℚ → V) (l : List (PhenomenonJson V)) (name : Name) (p : PhPath) : List (Item V) :=
  l.flatMap fun j => if j.name = name then j.listed coord p else []

/-- What is listed in a document, in order -/
def Doc.listed (coord : ℚ → V) (d : Doc V) (p : Path) : List (Item V) :=
  match p.world with
  | none => phenomenaListed coord d.phenomena p.phenomenon p.path
  | some u => d.universes.flatMap fun j =>
      if j.name = u then phenomenaListed coord j.phenomena p.phenomenon p.path else []

/-! ### Consistency -/

/-- The shapes of the arrays of the properties, by the place they are stored at -/
abbrev Shapes := What → Shape

/-- Arrays which all have the same shape -/
def Coll.Shaped (c : Coll V) (shape : Shape) : Prop := c.shape = shape ∧ ∀ row ∈ c.rows, row.length = size shape

/-- Active set indices point into the collection of IDs -/
def Tracker.Valid (t : Tracker) : Prop := ∀ i ∈ t.setIndex, i ≤ t.ids.length

structure PropertySet.Valid (σ : Shapes) (ps : PropertySet V) : Prop where
  same : ∀ p c, ps.same.get p = some c → c.Shaped (σ (.same p))
  sameConstant : ∀ p c, ps.sameConstant.get p = some c → c.Shaped (σ (.sameConstant p))
  boxes : ∀ c, ps.space = some c → ∃ shape, c.Shaped shape
  tracker : ps.tracker.Valid

def SetsValid (σ : Name → Shapes) (sets : AMap Name (PropertySet V)) : Prop :=
  ∀ n ps, sets.get n = some ps → ps.Valid (σ n)

def PhenomenaValid (σ : Name → Bool → Name → Shapes) (m : AMap Name (Phenomenon V)) : Prop :=
  ∀ n ph, m.get n = some ph → SetsValid (σ n true) ph.collectionSets ∧ SetsValid (σ n false) ph.sets

/-- The arrays in the dataset have the given shapes -/
def Dataset.Valid (σ : Option Name → Name → Bool → Name → Shapes) (s : Dataset V) : Prop :=
  PhenomenaValid (σ none) s.phenomena ∧ ∀ u m, s.universes.get u = some m → PhenomenaValid (σ (some u)) m

/-- The properties in a document have the given shapes. Values of properties of which the shape differs between objects
but does not change through time must be stored in rasters with elements of type `uint8`. -/
def PropJson.Fits (σ : Shapes) : PropJson V → Prop
  | .same name _ shape _ => shape.getD [] = σ (.same name)
  | .sameConstant name _ shape _ => shape.getD [] = σ (.sameConstant name)
  | .differentConstant _ datatype _ objects => datatype = "uint8" ∧ ∀ o ∈ objects, ∃ s v, o.source = .dataset s v
  | _ => True

/-- The first active set starts at the first ID, and all of them start at existing IDs. -/
def TrackerJson.Fits (t : TrackerJson) : Prop :=
  (∀ i ∈ t.setIndex.getD [], i ≤ (t.ids.getD []).length) ∧
  match t.setIndex.getD [] with
  | [] => t.ids.getD [] = []
  | i :: _ => i = 0

/-- Boxes which are read from rasters have two dimensions -/
def SpaceJson.Fits (s : SpaceJson V) : Prop :=
  match s.boxes with
  | .rasters l => l = [] ∨ s.rank = 2
  | .inline _ => True

structure PropSetJson.Fits (σ : Shapes) (j : PropSetJson V) : Prop where
  time : ∀ t, j.time = some t → t.tracker.Fits
  space : ∀ s, j.space = some s → s.Fits
  properties : ∀ p ∈ j.properties, p.Fits σ

def PhenomenonJson.Fits (σ : Bool → Name → Shapes) (j : PhenomenonJson V) : Prop :=
  (∀ s ∈ j.collectionSets, s.Fits (σ true s.name)) ∧ ∀ s ∈ j.sets, s.Fits (σ false s.name)

/-- A document is consistent with the shapes of arrays -/
def Doc.Fits (σ : Option Name → Name → Bool → Name → Shapes) (d : Doc V) : Prop :=
  (∀ j ∈ d.phenomena, j.Fits (σ none j.name)) ∧
  ∀ u ∈ d.universes, ∀ j ∈ u.phenomena, j.Fits (σ (some u.name) j.name)

end Lue.JsonImport

import Verif.Validate.Model
import Mathlib.Data.List.Dedup

/-!
What a consistent dataset is, in terms of objects and moments in time. Nothing here refers to how the validation works.
-/
namespace Lue.Validate

/-- The number of moments in time for which objects are tracked. -/
def Tracker.nrSets (t : Tracker) : Nat := t.setIdx.length

/-- Where the k-th active set starts. -/
def Tracker.start (t : Tracker) (k : Nat) : Nat := t.setIdx.getD k t.ids.length

/-- The objects which are active at the k-th moment: the identifiers from the start of the k-th set up to the start of the next one, or,
for the last set, all remaining ones. -/
def Tracker.activeSet (t : Tracker) (k : Nat) : List Nat := (t.ids.drop (t.start k)).take (t.start (k + 1) - t.start k)

/-- The object tracker. -/
structure TrackerOk (ids : List Nat) (t : Tracker) : Prop where
  /-- objects have different identifiers -/
  distinct : ids.Nodup
  /-- sets are stored one after the other -/
  ordered : t.setIdx.Pairwise (· ≤ ·)
  /-- and within the collection of active objects -/
  within : ∀ i ∈ t.setIdx, i ≤ t.ids.length
  /-- an object is active only once per moment -/
  once : ∀ k, k < t.nrSets → (t.activeSet k).Nodup
  /-- without moments there are no active objects -/
  empty : t.setIdx = [] → t.ids = [] ∧ t.objIdx = []
  /-- if there are indices of objects, then sets start within that collection too -/
  indices : t.objIdx ≠ [] → ∀ i ∈ t.setIdx, i ≤ t.objIdx.length
  /-- active objects are objects of the phenomenon, if those are stored -/
  known : ids ≠ [] → ∀ i ∈ t.ids, i ∈ ids

/-- Boxes do not end before they start, and do not overlap with later ones. -/
def BoxesOk (boxes : List (Nat × Nat)) : Prop := (∀ b ∈ boxes, b.1 ≤ b.2) ∧ boxes.Pairwise fun a b => a.2 ≤ b.1

/-- The time domain: items are in order, and there is one per active set (for cells: boxes contain several items). -/
def TimeOk (t : Tracker) : TimeItems → Prop
  | .box boxes => BoxesOk boxes ∧ boxes.length = t.nrSets
  | .cell boxes counts => BoxesOk boxes ∧ counts.length = boxes.length ∧ counts.sum = t.nrSets
  | .point points => points.Pairwise (· ≤ ·) ∧ points.length = t.nrSets

/-- The space domain: an item per object, or per active object if they are mobile. -/
def SpaceOk (ids : List Nat) (t : Tracker) (s : SpaceDomain) : Prop :=
  s.nrArrays = if s.mobile then t.ids.length else ids.length

/-- A property that discretizes space for others: the same constant shape for all objects, unsigned integers, one array for the
collection, or else the required number. -/
def GridOk (target : Target) (nrRequired : Nat) : Prop :=
  target.kind = .same ∧ target.unsigned = true ∧ target.nrArrays = if target.collection then 1 else nrRequired

/-- An array per object. -/
def SameOk (ids : List Nat) (p : Same) : Prop := p.nrArrays = ids.length

/-- As many objects as there are, and an array for each of them. -/
def DifferentOk (ids : List Nat) (p : Different) : Prop :=
  p.nrObjects = ids.length ∧ (∀ i ∈ ids, i ∈ p.objects) ∧ ∀ target, p.discr.space = some target → GridOk target p.nrObjects

/-- An array per active object; if a constant property tells how space is discretized, then for all of them at once. -/
def SameConstantOk (t : Tracker) (p : SameConstant) : Prop :=
  p.nrArrays = t.ids.length ∧
    ∀ target, p.discr.space = some target → target.kind = .same ∨ target.kind = .different → GridOk target 1

/-- Arrays for the objects that have been active, and for each time an object is active the array refered to by the index exists. -/
def DifferentConstantOk (t : Tracker) (p : DifferentConstant) : Prop :=
  p.nrObjects = t.ids.dedup.length ∧ (∀ i ∈ t.ids, ∃ nr, p.arrays.lookup i = some nr) ∧
    (∀ j, t.start 0 ≤ j → j < t.ids.length →
      ∃ id idx nr, t.ids[j]? = some id ∧ t.objIdx[j]? = some idx ∧ p.arrays.lookup id = some nr ∧ idx < nr) ∧
    ∀ target, p.discr.space = some target → GridOk target p.nrObjects

/-- For each moment an array, with room for each of the active objects; discretization through time only by properties with the same
constant shape that vary. -/
def SameVariableOk (t : Tracker) (p : SameVariable) : Prop :=
  p.arrays.length = t.nrSets ∧ (∀ k, k < t.nrSets → p.arrays[k]? = some (t.activeSet k).length) ∧
    ∀ target, p.discr.time = some target → target.kind = .sameConstant

/-- For each moment an array. -/
def DifferentVariableOk (t : Tracker) (p : DifferentVariable) : Prop := p.nrTimes = t.nrSets

/-- All properties. -/
structure PropertiesOk (ids : List Nat) (t : Tracker) (p : Properties) : Prop where
  same : ∀ x ∈ p.same, SameOk ids x
  different : ∀ x ∈ p.different, DifferentOk ids x
  sameConstant : ∀ x ∈ p.sameConstant, SameConstantOk t x
  differentConstant : ∀ x ∈ p.differentConstant, DifferentConstantOk t x
  sameVariable : ∀ x ∈ p.sameVariable, SameVariableOk t x
  differentVariable : ∀ x ∈ p.differentVariable, DifferentVariableOk t x

/-- Presence in space is only discretized for boxes; presence that varies does so according to the same time domain. -/
def PresenceOk (s : SpaceDomain) (time : Option TimeDomain) : Prop :=
  ∀ p, s.presence = some p → s.isBox = true ∧
    (s.mobile = false → p.kind ≠ .same → p.kind ≠ .different → ∀ a b, p.timeDomain = some a → time = some b → a = b.id)

/-- A property set. -/
structure PropertySetOk (ids : List Nat) (s : PropertySet) : Prop where
  tracker : TrackerOk ids s.tracker
  time : ∀ d, s.time = some d → TimeOk s.tracker d.items
  space : ∀ d, s.space = some d → SpaceOk ids s.tracker d ∧ PresenceOk d s.time
  properties : PropertiesOk ids s.tracker s.properties

/-- A property set of the collection as a whole: there is one object, the collection; if there are properties that vary, then there are as
many active objects as moments. -/
def CollectionOk (s : PropertySet) : Prop :=
  PropertySetOk [s.tracker.ids.headD 999] s ∧
    (s.properties.sameConstant ≠ [] ∨ s.properties.sameVariable ≠ [] ∨ s.properties.differentConstant ≠ [] →
      s.tracker.nrSets = s.tracker.ids.length)

/-- A phenomenon. -/
def PhenomenonOk (p : Phenomenon) : Prop :=
  (∀ s ∈ p.propertySets, PropertySetOk p.ids s) ∧ ∀ s ∈ p.collectionPropertySets, CollectionOk s

/-- A dataset. -/
def DatasetOk (d : Dataset) : Prop :=
  (∀ u ∈ d.universes, ∀ p ∈ u, PhenomenonOk p) ∧ ∀ p ∈ d.phenomena, PhenomenonOk p

end Lue.Validate

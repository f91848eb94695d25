import Verif.Structure.Model

/-!
# Specification: what the user has put into a dataset

A `DatasetD` is a description of a dataset, as the user thinks of it: named universes, phenomena, property-sets and properties, nested in
each other, with their descriptions, clocks, domains and discretizations. There are no paths, links, groups or attributes in it. `apply`
tells how an operation of the user changes the description. `Shows` tells that the tree of objects one gets when opening a dataset
corresponds with a description.
-/
namespace Lue.Structure

/-! ## Descriptions -/

structure PropertyD where
  description : String
  /-- The kind of discretization through time and the property with the details -/
  timeDisc : Option (Discretization × PropertyAddr)
  spaceDisc : Option (Discretization × PropertyAddr)

inductive TrackerD
  | own
  /-- Uses the tracker of another property-set. -/
  | shared (s : SetAddr)

inductive TimeD
  /-- No time domain -/
  | absent
  | own (i : TimeItem) (c : Clock)
  /-- Uses the time domain of another property-set. -/
  | shared (s : SetAddr)

structure SpaceD where
  mobility : Mobility
  item : SpaceItem
  /-- The property with the discretization of the presence -/
  presence : Option PropertyAddr

structure SetD where
  tracker : TrackerD
  time : TimeD
  space : Option SpaceD
  properties : Kind → Name → Option PropertyD

structure PhenomenonD where
  description : String
  sets : Coll → Name → Option SetD

abbrev WorldD := Name → Option PhenomenonD

structure DatasetD where
  version : String
  description : String
  universes : Name → Option WorldD
  phenomena : WorldD

/-! ## Looking things up -/

namespace DatasetD

def world? (D : DatasetD) : Option Name → Option WorldD
  | none => some D.phenomena
  | some u => D.universes u

def phenomenon? (D : DatasetD) (a : PhenomenonAddr) : Option PhenomenonD := (D.world? a.world).bind fun W => W a.name

def set? (D : DatasetD) (s : SetAddr) : Option SetD := (D.phenomenon? s.phenomenon).bind fun P => P.sets s.coll s.name

def property? (D : DatasetD) (p : PropertyAddr) : Option PropertyD := (D.set? p.set).bind fun S => S.properties p.kind p.name

end DatasetD

/-! ## Sharing -/

/-- Whose tracker is used by a property-set: `some none` if it has its own, `some (some t)` if it has been created with the one of `t` -/
def DatasetD.trackerFrom (D : DatasetD) (s : SetAddr) : Option (Option SetAddr) :=
  (D.set? s).map fun S => match S.tracker with | .own => none | .shared t => some t

/-- Whose time domain is used by a property-set. `none` if it doesn't have a time domain. -/
def DatasetD.timeFrom (D : DatasetD) (s : SetAddr) : Option (Option SetAddr) :=
  (D.set? s).bind fun S => match S.time with | .absent => none | .own _ _ => some none | .shared t => some (some t)

/-- The property-set that owns what is used by `s`, which must be found by going from property-set to property-set at most `n` times -/
def owner (shares : SetAddr → Option (Option SetAddr)) : Nat → SetAddr → Option SetAddr
  | 0, s => (shares s).bind fun x => match x with | none => some s | some _ => none
  | n + 1, s => (shares s).bind fun x => match x with | none => some s | some t => owner shares n t

/-- The property-set whose time domain is used, and the configuration and the clock of it -/
def DatasetD.timeDomain? (D : DatasetD) (s : SetAddr) : Option (SetAddr × TimeItem × Clock) :=
  (owner D.timeFrom maxLinks s).bind fun o =>
    (D.set? o).bind fun S => match S.time with | .own i c => some (o, i, c) | _ => none

/-! ## Changing things -/

/-- Put an item in a collection. -/
def upd {α : Type} (c : Name → Option α) (n : Name) (a : α) : Name → Option α := fun m => if m = n then some a else c m

namespace DatasetD

def setWorld (D : DatasetD) : Option Name → WorldD → DatasetD
  | none, W => { D with phenomena := W }
  | some u, W => { D with universes := upd D.universes u W }

def setPhenomenon (D : DatasetD) (a : PhenomenonAddr) (P : PhenomenonD) : DatasetD :=
  match D.world? a.world with
  | some W => D.setWorld a.world (upd W a.name P)
  | none => D

def setSet (D : DatasetD) (s : SetAddr) (S : SetD) : DatasetD :=
  match D.phenomenon? s.phenomenon with
  | some P => D.setPhenomenon s.phenomenon { P with sets := fun c => if c = s.coll then upd (P.sets c) s.name S else P.sets c }
  | none => D

def setProperty (D : DatasetD) (p : PropertyAddr) (x : PropertyD) : DatasetD :=
  match D.set? p.set with
  | some S =>
    D.setSet p.set { S with properties := fun k => if k = p.kind then upd (S.properties k) p.name x else S.properties k }
  | none => D

end DatasetD

namespace SetArgs

def tracker : SetArgs → TrackerD
  | .timeTracker _ _ o => .shared o
  | .sharedTimeTracker _ o => .shared o
  | .sharedTimeTrackerSpace _ o _ _ => .shared o
  | _ => .own

def timeD : SetArgs → TimeD
  | .plain => .absent
  | .space _ _ => .absent
  | .time t c => .own t c
  | .sharedTime t => .shared t
  | .timeTracker t c _ => .own t c
  | .sharedTimeTracker t _ => .shared t
  | .timeSpace t c _ _ => .own t c
  | .sharedTimeSpace t _ _ => .shared t
  | .sharedTimeTrackerSpace t _ _ _ => .shared t

def spaceD : SetArgs → Option SpaceD
  | .space m i => some ⟨m, i, none⟩
  | .timeSpace _ _ m i => some ⟨m, i, none⟩
  | .sharedTimeSpace _ m i => some ⟨m, i, none⟩
  | .sharedTimeTrackerSpace _ _ m i => some ⟨m, i, none⟩
  | _ => none

/-- A new property-set -/
def describe (a : SetArgs) : SetD := ⟨a.tracker, a.timeD, a.spaceD, fun _ _ => none⟩

end SetArgs

/-- The origin of the epoch, if there is one, is not the empty string. -/
def Epoch.Nonempty : Epoch → Prop
  | .kind _ => True
  | .origin _ o => o ≠ ""
  | .calendar _ o _ => o ≠ ""

instance (e : Epoch) : Decidable e.Nonempty := by cases e <;> unfold Epoch.Nonempty <;> infer_instance

/-- What is shared exists, and is found by going from property-set to property-set at most `n` times. -/
def SetArgs.Sources (a : SetArgs) (D : DatasetD) (n : Nat) : Prop :=
  (∀ t, a.timeD = .shared t → (owner D.timeFrom n t).isSome) ∧
  (∀ t, a.tracker = .shared t → (owner D.trackerFrom n t).isSome)

/-- The clock of a new time domain can be stored. -/
def SetArgs.Storable (a : SetArgs) : Prop := ∀ i c, a.timeD = .own i c → c.epoch.Nonempty

/-- The user may perform the operation: what is referred to exists, what is added doesn't exist yet. -/
def Allowed (D : DatasetD) : Op → Prop
  | .addUniverse u => D.universes u = none
  | .addPhenomenon a _ => (D.world? a.world).isSome ∧ D.phenomenon? a = none
  | .addSet s a => (D.phenomenon? s.phenomenon).isSome ∧ D.set? s = none ∧ a.Sources D maxLinks
  | .addProperty p _ => (D.set? p.set).isSome ∧ ∀ k, D.property? ⟨p.set, k, p.name⟩ = none
  | .discretizeTime p _ q => (∃ x, D.property? p = some x ∧ x.timeDisc = none) ∧ (D.property? q).isSome
  | .discretizeSpace p _ q => (∃ x, D.property? p = some x ∧ x.spaceDisc = none) ∧ (D.property? q).isSome
  | .discretizePresence s q =>
    (∃ S x, D.set? s = some S ∧ S.space = some x ∧ x.presence = none) ∧ (D.property? q).isSome

/-- The operation doesn't run into the limitations of the storage. -/
def Storable (D : DatasetD) : Op → Prop
  | .addSet _ a => a.Sources D (maxLinks - 1) ∧ a.Storable
  | _ => True

/-- How the operation changes the description -/
def apply (D : DatasetD) : Op → DatasetD
  | .addUniverse u => { D with universes := upd D.universes u fun _ => none }
  | .addPhenomenon a d => D.setPhenomenon a ⟨d, fun _ _ => none⟩
  | .addSet s a => D.setSet s a.describe
  | .addProperty p d => D.setProperty p ⟨d, none, none⟩
  | .discretizeTime p t q =>
    match D.property? p with
    | some x => D.setProperty p { x with timeDisc := some (t, q) }
    | none => D
  | .discretizeSpace p t q =>
    match D.property? p with
    | some x => D.setProperty p { x with spaceDisc := some (t, q) }
    | none => D
  | .discretizePresence s q =>
    match D.set? s with
    | some S => D.setSet s { S with space := S.space.map fun x => { x with presence := some q } }
    | none => D

/-- A new dataset -/
def DatasetD.new (version description : String) : DatasetD := ⟨version, description, fun _ => none, fun _ => none⟩

/-! ## What one sees -/

/-- The items are those in the collection: same names, no name twice, and items with the same name correspond. -/
def ShowsItems {α β : Type} (R : Name → α → β → Prop) (l : List (Name × α)) (c : Name → Option β) : Prop :=
  (l.map Prod.fst).Nodup ∧ (∀ n a, (n, a) ∈ l → ∃ b, c n = some b ∧ R n a b) ∧ (∀ n b, c n = some b → ∃ a, (n, a) ∈ l)

def ShowsProperty (p : PropertyAddr) (v : PropertyView) (x : PropertyD) : Prop :=
  v.path = propertyPath p ∧ v.description = x.description ∧ v.timeDiscretized = x.timeDisc.isSome ∧
    v.spaceDiscretized = x.spaceDisc.isSome

/-- The time domain that is shown is the one of the property-set that owns it. -/
def ShowsTime (D : DatasetD) (s : SetAddr) : Option TimeView → TimeD → Prop
  | none, .absent => True
  | some v, .own i c => v = ⟨timePath s, true, i, c⟩
  | some v, .shared _ => ∃ o i c, D.timeDomain? s = some (o, i, c) ∧ v = ⟨timePath o, false, i, c⟩
  | _, _ => False

def ShowsTracker (D : DatasetD) (s : SetAddr) (location : Path) (owned : Bool) : TrackerD → Prop
  | .own => location = trackerPath s ∧ owned = true
  | .shared _ => (∃ o, owner D.trackerFrom maxLinks s = some o ∧ location = trackerPath o) ∧ owned = false

def ShowsSet (D : DatasetD) (s : SetAddr) (v : SetView) (S : SetD) : Prop :=
  ShowsTracker D s v.tracker v.ownsTracker S.tracker ∧
  ShowsTime D s v.time S.time ∧
  v.space = S.space.map (fun x => ⟨x.mobility, x.item, x.presence.isSome⟩) ∧
  ∀ k, ShowsItems (fun n => ShowsProperty ⟨s, k, n⟩) (v.properties.get k) (S.properties k)

def ShowsPhenomenon (D : DatasetD) (a : PhenomenonAddr) (v : PhenomenonView) (P : PhenomenonD) : Prop :=
  v.description = P.description ∧ ∀ c, ShowsItems (fun n => ShowsSet D ⟨a, c, n⟩) (v.sets c) (P.sets c)

def ShowsWorld (D : DatasetD) (w : Option Name) (v : WorldView) (W : WorldD) : Prop :=
  ShowsItems (fun n => ShowsPhenomenon D ⟨w, n⟩) v W

/-- The opened dataset corresponds with the description. -/
def Shows (D : DatasetD) (v : DatasetView) : Prop :=
  v.version = D.version ∧ v.description = D.description ∧
  ShowsWorld D none v.phenomena D.phenomena ∧
  ShowsItems (fun u => ShowsWorld D (some u)) v.universes D.universes

/-! ## Histories -/

/-- Performing operations one after the other. Failing operations are ignored by the user. Whether each one succeeded, and the file -/
def history (f : File) : List Op → List Bool × File
  | [] => ([], f)
  | op :: ops =>
    let r := perform f op
    let h := history r.2 ops
    (r.1 :: h.1, h.2)

open Classical in
/-- What the operations should do: those that are allowed succeed, others are refused and have no effect. -/
noncomputable def outcome (D : DatasetD) : List Op → List Bool × DatasetD
  | [] => ([], D)
  | op :: ops =>
    if Allowed D op then (true :: (outcome (apply D op) ops).1, (outcome (apply D op) ops).2)
    else (false :: (outcome D ops).1, (outcome D ops).2)

open Classical in
/-- None of the operations that are allowed runs into the limitations of the storage. -/
def AllStorable (D : DatasetD) : List Op → Prop
  | [] => True
  | op :: ops => if Allowed D op then Storable D op ∧ AllStorable (apply D op) ops else AllStorable D ops

end Lue.Structure

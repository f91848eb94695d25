import Verif.Structure.Broken

/-!
# Examples: a dataset with shared domains and discretized properties, and ones that can't be opened
-/
namespace Lue.Structure.Examples

def areas : PhenomenonAddr := ⟨none, "areas"⟩
def world : PhenomenonAddr := ⟨some "scenario", "areas"⟩
def elevation : SetAddr := ⟨areas, .objects, "elevation"⟩
def rain : SetAddr := ⟨world, .objects, "rain"⟩
def snow : SetAddr := ⟨world, .collection, "snow"⟩
def dem : PropertyAddr := ⟨elevation, .different, "dem"⟩
def shape : PropertyAddr := ⟨elevation, .same, "shape"⟩
def amount : PropertyAddr := ⟨rain, .sameConstant, "amount"⟩
def clock : Clock := ⟨.calendar .commonEra "2019-01-01" .gregorian, .day, 2⟩

def ops : List Op :=
  [.addPhenomenon areas "all areas", .addUniverse "scenario", .addPhenomenon world "", .addPhenomenon areas "again",
   .addSet elevation (.timeSpace .box clock .stationary .box), .addSet rain (.sharedTimeTracker elevation elevation),
   .addSet snow (.sharedTimeTrackerSpace rain rain .mobile .point), .addSet elevation .plain,
   .addProperty dem "height", .addProperty shape "", .addProperty ⟨elevation, .sameVariable, "dem"⟩ "",
   .addProperty amount "mm",
   .discretizeSpace dem .regularGrid shape, .discretizeTime amount .regularGrid shape, .discretizeTime amount .regularGrid dem,
   .discretizePresence snow shape, .discretizePresence rain shape]

def file : File := (history (createDataset "0.4" "test").2 ops).2

/-- Whether the operations succeed -/
example : (history (createDataset "0.4" "test").2 ops).1 =
    [true, true, true, false, true, true, true, false, true, true, false, true, true, true, false, true, false] := by decide +kernel

def setOf (c : Coll) (n : Name) : Option SetView := do
  let v ← openDataset file
  let w ← v.universes.lookup "scenario"
  let p ← w.lookup "areas"
  (p.sets c).lookup n

/-- `snow` uses the time domain of `elevation`, through the one of `rain`. -/
example : (setOf .collection "snow").bind (·.time) = some ⟨timePath elevation, false, .box, clock⟩ := by decide +kernel

example : (setOf .collection "snow").map (·.tracker) = some (trackerPath elevation) := by decide +kernel

example : (setOf .collection "snow").bind (·.space) = some ⟨.mobile, .point, true⟩ := by decide +kernel

example : (setOf .objects "rain").map (fun s => s.properties.get .sameConstant) =
    some [("amount", ⟨propertyPath amount, "mm", true, false⟩)] := by decide +kernel

example : spaceDiscretization file (propertyPath dem) = some (.regularGrid, propertyPath shape, "") := by decide +kernel

example : timeDiscretization file (propertyPath amount) = some (.regularGrid, propertyPath shape, "") := by decide +kernel

example : presenceDiscretization file (setPath snow) = some (propertyPath shape, "") := by decide +kernel

/-! ## The hypotheses of the theorems can be met -/

/-- A property-set doesn't share anything, and its epoch has an origin that isn't empty. -/
def Simple : Op → Prop
  | .addSet _ a => (∀ t, a.timeD ≠ .shared t) ∧ (∀ t, a.tracker ≠ .shared t) ∧ a.Storable
  | _ => True

/-- Operations without property-sets that share something can always be stored. -/
theorem allStorable_simple (ops : List Op) (h : ∀ op ∈ ops, Simple op) (D : DatasetD) : AllStorable D ops := by
  induction ops generalizing D with
  | nil => trivial
  | cons op ops ih =>
    have hrest := fun D => ih (fun o ho => h o (List.mem_cons_of_mem _ ho)) D
    unfold AllStorable
    split
    · refine ⟨?_, hrest _⟩
      have := h op (List.mem_cons_self ..)
      cases op with
      | addSet s a => exact ⟨⟨fun t ht => absurd ht (this.1 t), fun t ht => absurd ht (this.2.1 t)⟩, this.2.2⟩
      | _ => trivial
    · exact hrest _

def simple : List Op :=
  [.addPhenomenon areas "all areas", .addSet elevation (.timeSpace .box clock .stationary .box), .addProperty dem "height",
   .addProperty shape "", .discretizeSpace dem .regularGrid shape, .addPhenomenon areas ""]

example : ∃ f D, After "0.4" "test" simple f D :=
  ⟨_, _, allStorable_simple simple (by
      intro op hop
      simp only [simple, List.mem_cons, List.not_mem_nil, or_false] at hop
      rcases hop with rfl | rfl | rfl | rfl | rfl | rfl <;> try trivial
      refine ⟨(by intro t h; cases h), (by intro t h; cases h), ?_⟩
      intro i c h
      cases h
      show "2019-01-01" ≠ ""
      decide) _, by decide,
    (createDataset_rep "0.4" "test" (by decide)).elim fun f0 h => ⟨f0, h.1, by
      rw [show f0 = (createDataset "0.4" "test").2 by rw [h.1]]⟩, rfl⟩

/-- Sharing something of a property-set that owns it can be stored. -/
theorem storable_shared (D : DatasetD) (s t : SetAddr) (ht : D.timeFrom t = some none) : Storable D (.addSet s (.sharedTime t)) := by
  refine ⟨⟨fun t' h => ?_, fun t' h => by cases h⟩, fun i c h => by cases h⟩
  cases h
  rw [owner_own ht]; rfl

/-! ## Datasets that can't be opened anymore -/

/-- An epoch with an empty origin -/
example : (history (createDataset "0.4" "").2 [.addPhenomenon areas "", .addSet elevation (.time .box ⟨.origin .commonEra "", .day, 1⟩)]).1
    = [true, false] := by decide +kernel

example : (openDataset (history (createDataset "0.4" "").2
    [.addPhenomenon areas "", .addSet elevation (.time .box ⟨.origin .commonEra "", .day, 1⟩)]).2).isNone = true := by decide +kernel

/-- Property-sets, each one sharing the time domain of the previous one -/
def chain (n : Nat) : List Op :=
  [.addPhenomenon areas "", .addSet ⟨areas, .objects, "0"⟩ (.time .box clock)] ++
    (List.range n).map fun k => .addSet ⟨areas, .objects, toString (k + 1)⟩ (.sharedTime ⟨areas, .objects, toString k⟩)

/-- Whether the last operation succeeds, and whether the dataset can be opened -/
def opens (f : List Bool × File) : Option Bool × Bool := (f.1.getLast?, (openDataset f.2).isSome)

/-- With 17 of them the dataset can't be opened anymore. -/
example : opens (history (createDataset "0.4" "").2 (chain 17)) = (some false, false) := by decide +kernel

end Lue.Structure.Examples

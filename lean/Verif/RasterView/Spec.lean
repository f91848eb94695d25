import Verif.RasterView.Model

/-!
# Raster views: specification

A dataset is a collection of rasters, each identified by the names of a phenomenon and a property set, with named layers.
Views know some of the layers: those that were there when the view was opened, and those added with the view.
-/
namespace Lue.RasterView

open Lue.DataModel Lue.LueIO

/-- A raster. `time`: period and number of steps, if the raster is variable. `layers`: the arrays, with by name, of the
constant and of the variable layers. `reserved`: names of other properties, which can't be used for layers. -/
structure Raster (α β τ : Type) where
  box : β
  grid : Nat × Nat
  time : Option (τ × Nat)
  layers : Kind → AMap Name (Dataset α)
  reserved : Kind → List Name

/-- The rasters in a dataset, and the IDs of the objects of each phenomenon. -/
structure Rasters (α β τ : Type) where
  ids : Items (List Nat)
  raster : Name → Name → Option (Raster α β τ)

/-- A dataset without phenomena -/
def Rasters.empty {α β τ : Type} : Rasters α β τ := ⟨fun _ => none, fun _ _ => none⟩

/-- A raster is added or changed. -/
def Rasters.set {α β τ : Type} (a : Rasters α β τ) (p s : Name) (r : Raster α β τ) : Rasters α β τ :=
  { a with raster := fun p' s' => if p' = p ∧ s' = s then some r else a.raster p' s' }

/-- The array of a layer is added or changed. -/
def Raster.put {α β τ : Type} (r : Raster α β τ) (k : Kind) (n : Name) (x : Dataset α) : Raster α β τ :=
  { r with layers := fun k' => if k' = k then (r.layers k').put n x else r.layers k' }

/-- Opening a view. -/
def Rasters.view {α β τ : Type} (a : Rasters α β τ) (kind : Kind) (p s : Name) : Option (View β τ) := do
  let r ← a.raster p s
  let ids ← a.ids p
  let id ← ids.head?
  match kind with
  | .constant => some ⟨.constant, p, s, id, r.box, [r.grid.1, r.grid.2], none, names (r.layers .constant)⟩
  | .varying => do
    let t ← r.time
    some ⟨.varying, p, s, id, r.box, [r.grid.1, r.grid.2], some t, names (r.layers .varying)⟩

/-- The IDs of the objects once a raster has been created: an object is added if there are none. -/
def idsWith (ids : Option (List Nat)) : List Nat :=
  match ids with
  | some (i :: is) => i :: is
  | _ => [5]

/-- Creating a raster. -/
def Rasters.create {α β τ : Type} (a : Rasters α β τ) (p s : Name) (grid : Nat × Nat) (box : β) (time : Option (τ × Nat)) :
    Option (View β τ) × Rasters α β τ :=
  let a := { a with ids := insert a.ids p (idsWith (a.ids p)) }
  match a.raster p s with
  | some _ => (none, a)
  | none =>
    let a := a.set p s ⟨box, grid, time, fun _ => [], fun _ => []⟩
    (a.view (if time.isSome then .varying else .constant) p s, a)

/-- The array of a new layer: the same value in all cells. There is a dimension for the (single) location in time and for
the time steps if the layer is variable. -/
def Raster.newLayer {α β τ : Type} (r : Raster α β τ) (zero : α) (noData : Option α) : Kind → Dataset α
  | .constant => ⟨⟨[r.grid.1, r.grid.2], fun _ => noData.getD zero⟩, noData.getD zero⟩
  | .varying => ⟨⟨[1, r.time.elim 0 Prod.snd, r.grid.1, r.grid.2], fun _ => zero⟩, zero⟩

/-- Adding a layer. It fails if the name is in use. -/
def Rasters.addLayer {α β τ : Type} (a : Rasters α β τ) (zero : α) (v : View β τ) (n : Name) (noData : Option α) :
    Option (View β τ × Rasters α β τ) := do
  let r ← a.raster v.phenomenon v.propertySet
  if n ∈ v.layers ∨ ((r.layers v.kind).get n).isSome ∨ n ∈ r.reserved v.kind then none
  else
    some ({ v with layers := v.layers ++ [n] },
      a.set v.phenomenon v.propertySet (r.put v.kind n (r.newLayer zero noData v.kind)))

/-- The array of a layer known by a view. -/
def Rasters.layer {α β τ : Type} (a : Rasters α β τ) (v : View β τ) (n : Name) : Option (Dataset α) :=
  if n ∈ v.layers then (a.raster v.phenomenon v.propertySet).bind fun r => (r.layers v.kind).get n else none

/-- Writing (part of) a layer. -/
def Rasters.write {α β τ : Type} (a : Rasters α β τ) (v : View β τ) (n : Name) (h : Hyperslab) (buffer : List α) :
    Option (Rasters α β τ) := do
  let x ← a.layer v n
  let r ← a.raster v.phenomenon v.propertySet
  let x ← (writeHyperslab x h buffer).toOption
  some (a.set v.phenomenon v.propertySet (r.put v.kind n x))

/-- Adding a property that is not a layer. -/
def Rasters.reserve {α β τ : Type} (a : Rasters α β τ) (p s : Name) (k : Kind) (n : Name)
    (discr : Option (Bool × Name × Name)) : Option (Rasters α β τ) := do
  let r ← a.raster p s
  if ((r.layers k).get n).isSome ∨ n ∈ r.reserved k then none
  else if ∀ d ∈ discr, (a.raster d.2.1 d.2.2).isSome then
    some (a.set p s { r with reserved := fun k' => if k' = k then n :: r.reserved k' else r.reserved k' })
  else none

/-- Whether a property set is recognized as a raster: the phenomenon has a single object and, in case of constant rasters,
the raster has no time domain and no property has the name of the one with the number of time steps. -/
def Rasters.contains {α β τ : Type} (a : Rasters α β τ) (kind : Kind) (p s : Name) : Option Bool := do
  let r ← a.raster p s
  let ids ← a.ids p
  match kind with
  | .constant => some (decide (ids.length = 1) && (r.time.isNone &&
      [Kind.constant, Kind.varying].all fun k => ((r.layers k).get timeGrid).isNone && !(r.reserved k).contains timeGrid))
  | .varying => some (decide (ids.length = 1) && r.time.isSome)

/-! ### Histories -/

/-- What can be done with a dataset. Views are referred to by the order in which they were created or opened. -/
inductive Op (α β τ : Type) where
  | addPhenomenon (p : Name) (ids : List Nat)
  | addProperty (p s : Name) (k : Kind) (n : Name) (discr : Option (Bool × Name × Name))
  | create (p s : Name) (grid : Nat × Nat) (box : β) (time : Option (τ × Nat))
  | openView (k : Kind) (p s : Name)
  | contains (k : Kind) (p s : Name)
  | addLayer (v : Nat) (n : Name) (noData : Option α)
  | write (v : Nat) (n : Name) (h : Hyperslab) (buffer : List α)
  | read (v : Nat) (n : Name) (h : Hyperslab) (buffer : List α)
  /-- The dataset is closed and opened again: there are no views anymore. -/
  | reopen

/-- A property that is discretized by the grid of its own raster is a layer, and has to be added by `add_layer`. -/
def Op.Ok {α β τ : Type} : Op α β τ → Prop
  | .addProperty p s _ _ discr => discr ≠ some (true, p, s)
  | _ => True

/-- What is returned. -/
inductive Answer (α β τ : Type) where
  | done
  | view (v : View β τ)
  | data (xs : List α)
  | bool (b : Bool)

/-- One operation. `none`: an exception is thrown. -/
def step {α β τ : Type} (zero : α) (st : File α β τ × List (View β τ)) :
    Op α β τ → Option (Answer α β τ) × (File α β τ × List (View β τ))
  | .addPhenomenon p ids =>
    match addPhenomenon st.1 p ids with
    | .ok d => (some .done, (d, st.2))
    | .error _ => (none, st)
  | .addProperty p s k n discr =>
    match addProperty st.1 p s k n discr with
    | .ok d => (some .done, (d, st.2))
    | .error _ => (none, st)
  | .create p s grid box time =>
    match (match time with
      | none => createConstant st.1 p s grid box
      | some (t, nr) => createVariable st.1 p s nr t grid box) with
    | (.ok v, d) => (some (.view v), (d, st.2 ++ [v]))
    | (.error _, d) => (none, (d, st.2))
  | .openView k p s =>
    match openView st.1 k p s with
    | .ok v => (some (.view v), (st.1, st.2 ++ [v]))
    | .error _ => (none, st)
  | .contains k p s =>
    match containsRaster st.1 k p s with
    | .ok b => (some (.bool b), st)
    | .error _ => (none, st)
  | .addLayer v n noData =>
    match st.2[v]? with
    | none => (none, st)
    | some view =>
      match addLayer zero st.1 view n noData with
      | .ok (view, d) => (some (.view view), (d, st.2.set v view))
      | .error _ => (none, st)
  | .write v n h buffer =>
    match st.2[v]? with
    | none => (none, st)
    | some view =>
      match writeLayer st.1 view n h buffer with
      | .ok d => (some .done, (d, st.2))
      | .error _ => (none, st)
  | .read v n h buffer =>
    match st.2[v]? with
    | none => (none, st)
    | some view =>
      match readLayer st.1 view n h buffer with
      | .ok xs => (some (.data xs), st)
      | .error _ => (none, st)
  | .reopen => (some .done, (st.1, []))

/-- What one operation should do. -/
def expected {α β τ : Type} (zero : α) (st : Rasters α β τ × List (View β τ)) :
    Op α β τ → Option (Answer α β τ) × (Rasters α β τ × List (View β τ))
  | .addPhenomenon p ids =>
    match st.1.ids p with
    | none => (some .done, ({ st.1 with ids := insert st.1.ids p ids }, st.2))
    | some _ => (none, st)
  | .addProperty p s k n discr =>
    match st.1.reserve p s k n discr with
    | some a => (some .done, (a, st.2))
    | none => (none, st)
  | .create p s grid box time =>
    match st.1.create p s grid box time with
    | (some v, a) => (some (.view v), (a, st.2 ++ [v]))
    | (none, a) => (none, (a, st.2))
  | .openView k p s =>
    match st.1.view k p s with
    | some v => (some (.view v), (st.1, st.2 ++ [v]))
    | none => (none, st)
  | .contains k p s =>
    match st.1.contains k p s with
    | some b => (some (.bool b), st)
    | none => (none, st)
  | .addLayer v n noData =>
    match st.2[v]? with
    | none => (none, st)
    | some view =>
      match st.1.addLayer zero view n noData with
      | some (view, a) => (some (.view view), (a, st.2.set v view))
      | none => (none, st)
  | .write v n h buffer =>
    match st.2[v]? with
    | none => (none, st)
    | some view =>
      match st.1.write view n h buffer with
      | some a => (some .done, (a, st.2))
      | none => (none, st)
  | .read v n h buffer =>
    match st.2[v]? with
    | none => (none, st)
    | some view =>
      match (st.1.layer view n).bind fun x => (readHyperslab x h buffer).toOption with
      | some xs => (some (.data xs), st)
      | none => (none, st)
  | .reopen => (some .done, (st.1, []))

/-- A sequence of operations: all that is returned, and the final state. -/
def runAll {σ ω ρ : Type} (f : σ → ω → ρ × σ) : σ → List ω → List ρ × σ
  | st, [] => ([], st)
  | st, o :: os => ((f st o).1 :: (runAll f (f st o).2 os).1, (runAll f (f st o).2 os).2)

/-- A new dataset -/
def newFile {α β τ : Type} : File α β τ := ⟨fun _ => none⟩

end Lue.RasterView

import Verif.GdalBlocks.Model
import Verif.RasterView.Model
import Mathlib.Algebra.Order.Field.Basic

/-!
# Model of translating rasters between GDAL and LUE formats

Models `source/data_model/translate/source/format/gdal.cpp` (`T` below): importing GDAL rasters in a LUE dataset and
exporting a raster from a LUE dataset. Uses the models of blocks (C50) and raster views (C49).

Simplifications: metadata files are left out: the names of phenomenon, property set and layers are passed in. Element types
are left out: all elements are of type `α`. No-data values are only passed to new layers. Coordinates are elements of a
linearly ordered field `κ`, not floating point numbers.
-/
namespace Lue.Translate

open Lue Lue.DataModel Lue.LueIO Lue.RasterView Lue.GdalBlocks

/-- The box in space of a raster -/
structure Box (κ : Type) where
  west : κ
  south : κ
  east : κ
  north : κ
  deriving DecidableEq, Repr

/-- The transformation of a raster oriented to the north: source/data_model/gdal/source/dataset.cpp:317-325 -/
structure GeoTransform (κ : Type) where
  west : κ
  cellWidth : κ
  rowRotation : κ
  north : κ
  colRotation : κ
  cellHeight : κ
  deriving DecidableEq, Repr

/-- `blocks`: T:11-33. Blocks are 10 times as large as those of the band, if possible. The shapes have the column dimension
first. -/
def enlargedBlocks {α : Type} (b : Band α) : Blocks :=
  Blocks.make (b.cols, b.rows) (min (10 * b.blockCols) b.cols, min (10 * b.blockRows) b.rows)

/-- The hyperslab corresponding with a block: T:302-312, T:885-895. Negative counts are converted to very large ones, which
are rejected. -/
def blockSlab (blocks : Blocks) (y x : Nat) : M Hyperslab :=
  let valid := blocks.shapeInValidCells (x, y)
  if valid.1 < 0 ∨ valid.2 < 0 then .error .thrown
  else .ok (.ofCount [y * blocks.blockShape.1, x * blocks.blockShape.2] [valid.2.toNat, valid.1.toNat])

/-! ### Importing -/

/-- The body of the loop over blocks: T:885-903 -/
def importBlock {α β τ : Type} (v : View β τ) (name : Name) (b : Band α) (blocks : Blocks)
    (st : File α β τ × List α) (o : Nat × Nat) : M (File α β τ × List α) := do
  let values ← readBlock b o.1 o.2 st.2
  let slab ← blockSlab blocks o.1 o.2
  let d ← writeLayer st.1 v name slab values
  .ok (d, values)

/-- `gdal_to_lue`: T:862-906. The view and the file that result. -/
def importBand {α β τ : Type} (zero : α) (d : File α β τ) (v : View β τ) (name : Name) (b : Band α) :
    M (View β τ × File α β τ) := do
  let r ← addLayer zero d v name (if b.noDataValid then some b.noDataValue else none)
  let blocks := enlargedBlocks b
  let st ← (blockOffsets blocks.shapeInBlocks).foldlM (importBlock r.1 name b blocks)
    (r.2, List.replicate (blocks.blockShape.1 * blocks.blockShape.2) zero)
  .ok (r.1, st.1)

/-- The loop over the bands: T:1066-1077 -/
def importBands {α β τ : Type} (zero : α) : File α β τ → View β τ → List Name → List (Band α) → M (File α β τ)
  | d, _, [], _ => .ok d
  | _, _, _ :: _, [] => .error .thrown
  | d, v, n :: ns, b :: bs => do
    let r ← importBand zero d v n b
    importBands zero r.2 r.1 ns bs

section Geo

variable {κ : Type} [Field κ] [LinearOrder κ]

/-- A GDAL raster: the transformation which is stored, and its bands -/
abbrev GdalRaster (α κ : Type) := GdalBlocks.Raster α (GeoTransform κ)

/-- `geo_transform`: source/data_model/gdal/source/dataset.cpp:15-24, 326-342 -/
def geoTransform {α : Type} (r : GdalRaster α κ) : M (GeoTransform κ) :=
  match r.geo with
  | none => .error .thrown
  | some g =>
    if ¬ (g.rowRotation = 0 ∧ g.colRotation = 0 ∧ g.cellHeight < 0) then .error .thrown
    else if g.cellWidth ≠ |g.cellHeight| then .error .thrown
    else .ok g

/-- The box in space of a raster: T:1030-1044 -/
def spaceBox (rows cols : Nat) (g : GeoTransform κ) : Box κ :=
  ⟨g.west, g.north - rows * |g.cellHeight|, g.west + cols * g.cellWidth, g.north⟩

/-- Whether the raster is part of the dataset: T:1046-1051 -/
def containsConstantRaster {α β τ : Type} (d : File α β τ) (phenomenon propertySet : Name) : M Bool :=
  match d.phenomena phenomenon with
  | none => .ok false
  | some p =>
    match p.propertySets propertySet with
    | none => .ok false
    | some _ => containsRaster d .constant phenomenon propertySet

/-- Creating or opening the raster: T:1053-1057 -/
def createOrOpen {α τ : Type} (d : File α (Box κ) τ) (phenomenon propertySet : Name) (r : GdalRaster α κ)
    (g : GeoTransform κ) (found : Bool) : M (View (Box κ) τ × File α (Box κ) τ) :=
  if found then do
    let v ← openView d .constant phenomenon propertySet
    .ok (v, d)
  else
    match createConstant d phenomenon propertySet (r.rows, r.cols) (spaceBox r.rows r.cols g) with
    | (.ok v, d) => .ok (v, d)
    | (.error e, _) => .error e

/-- Importing a raster: T:1015-1078. `names`: the names of the layers. -/
def importRaster {α τ : Type} (zero : α) (d : File α (Box κ) τ) (phenomenon propertySet : Name) (names : List Name)
    (r : GdalRaster α κ) : M (File α (Box κ) τ) := do
  let g ← geoTransform r
  let found ← containsConstantRaster d phenomenon propertySet
  let st ← createOrOpen d phenomenon propertySet r g found
  importBands zero st.2 st.1 names r.bands

/-! ### Exporting -/

/-- `write_block`: source/data_model/gdal/source/raster_band.cpp:45-54. GDAL fails if there is no such block. -/
def writeBlock {α : Type} (b : Band α) (y x : Nat) (buffer : List α) : M (Band α) :=
  if y * b.blockRows < b.rows ∧ x * b.blockCols < b.cols then
    if b.blockRows * b.blockCols ≤ buffer.length then
      .ok { b with cells := fun r c =>
        if r / b.blockRows = y ∧ c / b.blockCols = x then
          (buffer[r % b.blockRows * b.blockCols + c % b.blockCols]?).getD (b.cells r c)
        else b.cells r c }
    else .error .outOfBounds
  else .error .thrown

/-- The body of the loop over blocks: T:300-315 -/
def exportBlock {α : Type} (array : Dataset α) (blocks : Blocks) (st : Band α × List α) (o : Nat × Nat) :
    M (Band α × List α) := do
  let slab ← blockSlab blocks o.1 o.2
  let values ← readHyperslab array slab st.2
  let b ← writeBlock st.1 o.1 o.2 values
  .ok (b, values)

/-- `lue_to_gdal`: T:281-318 -/
def exportBand {α : Type} (zero : α) (array : Dataset α) (b : Band α) : M (Band α) := do
  let blocks := enlargedBlocks b
  let st ← (blockOffsets blocks.shapeInBlocks).foldlM (exportBlock array blocks)
    (b, List.replicate (blocks.blockShape.1 * blocks.blockShape.2) zero)
  .ok st.1

/-- The transformation of the exported raster: T:411-427 -/
def exportGeo (rows cols : Nat) (box : Box κ) : GeoTransform κ :=
  ⟨box.west, (box.east - box.west) / cols, 0, box.north, 0, -((box.north - box.south) / rows)⟩

/-- Rows and columns of the grid of a raster: T:36-42 -/
def gridShape {β τ : Type} (v : View β τ) : M (Nat × Nat) :=
  match v.grid with
  | [rows, cols] => .ok (rows, cols)
  | _ => .error .outOfBounds

/-- The band of a new GDAL raster. `blockShape`: the block shape picked by the driver, given the raster shape; `fill`: the
value in cells that aren't written. -/
def newBand {α : Type} (blockShape : Nat × Nat → Nat × Nat) (fill : α) (shape : Nat × Nat) : Band α :=
  ⟨shape.1, shape.2, (blockShape shape).1, (blockShape shape).2, 0, false, fill, fun _ _ => fill, fun _ _ _ => fill⟩

/-- Exporting a raster: T:372-552. Only the first layer is exported, also if there are more bands. -/
def exportRaster {α τ : Type} (zero : α) (d : File α (Box κ) τ) (phenomenon propertySet : Name) (names : List Name)
    (blockShape : Nat × Nat → Nat × Nat) (fill : α) : M (Option (GdalRaster α κ)) :=
  match names with
  | [] => .ok none
  | name :: rest => do
    let found ← containsRaster d .constant phenomenon propertySet
    if found then do
      let v ← openView d .constant phenomenon propertySet
      if v.layers.contains name then do
        let array ← layer d v name
        let shape ← gridShape v
        let band := newBand blockShape fill shape
        let band' ← exportBand zero array band
        .ok (some ⟨shape.1, shape.2, some (exportGeo shape.1 shape.2 v.box), band' :: List.replicate rest.length band⟩)
      else .error .thrown
    else .error .thrown

end Geo

end Lue.Translate

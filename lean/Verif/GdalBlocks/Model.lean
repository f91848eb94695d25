import Verif.Partitioned.Store

/-!
# Model of comparing GDAL rasters

Models `source/data_model/gdal/source/blocks.cpp` (`B` below), `source/data_model/gdal/source/raster_band.cpp`:15-54 and
`source/data_model/gdal/source/compare_rasters.cpp` (`C` below).

GDAL is modelled by what it does with blocks: a raster band is stored in blocks of a fixed shape, cells in a block are
stored row by row, and blocks at the right and bottom of the raster may contain elements that aren't cells (padding).
Accessing memory outside of a buffer is an error (`outOfBounds`). Assertions are left out.
-/
namespace Lue.GdalBlocks

open Lue

/-- A raster band: `GDALRasterBand`. `padding y x k`: element `k` of block `(y, x)`, if this isn't a cell. `noDataValue` is
what `GetNoDataValue` returns, also if there isn't a no-data value. -/
structure Band (α : Type) where
  rows : Nat
  cols : Nat
  blockRows : Nat
  blockCols : Nat
  dataType : Nat
  noDataValid : Bool
  noDataValue : α
  cells : Nat → Nat → α
  padding : Nat → Nat → Nat → α

/-- Element `k` of block `(y, x)` -/
def Band.element {α : Type} (b : Band α) (y x k : Nat) : α :=
  if y * b.blockRows + k / b.blockCols < b.rows ∧ x * b.blockCols + k % b.blockCols < b.cols then
    b.cells (y * b.blockRows + k / b.blockCols) (x * b.blockCols + k % b.blockCols)
  else b.padding y x k

/-- `read_block`: raster_band.cpp:33-42. GDAL fails if there is no such block. -/
def readBlock {α : Type} (b : Band α) (y x : Nat) (buffer : List α) : M (List α) :=
  if y * b.blockRows < b.rows ∧ x * b.blockCols < b.cols then
    if b.blockRows * b.blockCols ≤ buffer.length then
      .ok ((List.range (b.blockRows * b.blockCols)).map (b.element y x) ++ buffer.drop (b.blockRows * b.blockCols))
    else .error .outOfBounds
  else .error .thrown

/-! ### Blocks -/

/-- `Blocks`: B:34-53 -/
structure Blocks where
  rasterShape : Nat × Nat
  blockShape : Nat × Nat
  shapeInBlocks : Nat × Nat

/-- B:8-13 -/
def extentInBlocks (full block : Nat) : Nat := (full + block - 1) / block

/-- B:34-53 -/
def Blocks.make (raster block : Nat × Nat) : Blocks :=
  ⟨raster, block,
    (if block.1 > 0 then extentInBlocks raster.1 block.1 else 0, if block.2 > 0 then extentInBlocks raster.2 block.2 else 0)⟩

/-- `nr_valid_cells`: B:16-22. `Count` is a signed integer. -/
def nrValidCells (full block offset : Nat) : Int :=
  if (offset + 1) * block > full then (full : Int) - (offset * block : Nat) else block

/-- `shape_in_valid_cells`: B:91-96 -/
def Blocks.shapeInValidCells (b : Blocks) (offset : Nat × Nat) : Int × Int :=
  (nrValidCells b.rasterShape.1 b.blockShape.1 offset.1, nrValidCells b.rasterShape.2 b.blockShape.2 offset.2)

/-! ### Comparing -/

/-- Elements: `==` and `std::isnan`. -/
structure Elem (α : Type) where
  isFloat : Bool
  eq : α → α → Bool
  isNan : α → Bool

/-- The comparison of elements: C:29-58 -/
def Elem.equal {α : Type} (e : Elem α) (noDataValid : Bool) (noData : α) (x y : α) : Bool :=
  if e.isFloat then
    if noDataValid && e.isNan noData then (e.isNan x && e.isNan y) || e.eq x y else e.eq x y
  else e.eq x y

/-- `compare_elements`: C:21-61. The first `n` elements are compared; moving an iterator before the first or beyond the
last element is undefined behaviour. -/
def compareElements {α : Type} (eq : α → α → Bool) (xs ys : List α) (n : Int) : M Bool :=
  if n < 0 ∨ n > xs.length ∨ n > ys.length then .error .outOfBounds
  else .ok (((xs.take n.toNat).zip (ys.take n.toNat)).all fun p => eq p.1 p.2)

/-- The nested loop over blocks: C:76-94. Whether different values have been found. The offset passed to
`shape_in_valid_cells` has its coordinates swapped. -/
def compareBlocks {α : Type} (eq : α → α → Bool) (b1 b2 : Band α) (blocks : Blocks) :
    List (Nat × Nat) → List α → List α → M Bool
  | [], _, _ => .ok false
  | (y, x) :: rest, values1, values2 => do
    let valid := blocks.shapeInValidCells (x, y)
    let values1 ← readBlock b1 y x values1
    let values2 ← readBlock b2 y x values2
    let same ← compareElements eq values1 values2 (valid.1 * valid.2)
    if same then compareBlocks eq b1 b2 blocks rest values1 values2 else .ok true

/-- The order in which blocks are visited -/
def blockOffsets (shape : Nat × Nat) : List (Nat × Nat) :=
  (List.range shape.1).flatMap fun y => (List.range shape.2).map fun x => (y, x)

/-- `compare_values`: C:14-95. `zero`: the value with which buffers are initialised. -/
def compareValues {α : Type} (e : Elem α) (zero : α) (b1 b2 : Band α) (noDataValid : Bool) (noData : α) : M Bool :=
  let blocks := Blocks.make (b1.rows, b1.cols) (b1.blockRows, b1.blockCols)
  let buffer := List.replicate (b1.blockRows * b1.blockCols) zero
  compareBlocks (e.equal noDataValid noData) b1 b2 blocks (blockOffsets blocks.shapeInBlocks) buffer buffer

/-- Descriptions of differences -/
inductive Diff where
  | missing | shape | dataType | nrBands | geoTransform | noDataValidity | noDataValue | values | unsupported
  deriving DecidableEq, Repr

/-- Comparing no-data values: C:137-153 -/
def Elem.noDataEqual {α : Type} (e : Elem α) (x y : α) : Bool :=
  if e.isFloat then (e.isNan x && e.isNan y) || e.eq x y else e.eq x y

/-- A difference is added, if a condition holds. -/
def note (c : Bool) (d : Diff) : List Diff := if c then [d] else []

/-- `compare_raster_bands`: C:98-170. The differences found. -/
def compareBands {α : Type} (e : Elem α) (zero : α) (b1 b2 : Band α) : M (List Diff) := do
  let shapesEqual := (b1.rows, b1.cols) == (b2.rows, b2.cols)
  let typesEqual := b1.dataType == b2.dataType
  let bothValid := b1.noDataValid && b2.noDataValid
  let bothInvalid := !b1.noDataValid && !b2.noDataValid
  let valuesEqual := e.noDataEqual b1.noDataValue b2.noDataValue
  let settingsEqual := bothInvalid || valuesEqual
  let differences := note (!shapesEqual) .shape ++ note (!typesEqual) .dataType ++
    note (!(bothValid || bothInvalid)) .noDataValidity ++ note (bothValid && !valuesEqual) .noDataValue
  if shapesEqual && typesEqual && settingsEqual then do
    let different ← compareValues e zero b1 b2 bothValid b1.noDataValue
    .ok (differences ++ note different .values)
  else .ok differences

/-- A raster. `geo`: the geo-transform, if it isn't rejected (dataset.cpp:325-342). -/
structure Raster (α γ : Type) where
  rows : Nat
  cols : Nat
  geo : Option γ
  bands : List (Band α)

/-- `data_type`: dataset.cpp:278-283, the type of the first band. -/
def Raster.dataType {α γ : Type} (r : Raster α γ) : M Nat :=
  match r.bands with
  | b :: _ => .ok b.dataType
  | [] => .error .thrown

/-- `geo_transform` -/
def Raster.geoTransform {α γ : Type} (r : Raster α γ) : M γ :=
  match r.geo with
  | some g => .ok g
  | none => .error .thrown

/-- The loop over the bands: C:252-330. `supported`: whether the element type is one of the cases. -/
def compareAll {α : Type} (e : Elem α) (zero : α) (supported : Bool) : List (Band α × Band α) → M (List Diff)
  | [] => .ok []
  | (b1, b2) :: rest => do
    let ds ← if supported then compareBands e zero b1 b2 else .ok [.unsupported]
    let ds' ← compareAll e zero supported rest
    .ok (ds ++ ds')

/-- `compare_rasters`: C:184-335. `none`: there is no such raster. -/
def compareRasters {α γ : Type} [DecidableEq γ] (e : Elem α) (zero : α) (supported : Nat → Bool) :
    Option (Raster α γ) → Option (Raster α γ) → M (List Diff)
  | some r1, some r2 => do
    let shapesEqual := (r1.rows, r1.cols) == (r2.rows, r2.cols)
    let t1 ← r1.dataType
    let t2 ← r2.dataType
    let typesEqual := t1 == t2
    let nrBandsEqual := r1.bands.length == r2.bands.length
    let g1 ← r1.geoTransform
    let g2 ← r2.geoTransform
    let geoEqual := g1 == g2
    let differences := note (!shapesEqual) .shape ++ note (!typesEqual) .dataType ++ note (!nrBandsEqual) .nrBands ++
      note (!geoEqual) .geoTransform
    if shapesEqual && typesEqual && geoEqual && nrBandsEqual then do
      let ds ← compareAll e zero (supported t1) (r1.bands.zip r2.bands)
      .ok (differences ++ ds)
    else .ok differences
  | _, _ => .ok [.missing]

end Lue.GdalBlocks

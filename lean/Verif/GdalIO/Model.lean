import Verif.Create.Properties
import Verif.Partitioned.Loops

/-!
# Model of reading and writing rasters: `from_gdal`, `to_gdal`

Models `source/framework/io/source/gdal.cpp.in` (`G` below), `source/data_model/gdal/source/raster_band.cpp` and
`source/framework/core/include/lue/framework/core/hyperslab.hpp`.

Simplifications: of a raster, only its shape, no-data value, cells and geo-transform are modelled; values in the raster
are those obtained after conversion, by GDAL, to the element type of the array; GDAL's `RasterIO` is modelled by what it
does with a rectangle of cells. Failing assertions are exceptions.
-/
namespace Lue.GdalIO

open Lue.Create

/-- What matters of an element type: `std::is_floating_point_v`, `std::isnan`, comparison for equality, and LUE's default
no-data value for the type (the value written by `DefaultOutputNoDataPolicy`). -/
structure ElementType (α : Type) where
  floating : Bool
  isNaN : α → Bool
  eq : α → α → Bool
  noData : α

/-- A raster: shape (rows, columns), no-data value of the band, if set, cells, and geo-transform. -/
structure Raster (α γ : Type) where
  rows : Nat
  cols : Nat
  noData : Option α
  cells : Nat → Nat → α
  geo : Option γ

/-! ### Hyperslab -/

/-- `hyperslab.hpp:38-45`: number of cells in front of the center cell -/
def halfCount (count : Nat) : Nat := (if count % 2 = 1 then count - 1 else count) / 2

/-- `Hyperslab`: offsets and counts; strides are always 1. `hyperslab.hpp:104-112` -/
structure Hyperslab where
  offsets : Nat × Nat
  counts : Nat × Nat
  deriving DecidableEq, Repr

/-- `Hyperslab(center, shape)`: `hyperslab.hpp:29-66`. Simplification: the shape is not negative. -/
def Hyperslab.make (center : Int × Int) (shape : Nat × Nat) : M Hyperslab :=
  let half := (halfCount shape.1, halfCount shape.2)
  if center.1 ≥ half.1 ∧ center.2 ≥ half.2 then
    .ok ⟨((center.1 - half.1).toNat, (center.2 - half.2).toNat), shape⟩
  else .error .thrown

/-- `is_contained_by`: `hyperslab.hpp:91-102` -/
def Hyperslab.isContainedBy (h : Hyperslab) (shape : Nat × Nat) : Bool :=
  decide ((h.offsets.1 : Int) + h.counts.1 - 1 < shape.1) && decide ((h.offsets.2 : Int) + h.counts.2 - 1 < shape.2)

/-- `verify_compatibility`: G:82-95 -/
def verifyCompatibility (shape : Nat × Nat) (h : Hyperslab) : M Unit :=
  if h.isContainedBy shape then .ok () else .error .thrown

/-! ### GDAL -/

/-- `static_cast<int>`: conversion to a 32 bit signed integer, which is what GDAL uses for counts and offsets -/
def toInt (n : Nat) : Int :=
  if n % 4294967296 < 2147483648 then ↑(n % 4294967296) else ↑(n % 4294967296) - 4294967296

/-- GDAL: whether a rectangle is within a raster. If not, `RasterIO` fails. -/
def withinRaster (rows cols : Nat) (o0 o1 s0 s1 : Int) : Bool :=
  decide (0 ≤ o0) && decide (0 ≤ o1) && decide (o0 + s0 ≤ rows) && decide (o1 + s1 ≤ cols)

/-- `gdal::read`: `raster_band.cpp:55-84`. The rectangle is read into the buffer, row by row. GDAL does nothing if
the rectangle is empty. -/
def rasterRead {α γ : Type} (r : Raster α γ) (o0 o1 s0 s1 : Int) (buffer : List α) : M (List α) :=
  if s0 < 1 ∨ s1 < 1 then .ok buffer
  else if withinRaster r.rows r.cols o0 o1 s0 s1 then do
    let (buffer, _) ← forLoop s0.toNat (fun i s => forLoop s1.toNat (fun j (s : List α × Nat) => do
      let b ← wr s.1 s.2 (r.cells (o0.toNat + i) (o1.toNat + j))
      .ok (b, s.2 + 1)) s) (buffer, 0)
    .ok buffer
  else .error .thrown

/-- `gdal::write`: `raster_band.cpp:94-123`. -/
def rasterWrite {α γ : Type} (r : Raster α γ) (o0 o1 s0 s1 : Int) (buffer : List α) : M (Raster α γ) :=
  if s0 < 1 ∨ s1 < 1 then .ok r
  else if withinRaster r.rows r.cols o0 o1 s0 s1 then do
    let (cells, _) ← forLoop s0.toNat (fun i s => forLoop s1.toNat (fun j (s : (Nat → Nat → α) × Nat) => do
      let x ← rd buffer s.2
      .ok ((fun i' j' => if i' = o0.toNat + i ∧ j' = o1.toNat + j then x else s.1 i' j'), s.2 + 1)) s) (r.cells, 0)
    .ok { r with cells := cells }
  else .error .thrown

/-! ### Reading -/

/-- The policies for detecting no-data in the raster and for marking it in the array: the input no-data policy and the
output no-data policy. G:18-74, and selected in G:481-507, 529-555. -/
structure Policies (α : Type) where
  isNoData : α → Bool
  markNoData : α → α

/-- `policy::from_gdal::DefaultPolicies`: `SkipNoData` and `DontMarkNoData`. G:18-20 -/
def defaultPolicies {α : Type} : Policies α := ⟨fun _ => false, id⟩

/-- `policy::from_gdal::ValuePolicies`, for a floating point type: `DetectNoDataByNaN` and `MarkNoDataByNaN`. G:23-27 -/
def valuePolicies {α : Type} (T : ElementType α) : Policies α := ⟨T.isNaN, fun _ => T.noData⟩

/-- `policy::from_gdal::SpecialValuePolicy`: `DetectNoDataByValue` and `DefaultOutputNoDataPolicy`. G:30-74 -/
def specialValuePolicy {α : Type} (T : ElementType α) (value : α) : Policies α :=
  ⟨fun x => T.eq x value, fun _ => T.noData⟩

/-- Selection of the policies, given the no-data value of the raster: G:481-507, 529-555 -/
def selectPolicies {α : Type} (T : ElementType α) : Option α → Policies α
  | none => defaultPolicies
  | some noData => if T.floating && T.isNaN noData then valuePolicies T else specialValuePolicy T noData

/-- `ReadPartition::instantiate`: G:201-248, with `Band::read_partition`: G:129-144. `garbage` is what happens to be in
the memory of the new partition. -/
def readPartition {α γ : Type} (r : Raster α γ) (policies : Policies α) (hyperslabOffset partitionOffset shape : Nat × Nat)
    (garbage : Nat → α) : M (Part α) := do
  let data := uninitialised (shape.1 * shape.2) garbage
  let offset := (hyperslabOffset.1 + partitionOffset.1, hyperslabOffset.2 + partitionOffset.2)
  let data ← rasterRead r (toInt offset.1) (toInt offset.2) (toInt shape.1) (toInt shape.2) data
  let data := data.map fun value => if policies.isNoData value then policies.markNoData value else value
  .ok ⟨partitionOffset, shape, data⟩

/-- `read_partition_per_locality`: G:272-323. The partitions are read one after the other. -/
def readPartitionPerLocality {α γ : Type} (r : Raster α γ) (policies : Policies α) (hyperslabOffset : Nat × Nat)
    (partitionOffsets partitionShapes : List (Nat × Nat)) (garbage : Nat → Nat → α) : M (List (Part α)) :=
  match partitionOffsets, partitionShapes with
  | [], _ => .error .outOfBounds
  | _, [] => .error .outOfBounds
  | o :: os, s :: ss => do
    let first ← readPartition r policies hyperslabOffset o s (garbage 0)
    let rest ← forLoop os.length (fun idx ps => do
      let partitionOffset ← rd os idx
      let partitionShape ← rd ss idx
      let p ← readPartition r policies hyperslabOffset partitionOffset partitionShape (garbage (idx + 1))
      .ok (ps ++ [p])) []
    .ok (first :: rest)

/-- `from_gdal(name, partition_shape)`: G:453-509 -/
def fromGdal {α γ : Type} (T : ElementType α) (r : Raster α γ) (p : Nat × Nat) (nrLocalities : Nat)
    (garbage : Nat → Nat → Nat → α) : M (Created α) :=
  createPerLocality (r.rows, r.cols) p nrLocalities fun locality offsets shapes =>
    readPartitionPerLocality r (selectPolicies T r.noData) (0, 0) offsets shapes (garbage locality)

/-- `from_gdal(name, hyperslab, partition_shape)`: G:512-557 -/
def fromGdalHyperslab {α γ : Type} (T : ElementType α) (r : Raster α γ) (h : Hyperslab) (p : Nat × Nat)
    (nrLocalities : Nat) (garbage : Nat → Nat → Nat → α) : M (Created α) := do
  verifyCompatibility (r.rows, r.cols) h
  createPerLocality h.counts p nrLocalities fun locality offsets shapes =>
    readPartitionPerLocality r (selectPolicies T r.noData) h.offsets offsets shapes (garbage locality)

/-! ### Writing -/

/-- `write_partition`: G:390-419 -/
def writePartition {α γ : Type} (r : Raster α γ) (p : Part α) : M (Raster α γ) :=
  rasterWrite r (toInt p.offset.1) (toInt p.offset.2) (toInt p.shape.1) (toInt p.shape.2) p.data

/-- Creating the raster to write: G:586-648. `fill` is what GDAL puts in cells which aren't written. `clone` is the
raster to copy metadata from. The first result is what is stored in the file. -/
def createRaster {α γ : Type} (T : ElementType α) (shape : Nat × Nat) (fill : α) (defaultGeo : Nat → γ)
    (clone : Option (Raster α γ)) : Option (Raster α γ) × M Unit :=
  if 0 < toInt shape.1 ∧ 0 < toInt shape.2 then
    let r : Raster α γ := ⟨(toInt shape.1).toNat, (toInt shape.2).toNat, some T.noData, fun _ _ => fill, none⟩
    match clone with
    | none => (some { r with geo := some (defaultGeo shape.1) }, .ok ())
    | some c =>
      if (c.rows, c.cols) ≠ shape then (some r, .error .thrown)
      else (some { r with geo := c.geo }, .ok ())
  else (none, .error .thrown)

/-- `std::rotate(begin + idx, begin + idx + 1, begin + n)`: element `idx` is moved to just after the first `n - 1`
elements -/
def rotateOut {β : Type} (l : List β) (idx n : Nat) : List β :=
  l.take idx ++ (l.take n).drop (idx + 1) ++ (l.take (idx + 1)).drop idx ++ l.drop n

/-- The loop writing the partitions: G:660-687. `ready` tells which one of the partitions not yet written `when_any`
comes up with, given these partitions. The result of `when_any` contains all partitions passed in. -/
def writeLoop {α γ : Type} (ready : List (Part α) → Nat) : Nat → List (Part α) → Raster α γ → M (Raster α γ)
  | 0, _, r => .ok r
  | n + 1, partitions, r => do
    let partitions := partitions.take (n + 1)
    let idx := ready partitions
    let p ← rd partitions idx
    let r ← writePartition r p
    writeLoop ready n (rotateOut partitions idx (n + 1)) r

/-- `to_gdal`: G:560-692. The first result is what is stored in the file in the end. -/
def toGdal {α γ : Type} (T : ElementType α) (x : Created α) (fill : α) (defaultGeo : Nat → γ)
    (clone : Option (Raster α γ)) (ready : List (Part α) → Nat) : M (Raster α γ) :=
  match createRaster T x.shape fill defaultGeo clone with
  | (_, .error e) => .error e
  | (none, .ok ()) => .error .thrown
  | (some r, .ok ()) => writeLoop ready x.partitions.length x.partitions r

end Lue.GdalIO

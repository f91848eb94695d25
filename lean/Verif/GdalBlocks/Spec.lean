import Verif.GdalBlocks.Model

/-!
# Comparing rasters: specification
-/
namespace Lue.GdalBlocks

variable {α γ : Type}

/-- Two cells contain the same value. A NaN which is used to mark no-data equals itself. -/
def SameCell (e : Elem α) (noDataValid : Bool) (noData x y : α) : Prop :=
  (e.isFloat = true ∧ noDataValid = true ∧ e.isNan noData = true ∧ e.isNan x = true ∧ e.isNan y = true) ∨ e.eq x y = true

/-- Two no-data values are the same. -/
def SameNoData (e : Elem α) (x y : α) : Prop :=
  (e.isFloat = true ∧ e.isNan x = true ∧ e.isNan y = true) ∨ e.eq x y = true

/-- Two bands contain the same information. -/
structure SameBand (e : Elem α) (b1 b2 : Band α) : Prop where
  shape : b1.rows = b2.rows ∧ b1.cols = b2.cols
  dataType : b1.dataType = b2.dataType
  noDataValid : b1.noDataValid = b2.noDataValid
  noData : b1.noDataValid = true → SameNoData e b1.noDataValue b2.noDataValue
  cells : ∀ r < b1.rows, ∀ c < b1.cols, SameCell e b1.noDataValid b1.noDataValue (b1.cells r c) (b2.cells r c)

/-- Two rasters contain the same information. -/
structure SameRaster (e : Elem α) (r1 r2 : Raster α γ) : Prop where
  shape : r1.rows = r2.rows ∧ r1.cols = r2.cols
  geo : r1.geo = r2.geo
  nrBands : r1.bands.length = r2.bands.length
  bands : ∀ (i : Nat) b1 b2, r1.bands[i]? = some b1 → r2.bands[i]? = some b2 → SameBand e b1 b2

/-- A band of which the cells are stored in full blocks, with as many rows of blocks as columns of blocks. -/
structure Regular (b : Band α) : Prop where
  nrBlocks : ∃ n, b.rows = n * b.blockRows ∧ b.cols = n * b.blockCols
  posRows : 0 < b.blockRows
  posCols : 0 < b.blockCols

/-- A raster with some bands of the same shape and element type. -/
structure Valid (supported : Nat → Bool) (r : Raster α γ) : Prop where
  geo : r.geo.isSome
  bands : r.bands ≠ []
  shape : ∀ b ∈ r.bands, b.rows = r.rows ∧ b.cols = r.cols
  dataType : ∃ t, supported t = true ∧ ∀ b ∈ r.bands, b.dataType = t

end Lue.GdalBlocks

import Verif.GdalIO.Model

/-!
# Reading and writing rasters: specification
-/
namespace Lue.GdalIO

/-- What an element type is like: integral types don't have NaNs and values are compared for equality; for floating point
types, NaN represents no-data, a NaN is not equal to anything, and other values are equal to themselves. -/
structure ElementType.Lawful {α : Type} (T : ElementType α) : Prop where
  integral_nan : T.floating = false → ∀ x, T.isNaN x = false
  integral_eq : T.floating = false → ∀ x y, T.eq x y = true ↔ x = y
  floating_noData : T.floating = true → T.isNaN T.noData = true
  nan_eq : ∀ x y, T.isNaN x = true ∨ T.isNaN y = true → T.eq x y = false
  eq_refl : ∀ x, T.isNaN x = false → T.eq x x = true

/-- A cell of a raster contains no value: a no-data value is set in the raster, and this value is in the cell. -/
def Missing {α : Type} (T : ElementType α) (noData : Option α) (x : α) : Prop :=
  ∃ v, noData = some v ∧ (T.eq x v = true ∨ (T.isNaN x = true ∧ T.isNaN v = true))

/-- An element of an array contains no value: NaN in case of floating point elements, otherwise the default no-data
value. -/
def IsNoData {α : Type} (T : ElementType α) (x : α) : Prop :=
  T.isNaN x = true ∨ (T.floating = false ∧ x = T.noData)

/-- Elements are the same: NaNs aren't distinguished. -/
def Same {α : Type} (T : ElementType α) (x y : α) : Prop := x = y ∨ (T.isNaN x = true ∧ T.isNaN y = true)

/-- Array element `y` is what is expected for raster value `x`: no-data if the value is missing, and otherwise the same
value. -/
def Reads {α : Type} (T : ElementType α) (noData : Option α) (x y : α) : Prop :=
  (Missing T noData x → y = T.noData) ∧ (¬ Missing T noData x → y = x)

/-- The `count` cells along a dimension around a center cell: as many cells before as after it, except that in case of
an even number of cells there is one more cell before it. -/
def windowStart (center : Int) (count : Nat) : Int := center - count / 2

/-- The geo-transform of a raster written: the one of the clone, or the default one, given the number of rows. -/
def initialGeo {α γ : Type} (defaultGeo : Nat → γ) (rows : Nat) : Option (Raster α γ) → Option γ
  | none => some (defaultGeo rows)
  | some c => c.geo

end Lue.GdalIO

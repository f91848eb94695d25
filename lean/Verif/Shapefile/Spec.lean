import Verif.Shapefile.Model

/-!
# Specification of exporting to Shapefiles
-/
namespace Lue.Shapefile

open Lue.Validate

variable {V : Type}

/-- `root[key]` is `value` -/
def Member (j : Json) (key : Str) (value : Json) : Prop := ∃ l, j = .object l ∧ l.lookup key = some value

/-- A collection with a single item -/
def Single (j item : Json) : Prop := j = .array [item] ∨ ∃ key, j = .object [(key, item)]

/-- In the metadata, a single phenomenon and a single property set are mentioned for the dataset. -/
def Selects (metadata : Json) (dataset phenomenon propertySet : Str) : Prop :=
  ∃ d phenomena p sets s, Member metadata dataset d ∧ Member d "phenomena".toList phenomena ∧ Single phenomena p ∧
    Member p "name".toList (.string phenomenon) ∧ Member p "property_sets".toList sets ∧ Single sets s ∧
    Member s "name".toList (.string propertySet)

/-- The objects which are active at the `k`-th moment, with their coordinates. The n-th row with coordinates is of the n-th active
object. -/
def located (t : Tracker) (rows : List (List V)) (k : Nat) : List (Nat × List V) :=
  ((t.ids.zip rows).drop (t.start k)).take (t.start (k + 1) - t.start k)

/-- The geometry is a point with these coordinates. -/
def IsPoint (g : Geometry V) (row : List V) : Prop := ∃ x y, row = [x, y] ∧ g = .point x y

/-- The geometry is the boundary of the box: a closed ring with the corners of the box, counterclockwise if `xMin < xMax` and
`yMin < yMax`. -/
def IsBox (g : Geometry V) (row : List V) : Prop :=
  ∃ xMin yMin xMax yMax, row = [xMin, yMin, xMax, yMax] ∧
    g = .polygon [(xMin, yMin), (xMax, yMin), (xMax, yMax), (xMin, yMax), (xMin, yMin)]

/-- The property set is valid (C46) -/
structure Valid (ids : List Nat) (s : PropertySet V) (space : Space V) : Prop where
  tracker_ok : TrackerOk ids s.tracker
  time_ok : ∀ items, s.time = some items → TimeOk s.tracker items
  rows_ok : space.rows.length = if space.mobile then s.tracker.ids.length else ids.length
  /-- All arrays have the same shape -/
  widths : ∀ row ∈ space.rows, row.length = space.width

end Lue.Shapefile

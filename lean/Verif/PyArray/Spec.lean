import Verif.PyArray.Model

/-!
# What indexing an array from Python is supposed to mean

This is the meaning of indexing sequences in Python and NumPy: per dimension, an index or a slice picks positions. The
selected elements are those at all combinations of picked positions, in row-major order.
-/
namespace Lue.PyArray

open Lue.DataModel

/-- Limit of a slice in a dimension with `n` elements: negative limits are relative to the end, and limits are clipped to
`0 .. n`. -/
def clip (n : Nat) (x : Int) : Nat := if x < 0 then (n + x).toNat else min x.toNat n

/-- First position which can be picked by a slice -/
def Slice.lower (s : Slice) (n : Nat) : Nat := (s.start.map (clip n)).getD 0

/-- Position after the last one which can be picked by a slice -/
def Slice.upper (s : Slice) (n : Nat) : Nat := (s.stop.map (clip n)).getD n

/-- Distance between the positions picked by a slice -/
def Slice.by (s : Slice) : Nat := (s.step.getD 1).toNat

/-- `:` -/
def Slice.all : Slice := ⟨none, none, none⟩

/-- The positions in a dimension with `n` elements picked by an index -/
def picked (n : Nat) : PyIndex → List Nat
  | .int i => [if i < 0 then (n + i).toNat else i.toNat]
  | .slice s => (List.range n).filter fun i => s.lower n ≤ i ∧ i < s.upper n ∧ (i - s.lower n) % s.by = 0
  | .other => []

/-- An index for each dimension: when there are too few, all positions in the last dimensions are picked. -/
def complete (shape : List Nat) (indices : List PyIndex) : List PyIndex :=
  indices ++ List.replicate (shape.length - indices.length) (.slice .all)

/-- All combinations of elements from a list of lists. The last one varies fastest. -/
def combinations : List (List Nat) → List (List Nat)
  | [] => [[]]
  | l :: ls => l.flatMap fun i => (combinations ls).map fun c => i :: c

/-- The indices of the elements selected, in row-major order -/
def selected (shape : List Nat) (indices : List PyIndex) : List (List Nat) :=
  combinations (List.zipWith picked shape (complete shape indices))

/-- The shape of the selected elements: dimensions in which an integer is used are left out. -/
def selectedShape (shape : List Nat) (indices : List PyIndex) : List Nat :=
  ((shape.zip (complete shape indices)).filter fun x => x.2 matches .slice _).map fun x => (picked x.1 x.2).length

/-- The indices passed -/
def Key.toIndices : Key → List PyIndex
  | .int i => [.int i]
  | .slice s => [.slice s]
  | .indices l => l
  | .other => [.other]

/-- Whether an index can be used in a dimension with `n` elements -/
def PyIndex.Valid (n : Nat) : PyIndex → Prop
  | .int i => -(n : Int) ≤ i ∧ i < n
  | .slice s => s.step.getD 1 ≠ 0
  | .other => False

/-- Whether indices can be used for an array: there are no more than the rank of the array, and they are integers within
the range, or slices with a step which isn't zero. -/
def Valid (shape : List Nat) (indices : List PyIndex) : Prop :=
  indices.length ≤ shape.length ∧ ∀ d < indices.length, (indices.getD d .other).Valid (shape.getD d 0)

/-- An index which C++ can represent, without a negative step. -/
def PyIndex.Forward : PyIndex → Prop
  | .int i => -9223372036854775808 ≤ i ∧ i < 9223372036854775808
  | .slice s => 0 ≤ s.step.getD 1 ∧ s.step.getD 1 < 9223372036854775808
  | .other => True

/-- The elements of a dataset at some indices are replaced by values, and nothing else is. -/
structure Assigned {α : Type} (d d' : Dataset α) (coords : List (List Nat)) (values : List α) : Prop where
  shape_eq : d'.shape = d.shape
  fill_eq : d'.fill = d.fill
  length_eq : values.length = coords.length
  value_eq : ∀ k (h : k < coords.length), values[k]? = some (d'.data coords[k])
  other_eq : ∀ c, c ∉ coords → d'.data c = d.data c

end Lue.PyArray

import Verif.LueIO.Model

/-!
# Reading and writing arrays: specification
-/
namespace Lue.LueIO

/-- Where cell (i, j) of an array is stored in the HDF5 dataset: constant arrays are stored as is, arrays varying
through time are stored one after the other, at the first location in time. -/
def cellAt (time : Option Nat) (i j : Nat) : List Nat :=
  match time with
  | none => [i, j]
  | some t => [0, t, i, j]

/-- The array stored in the dataset (for a time step). -/
def contents {α : Type} (d : H5 α) (time : Option Nat) : Arr α := fun i j => d.data (cellAt time i j)

/-- A dataset of this shape has room for an array of `b0` × `b1` cells, at this time step. -/
def Room (shape : List Nat) (time : Option Nat) (b0 b1 : Nat) : Prop :=
  match time with
  | none => ∃ m0 m1, shape = [m0, m1] ∧ b0 ≤ m0 ∧ b1 ≤ m1
  | some t => ∃ l n m0 m1, shape = [l, n, m0, m1] ∧ 0 < l ∧ t < n ∧ b0 ≤ m0 ∧ b1 ≤ m1

/-- Dataset `d'` is dataset `d` with array `v` of `a0` × `a1` cells stored at a time step; nothing else changed. -/
structure Stored {α : Type} (d d' : H5 α) (time : Option Nat) (a0 a1 : Nat) (v : Arr α) : Prop where
  shape : d'.shape = d.shape
  cells : ∀ i j, i < a0 → j < a1 → contents d' time i j = v i j
  other : ∀ idx, (∀ i j, i < a0 → j < a1 → idx ≠ cellAt time i j) → d'.data idx = d.data idx

/-- The partitions on locality `l`. -/
def onLocality (loc : Nat → Nat) (n l : Nat) : List Nat := (List.range n).filter fun k => loc k = l

end Lue.LueIO

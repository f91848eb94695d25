import Verif.Position.Model
import Mathlib.Data.Set.Card

/-!
# Operations whose result depends on where cells and partitions are: specification
-/
namespace Lue.Position

/-- What `range` is for: the cells of an array get consecutive values, row by row. -/
def rowMajor (a1 : Nat) (startValue : Int) (i j : Nat) : Int := startValue + i * a1 + j

/-- Partition row and column containing a cell (C01). -/
def partitionRow (g : Grid) (i : Nat) : Nat := min (i / g.p0) (g.a0 / g.p0 - 1)
@[inherit_doc partitionRow]
def partitionCol (g : Grid) (j : Nat) : Nat := min (j / g.p1) (g.a1 / g.p1 - 1)

/-- The grid of an array containing a single element per partition. -/
def perPartition (g : Grid) : Grid := ⟨g.n0, g.n1, 1, 1⟩

/-- Number of different valid values in a set of cells. -/
noncomputable def nrDifferent {α : Type} (isNoData : α → Bool) (v : Arr α) (cells : Nat × Nat → Prop) : Nat :=
  Set.ncard {x | isNoData x = false ∧ ∃ c, cells c ∧ v c.1 c.2 = x}

/-- The cells of a partition. -/
def InPartition (g : Grid) (k0 k1 : Nat) (c : Nat × Nat) : Prop :=
  c.1 < g.a0 ∧ c.2 < g.a1 ∧ partitionRow g c.1 = k0 ∧ partitionCol g c.2 = k1

end Lue.Position

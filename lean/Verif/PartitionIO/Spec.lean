import Verif.PartitionIO.Model

/-!
# Specification of the bookkeeping of input cells and output cells (C68)
-/
namespace Lue.PartitionIO

/-- A partitioning of space: along each dimension, the index of the first cell of each partition. A partitioned array is a part of it:
nothing is said about cells and partitions that are not part of the array. -/
structure Tiling (n : Nat) where
  start : Fin n → Int → Int
  increasing : ∀ d p, start d p < start d (p + 1)

variable {n : Nat} {V : Type}

/-- The shape of partition `p` -/
def Tiling.shape (t : Tiling n) (p : Vec n) : Vec n := fun d => t.start d (p d + 1) - t.start d (p d)

/-- The position in space of the cell with indices `i` in partition `p` -/
def Tiling.position (t : Tiling n) (p i : Vec n) : Vec n := fun d => t.start d (p d) + i d

/-- There is a cell with indices `i` in partition `p` -/
def Tiling.IsCell (t : Tiling n) (p i : Vec n) : Prop := ∀ d, 0 ≤ i d ∧ i d < t.shape p d

/-- Position `x` is in partition `p` -/
def Tiling.Contains (t : Tiling n) (p x : Vec n) : Prop := ∀ d, t.start d (p d) ≤ x d ∧ x d < t.start d (p d + 1)

instance (t : Tiling n) (p x : Vec n) : Decidable (t.Contains p x) :=
  inferInstanceAs (Decidable (∀ d, t.start d (p d) ≤ x d ∧ x d < t.start d (p d + 1)))

/-- An offset towards the cell itself or one of its neighbours -/
def IsStep (offset : Vec n) : Prop := ∀ d, offset d = -1 ∨ offset d = 0 ∨ offset d = 1

/-- Arguments of calls make sense, for partition `p`: output cells are cells of the partition, offsets are to neighbouring cells, and
the shape of the partition to drain to is passed along. -/
def Op.Valid (t : Tiling n) (p : Vec n) : Op n V → Prop
  | .addOutputCell i offset _ => t.IsCell p i ∧ IsStep offset
  | .removeInputCell _ => True
  | .drain q shape => IsStep q → shape = t.shape (p + q)

/-- What is passed to calls of `add_output_cell` -/
def Op.added : Op n V → List (Vec n × Vec n × V)
  | .addOutputCell i offset v => [(i, offset, v)]
  | _ => []

/-- What is passed to calls of `remove_input_cell` -/
def Op.removed : Op n V → List (Vec n)
  | .removeInputCell i => [i]
  | _ => []

/-- Material `v` that is sent from cell `i` of partition `p` to the cell at the offset: where does it have to end up -/
def destination (t : Tiling n) (p : Vec n) (e : Vec n × Vec n × V) : Vec n × V := (t.position p e.1 + e.2.1, e.2.2)

/-- Material `v` that is drained to cell `r` of the partition at offset `q`: where does it end up -/
def arrival (t : Tiling n) (p : Vec n) (e : Vec n × Vec n × V) : Vec n × V := (t.position (p + e.1) e.2.1, e.2.2)

/-- The state of the bookkeeping of partition `p` in which the material `outs` (output cell, offset, value) has not been drained yet -/
structure Holds (t : Tiling n) (p : Vec n) (s : State n V) (outs : List (Vec n × Vec n × V)) : Prop where
  shape : s.shape = t.shape p
  offsets : s.offsets = outs.map fun e => (e.1, e.2.1)
  values : s.values = outs.map fun e => (e.1, e.2.2)
  distinct : (outs.map fun e => e.1).Nodup
  /-- Output cells are cells of the partition that drain to a neighbouring cell that is not part of the partition. -/
  outputs : ∀ e ∈ outs, t.IsCell p e.1 ∧ IsStep e.2.1 ∧ ¬t.Contains p (destination t p e).1
  /-- Input cells are cells along the border of the partition. -/
  inputs : ∀ i ∈ s.inputs, t.IsCell p i ∧ ∃ d, i d = 0 ∨ i d = t.shape p d - 1

end Lue.PartitionIO

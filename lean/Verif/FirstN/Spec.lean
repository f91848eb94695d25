import Verif.FirstN.Model

/-!
# Routes, and the first cells of them

A route is a sequence of pieces, each located in a partition. The data structures describing the routes must agree with these
sequences.
-/
namespace Lue.FirstN

/-- A piece of a route: the partition, and the cells. -/
abbrev Piece := Nat × List Nat

/-- The fragments of a route, in order, with the partition they are located in: each refers to the partition of the next
one. -/
def fragmentsOf : List Piece → List (Nat × Fragment)
  | [] => []
  | (p, cells) :: l => (p, ⟨cells, l.head?.map Prod.fst⟩) :: fragmentsOf l

/-- The fragments of a route that are located in partition `p`, in order. -/
def fragmentsIn (p : Nat) (l : List Piece) : List Fragment :=
  ((fragmentsOf l).filter fun e => decide (e.1 = p)).map Prod.snd

/-- The cells of a route (partition, cell), in order. -/
def cellsOf (l : List Piece) : List (Nat × Nat) := l.flatMap fun e => e.2.map fun i => (e.1, i)

/-- The data structures of `R` describe the routes `path r`, for each route with a start. -/
structure WellFormed (R : Route) (path : Int → List Piece) : Prop where
  /-- The keys of a map are distinct -/
  starts_ok : R.starts.Ok
  frags_ok : ∀ p < R.nrParts, (R.parts p).frags.Ok
  /-- The start of a route is the partition its first piece is located in -/
  start : ∀ r p, R.starts.get r = some p ↔ (path r).head?.map Prod.fst = some p
  /-- A partition contains the fragments of the routes passing it, and no other -/
  frags : ∀ p < R.nrParts, ∀ r, (R.parts p).frags.get r = if fragmentsIn p (path r) = [] then none else some (fragmentsIn p (path r))
  /-- Pieces consist of cells of existing partitions -/
  parts : ∀ r, ∀ e ∈ path r, e.1 < R.nrParts ∧ ∀ i ∈ e.2, i < (R.parts e.1).nrCells

/-- Cell `i` of partition `p` is one of the first `n` cells of a route. -/
def AmongFirst (path : Int → List Piece) (n : Int) (p i : Nat) : Prop :=
  ∃ r, (p, i) ∈ (cellsOf (path r)).take n.toNat

end Lue.FirstN

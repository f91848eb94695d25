import Verif.DecreasingOrder.Model

/-! # What `decreasing_order` must do -/
namespace Lue.DecreasingOrder

variable {V : Type} [LinearOrder V]

/-- The value of cell `c.2` of partition `c.1`, `none` if there is none. -/
def Input.valueAt (I : Input V) (c : Nat × Nat) : Option V := if c.1 < I.nrParts then (I.value c.1)[c.2]?.join else none

/-- The zone of a cell, `none` if there is none. -/
def Input.zoneAt (I : Input V) (c : Nat × Nat) : Option Int := if c.1 < I.nrParts then (I.zone c.1)[c.2]?.join else none

/-- A cell in zone `r`, with a value. -/
def InZone (I : Input V) (r : Int) (c : Nat × Nat) : Prop := I.zoneAt c = some r ∧ (I.valueAt c).isSome

/-- `std::sort` sorts, by decreasing key. -/
def Sorts (sort : SortFn V) : Prop :=
  ∀ (α : Type) (key : α → V) (l : List α), (sort key l).Perm l ∧ (sort key l).Pairwise fun a b => key b ≤ key a

/-- A sequence of cells contains the `n` cells of zone `r` with the largest values (all of them when there are less), in
order of decreasing value. -/
structure IsDecreasing (I : Input V) (n r : Int) (cells : List (Nat × Nat)) : Prop where
  /-- No cell is visited twice -/
  nodup : cells.Nodup
  /-- Only cells of the zone, with a value, are visited -/
  inZone : ∀ c ∈ cells, InZone I r c
  /-- Values don't increase -/
  sorted : cells.Pairwise fun a b => ∀ va vb, I.valueAt a = some va → I.valueAt b = some vb → vb ≤ va
  /-- At most `n` cells are visited -/
  atMost : cells.length ≤ n.toNat
  /-- When less cells are visited, all cells of the zone are visited -/
  all : cells.length = n.toNat ∨ ∀ c, InZone I r c → c ∈ cells
  /-- The values of cells that are not visited are not larger -/
  largest : ∀ a ∈ cells, ∀ b, InZone I r b → b ∉ cells → ∀ va vb, I.valueAt a = some va → I.valueAt b = some vb → vb ≤ va

end Lue.DecreasingOrder

import Verif.AccuInfo.Model
import Verif.Accu.Spec

/-!
The position of cells in the network of streams and in the partitions, in terms of whole arrays. `g` tells how the array is
partitioned, `v` contains the flow directions.
-/
namespace Lue.AccuInfo

open Lue.Routing

/-- Two cells are part of the same partition: they are in the same block of rows, and in the same block of columns. -/
def SamePart (g : Grid) (u c : Cell) : Prop :=
  ∃ k0 k1 l0 l1 m0 m1, IsCell g u.1 u.2 k0 k1 l0 l1 ∧ IsCell g c.1 c.2 k0 k1 m0 m1

/-- Nothing drains into the cell. -/
def Ridge (g : Grid) (v : Arr Nat) (c : Cell) : Prop := ∀ u, ¬ Drains g.a0 g.a1 v u c

/-- A cell of another partition drains into the cell. -/
def Input (g : Grid) (v : Arr Nat) (c : Cell) : Prop := ∃ u, Drains g.a0 g.a1 v u c ∧ ¬ SamePart g u c

/-- The cell does not have a downstream cell. -/
def Sink (v : Arr Nat) (c : Cell) : Prop := move (v c.1 c.2) = none

/-- The flow direction points to a location outside of the partition. This location may be outside of the array. -/
def Output (g : Grid) (v : Arr Nat) (c : Cell) : Prop :=
  ∃ o, move (v c.1 c.2) = some o ∧
    ∀ c' : Cell, (c'.1 : Int) = c.1 + o.1 → (c'.2 : Int) = c.2 + o.2 → ¬ SamePart g c c'

/-- The cell is part of a stream that enters the partition: it is an input cell, or downstream, within the partition, of
one. -/
inductive Inter (g : Grid) (v : Arr Nat) : Cell → Prop
  | input {c : Cell} : Input g v c → Inter g v c
  | flow {u c : Cell} : Inter g v u → Drains g.a0 g.a1 v u c → SamePart g u c → Inter g v c

/-- The class of a cell which is not at the start of a stream. -/
inductive StreamClass (g : Grid) (v : Arr Nat) (c : Cell) : Nat → Prop
  | sink : Sink v c → StreamClass g v c sinkCell
  | output : Output g v c → StreamClass g v c partitionOutputCell
  | inter : ¬ Sink v c → ¬ Output g v c → Inter g v c → StreamClass g v c interPartitionStreamCell
  | intra : ¬ Sink v c → ¬ Output g v c → ¬ Inter g v c → StreamClass g v c intraPartitionStreamCell

/-- The class of an input cell. -/
inductive InputClass (g : Grid) (v : Arr Nat) (c : Cell) : Nat → Prop
  | both : Output g v c → InputClass g v c partitionInputOutputCell
  | input : ¬ Output g v c → InputClass g v c partitionInputCell

/-- The cell receives material from a stream that entered the partition elsewhere. -/
def AlsoInter (g : Grid) (v : Arr Nat) (c : Cell) : Prop := ∃ u, Drains g.a0 g.a1 v u c ∧ SamePart g u c ∧ Inter g v u

/-- The classes a cell can end up with. -/
inductive Allowed (isNoData : Nat → Bool) (g : Grid) (v : Arr Nat) (c : Cell) : Nat → Prop
  | noData : isNoData (v c.1 c.2) = true → Allowed isNoData g v c noData
  | ridge : isNoData (v c.1 c.2) = false → Ridge g v c → Allowed isNoData g v c ridgeCell
  | stream {n : Nat} : isNoData (v c.1 c.2) = false → ¬ Ridge g v c → ¬ Input g v c → StreamClass g v c n →
      Allowed isNoData g v c n
  | input {n : Nat} : isNoData (v c.1 c.2) = false → Input g v c → InputClass g v c n → Allowed isNoData g v c n
  /-- The order in which material arrives decides. -/
  | order {n : Nat} : isNoData (v c.1 c.2) = false → Input g v c → AlsoInter g v c → StreamClass g v c n →
      Allowed isNoData g v c n

end Lue.AccuInfo

import Verif.Channels.Model

/-!
# What the exchange of values between partitions must satisfy
-/

namespace Lue.Channels

open Lue.InflowCount (Dir)

/-- The compass direction: rows (towards the south) and columns (towards the east) to step -/
def compass : Dir → Int × Int
  | .n => (-1, 0)
  | .ne => (-1, 1)
  | .e => (0, 1)
  | .se => (1, 1)
  | .s => (1, 0)
  | .sw => (1, -1)
  | .w => (0, -1)
  | .nw => (-1, -1)

/-- In an array of `m0` × `m1` partitions, numbered row by row, partition `q` lies in direction `d` of partition `p` -/
def Lies (m0 m1 p : Nat) (d : Dir) (q : Nat) : Prop :=
  ∃ i j i' j' : Nat, i < m0 ∧ j < m1 ∧ i' < m0 ∧ j' < m1 ∧ p = i * m1 + j ∧ q = i' * m1 + j' ∧
    (i' : Int) = i + (compass d).1 ∧ (j' : Int) = j + (compass d).2

/-- The opposite direction -/
def Opposite (d e : Dir) : Prop := compass e = (-(compass d).1, -(compass d).2)

variable {V : Type}

/-- The value sent by the event, if it is partition `p` of array `a` sending something in direction `d` -/
def Event.sent? (a p : Nat) (d : Dir) : Event V → Option V
  | .sent a' p' d' v => if a' = a ∧ p' = p ∧ d' = d then some v else none
  | _ => none

/-- The value obtained by the event, if it is partition `p` of array `a` obtaining something from direction `d` -/
def Event.got? (a p : Nat) (d : Dir) : Event V → Option V
  | .got a' p' d' v => if a' = a ∧ p' = p ∧ d' = d then some v else none
  | _ => none

/-- The values sent by partition `p` of array `a` in direction `d`, in order -/
def sents (log : List (Event V)) (a p : Nat) (d : Dir) : List V := log.filterMap (Event.sent? a p d)

/-- The values obtained by partition `p` of array `a` from direction `d`, in order -/
def gots (log : List (Event V)) (a p : Nat) (d : Dir) : List V := log.filterMap (Event.got? a p d)

end Lue.Channels

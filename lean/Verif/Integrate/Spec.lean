import Verif.Integrate.Model
import Verif.FirstN.Spec

/-! # Accumulating values along routes -/
namespace Lue.Integrate

open Lue.FirstN (Piece cellsOf)

variable {α : Type}

/-- The value of a cell (partition, cell) of the integrand, if any. -/
def valueAt (integrand : Nat → List (Option α)) (c : Nat × Nat) : Option α := (integrand c.1)[c.2]?.join

/-- The sum of the values of the integrand of the first `k` cells of a route, in order, skipping no-data. -/
def sumOfFirst (add : α → α → α) (zero : α) (integrand : Nat → List (Option α)) (cells : List (Nat × Nat)) (k : Nat) : α :=
  ((cells.take k).filterMap (valueAt integrand)).foldl add zero

/-- A cell is visited once at most. -/
def CellsDistinct (path : Int → List Piece) : Prop :=
  ∀ (r r' : Int) (k k' : Nat) (c : Nat × Nat), (cellsOf (path r))[k]? = some c → (cellsOf (path r'))[k']? = some c → r = r' ∧ k = k'

/-- The cell is one of the first `n` cells of a route, and has a value in the integrand. -/
def Integrable (integrand : Nat → List (Option α)) (path : Int → List Piece) (n : Int) (p i : Nat) : Prop :=
  ∃ (r : Int) (k : Nat), (cellsOf (path r))[k]? = some (p, i) ∧ k < n.toNat ∧ (valueAt integrand (p, i)).isSome

end Lue.Integrate

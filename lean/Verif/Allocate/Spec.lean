import Verif.Allocate.Model
import Verif.FirstN.Spec

/-! # What is allocated -/
namespace Lue.Allocate

open Lue.FirstN (Piece Route)

/-- In the first crop for which demand and production of a zone differ, the demand is larger. -/
def Unmet (demand production : List Rat) : Prop :=
  ∃ (k : Nat) (a b : Rat), demand.take k = production.take k ∧ demand[k]? = some a ∧ production[k]? = some b ∧ b < a

/-- The data about zones: for each zone that has a demand there is a production, per crop; each route is a zone. -/
structure Zones (nrCrops : Nat) (path : Int → List Piece) (demand production : AMap Int (List Rat)) : Prop where
  ok : demand.Ok
  crops : ∀ z D, demand.get z = some D → D.length = nrCrops
  prod : ∀ z D, demand.get z = some D → ∃ P, production.get z = some P ∧ P.length = nrCrops
  routes : ∀ r, path r ≠ [] → ∃ D, demand.get r = some D

/-- The inputs of all cells of the partitions of the route are present. -/
def SameShape (inputs : Nat → List Cell) (R : Route) : Prop := ∀ p < R.nrParts, (inputs p).length = (R.parts p).nrCells

/-- The fraction of grass in a cell, given the irrigated fraction and the fraction of grass in the previous cell of the same
fragment. -/
def grass (irrigated previous : Rat) : Rat := if irrigated + previous < 1 then 1 - (irrigated + previous) else previous

/-- The fraction of grass in the last of a sequence of cells. -/
def grassAlong (inputs : List Cell) (cells : List Nat) : Rat :=
  cells.foldl (fun g i => grass ((inputs[i]?.bind Cell.irrigated).getD 0) g) 0

/-- Cell `i` of a partition has all of its inputs. -/
def Present (inputs : List Cell) (i : Nat) : Prop := ∃ c, inputs[i]? = some c ∧ c.noData = false

/-- Cell `i` of partition `p` is number `j` of the cells of a piece of a route. -/
def InPiece (path : Int → List Piece) (p i : Nat) (cells : List Nat) (j : Nat) : Prop :=
  ∃ r, (p, cells) ∈ path r ∧ cells[j]? = some i

/-- A cell is visited once at most. -/
def CellsDistinct (path : Int → List Piece) : Prop :=
  ∀ p i cells j cells' j', InPiece path p i cells j → InPiece path p i cells' j' → cells = cells' ∧ j = j'

end Lue.Allocate

import Verif.Walk.Model
import Verif.FirstN.Spec

/-!
# What walking along routes must do

A sequential account of the walk along each route: no partitions' components, no messages, no order of events. The visit of
the cells of a piece of a route writes values in cells, and changes the data carried along the route; when this data tells not
to walk on, the remaining pieces are skipped.
-/
namespace Lue.Walk

open Lue.FirstN (Piece Route)

/-- What the visit of a piece does: the values written (by cell), and the new data. -/
structure Effect (β δ : Type) where
  writes : Nat → Int → List Nat → δ → List (Nat × β)
  next : Nat → Int → List Nat → δ → δ

variable {β δ : Type} (A : Algo β δ) (E : Effect β δ)

/-- Write values in a list of cells. -/
def applyWrites : List (Nat × β) → List β → List β
  | [], out => out
  | (i, v) :: l, out => applyWrites l (out.set i v)

/-- The algorithm does what `E` says when it walks along the routes `path`: to output partitions that have the right number of
cells, whatever they contain. `Good r` tells what is known about the data while walking along route `r`. -/
structure Correct (R : Route) (path : Int → List Piece) (Good : Int → δ → Prop) : Prop where
  start : ∀ r, path r ≠ [] → Good r A.start
  visit : ∀ p < R.nrParts, ∀ r cells (out : List β) d, Good r d → out.length = (R.parts p).nrCells →
    (∀ i ∈ cells, i < (R.parts p).nrCells) →
    A.visit p r cells out d = .ok (applyWrites (E.writes p r cells d) out, E.next p r cells d)
  next : ∀ p r cells d, Good r d → Good r (E.next p r cells d)

/-- The data before visiting the pieces of route `r` after the pieces in the list, or nothing when these are skipped. -/
def dataAfter (r : Int) : List Piece → δ → Option δ
  | [], d => some d
  | (p, cells) :: l, d =>
    let d' := E.next p r cells d
    if A.keepWalking d' then dataAfter r l d' else none

/-- The values written (partition, cell, value) along route `r`, in order. -/
def writesAlong (r : Int) : List Piece → δ → List (Nat × Nat × β)
  | [], _ => []
  | (p, cells) :: l, d =>
    let d' := E.next p r cells d
    (E.writes p r cells d).map (fun w => (p, w.1, w.2)) ++ if A.keepWalking d' then writesAlong r l d' else []

/-- Value `v` is written in cell `i` of partition `p` when all routes are walked. -/
def Written (path : Int → List Piece) (p i : Nat) (v : β) : Prop := ∃ r, (p, i, v) ∈ writesAlong A E r (path r) A.start

/-- No cell is given different values. -/
def Consistent (path : Int → List Piece) : Prop := ∀ p i v v', Written A E path p i v → Written A E path p i v' → v = v'

end Lue.Walk

import Verif.Partitioned.Store
import Mathlib.Logic.Relation

/-!
C23, C24: clump. This file: the flood fill algorithm, and clumping of a single partition.
`A` below is `source/framework/algorithm/include/lue/framework/algorithm`.

Zones and clump ids are values or no-data (`none`): these are what the no-data policies detect and mark. Ids are natural
numbers: that the number of clumps can exceed the largest id (which has the type of the zones) is not modelled.
Indices are natural numbers, directions are up or down.
-/
namespace Lue.Clump

variable {α Z : Type}

/-- Element access in a 2D array with `nc` columns. -/
def get (nc : Nat) (data : List α) (row col : Nat) : M α :=
  if col < nc then rd data (row * nc + col) else .error .outOfBounds

/-- Element assignment in a 2D array with `nc` columns. -/
def set (nc : Nat) (data : List α) (row col : Nat) (v : α) : M (List α) :=
  if col < nc then wr data (row * nc + col) v else .error .outOfBounds

/-- `A/definition/clump.hpp:59-67`. `down`: whether direction is 1 instead of -1. -/
structure Request where
  row : Nat
  west : Nat
  east : Nat
  down : Bool
  deriving DecidableEq, Repr

/-- `A/definition/clump.hpp:121-125`, `329-333` -/
def rowAvailable (nr row : Nat) (down : Bool) : Bool := if down then row < nr - 1 else row > 0

/-- `row + direction` -/
def nextRow (row : Nat) (down : Bool) : Nat := if down then row + 1 else row - 1

/-- `if (row_available(row, direction)) requests.push(...)`: `A/definition/clump.hpp:193-206` for example -/
def pushIf (nr row west east : Nat) (down : Bool) (requests : List Request) : List Request :=
  if rowAvailable nr row down then ⟨nextRow row down, west, east, down⟩ :: requests else requests

/-- `a && b` -/
def andThen (a : Bool) (b : M Bool) : M Bool := if a then b else .ok false

/-- The state of the loop over the cells in the parent's span. -/
structure Scan where
  west : Nat
  col : Nat
  clumps : List (Option Nat)
  requests : List Request

section

variable [DecidableEq Z] (nr nc : Nat) (zones : List (Option Z)) (zoneId : Z) (clumpId : Nat)

/-- `A/definition/clump.hpp:23-28`, `127-131`, `335-339`: `cell_is_connected` -/
def connected (row col : Nat) : M Bool := do
  let z ← get nc zones row col
  return z = some zoneId

/-- `A/definition/clump.hpp:32-37`: `added_to_clump_already` -/
def added (clumps : List (Option Nat)) (row col : Nat) : M Bool := do
  let c ← get nc clumps row col
  return c.isSome

/-- `A/definition/clump.hpp:167-176`, `377-386`: `for (; col > 0 && cell_is_connected(row, col - 1); --col) ...` -/
def scanWest (row : Nat) : Nat → List (Option Nat) → M (Nat × List (Option Nat))
  | 0, clumps => .ok (0, clumps)
  | col + 1, clumps => do
    if ← connected nc zones zoneId row col then
      let clumps ← set nc clumps row col (some clumpId)
      scanWest row col clumps
    else .ok (col + 1, clumps)

/-- `A/definition/clump.hpp:221-232`, `422-433`, `500-511`: `while (west < nr_cols && cell_is_connected(row, west)) ...`.
The first argument is the number of cells until the end of the row. -/
def scanEast (row : Nat) : Nat → Nat → List (Option Nat) → M (Nat × List (Option Nat))
  | 0, west, clumps => .ok (west, clumps)
  | n + 1, west, clumps => do
    if ← connected nc zones zoneId row west then
      let clumps ← set nc clumps row west (some clumpId)
      scanEast row n (west + 1) clumps
    else .ok (west, clumps)

/-- `A/definition/clump.hpp:285-288`, `486-489`: `while (west <= east && !cell_is_connected(row, west)) ...`. The first
argument is the number of cells until the end of the span. -/
def skip (row : Nat) : Nat → Nat → M Nat
  | 0, west => .ok west
  | n + 1, west => do
    if ← connected nc zones zoneId row west then .ok west else skip row n (west + 1)

/-- `A/definition/clump.hpp:155-208`: cells to the west of the parent's span. Only non-diagonal connections. -/
def westNonDiagonal (q : Request) (clumps : List (Option Nat)) (requests : List Request) :
    M (Nat × List (Option Nat) × List Request) := do
  if ← andThen (q.west > 0) (do
      andThen (← connected nc zones zoneId q.row q.west) (do return !(← added nc clumps q.row (q.west - 1)))) then
    let (col, clumps) ← scanWest nc zones zoneId clumpId q.row q.west clumps
    if col < q.west - 1 then
      return (col, clumps, pushIf nr q.row col (q.west - 2) (!q.down) requests)
    else return (col, clumps, requests)
  else return (q.west, clumps, requests)

/-- `A/definition/clump.hpp:363-409`: cells to the west of the parent's span. Also diagonal connections. -/
def westDiagonal (q : Request) (clumps : List (Option Nat)) (requests : List Request) :
    M (Nat × List (Option Nat) × List Request) := do
  if ← andThen (q.west > 0) (do
      andThen (← connected nc zones zoneId q.row (q.west - 1)) (do return !(← added nc clumps q.row (q.west - 1)))) then
    let (col, clumps) ← scanWest nc zones zoneId clumpId q.row q.west clumps
    if col < q.west then
      return (col, clumps, pushIf nr q.row col (q.west - 1) (!q.down) requests)
    else return (col, clumps, requests)
  else return (q.west, clumps, requests)

/-- `A/definition/clump.hpp:219-233`, `420-434`: add cells to the clump, unless this has been done already. -/
def extend (row west : Nat) (clumps : List (Option Nat)) : M (Nat × List (Option Nat)) := do
  if !(← added nc clumps row west) then scanEast nc zones zoneId clumpId row (nc - west) west clumps
  else .ok (west, clumps)

/-- `A/definition/clump.hpp:210-292`, `411-493`: the body of the loop over the cells within the parent's span. -/
def scanBody (q : Request) (s : Scan) : M Scan := do
  let (west, clumps) ← extend nc zones zoneId clumpId q.row s.west s.clumps
  let requests := if west > s.col then pushIf nr q.row s.col (west - 1) q.down s.requests else s.requests
  let requests := if west - 1 > q.east then pushIf nr q.row (q.east + 1) (west - 1) (!q.down) requests else requests
  let west ← skip nc zones zoneId q.row (q.east + 1 - (west + 1)) (west + 1)
  return ⟨west, west, clumps, requests⟩

/-- `A/definition/clump.hpp:210-292`, `411-493` -/
def scan (q : Request) (s : Scan) : M Scan :=
  whileLoop (q.east + 2 - s.west) (fun s => s.west ≤ q.east) (scanBody nr nc zones zoneId clumpId q) s

/-- `A/definition/clump.hpp:497-537`: the cell to the east of the parent's span, in case of diagonal connections. -/
def eastDiagonal (q : Request) (s : Scan) : M (List (Option Nat) × List Request) := do
  if ← andThen (q.east < nc - 1) (andThen (s.west - 1 = q.east) (do
      andThen (← connected nc zones zoneId q.row s.west) (do return !(← added nc s.clumps q.row s.west)))) then
    let (west, clumps) ← scanEast nc zones zoneId clumpId q.row (nc - s.west) s.west s.clumps
    let requests := pushIf nr q.row (q.east + 1) (west - 1) q.down s.requests
    let requests := pushIf nr q.row (q.east + 1) (west - 1) (!q.down) requests
    return (clumps, requests)
  else return (s.clumps, s.requests)

/-- `A/definition/clump.hpp:150-292`: handle a request. -/
def processNonDiagonal (q : Request) (s : List (Option Nat) × List Request) : M (List (Option Nat) × List Request) := do
  let (col, clumps, requests) ← westNonDiagonal nr nc zones zoneId clumpId q s.1 s.2
  let s ← scan nr nc zones zoneId clumpId q ⟨q.west, col, clumps, requests⟩
  return (s.clumps, s.requests)

/-- `A/definition/clump.hpp:358-537`: handle a request. -/
def processDiagonal (q : Request) (s : List (Option Nat) × List Request) : M (List (Option Nat) × List Request) := do
  let (col, clumps, requests) ← westDiagonal nr nc zones zoneId clumpId q s.1 s.2
  let s ← scan nr nc zones zoneId clumpId q ⟨q.west, col, clumps, requests⟩
  eastDiagonal nr nc zones zoneId clumpId q s

/-- Handle the request at the top of the stack. -/
def popRequest (diagonal : Bool) (s : List (Option Nat) × List Request) : M (List (Option Nat) × List Request) :=
  match s.2 with
  | [] => .error .outOfBounds
  | q :: rest =>
    if diagonal then processDiagonal nr nc zones zoneId clumpId q (s.1, rest)
    else processNonDiagonal nr nc zones zoneId clumpId q (s.1, rest)

end

/-- `A/definition/clump.hpp:96-294` (nondiagonal), `305-539` (diagonal), `542-565`. The loop is given up after `fuel`
iterations. -/
def floodFill [DecidableEq Z] (fuel nr nc : Nat) (diagonal : Bool) (zones : List (Option Z)) (row col : Nat)
    (clumps : List (Option Nat)) (clumpId : Nat) : M (List (Option Nat)) := do
  match ← get nc zones row col with
  | none => .error .thrown  -- assertion
  | some zoneId =>
    let requests := pushIf nr row col col false [⟨row, col, col, true⟩]
    let s ← whileLoop fuel (fun s => !s.2.isEmpty) (popRequest nr nc zones zoneId clumpId diagonal) (clumps, requests)
    return s.1

/-- `A/definition/clump.hpp:855-861`, `1305-1317` and others: visit a cell. The state contains the clumps and the next clump
id. -/
def visit [DecidableEq Z] (fuel nr nc : Nat) (diagonal : Bool) (zones : List (Option Z)) (row col : Nat)
    (s : List (Option Nat) × Nat) : M (List (Option Nat) × Nat) := do
  let z ← get nc zones row col
  if ← andThen z.isSome (do return (← get nc s.1 row col).isNone) then
    let clumps ← floodFill fuel nr nc diagonal zones row col s.1 s.2
    return (clumps, s.2 + 1)
  else return s

/-- `A/definition/clump.hpp:843-863`: the clumps, and the number of clumps. -/
def clumpCells [DecidableEq Z] (fuel nr nc : Nat) (diagonal : Bool) (zones : List (Option Z)) : M (List (Option Nat) × Nat) :=
  forLoop nr (fun row s => forLoop nc (fun col s => visit fuel nr nc diagonal zones row col s) s)
    (List.replicate (nr * nc) none, 0)

/-! ### Specification -/

/-- The element in a cell. -/
def cell (nc : Nat) (data : List (Option α)) (row col : Nat) : Option α :=
  if col < nc then (data[row * nc + col]?).join else none

/-- Two different cells are neighbours: sharing a side or, if that is asked for, a corner. -/
def Adjacent (diagonal : Bool) (c c' : Nat × Nat) : Prop :=
  (c.1 = c'.1 ∧ (c.2 + 1 = c'.2 ∨ c'.2 + 1 = c.2)) ∨
  ((c.1 + 1 = c'.1 ∨ c'.1 + 1 = c.1) ∧ (c.2 = c'.2 ∨ (diagonal = true ∧ (c.2 + 1 = c'.2 ∨ c'.2 + 1 = c.2))))

/-- Neighbouring cells with the same (valid) zone. -/
def Linked (diagonal : Bool) (zone : Nat × Nat → Option Z) (c c' : Nat × Nat) : Prop :=
  Adjacent diagonal c c' ∧ zone c ≠ none ∧ zone c = zone c'

/-- `clump` and `n` are a correct numbering of the clumps in an array: valid cells have the same id if and only if these are
connected by a path of neighbouring cells with the same zone, and the ids are 0, ..., n - 1. -/
structure IsClumps (diagonal : Bool) (zone : Nat × Nat → Option Z) (clump : Nat × Nat → Option Nat) (n : Nat) : Prop where
  noData : ∀ c, clump c = none ↔ zone c = none
  same : ∀ c c', zone c ≠ none → zone c' ≠ none →
    (clump c = clump c' ↔ Relation.ReflTransGen (Linked diagonal zone) c c')
  ids : ∀ id, (∃ c, clump c = some id) ↔ id < n

end Lue.Clump

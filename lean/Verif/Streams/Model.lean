import Verif.Routing.D8
import Verif.Accu.Spec
import Verif.LocalOp.Model

/-!
C22: `upstream`, `downstream` and `downstream_distance`.
`A` below is `source/framework/algorithm/include/lue/framework/algorithm`.

Elements of the material array are values or no-data (`none`): the no-data policy detects / marks these. In case of the
policies which do not support no-data (`SkipNoData`, `DontMarkNoData`) all elements are values.
-/
namespace Lue.Streams

open Lue.Focal Lue.FocalStats Lue.Routing

variable {K : Type}

/-- `A/policy/flow_direction_halo.hpp:14-59`: the halo cells drain away from the array. -/
def flowDirectionHalo : Halo Nat where
  nw := northWest
  n := north
  ne := northEast
  w := west
  e := east
  sw := southWest
  s := south
  se := southEast

/-- `A/flow_accumulation.hpp:40,80`: the halo of the material, `FillHaloWithConstantValue{0}`. -/
def materialHalo [Zero K] : Halo (Option K) where
  nw := some 0
  n := some 0
  ne := some 0
  w := some 0
  e := some 0
  sw := some 0
  s := some 0
  se := some 0

/-- `A/definition/upstream.hpp:72-160`: visit neighbours, stop once a no-data material is encountered. Each of these is
given by its location in the window and the direction which points to the focal cell. -/
def gather [Add K] (flowDirection : List Nat) (material : List (Option K)) : List (Nat × Nat × Nat) → K → M (Option K)
  | [], sum => .ok (some sum)
  | (i, j, direction) :: rest, sum => do
    let d ← windowGet 3 flowDirection i j
    if d = direction then
      match ← windowGet 3 material i j with
      | none => .ok none
      | some m => gather flowDirection material rest (sum + m)
    else gather flowDirection material rest sum

/-- `A/definition/upstream.hpp:72-158`: the neighbours in the order in which they are visited. -/
def neighbours : List (Nat × Nat × Nat) :=
  [(0, 0, southEast), (0, 1, south), (0, 2, southWest), (1, 0, east), (1, 2, west), (2, 0, northEast), (2, 1, north),
    (2, 2, northWest)]

/-- `A/definition/upstream.hpp:30-161` -/
def upstreamFunctor [Add K] [Zero K] (isNoData : Nat → Bool) (flowDirection : List Nat) (material : List (Option K)) :
    M (Option K) := do
  let d ← windowGet 3 flowDirection 1 1
  let m ← windowGet 3 material 1 1
  if isNoData d || m.isNone then .ok none
  else gather flowDirection material neighbours 0

/-- `A/definition/upstream.hpp:176-190` -/
def upstream [Add K] [Zero K] (isNoData : Nat → Bool) (garbage : Nat → Nat) (garbage' garbage'' : Nat → Option K)
    (order : List Nat) (fd : PArr Nat) (material : PArr (Option K)) : M (PArr (Option K)) :=
  focal2 flowDirectionHalo materialHalo garbage garbage' garbage'' (boxKernel 1 true).radius (upstreamFunctor isNoData)
    order fd material

/-- `A/definition/downstream.hpp:61-71` (and likewise for the other directions): the material in the downstream cell, which
can be no-data. -/
def grab (material : List (Option K)) (i j : Nat) : M (Option K) := do
  match ← windowGet 3 material i j with
  | none => .ok none
  | some m => .ok (some m)

/-- `A/definition/downstream.hpp:30-157`. Note that all values which are not a flow direction are handled as if they mark a
sink (in debug builds, an assertion fails if that is not the case). -/
def downstreamFunctor (isNoData : Nat → Bool) (flowDirection : List Nat) (material : List (Option K)) : M (Option K) := do
  let d ← windowGet 3 flowDirection 1 1
  let m ← windowGet 3 material 1 1
  if isNoData d || m.isNone then .ok none
  else if d = northWest then grab material 0 0
  else if d = north then grab material 0 1
  else if d = northEast then grab material 0 2
  else if d = west then grab material 1 0
  else if d = east then grab material 1 2
  else if d = southWest then grab material 2 0
  else if d = south then grab material 2 1
  else if d = southEast then grab material 2 2
  else windowGet 3 material 1 1

/-- `A/definition/downstream.hpp:172-186` -/
def downstream [Zero K] (isNoData : Nat → Bool) (garbage : Nat → Nat) (garbage' garbage'' : Nat → Option K)
    (order : List Nat) (fd : PArr Nat) (material : PArr (Option K)) : M (PArr (Option K)) :=
  focal2 flowDirectionHalo materialHalo garbage garbage' garbage'' (boxKernel 1 true).radius (downstreamFunctor isNoData)
    order fd material

/-- `A/definition/downstream_distance.hpp:39-60`. `diagonal` is the member which is initialised with √2 × the cell size, by
the constructor (30-36). -/
def distanceFunctor [Zero K] (cellSize diagonal : K) (d : Nat) : K :=
  if d = northWest ∨ d = northEast ∨ d = southWest ∨ d = southEast then diagonal
  else if d = north ∨ d = west ∨ d = east ∨ d = south then cellSize
  else 0

/-- `A/definition/downstream_distance.hpp:83-94`: a unary local operation. The policies: `A/downstream_distance.hpp:9-19`,
all values are within the domain and the range. -/
def downstreamDistance [Zero K] (isNoData : Nat → Bool) (mark cellSize diagonal : K) (garbage : Nat → K) (order : List Nat)
    (fd : PArr Nat) : M (PArr K) :=
  LocalOp.unaryArray { indp := isNoData
                       dp := fun _ => true
                       rp := fun _ _ => true
                       mark := mark } (distanceFunctor cellSize diagonal) garbage order fd

/-! ### Specification -/

open Classical in
/-- The sum of the materials of the cells which drain into the cell. No-data if this can't be determined, or the cell itself
does not have a valid value. -/
noncomputable def upstreamValue [AddCommMonoid K] (isNoData : Nat → Bool) (a0 a1 : Nat) (fd : Arr Nat)
    (material : Arr (Option K)) (c : Cell) : Option K :=
  if isNoData (fd c.1 c.2) = true ∨ material c.1 c.2 = none then none
  else Accu.total (Accu.inflowing a0 a1 fd c) fun u => material u.1 u.2

/-- `v` is the material in the downstream cell of `c`. A cell without a downstream cell is a sink, which keeps its own
material, or is at the border and drains out of the array, where there is no material. -/
structure IsDownstreamValue [Zero K] (isNoData : Nat → Bool) (a0 a1 : Nat) (fd : Arr Nat) (material : Arr (Option K))
    (c : Cell) (v : Option K) : Prop where
  noData : isNoData (fd c.1 c.2) = true ∨ material c.1 c.2 = none → v = none
  drains : ∀ c', isNoData (fd c.1 c.2) = false → material c.1 c.2 ≠ none → Drains a0 a1 fd c c' → v = material c'.1 c'.2
  sink : isNoData (fd c.1 c.2) = false → move (fd c.1 c.2) = none → v = material c.1 c.2
  leaves : isNoData (fd c.1 c.2) = false → material c.1 c.2 ≠ none → move (fd c.1 c.2) ≠ none →
    (∀ c', ¬ Drains a0 a1 fd c c') → v = some 0

open Classical in
/-- The cells which have a downstream cell. -/
noncomputable def draining (a0 a1 : Nat) (fd : Arr Nat) : Finset Cell :=
  (Accu.allCells a0 a1).filter fun c => ∃ c', Drains a0 a1 fd c c'

end Lue.Streams

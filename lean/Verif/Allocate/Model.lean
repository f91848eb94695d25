import Verif.Walk.Model
import Mathlib.Data.Rat.Defs

/-!
# Model of `integrate_and_allocate`: allocating crops to cells along routes

Models
`source/framework/image_land/include/lue/framework/algorithm/definition/integrate_and_allocate.hpp`. The protocol is in
`Verif.Walk.Model`.

Simplifications: floating-point values are rational numbers. A loop over the crops in which each iteration only updates the
entry of its own crop in a vector is written as a function of the crop (`perCrop`). Per cell, the values of the output
partitions (one per crop) are a list with a value per crop; `none` is no-data. All input arrays have the shape of the route
(the code does not check this). The number of crops is that of the input arrays.
-/
namespace Lue.Allocate

open Lue.FirstN (Err need Route RoutePartition)

/-- `Data`: integrate_and_allocate.hpp:56-225. The route IDs are the zones. -/
structure Data where
  demand : AMap Int (List Rat)
  production : AMap Int (List Rat)
  met : AMap Int (List Bool)
  deriving DecidableEq

/-- `operator<=` of `std::vector`: lexicographic. -/
def lexLe : List Rat → List Rat → Bool
  | [], _ => true
  | _ :: _, [] => false
  | a :: l, b :: m => if a < b then true else if b < a then false else lexLe l m

/-- A value per crop. -/
def perCrop {γ : Type} (nrCrops : Nat) (f : Nat → γ) : List γ := (List.range nrCrops).map f

/-- The constructor of `Data`: integrate_and_allocate.hpp:75-114. For each crop, the *vectors* of demands and productions are
compared (line 109). -/
def Data.new (demand production : AMap Int (List Rat)) : Data :=
  { demand := demand, production := production
    met := demand.map fun e => (e.1, perCrop e.2.length fun _ => lexLe e.2 ((production.get e.1).getD [])) }

/-- `Data::keep_walking`: integrate_and_allocate.hpp:184-197. -/
def Data.keepWalking (d : Data) : Bool := d.met.all fun e => e.2.all fun b => b

/-- The inputs of a cell: per crop the sdp factor, yield factor, current crop fraction; the irrigated crop fraction. -/
structure Cell where
  sdp : List (Option Rat)
  yield : List (Option Rat)
  current : List (Option Rat)
  irrigated : Option Rat

/-- Whether one of the inputs is no-data: integrate_and_allocate.hpp:530-545. -/
def Cell.noData (c : Cell) : Bool :=
  c.sdp.any (fun v => v.isNone) || c.yield.any (fun v => v.isNone) || c.current.any (fun v => v.isNone) || c.irrigated.isNone

/-- The value of crop `i`. -/
def at' (l : List (Option Rat)) (i : Nat) : Rat := (l[i]?.join).getD 0

/-- The value of crop `i`. -/
def at_ (l : List Rat) (i : Nat) : Rat := l[i]?.getD 0

/-- "adjust demand surpassers": integrate_and_allocate.hpp:563-597, 652-688. -/
def adjust (met : Bool) (demand production fraction yield : Rat) : Rat :=
  if met then 0
  else if demand ≤ production + fraction * yield ∧ fraction > 0 then
    if yield > 0 then (demand - production) / yield else 0
  else fraction

/-- The sum of the values of all crops. -/
def total (l : List Rat) : Rat := l.foldl (· + ·) 0

/-- The computations for a single cell: integrate_and_allocate.hpp:553-712. Given the demands, productions, and whether demands
are met, for the zone; the inputs; and the extra fractions left behind by the previous cell (`extra_crop_fractions_per_crop` is
not reset). Returns the new crop fractions, productions, and extra fractions. -/
def allocate (nrCrops : Nat) (demand production : List Rat) (met : List Bool) (c : Cell) (extra : List Rat) :
    List Rat × List Rat × List Rat :=
  let yield := fun i => at' c.yield i
  let sdpFactor := fun i => at' c.sdp i
  let isMet := fun i => met[i]?.getD false
  -- lines 563-597
  let current := perCrop nrCrops fun i => adjust (isMet i) (at_ demand i) (at_ production i) (at' c.current i) (yield i)
  -- lines 600-613
  let production := perCrop nrCrops fun i => at_ production i + at_ current i * yield i
  let fSum := total current + c.irrigated.getD 0
  -- lines 617-632
  let remaining := perCrop nrCrops fun i => if isMet i then 0 else at_ demand i - at_ production i
  let sdp := total (perCrop nrCrops fun i => at_ remaining i * sdpFactor i)
  -- lines 637-648
  let extra := if sdp > 0 then
      perCrop nrCrops fun i => if i ≠ 0 then ((1 - fSum) * sdpFactor i / sdp) * at_ remaining i else at_ extra i
    else extra
  -- lines 652-688
  let extra := perCrop nrCrops fun i =>
    if i ≠ 0 then adjust (isMet i) (at_ demand i) (at_ production i) (at_ extra i) (yield i) else at_ extra i
  -- lines 690-699
  let production := perCrop nrCrops fun i => at_ production i + at_ extra i * yield i
  let fSum := fSum + total extra
  -- lines 702-706
  let extra := if fSum < 1 then extra.set 0 (1 - fSum) else extra
  -- lines 708-713
  (perCrop nrCrops fun i => at_ current i + at_ extra i, production, extra)

/-- The loop over the cells of a fragment: integrate_and_allocate.hpp:513-714. A cell without a value ends the loop (line
549). -/
def visitCells (nrCrops : Nat) (inputs : List Cell) (r : Int) : List Nat → List Rat → List (List (Option Rat)) → Data →
    Except Err (List (List (Option Rat)) × Data)
  | [], _, out, d => .ok (out, d)
  | i :: l, extra, out, d =>
    if d.keepWalking then do
      let c ← need inputs[i]?
      if c.noData then .ok (out, d)
      else
        let demand ← need (d.demand.get r)
        let production ← need (d.production.get r)
        let met ← need (d.met.get r)
        let (fractions, production, extra) := allocate nrCrops demand production met c extra
        if i < out.length then
          visitCells nrCrops inputs r l extra (out.set i (fractions.map some)) { d with production := d.production.put r production }
        else .error .fault
    else .ok (out, d)

/-- `integrate_and_allocate`, given the inputs of each partition. -/
def algo (nrCrops : Nat) (inputs : Nat → List Cell) (demand production : AMap Int (List Rat)) :
    Walk.Algo (List (Option Rat)) Data where
  noData := List.replicate nrCrops none
  start := Data.new demand production
  keepWalking := Data.keepWalking
  visit := fun p r cells out d => visitCells nrCrops (inputs p) r cells (List.replicate nrCrops 0) out d

/-- `_zonal_productions_per_crop` of the component of a partition: initialised in the constructor, and passed to the promise in
`finish_results`: integrate_and_allocate.hpp:311-327, 866. Nothing else in the class assigns to it. -/
def zonalProductions (nrCrops : Nat) (p : RoutePartition) : AMap Int (List Rat) :=
  p.frags.map fun e => (e.1, List.replicate nrCrops 0)

/-- Add the productions of a zone in a partition to the result: integrate_and_allocate.hpp:1297-1320. -/
def addProductions (result : AMap Int (List Rat)) (e : Int × List Rat) : AMap Int (List Rat) :=
  match result.get e.1 with
  | none => result.put e.1 e.2
  | some l => result.put e.1 (List.zipWith (· + ·) l e.2)

/-- The zonal productions returned: integrate_and_allocate.hpp:1281-1326. -/
def aggregate (nrCrops : Nat) (R : Route) : AMap Int (List Rat) :=
  ((List.range R.nrParts).flatMap fun p => zonalProductions nrCrops (R.parts p)).foldl addProductions []

end Lue.Allocate

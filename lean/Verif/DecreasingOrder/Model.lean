import Verif.FirstN.Spec
import Mathlib.Order.Defs.LinearOrder

/-!
# Model of `decreasing_order`

Models `source/framework/algorithm/include/lue/framework/algorithm/definition/decreasing_order.hpp`: per zone, a route from
the cell with the highest value to the cell with the lowest value, recorded by components (one per partition) which pass a
message around.

Simplifications: components and partitions are numbered; partitions are one-dimensional collections of cells (linear
indices); numbers are unbounded and values are totally ordered (no NaN, which is a no-data value by default);
`std::sort` is some function that sorts; `std::lower_bound` on a sorted collection finds the first element for which the
predicate does not hold. A call of `record_route_fragment` is a single step: its first part, which holds a read lock, only
uses the collection of values of the route, which is only changed by other calls for the same route, which are ordered.
-/
namespace Lue.DecreasingOrder

open Lue.FirstN (Fragment)

/-- Things that go wrong. -/
inductive Err where
  /-- Access of something that does not exist, or a failing assertion -/
  | fault
  /-- `hpx::promise` throws: the promise has been moved from (`no_state`) -/
  | noState
  /-- `hpx::promise` throws: its future is already retrieved -/
  | futureAlreadyRetrieved
  deriving DecidableEq

/-- Something that must exist. -/
def need {α : Type} (o : Option α) : Except Err α := match o with | none => .error .fault | some a => .ok a

/-- `lue_hpx_assert` -/
def assert (b : Bool) : Except Err Unit := if b then .ok () else .error .fault

/-- The zones and the values of the cells of each partition; `none` is no-data. Both arrays are supposed to have the same
shape (a precondition of the function; the code does not check it: the assertion at decreasing_order.hpp:287 compares the
number of values with itself). -/
structure Input (V : Type) where
  nrParts : Nat
  zone : Nat → List (Option Int)
  value : Nat → List (Option V)

/-- `std::sort` by decreasing key. -/
abbrev SortFn (V : Type) := {α : Type} → (α → V) → List α → List α

/-- `DecreasingOrderZonal` and `DecreasingOrderData`: decreasing_order.hpp:75-200, 566-568. -/
structure Comp (V : Type) where
  /-- `_local_values_by_zone`: values and cells -/
  localValues : AMap Int (List (V × Nat))
  /-- `_route_fragments`: the cells of each fragment -/
  frags : AMap Int (List (List Nat))
  /-- `_route_fragment_ends`: futures to locations -/
  ends : List (Option Nat)
  /-- `_route_fragment_ends_idxs`: index of the fragment, and index of the future -/
  endsIdxs : AMap Int (List (Nat × Nat))
  /-- `route_partition()` has been called -/
  retrieved : Bool
  /-- `sort_values()` has been called -/
  sorted : Bool
  /-- `finish_partition()` has been called -/
  finishing : Bool
  /-- The fragments written to the route partition; the promise has its value -/
  result : Option (AMap Int (List Fragment))

/-- The constructors: decreasing_order.hpp:105-117, 243-250. -/
def Comp.new {V : Type} : Comp V :=
  { localValues := [], frags := [], ends := [], endsIdxs := [], retrieved := false, sorted := false, finishing := false,
    result := none }

/-- Messages. The location returned by `record_route_fragment` makes a future ready: one of those kept by a component, or the
one of the start of the route. -/
inductive Msg (V : Type) where
  | record (part : Nat) (route : Int) (maxima : List (V × Nat)) (nrCells : Int) (reply : Option (Nat × Nat))
  | skip (part : Nat) (route : Int)
  deriving DecidableEq

section
variable {V : Type} [LinearOrder V]

/-- `route_partition()`: decreasing_order.hpp:127-130, 253-256. -/
def routePartition (c : Comp V) : Except Err (Comp V) :=
  if c.finishing then .error .noState
  else if c.retrieved then .error .futureAlreadyRetrieved
  else .ok { c with retrieved := true }

/-- `finish_partition()`: decreasing_order.hpp:133-187. The continuation is `complete`. -/
def finishPartition (c : Comp V) : Except Err (Comp V) :=
  if c.finishing then .error .fault else .ok { c with finishing := true }

/-- Finish when there are no more values to record: decreasing_order.hpp:319-322, 506-509, 526-529. -/
def finishIfDone (c : Comp V) : Except Err (Comp V) := if c.localValues.isEmpty then finishPartition c else .ok c

/-- Setting the locations of the next fragments of one route: decreasing_order.hpp:157-173. -/
def endFragments (ends : List (Option Nat)) : List (Nat × Nat) → List Fragment → Except Err (List Fragment)
  | [], l => .ok l
  | (k, e) :: idxs, l => do
    let f ← need l[k]?
    let loc ← need (ends[e]?.join)
    assert f.next.isNone
    endFragments ends idxs (l.set k { f with next := some loc })

/-- Setting the locations of the next fragments of all routes: decreasing_order.hpp:152-174. -/
def endRoutes (ends : List (Option Nat)) : AMap Int (List (Nat × Nat)) → AMap Int (List Fragment) →
    Except Err (AMap Int (List Fragment))
  | [], m => .ok m
  | (r, idxs) :: l, m => do
    let fragments ← endFragments ends idxs ((m.get r).getD [])
    endRoutes ends l (m.put r fragments)

/-- The fragments written to the partition. -/
def build (c : Comp V) : Except Err (AMap Int (List Fragment)) :=
  endRoutes c.ends c.endsIdxs (c.frags.map fun e => (e.1, e.2.map fun cells => ⟨cells, none⟩))

/-- The continuation in `finish_partition()`: decreasing_order.hpp:145-182. -/
def complete (c : Comp V) : Except Err (Comp V) := do
  let fragments ← build c
  .ok { c with result := some fragments }

/-- The loop over the cells in `sort_values()`: decreasing_order.hpp:293-301. -/
def collect : List (Option Int) → List (Option V) → Nat → AMap Int (List (V × Nat)) → AMap Int (List (V × Nat))
  | some z :: zs, some v :: vs, idx, m => collect zs vs (idx + 1) (m.put z ((m.get z).getD [] ++ [(v, idx)]))
  | _ :: zs, _ :: vs, idx, m => collect zs vs (idx + 1) m
  | _, _, _, m => m

/-- `sort_values()`: decreasing_order.hpp:268-327. Returns the maximum per zone. -/
def sortValues (sort : SortFn V) (zones : List (Option Int)) (values : List (Option V)) (c : Comp V) :
    Except Err (Comp V × AMap Int V) := do
  let m := (collect zones values 0 []).map fun e => (e.1, sort Prod.fst e.2)
  let result := m.filterMap fun e => e.2.head?.map fun x => (e.1, x.1)
  let c := { c with localValues := m, sorted := true }
  let c ← finishIfDone c
  .ok (c, result)

/-- The loop recording cells: decreasing_order.hpp:384-405. Returns the cells, and the number of cells on the route. -/
def recordCells (remote : V) (max : Int) : List (V × Nat) → Int → List Nat × Int
  | [], cur => ([], cur)
  | (v, i) :: l, cur =>
    if cur < max then
      if remote ≤ v then
        let x := recordCells remote max l (cur + 1)
        (i :: x.1, x.2)
      else ([], cur)
    else ([], cur)

/-- Insert a maximum in the sorted collection of maxima: decreasing_order.hpp:468-480. -/
def insertMaximum (new : V) (p : Nat) (l : List (V × Nat)) : List (V × Nat) :=
  (l.takeWhile fun m => decide (new < m.1)) ++ (new, p) :: l.dropWhile fun m => decide (new < m.1)

/-- Store the fragment: decreasing_order.hpp:502. -/
def pushFragment (c : Comp V) (r : Int) (cells : List Nat) : Comp V :=
  { c with frags := c.frags.put r ((c.frags.get r).getD [] ++ [cells]) }

/-- Store the future to the location of the next fragment: decreasing_order.hpp:490-499. -/
def pushEnd (c : Comp V) (r : Int) : Comp V :=
  { c with
    ends := c.ends ++ [none]
    endsIdxs := c.endsIdxs.put r ((c.endsIdxs.get r).getD [] ++ [(((c.frags.get r).getD []).length, c.ends.length)]) }

/-- `record_route_fragment()`: decreasing_order.hpp:334-514. `lowest` is `std::numeric_limits<Value>::min()`, `p` is this
component. Returns the messages sent. -/
def record (lowest : V) (max : Int) (p : Nat) (c : Comp V) (r : Int) (maxima : List (V × Nat)) (cur : Int) :
    Except Err (Comp V × List (Msg V)) := do
  let values ← need (c.localValues.get r)
  let m0 ← need maxima[0]?
  let v0 ← need values[0]?
  assert (decide (m0.1 = v0.1) && decide (m0.2 = p))
  let remote ← match maxima[1]? with
    | none => .ok lowest
    | some (v, q) => do
      assert (decide (v ≤ v0.1) && decide (q ≠ p))
      .ok v
  let (cells, cur) := recordCells remote max values cur
  let maxima := maxima.tail
  let values := values.drop cells.length
  match maxima with
  | (vq, q) :: rest =>
    if cur < max then do
      -- Continue downstream
      let (c, maxima) ← match values with
        | [] => .ok ({ c with localValues := c.localValues.erase r }, (vq, q) :: rest)
        | (v, i) :: l => do
          assert (decide (v < vq))
          .ok ({ c with localValues := c.localValues.put r ((v, i) :: l) }, insertMaximum v p ((vq, q) :: rest))
      let reply := (p, c.ends.length)
      let c := pushFragment (pushEnd c r) r cells
      let c ← finishIfDone c
      .ok (c, [.record q r maxima cur (some reply)])
    else do
      assert (((vq, q) :: rest).all fun m => decide (m.2 ≠ p))
      let c := pushFragment { c with localValues := c.localValues.erase r } r cells
      let c ← finishIfDone c
      .ok (c, ((vq, q) :: rest).map fun m => .skip m.2 r)
  | [] => do
    let c := pushFragment { c with localValues := c.localValues.erase r } r cells
    let c ← finishIfDone c
    .ok (c, [])

/-- `skip_recording_route_fragments()`: decreasing_order.hpp:517-530. -/
def skipRecording (c : Comp V) (r : Int) : Except Err (Comp V) := do
  let _ ← need (c.localValues.get r)
  let c := { c with localValues := c.localValues.erase r }
  finishIfDone c

/-- All components, and the messages on their way. -/
structure Sys (V : Type) where
  comp : Nat → Comp V
  /-- The maximum per zone returned by `sort_values()` -/
  maxima : Nat → AMap Int V
  started : Bool
  /-- The starts of the routes -/
  starts : AMap Int Nat
  msgs : List (Msg V)

/-- One component per partition: decreasing_order.hpp:1273-1325. -/
def init : Sys V := { comp := fun _ => Comp.new, maxima := fun _ => [], started := false, starts := [], msgs := [] }

/-- Add the maxima of partition `p` to the collections per zone: decreasing_order.hpp:1365-1377. -/
def addMaxima (p : Nat) : AMap Int V → AMap Int (List (V × Nat)) → AMap Int (List (V × Nat))
  | [], m => m
  | (z, v) :: l, m => addMaxima p l (m.put z ((m.get z).getD [] ++ [(v, p)]))

/-- The maxima of all partitions, per zone: decreasing_order.hpp:1346-1377. -/
def collectMaxima (maxima : Nat → AMap Int V) (nrParts : Nat) : AMap Int (List (V × Nat)) :=
  (List.range nrParts).foldl (fun m p => addMaxima p (maxima p) m) []

/-- Start recording the routes: decreasing_order.hpp:1379-1410. -/
def startMsgs (sort : SortFn V) (maxima : Nat → AMap Int V) (nrParts : Nat) : List (Msg V) :=
  (collectMaxima maxima nrParts).filterMap fun e =>
    let l := sort Prod.fst e.2
    l.head?.map fun m => .record m.2 e.1 l 0 none

/-- What can happen. -/
inductive Action (V : Type) where
  /-- `route_partition()` is called -/
  | route (p : Nat)
  /-- `sort_values()` is called -/
  | sort (p : Nat)
  /-- All maxima are known: recording the routes starts -/
  | start
  /-- A message is delivered -/
  | deliver (m : Msg V)
  /-- The continuation in `finish_partition()` runs -/
  | complete (p : Nat)

/-- Whether something can happen. -/
def Enabled (I : Input V) (s : Sys V) : Action V → Prop
  | .route p => p < I.nrParts ∧ (s.comp p).retrieved = false
  | .sort p => p < I.nrParts ∧ (s.comp p).sorted = false
  | .start => s.started = false ∧ ∀ p < I.nrParts, (s.comp p).sorted = true
  | .deliver m => m ∈ s.msgs
  | .complete p => p < I.nrParts ∧ (s.comp p).finishing = true ∧ (s.comp p).result = none ∧
      ∀ f ∈ (s.comp p).ends, f.isSome = true

/-- Make the future for the location of a fragment ready. -/
def setReply (s : Sys V) (r : Int) (p : Nat) : Option (Nat × Nat) → Sys V
  | none => { s with starts := s.starts.put r p }
  | some (q, e) => { s with comp := Function.update s.comp q { s.comp q with ends := (s.comp q).ends.set e (some p) } }

/-- Perform an action. -/
def perform (I : Input V) (sort : SortFn V) (lowest : V) (max : Int) (s : Sys V) : Action V → Except Err (Sys V)
  | .route p => do
    let c ← routePartition (s.comp p)
    .ok { s with comp := Function.update s.comp p c }
  | .sort p => do
    let (c, m) ← sortValues sort (I.zone p) (I.value p) (s.comp p)
    .ok { s with comp := Function.update s.comp p c, maxima := Function.update s.maxima p m }
  | .start => .ok { s with started := true, msgs := s.msgs ++ startMsgs sort s.maxima I.nrParts }
  | .deliver (.record p r maxima cur reply) => do
    let (c, msgs) ← record lowest max p (s.comp p) r maxima cur
    .ok (setReply { s with comp := Function.update s.comp p c, msgs := s.msgs.erase (.record p r maxima cur reply) ++ msgs } r p reply)
  | .deliver (.skip p r) => do
    let c ← skipRecording (s.comp p) r
    .ok { s with comp := Function.update s.comp p c, msgs := s.msgs.erase (.skip p r) }
  | .complete p => do
    let c ← complete (s.comp p)
    .ok { s with comp := Function.update s.comp p c }

/-- `route_partition()` is not overtaken by the sorting and recording. -/
def Timely (s : Sys V) : Action V → Prop
  | .route p => (s.comp p).finishing = false
  | _ => True

/-- The states that can be reached when `route_partition()` is not overtaken. -/
inductive Reachable (I : Input V) (sort : SortFn V) (lowest : V) (max : Int) : Sys V → Prop
  | init : Reachable I sort lowest max init
  | step {s s' : Sys V} {a : Action V} : Reachable I sort lowest max s → Enabled I s a → Timely s a →
      perform I sort lowest max s a = .ok s' → Reachable I sort lowest max s'

/-- The route that is the result, when all partitions are ready: decreasing_order.hpp:1440. -/
def toRoute (I : Input V) (s : Sys V) : FirstN.Route :=
  { starts := s.starts, nrParts := I.nrParts,
    parts := fun p => { nrCells := (I.value p).length, frags := ((s.comp p).result).getD [] } }

end
end Lue.DecreasingOrder

import Verif.Util.AMap

/-!
# Model of walking along routes: `first_n`

Models `source/framework/algorithm/include/lue/framework/algorithm/definition/first_n.hpp`,
`source/framework/algorithm/include/lue/framework/algorithm/walk.hpp`,
`source/framework/algorithm/{include/lue/framework/algorithm,source}/routing/walk/cell_counter.{hpp,cpp}` and the classes in
`source/framework/partitioned_route/include/lue/framework/partitioned_route/` they use.

Each partition of the route is handled by a component. Components send each other asynchronous messages (HPX actions). A
component handles its `walk` and `skip_walking_route_fragments` messages one at a time (they hold a write lock during the
whole call). Messages are delivered in any order.

Simplifications: identifiers of components and of route partitions are partition numbers; the number of elements fits the
types of the code; creating components does not fail.
-/
namespace Lue

namespace AMap

/-- `std::map::erase(key)` -/
def erase {K V : Type} [DecidableEq K] (m : AMap K V) (k : K) : AMap K V := m.filter fun e => decide (e.1 ≠ k)

end AMap

namespace FirstN

/-- `SerialRouteFragment`: the cells (linear indices within the partition), and the location of the next fragment, if any:
partitioned_route/serial_route_fragment.hpp:24-126. `is_last()` is `next = none`. -/
structure Fragment where
  cells : List Nat
  next : Option Nat
  deriving DecidableEq

/-- `server::SerialRoutePartition`: fragments by route ID, and the number of cells in the partition:
partitioned_route/server/serial_route_partition_impl.hpp:30-42. -/
structure RoutePartition where
  nrCells : Nat
  frags : AMap Int (List Fragment)

/-- `SerialRoute`: start location by route ID, and the partitions: serial_route.hpp. -/
structure Route where
  starts : AMap Int Nat
  nrParts : Nat
  parts : Nat → RoutePartition

/-- `SerialRoutePartition::remote_route_fragment_locations`: serial_route_partition_impl.hpp:109-128. -/
def RoutePartition.remoteLocations (p : RoutePartition) : List Nat :=
  p.frags.flatMap fun e => e.2.filterMap Fragment.next

/-- `CellCounter`: cell_counter.hpp:8-41. -/
structure CellCounter where
  visited : Int
  max : Int
  deriving DecidableEq

/-- `CellCounter(max_nr_cells_to_visit)`: cell_counter.cpp:15-21. -/
def CellCounter.new (max : Int) : CellCounter := ⟨0, max⟩

/-- `CellCounter::operator++`: cell_counter.cpp:24-27. -/
def CellCounter.inc (d : CellCounter) : CellCounter := { d with visited := d.visited + 1 }

/-- `CellCounter::keep_walking`: cell_counter.cpp:30-33. -/
def CellCounter.keepWalking (d : CellCounter) : Bool := decide (d.visited < d.max)

/-- A message on its way to the component of a partition. -/
inductive Msg where
  /-- `walk(route_id, data)` -/
  | walk (part : Nat) (route : Int) (data : CellCounter)
  /-- `skip_walking_route_fragments(route_id)` -/
  | skip (part : Nat) (route : Int)
  deriving DecidableEq

def Msg.route : Msg → Int
  | .walk _ r _ => r
  | .skip _ r => r

def Msg.part : Msg → Nat
  | .walk p _ _ => p
  | .skip p _ => p

/-- `server::Walk`: first_n.hpp:322-338. A cell of the output partition is `none` when it contains no-data. -/
structure Comp where
  /-- `_output_partition` -/
  out : List (Option Int)
  /-- `_fragment_idxs` -/
  idxs : AMap Int Nat
  /-- The keys of `_downstream_components` -/
  downstream : List Nat
  /-- The promise's future has been retrieved -/
  retrieved : Bool
  /-- The promise has its value -/
  finished : Bool

/-- Things that go wrong: a failing assertion, an exception, an access outside of a buffer. -/
inductive Err where
  /-- Access of something that does not exist, or a failing assertion -/
  | fault
  /-- `hpx::promise` throws: its value is already set (`promise_already_satisfied`) -/
  | promiseAlreadySatisfied
  /-- `hpx::promise` throws: its future is already retrieved -/
  | futureAlreadyRetrieved
  deriving DecidableEq

/-- Something that must exist. -/
def need {α : Type} (o : Option α) : Except Err α := match o with | none => .error .fault | some a => .ok a

/-- `lue_hpx_assert` -/
def assert (b : Bool) : Except Err Unit := if b then .ok () else .error .fault

/-- The constructor of `server::Walk`: first_n.hpp:53-92. All cells contain no-data, all fragment indices are zero. -/
def Comp.new (p : RoutePartition) : Comp :=
  { out := List.replicate p.nrCells none, idxs := p.frags.map fun e => (e.1, 0), downstream := [], retrieved := false,
    finished := false }

/-- `finish_partition`: first_n.hpp:310-320. -/
def finishPartition (c : Comp) : Except Err Comp := do
  assert c.idxs.isEmpty
  if c.finished then .error .promiseAlreadySatisfied
  else .ok { c with finished := true, downstream := [] }

/-- `result_partition`: first_n.hpp:95-109. -/
def resultPartition (c : Comp) : Except Err Comp :=
  if c.retrieved then .error .futureAlreadyRetrieved
  else
    let c := { c with retrieved := true }
    if c.idxs.isEmpty then finishPartition c else .ok c

/-- `set_downstream_components`: first_n.hpp:112-115. -/
def setDownstream (c : Comp) (l : List Nat) : Comp := { c with downstream := l }

/-- The loop over the cells of a fragment: first_n.hpp:170-174. -/
def walkCells : List Nat → List (Option Int) → CellCounter → Except Err (List (Option Int) × CellCounter)
  | [], out, d => .ok (out, d)
  | i :: l, out, d =>
    if d.keepWalking then
      if i < out.length then walkCells l (out.set i (some 1)) d.inc else .error .fault
    else .ok (out, d)

/-- The last part of `walk` and of `skip_walking_route_fragments`: `fragment_idx` is the number of fragments handled.
first_n.hpp:212-225, 283-296. -/
def leaveFragment (c : Comp) (r : Int) (idx nrFragments : Nat) : Except Err Comp :=
  let c := { c with idxs := c.idxs.put r idx }
  if idx = nrFragments then
    let c := { c with idxs := c.idxs.erase r }
    if c.idxs.isEmpty then finishPartition c else .ok c
  else .ok c

/-- `walk`: first_n.hpp:118-226. Returns the messages sent. -/
def walk (p : RoutePartition) (c : Comp) (r : Int) (d : CellCounter) : Except Err (Comp × List Msg) := do
  assert (!c.idxs.isEmpty)
  let idx ← need (c.idxs.get r)
  let frags ← need (p.frags.get r)
  let frag ← need frags[idx]?
  let (out, d) ← walkCells frag.cells c.out d
  let c := { c with out := out }
  let msgs ← match frag.next with
    | none => .ok []
    | some q => do
      assert (decide (q ∈ c.downstream))
      .ok (if d.keepWalking then [Msg.walk q r d] else [Msg.skip q r])
  assert (frag.next.isSome || decide (idx + 1 = frags.length))
  let c ← leaveFragment c r (idx + 1) frags.length
  .ok (c, msgs)

/-- `skip_walking_route_fragments`: first_n.hpp:229-297. -/
def skipWalking (p : RoutePartition) (c : Comp) (r : Int) : Except Err (Comp × List Msg) := do
  assert (!c.idxs.isEmpty)
  let idx ← need (c.idxs.get r)
  let frags ← need (p.frags.get r)
  let frag ← need frags[idx]?
  let msgs ← match frag.next with
    | none => .ok []
    | some q => do
      assert (decide (q ∈ c.downstream))
      .ok [Msg.skip q r]
  let c ← leaveFragment c r (idx + 1) frags.length
  .ok (c, msgs)

/-- All components, and the messages on their way. -/
structure Sys where
  comp : Nat → Comp
  /-- `set_downstream_components` has been called -/
  configured : Nat → Bool
  /-- The walks have been started -/
  started : Bool
  msgs : List Msg

/-- first_n.hpp:466-487: one component per partition. -/
def init (R : Route) : Sys :=
  { comp := fun p => Comp.new (R.parts p), configured := fun _ => false, started := false, msgs := [] }

/-- What can happen. -/
inductive Action where
  /-- `result_partition()` is called: first_n.hpp:489-496 -/
  | result (p : Nat)
  /-- `set_downstream_components` is called: walk.hpp:181-208 -/
  | configure (p : Nat)
  /-- All walks are started: walk.hpp:213-250 -/
  | start
  /-- A message is delivered -/
  | deliver (m : Msg)
  deriving DecidableEq

/-- Whether something can happen, given the dependencies between the tasks: the component is asked for its result once, at
any moment; it is configured once; the walks are started when all components are configured. -/
def Enabled (R : Route) (s : Sys) : Action → Prop
  | .result p => p < R.nrParts ∧ (s.comp p).retrieved = false
  | .configure p => p < R.nrParts ∧ s.configured p = false
  | .start => s.started = false ∧ ∀ p < R.nrParts, s.configured p = true
  | .deliver m => m ∈ s.msgs

/-- Perform an action. `n` is the maximum number of cells to visit. -/
def perform (R : Route) (n : Int) (s : Sys) : Action → Except Err Sys
  | .result p => do
    let c ← resultPartition (s.comp p)
    .ok { s with comp := Function.update s.comp p c }
  | .configure p =>
    .ok { s with
      comp := Function.update s.comp p (setDownstream (s.comp p) (R.parts p).remoteLocations)
      configured := Function.update s.configured p true }
  | .start =>
    .ok { s with started := true, msgs := s.msgs ++ R.starts.map fun e => Msg.walk e.2 e.1 (CellCounter.new n) }
  | .deliver (.walk p r d) => do
    let (c, msgs) ← walk (R.parts p) (s.comp p) r d
    .ok { s with comp := Function.update s.comp p c, msgs := s.msgs.erase (.walk p r d) ++ msgs }
  | .deliver (.skip p r) => do
    let (c, msgs) ← skipWalking (R.parts p) (s.comp p) r
    .ok { s with comp := Function.update s.comp p c, msgs := s.msgs.erase (.skip p r) ++ msgs }

/-- `result_partition()` is not overtaken by the walk: the partition is not finished yet. -/
def Timely (s : Sys) : Action → Prop
  | .result p => (s.comp p).finished = false
  | _ => True

/-- The states that can be reached when `result_partition()` is not overtaken. -/
inductive Reachable (R : Route) (n : Int) : Sys → Prop
  | init : Reachable R n (init R)
  | step {s s' : Sys} {a : Action} : Reachable R n s → Enabled R s a → Timely s a → perform R n s a = .ok s' → Reachable R n s'

end FirstN
end Lue

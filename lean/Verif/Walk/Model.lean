import Verif.FirstN.Lemmas

/-!
# Model of walking along routes, for any algorithm visiting cells

Models the protocol shared by the `Walk` components in
`source/framework/image_land/include/lue/framework/algorithm/definition/integrate.hpp` and
`source/framework/image_land/include/lue/framework/algorithm/definition/integrate_and_allocate.hpp`, and
`source/framework/algorithm/include/lue/framework/algorithm/walk.hpp`. They differ in the data carried along a route, and in
what is done with the cells of a fragment: these are parameters here.

Each partition of the route is handled by a component. Components send each other asynchronous messages. A component handles
its `walk` and `skip_walking_route_fragments` messages one at a time (they hold a write lock during the whole call). Messages
are delivered in any order.

Simplifications: as in `Verif.FirstN.Model`. The output partitions of a component (one per crop in the case of
`integrate_and_allocate`) are a single list of cells.
-/
namespace Lue.Walk

open Lue.FirstN (Fragment RoutePartition Route Err need assert)

/-- What an algorithm does: integrate.hpp:188-203, integrate_and_allocate.hpp:513-705. -/
structure Algo (β δ : Type) where
  /-- The value cells are initialised with -/
  noData : β
  /-- The data each walk starts with -/
  start : δ
  /-- `data.keep_walking()` -/
  keepWalking : δ → Bool
  /-- The loop over the cells of a fragment: given the partition, route, cells, the output partition, and the data. -/
  visit : Nat → Int → List Nat → List β → δ → Except Err (List β × δ)

/-- A message on its way to the component of a partition. -/
inductive Msg (δ : Type) where
  /-- `walk(route_id, data)` -/
  | walk (part : Nat) (route : Int) (data : δ)
  /-- `skip_walking_route_fragments(route_id)` -/
  | skip (part : Nat) (route : Int)
  deriving DecidableEq

def Msg.route {δ : Type} : Msg δ → Int
  | .walk _ r _ => r
  | .skip _ r => r

/-- `server::Walk`: integrate.hpp:341-362. -/
structure Comp (β : Type) where
  /-- `_output_partition` -/
  out : List β
  /-- `_fragment_idxs` -/
  idxs : AMap Int Nat
  /-- The keys of `_downstream_components` -/
  downstream : List Nat
  /-- The promise's future has been retrieved -/
  retrieved : Bool
  /-- The promise has its value -/
  finished : Bool

/-- The constructor of `server::Walk`: integrate.hpp:77-121. -/
def Comp.new {β : Type} (noData : β) (p : RoutePartition) : Comp β :=
  { out := List.replicate p.nrCells noData, idxs := p.frags.map fun e => (e.1, 0), downstream := [], retrieved := false,
    finished := false }

/-- `finish_partition`: integrate.hpp:329-339. -/
def finishPartition {β : Type} (c : Comp β) : Except Err (Comp β) := do
  assert c.idxs.isEmpty
  if c.finished then .error .promiseAlreadySatisfied
  else .ok { c with finished := true, downstream := [] }

/-- `result_partition`: integrate.hpp:124-138. -/
def resultPartition {β : Type} (c : Comp β) : Except Err (Comp β) :=
  if c.retrieved then .error .futureAlreadyRetrieved
  else
    let c := { c with retrieved := true }
    if c.idxs.isEmpty then finishPartition c else .ok c

/-- `set_downstream_components`: integrate.hpp:141-144. -/
def setDownstream {β : Type} (c : Comp β) (l : List Nat) : Comp β := { c with downstream := l }

/-- The last part of `walk` and of `skip_walking_route_fragments`: `fragment_idx` is the number of fragments handled.
integrate.hpp:246-259, 303-313. -/
def leaveFragment {β : Type} (c : Comp β) (r : Int) (idx nrFragments : Nat) : Except Err (Comp β) :=
  let c := { c with idxs := c.idxs.put r idx }
  if idx = nrFragments then
    let c := { c with idxs := c.idxs.erase r }
    if c.idxs.isEmpty then finishPartition c else .ok c
  else .ok c

/-- `walk`: integrate.hpp:147-260. Returns the messages sent. -/
def walk {β δ : Type} (A : Algo β δ) (part : Nat) (p : RoutePartition) (c : Comp β) (r : Int) (d : δ) :
    Except Err (Comp β × List (Msg δ)) := do
  assert (!c.idxs.isEmpty)
  let idx ← need (c.idxs.get r)
  let frags ← need (p.frags.get r)
  let frag ← need frags[idx]?
  let (out, d) ← A.visit part r frag.cells c.out d
  let c := { c with out := out }
  let msgs ← match frag.next with
    | none => .ok []
    | some q => do
      assert (decide (q ∈ c.downstream))
      .ok (if A.keepWalking d then [Msg.walk q r d] else [Msg.skip q r])
  assert (frag.next.isSome || decide (idx + 1 = frags.length))
  let c ← leaveFragment c r (idx + 1) frags.length
  .ok (c, msgs)

/-- `skip_walking_route_fragments`: integrate.hpp:263-314. -/
def skipWalking {β δ : Type} (p : RoutePartition) (c : Comp β) (r : Int) : Except Err (Comp β × List (Msg δ)) := do
  assert (!c.idxs.isEmpty)
  let idx ← need (c.idxs.get r)
  let frags ← need (p.frags.get r)
  let frag ← need frags[idx]?
  let msgs ← match frag.next with
    | none => .ok []
    | some q => do
      assert (decide (q ∈ c.downstream))
      .ok [Msg.skip q r]
  let c ← leaveFragment c r (idx + 1) frags.length
  .ok (c, msgs)

/-- All components, and the messages on their way. -/
structure Sys (β δ : Type) where
  comp : Nat → Comp β
  /-- `set_downstream_components` has been called -/
  configured : Nat → Bool
  /-- The walks have been started -/
  started : Bool
  msgs : List (Msg δ)

/-- integrate.hpp:497-524: one component per partition. -/
def init {β δ : Type} (A : Algo β δ) (R : Route) : Sys β δ :=
  { comp := fun p => Comp.new A.noData (R.parts p), configured := fun _ => false, started := false, msgs := [] }

/-- What can happen. -/
inductive Action (δ : Type) where
  /-- `result_partition()` is called: integrate.hpp:526-533 -/
  | result (p : Nat)
  /-- `set_downstream_components` is called: walk.hpp:175-200 -/
  | configure (p : Nat)
  /-- All walks are started: walk.hpp:204-243 -/
  | start
  /-- A message is delivered -/
  | deliver (m : Msg δ)
  deriving DecidableEq

/-- Whether something can happen, given the dependencies between the tasks: the component is asked for its result once, at
any moment; it is configured once; the walks are started when all components are configured. -/
def Enabled {β δ : Type} (R : Route) (s : Sys β δ) : Action δ → Prop
  | .result p => p < R.nrParts ∧ (s.comp p).retrieved = false
  | .configure p => p < R.nrParts ∧ s.configured p = false
  | .start => s.started = false ∧ ∀ p < R.nrParts, s.configured p = true
  | .deliver m => m ∈ s.msgs

/-- Perform an action. -/
def perform {β δ : Type} [DecidableEq δ] (A : Algo β δ) (R : Route) (s : Sys β δ) : Action δ → Except Err (Sys β δ)
  | .result p => do
    let c ← resultPartition (s.comp p)
    .ok { s with comp := Function.update s.comp p c }
  | .configure p =>
    .ok { s with
      comp := Function.update s.comp p (setDownstream (s.comp p) (R.parts p).remoteLocations)
      configured := Function.update s.configured p true }
  | .start =>
    .ok { s with started := true, msgs := s.msgs ++ R.starts.map fun e => Msg.walk e.2 e.1 A.start }
  | .deliver (.walk p r d) => do
    let (c, msgs) ← walk A p (R.parts p) (s.comp p) r d
    .ok { s with comp := Function.update s.comp p c, msgs := s.msgs.erase (.walk p r d) ++ msgs }
  | .deliver (.skip p r) => do
    let (c, msgs) ← skipWalking (R.parts p) (s.comp p) r
    .ok { s with comp := Function.update s.comp p c, msgs := s.msgs.erase (.skip p r) ++ msgs }

/-- `result_partition()` is not overtaken by the walk: the partition is not finished yet. -/
def Timely {β δ : Type} (s : Sys β δ) : Action δ → Prop
  | .result p => (s.comp p).finished = false
  | _ => True

/-- The states that can be reached, with `k` actions, when `result_partition()` is not overtaken. -/
inductive Steps {β δ : Type} [DecidableEq δ] (A : Algo β δ) (R : Route) : Nat → Sys β δ → Prop
  | init : Steps A R 0 (init A R)
  | step {k : Nat} {s s' : Sys β δ} {a : Action δ} : Steps A R k s → Enabled R s a → Timely s a → perform A R s a = .ok s' →
      Steps A R (k + 1) s'

/-- Perform a sequence of actions (for the examples). -/
def run {β δ : Type} [DecidableEq δ] (A : Algo β δ) (R : Route) : List (Action δ) → Sys β δ → Except Err (Sys β δ)
  | [], s => .ok s
  | a :: l, s => do run A R l (← perform A R s a)

end Lue.Walk

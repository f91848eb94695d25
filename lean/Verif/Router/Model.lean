import Verif.InflowCount.Model
import Mathlib.Logic.Function.Basic

/-!
C19, C20, C21: the accumulating router.
`A` below is `source/framework/algorithm/include/lue/framework/algorithm`.

A partition is solved by a task solving the intra-partition streams, followed by a task in which, per neighbouring
partition, a thread waits for material flowing into the partition. Such a thread holds a mutex while it accumulates the
material. Tasks of different partitions only interact by sending messages through channels, and sending does not block.
Therefore each task solving the intra-partition streams, and each accumulation of a message received, can be treated as
an atomic action. The order in which these actions take place is arbitrary.

Assertions are modelled as errors (`Err.thrown`).
-/
namespace Lue.Router

open Lue.Routing Lue.InflowCount

/-- `lue_hpx_assert` -/
def check (b : Bool) : M Unit := if b then .ok () else .error .thrown

/-- What happens in cells, the interface of `CellAccumulator`, e.g. `A/definition/accu.hpp:24-190`. `σ` is the state of a
cell in the result arrays, `μ` is the type of the material. -/
structure CellAccumulator (σ μ : Type) where
  /-- The state of a cell in a new partition: the elements are value-initialised (`std::make_unique<Element[]>`),
  `accumulating_router.hpp` (initialize_result_data),
  `source/framework/core/include/lue/framework/core/array.hpp:66-76`. -/
  init : σ
  /-- `enter_inter_partition_stream`: material received, current state. -/
  enterInter : μ → σ → σ
  /-- `enter_cell`: linear index of the partition, linear index of the cell in the partition, current state. -/
  enterCell : Nat → Nat → σ → M σ
  /-- `leave_cell`: state of the upstream cell, current state of the downstream cell. -/
  leaveCell : σ → σ → σ
  /-- `outflow` -/
  outflow : σ → μ
  /-- `mark_no_data` -/
  markNoData : σ → σ
  /-- `enter_intra_partition_stream`. This and the following functions do nothing, unless mentioned otherwise. -/
  enterIntra : σ → σ := id
  /-- `leave_intra_partition_stream` -/
  leaveIntra : σ → σ := id
  /-- `leave_inter_partition_stream` -/
  leaveInter : σ → σ := id
  /-- `stop_at_sink_cell` -/
  stopSink : σ → σ := id
  /-- `stop_at_confluence_cell` -/
  stopConfluence : σ → σ := id
  /-- `stop_at_partition_output_cell` -/
  stopOutput : σ → σ := id

/-- The state of a partition. -/
structure PState (σ μ : Type) where
  /-- The intra-partition streams are solved. -/
  started : Bool := false
  /-- The data of the result partitions, per cell. -/
  data : List σ := []
  /-- `inflow_count_data` -/
  counts : List Nat := []
  /-- `output_cells_idxs`: the code keeps a collection per direction. -/
  outs : List (Dir × (Int × Int)) := []
  /-- Per direction, the input cells for which no material has been received yet. -/
  pending : Dir → List (Int × Int) := fun _ => []
  /-- Per direction, the channel to the neighbouring partition: the messages which have not been received yet. -/
  chan : Dir → List (Int × μ) := fun _ => []
  /-- Per direction, whether the channel is closed. -/
  closed : Dir → Bool := fun _ => false

instance {σ μ : Type} : Inhabited (PState σ μ) := ⟨{}⟩

/-- `A/definition/accumulating_router.hpp:146-294` (destination_cell) -/
def destinationCell (n0 n1 : Nat) (i j o0 o1 : Int) : M (Dir × Int) := do
  check (decide (i = 0 ∨ i = n0 - 1 ∨ j = 0 ∨ j = n1 - 1))
  if i = 0 then
    if j = 0 then
      if o0 ≥ 0 then do check (decide (o1 = -1)); return (.w, i + o0)
      else if o1 ≥ 0 then do check (decide (o0 = -1)); return (.n, j + o1)
      else do check (decide (o0 = -1)); check (decide (o1 = -1)); return (.nw, -1)
    else if j = n1 - 1 then
      if o0 ≥ 0 then do check (decide (o1 = 1)); return (.e, i + o0)
      else if o1 ≤ 0 then do check (decide (o0 = -1)); return (.n, j + o1)
      else do check (decide (o0 = -1)); check (decide (o1 = 1)); return (.ne, 0)
    else do check (decide (o0 = -1)); return (.n, j + o1)
  else if i = n0 - 1 then
    if j = 0 then
      if o0 ≤ 0 then do check (decide (o1 = -1)); return (.w, i + o0)
      else if o1 ≥ 0 then do check (decide (o0 = 1)); return (.s, j + o1)
      else do check (decide (o0 = 1)); check (decide (o1 = -1)); return (.sw, -1)
    else if j = n1 - 1 then
      if o0 ≤ 0 then do check (decide (o1 = 1)); return (.e, i + o0)
      else if o1 ≤ 0 then do check (decide (o0 = 1)); return (.s, j + o1)
      else do check (decide (o0 = 1)); check (decide (o1 = 1)); return (.se, -1)
    else do check (decide (o0 = 1)); return (.s, j + o1)
  else if j = 0 then do check (decide (o1 = -1)); return (.w, i + o0)
  else do check (decide (o1 = 1)); return (.e, i + o0)

/-- `A/detail/flow_direction.hpp:11-75` (downstream_cell): the offset of the downstream cell, and whether it is within the
partition. -/
def downstreamCell (n0 n1 : Nat) (code : Nat) (i j : Int) : (Int × Int) × Bool :=
  if code = northWest then ((-1, -1), !decide (i = 0 ∨ j = 0))
  else if code = north then ((-1, 0), !decide (i = 0))
  else if code = northEast then ((-1, 1), !decide (i = 0 ∨ j = n1 - 1))
  else if code = west then ((0, -1), !decide (j = 0))
  else if code = east then ((0, 1), !decide (j = n1 - 1))
  else if code = southWest then ((1, -1), !decide (i = n0 - 1 ∨ j = 0))
  else if code = south then ((1, 0), !decide (i = n0 - 1))
  else if code = southEast then ((1, 1), !decide (i = n0 - 1 ∨ j = n1 - 1))
  else ((0, 0), true)

/-- The surroundings of a partition: its position, its extents and the flow directions. -/
structure Ctx where
  /-- Extents of the array, in partitions -/
  m0 : Nat
  m1 : Nat
  /-- Indices of the partition -/
  k0 : Nat
  k1 : Nat
  /-- Extents of the partition -/
  n0 : Nat
  n1 : Nat
  /-- Flow directions -/
  fd : List Nat

variable {σ μ : Type}

/-- Update the state of a cell, given its linear index. -/
def hookAt (f : σ → σ) (e : Nat) (s : PState σ μ) : M (PState σ μ) := do
  let data ← wr s.data e (f (← rd s.data e))
  return { s with data := data }

/-- `A/definition/accumulating_router.hpp:465-506` (stop_at_partition_output_cell). `HPX` channels keep the values which
have been sent before they were closed; sending to a closed channel is an error. -/
def stopAtOutput (F : CellAccumulator σ μ) (x : Ctx) (c o : Int × Int) (s : PState σ μ) : M (PState σ μ) := do
  let s ← hookAt F.stopOutput (← at2 x.n0 x.n1 c.1 c.2) s
  let (d, idx) ← destinationCell x.n0 x.n1 c.1 c.2 o.1 o.2
  check (decide ((d, c) ∈ s.outs))
  let s := { s with outs := s.outs.erase (d, c) }
  if hasNeighbour x.m0 x.m1 x.k0 x.k1 d then do
    let state ← rd s.data (← at2 x.n0 x.n1 c.1 c.2)
    if s.closed d then .error .thrown
    else
      let s := { s with chan := Function.update s.chan d (s.chan d ++ [(idx, F.outflow state)]) }
      if (s.outs.filter fun o => o.1 = d).isEmpty then
        return { s with closed := Function.update s.closed d true }
      else return s
  else return s

/-- One iteration of the loop in `A/definition/accumulating_router.hpp:535-596` (accumulate). Returns the next cell, if the
stream continues. -/
def accumulateCell (F : CellAccumulator σ μ) (x : Ctx) (c : Int × Int) (s : PState σ μ) :
    M (PState σ μ × Option (Int × Int)) := do
  let e ← at2 x.n0 x.n1 c.1 c.2
  let count ← rd s.counts e
  check (decide (count = 0))
  let state ← F.enterCell (x.k0 * x.m1 + x.k1) e (← rd s.data e)
  let data ← wr s.data e state
  let s := { s with data := data }
  let (o, within) := downstreamCell x.n0 x.n1 (← rd x.fd e) c.1 c.2
  if o.1 = 0 ∧ o.2 = 0 then do
    let s ← hookAt F.stopSink e s
    return (s, none)
  else if !within then do
    let s ← stopAtOutput F x c o s
    return (s, none)
  else do
    let c' := (c.1 + o.1, c.2 + o.2)
    let e' ← at2 x.n0 x.n1 c'.1 c'.2
    let data ← wr s.data e' (F.leaveCell (← rd s.data e) (← rd s.data e'))
    let count ← rd s.counts e'
    check (decide (count ≥ 1))
    let counts ← wr s.counts e' (count - 1)
    let s := { s with data := data, counts := counts }
    if count - 1 > 0 then do
      let s ← hookAt F.stopConfluence e' s
      return (s, none)
    else return (s, some c')

/-- `A/definition/accumulating_router.hpp:516-599` (accumulate). The loop is given up after `fuel` iterations. -/
def accumulateLoop (F : CellAccumulator σ μ) (x : Ctx) : Nat → Int × Int → PState σ μ → M (PState σ μ)
  | 0, _, _ => .error .diverged
  | fuel + 1, c, s => do
    let (s, next) ← accumulateCell F x c s
    match next with
    | none => .ok s
    | some c' => accumulateLoop F x fuel c' s

/-- See `accumulateLoop`. It is never given up. -/
def accumulate (F : CellAccumulator σ μ) (x : Ctx) (c : Int × Int) (s : PState σ μ) : M (PState σ μ) :=
  accumulateLoop F x (x.n0 * x.n1 + 1) c s

/-- `A/definition/accumulating_router.hpp:857-876`: the cell visited by the loop of
solve_intra_partition_stream_cells. `counts` are the inflow counts; the state contains a copy of these. -/
def intraCell (F : CellAccumulator σ μ) (isNoData : Nat → Bool) (x : Ctx) (counts : List Nat) (i j : Int)
    (s : PState σ μ) : M (PState σ μ) := do
  let e ← at2 x.n0 x.n1 i j
  if isNoData (← rd x.fd e) then do
    let data ← wr s.data e (F.markNoData (← rd s.data e))
    return { s with data := data }
  else if (← rd counts e) = 0 then do
    let s ← hookAt F.enterIntra e s
    let s ← accumulate F x (i, j) s
    hookAt F.leaveIntra e s
  else return s

/-- `A/definition/accumulating_router.hpp:790-899` (solve_intra_partition_stream_cells) -/
def solveIntra (F : CellAccumulator σ μ) (isNoData : Nat → Bool) (x : Ctx) (s : PState σ μ) : M (PState σ μ) := do
  let s' ← forLoop x.n0 (fun i s' => forLoop x.n1 (fun j s' => intraCell F isNoData x s.counts i j s') s') s
  return { s' with started := true }

/-- `A/definition/accumulating_router.hpp:602-645` (monitor_material_inputs, one message) and `987-1010` (accumulate). -/
def receiveMaterial (F : CellAccumulator σ μ) (x : Ctx) (d : Dir) (m : Int × μ) (s : PState σ μ) : M (PState σ μ) := do
  let c := convert x.n0 x.n1 d m.1
  check (decide (c ∈ s.pending d))
  let s := { s with pending := Function.update s.pending d ((s.pending d).erase c) }
  let e ← at2 x.n0 x.n1 c.1 c.2
  let count ← rd s.counts e
  check (decide (count ≥ 1))
  let data ← wr s.data e (F.enterInter m.2 (← rd s.data e))
  let counts ← wr s.counts e (count - 1)
  let s := { s with data := data, counts := counts }
  if count - 1 = 0 then do
    let s ← accumulate F x c s
    hookAt F.leaveInter e s
  else return s

/-! ### The partitioned array -/

/-- The state of all partitions. -/
abbrev Sys (σ μ : Type) := Nat → Nat → PState σ μ

/-- The context of a partition. -/
def ctx (x : PArr Nat) (k0 k1 : Nat) : M Ctx := do
  let fd ← rd x.parts (k0 * x.grid.n1 + k1)
  return ⟨x.grid.n0, x.grid.n1, k0, k1, x.grid.rows k0, x.grid.cols k1, fd⟩

/-- `A/definition/accumulating_router.hpp:1212-1255` (inflow_count), 1270-1290: the inflow counts, the output cells and
the input cells per partition, without marking no-data in the counts. The result data is created by the task solving the
intra-partition streams. -/
def initialise (F : CellAccumulator σ μ) (isNoData : Nat → Bool) (order1 order2 : List Nat) (x : PArr Nat) :
    M (Sys σ μ) := do
  let g := x.grid
  let counts ← inflowCount isNoData id order1 order2 x
  let sent ← runTasks (g.n0 * g.n1) (fun k => do
    outputs isNoData (g.rows (k / g.n1)) (g.cols (k % g.n1)) (← rd x.parts k)) order1
  let states ← runTasks (g.n0 * g.n1) (fun k => do
    let outs ← rd sent k
    let inputs ← inputCells g sent (k / g.n1) (k % g.n1)
    return ({
      data := List.replicate (g.rows (k / g.n1) * g.cols (k % g.n1)) F.init
      counts := ← rd counts.parts k
      outs := outs.map fun o => (o.dir, o.cell)
      pending := fun d => ((directions.zip inputs).lookup d).getD [] } : PState σ μ)) order2
  return fun k0 k1 => states.getD (k0 * g.n1 + k1) default

/-- What can happen next. -/
inductive Action where
  /-- The intra-partition streams of a partition are solved. -/
  | intra (k0 k1 : Nat)
  /-- A partition handles the next message from the neighbouring partition in a direction. -/
  | receive (k0 k1 : Nat) (d : Dir)

/-- The neighbouring partition. -/
def neighbour (d : Dir) (k0 k1 : Nat) : Nat × Nat := (((k0 : Int) + d.offset.1).toNat, ((k1 : Int) + d.offset.2).toNat)

/-- When an action can happen: material is only received after the intra-partition streams are solved, and only from
neighbours for which material is expected. -/
def Enabled (g : Grid) (s : Sys σ μ) : Action → Prop
  | .intra k0 k1 => k0 < g.n0 ∧ k1 < g.n1 ∧ (s k0 k1).started = false
  | .receive k0 k1 d => k0 < g.n0 ∧ k1 < g.n1 ∧ (s k0 k1).started = true ∧ (s k0 k1).pending d ≠ [] ∧
      hasNeighbour g.n0 g.n1 k0 k1 d = true ∧ (s (neighbour d k0 k1).1 (neighbour d k0 k1).2).chan d.sender ≠ []

/-- Replace the state of a partition. -/
def Sys.set (s : Sys σ μ) (k0 k1 : Nat) (p : PState σ μ) : Sys σ μ :=
  fun i j => if i = k0 ∧ j = k1 then p else s i j

/-- The effect of an action. -/
def perform (F : CellAccumulator σ μ) (isNoData : Nat → Bool) (x : PArr Nat) (s : Sys σ μ) : Action → M (Sys σ μ)
  | .intra k0 k1 => do
    let p ← solveIntra F isNoData (← ctx x k0 k1) (s k0 k1)
    return s.set k0 k1 p
  | .receive k0 k1 d => do
    let (q0, q1) := neighbour d k0 k1
    let q := s q0 q1
    match q.chan d.sender with
    | [] => .error .thrown
    | m :: ms => do
      -- The neighbour is another partition
      let s := s.set q0 q1 { q with chan := Function.update q.chan d.sender ms }
      let p ← receiveMaterial F (← ctx x k0 k1) d m (s k0 k1)
      return s.set k0 k1 p

/-- All tasks have finished: `hpx::wait_all(result_fs)` in each partition. -/
def Finished (g : Grid) (s : Sys σ μ) : Prop :=
  ∀ k0 k1, k0 < g.n0 → k1 < g.n1 → (s k0 k1).started = true ∧ ∀ d, (s k0 k1).pending d = []

/-- The states which can be reached, by any order of actions. -/
inductive Reachable (F : CellAccumulator σ μ) (isNoData : Nat → Bool) (order1 order2 : List Nat) (x : PArr Nat) :
    Sys σ μ → Prop
  | init {s : Sys σ μ} : initialise F isNoData order1 order2 x = .ok s → Reachable F isNoData order1 order2 x s
  | step {s s' : Sys σ μ} {a : Action} : Reachable F isNoData order1 order2 x s → Enabled x.grid s a →
      perform F isNoData x s a = .ok s' → Reachable F isNoData order1 order2 x s'

/-- The result arrays: `A/definition/accumulating_router.hpp:1395-1460` -/
def results (g : Grid) (s : Sys σ μ) : PArr σ :=
  ⟨g, (List.range (g.n0 * g.n1)).map fun k => (s (k / g.n1) (k % g.n1)).data⟩

end Lue.Router

import Verif.Routing.Direction
import Verif.Partitioned.Store

/-!
C18: inflow_count.
`A` below is `source/framework/algorithm/include/lue/framework/algorithm`.

Indices are integers, as in the code: an index outside of the partition is an error (in the code it is undefined
behaviour, caught by an assertion in debug builds). Counts are unbounded natural numbers.
-/
namespace Lue.InflowCount

open Lue.Routing

/-- Indexing a partition with extents `n0` and `n1`: the linear index of a cell. -/
def at2 (n0 n1 : Nat) (i j : Int) : M Nat :=
  if 0 ≤ i ∧ i < n0 ∧ 0 ≤ j ∧ j < n1 then .ok (i.toNat * n1 + j.toNat) else .error .outOfBounds

/-! ### Counting within a partition -/

/-- `inflow_count_data(i, j) += 1` -/
def bump (n0 n1 : Nat) (i j : Int) (counts : List Nat) : M (List Nat) := do
  let e ← at2 n0 n1 i j
  wr counts e ((← rd counts e) + 1)

/-- The code executed for a cell, e.g. `A/detail/inflow_count.hpp:52-80`. An `if` / `else if` chain is a list of
(flow direction, offset of the cell whose count is incremented). `mark` is what the output no-data policy does with the
count. -/
def countCell (isNoData : Nat → Bool) (mark : Nat → Nat) (n0 n1 : Nat) (fd : List Nat) (chain : List (Nat × Int × Int))
    (i j : Int) (counts : List Nat) : M (List Nat) := do
  let e ← at2 n0 n1 i j
  let code ← rd fd e
  if isNoData code then
    wr counts e (mark (← rd counts e))
  else
    match chain.lookup code with
    | none => .ok counts
    | some (o0, o1) => bump n0 n1 (i + o0) (j + o1) counts

/-- `A/detail/flow_direction.hpp:78-130` (downstream_cell), used for the inner cells: all directions. A cell which is not
in the list is a sink, and skipped. -/
def innerChain : List (Nat × Int × Int) :=
  [(northWest, -1, -1), (north, -1, 0), (northEast, -1, 1), (west, 0, -1), (east, 0, 1), (southWest, 1, -1),
    (south, 1, 0), (southEast, 1, 1)]

/-- `A/detail/inflow_count.hpp:52-80` -/
def northWestChain : List (Nat × Int × Int) := [(east, 0, 1), (southEast, 1, 1), (south, 1, 0)]
/-- `A/detail/inflow_count.hpp:82-110` -/
def northEastChain : List (Nat × Int × Int) := [(west, 0, -1), (southWest, 1, -1), (south, 1, 0)]
/-- `A/detail/inflow_count.hpp:112-140` -/
def southWestChain : List (Nat × Int × Int) := [(north, -1, 0), (northEast, -1, 1), (east, 0, 1)]
/-- `A/detail/inflow_count.hpp:142-170` -/
def southEastChain : List (Nat × Int × Int) := [(west, 0, -1), (northWest, -1, -1), (north, -1, 0)]
/-- `A/detail/inflow_count.hpp:174-213` -/
def northChain : List (Nat × Int × Int) :=
  [(west, 0, -1), (southWest, 1, -1), (south, 1, 0), (southEast, 1, 1), (east, 0, 1)]
/-- `A/detail/inflow_count.hpp:215-254` -/
def southChain : List (Nat × Int × Int) :=
  [(west, 0, -1), (northWest, -1, -1), (north, -1, 0), (northEast, -1, 1), (east, 0, 1)]
/-- `A/detail/inflow_count.hpp:259-298` -/
def westChain : List (Nat × Int × Int) :=
  [(north, -1, 0), (northEast, -1, 1), (east, 0, 1), (southEast, 1, 1), (south, 1, 0)]
/-- `A/detail/inflow_count.hpp:300-345` -/
def eastChain : List (Nat × Int × Int) :=
  [(north, -1, 0), (northWest, -1, -1), (west, 0, -1), (southWest, 1, -1), (south, 1, 0)]

/-- `A/detail/inflow_count.hpp:9-352` (inflow_count_partition_data). The loops run from 1 to the extent minus 2. -/
def countPartition (isNoData : Nat → Bool) (mark : Nat → Nat) (n0 n1 : Nat) (fd : List Nat) : M (List Nat) := do
  let cell := countCell isNoData mark n0 n1 fd
  let s : List Nat := List.replicate (n0 * n1) 0
  let s ← forLoop (n0 - 2) (fun i s => forLoop (n1 - 2) (fun j s => cell innerChain (i + 1) (j + 1) s) s) s
  let s ← cell northWestChain 0 0 s
  let s ← cell northEastChain 0 (n1 - 1) s
  let s ← cell southWestChain (n0 - 1) 0 s
  let s ← cell southEastChain (n0 - 1) (n1 - 1) s
  let s ← if n1 > 2 then do
      let s ← forLoop (n1 - 2) (fun j s => cell northChain 0 (j + 1) s) s
      forLoop (n1 - 2) (fun j s => cell southChain (n0 - 1) (j + 1) s) s
    else .ok s
  if n0 > 2 then do
    let s ← forLoop (n0 - 2) (fun i s => cell westChain (i + 1) 0 s) s
    forLoop (n0 - 2) (fun i s => cell eastChain (i + 1) (n1 - 1) s) s
  else .ok s

/-! ### Communication with neighbouring partitions -/

/-- `A/detail/communicator.hpp:41-62` -/
inductive Dir where
  | n | ne | e | se | s | sw | w | nw
  deriving DecidableEq, Repr

/-- `A/detail/communicator.hpp:53-62` -/
def directions : List Dir := [.n, .ne, .e, .se, .s, .sw, .w, .nw]

/-- `A/detail/communicator.hpp:343-352`: position of the neighbour -/
def Dir.offset : Dir → Int × Int
  | .n => (-1, 0)
  | .ne => (-1, 1)
  | .e => (0, 1)
  | .se => (1, 1)
  | .s => (1, 0)
  | .sw => (1, -1)
  | .w => (0, -1)
  | .nw => (-1, -1)

/-- `A/detail/communicator.hpp:388-397`: the direction in which the neighbour sends to us -/
def Dir.sender : Dir → Dir
  | .n => .s
  | .ne => .sw
  | .e => .w
  | .se => .nw
  | .s => .n
  | .sw => .ne
  | .w => .e
  | .nw => .se

/-- `A/detail/communicator.hpp:133-177`, `184-187`: is there a channel to the neighbour? (`k0`, `k1`) are the indices of
the partition, in an array of `m0` × `m1` partitions. -/
def hasNeighbour (m0 m1 k0 k1 : Nat) (d : Dir) : Bool :=
  decide (m0 > 1 ∨ m1 > 1) &&
  match d with
  | .n => decide (k0 > 0)
  | .nw => decide (k0 > 0) && decide (k1 > 0)
  | .ne => decide (k0 > 0) && decide (k1 + 1 < m1)
  | .s => decide (k0 + 1 < m0)
  | .sw => decide (k0 + 1 < m0) && decide (k1 > 0)
  | .se => decide (k0 + 1 < m0) && decide (k1 + 1 < m1)
  | .w => decide (k1 > 0)
  | .e => decide (k1 + 1 < m1)

/-- An output cell of a partition: the direction of the partition it drains to, its own indices
(`output_cells_idxs[direction]`), and the one-dimensional index of the input cell of the neighbour
(`input_cell_idxs[direction]`). -/
structure Output where
  dir : Dir
  cell : Int × Int
  idx : Int
  deriving DecidableEq, Repr

/-- The code executed for a border cell, e.g. `A/definition/inflow_count.hpp:146-166`. The chain lists (flow direction,
direction of the neighbour, index). -/
def outputCell (isNoData : Nat → Bool) (n0 n1 : Nat) (fd : List Nat) (i j : Int) (chain : List (Nat × Dir × Int))
    (outputs : List Output) : M (List Output) := do
  let code ← rd fd (← at2 n0 n1 i j)
  if !isNoData code then
    match chain.lookup code with
    | none => .ok outputs
    | some (dir, idx) => .ok (outputs ++ [⟨dir, (i, j), idx⟩])
  else .ok outputs

/-- `A/definition/inflow_count.hpp:146-167` -/
def northOutputs (_i j : Int) : List (Nat × Dir × Int) := [(northWest, .n, j - 1), (north, .n, j), (northEast, .n, j + 1)]
/-- `A/definition/inflow_count.hpp:172-193` -/
def southOutputs (_i j : Int) : List (Nat × Dir × Int) := [(southWest, .s, j - 1), (south, .s, j), (southEast, .s, j + 1)]
/-- `A/definition/inflow_count.hpp:201-222` -/
def westOutputs (i _j : Int) : List (Nat × Dir × Int) := [(northWest, .w, i - 1), (west, .w, i), (southWest, .w, i + 1)]
/-- `A/definition/inflow_count.hpp:227-248` -/
def eastOutputs (i _j : Int) : List (Nat × Dir × Int) := [(northEast, .e, i - 1), (east, .e, i), (southEast, .e, i + 1)]
/-- `A/definition/inflow_count.hpp:251-289` -/
def northWestOutputs (i j : Int) : List (Nat × Dir × Int) :=
  [(southWest, .w, i + 1), (west, .w, i), (northWest, .nw, -1), (north, .n, j), (northEast, .n, j + 1)]
/-- `A/definition/inflow_count.hpp:291-329` -/
def northEastOutputs (i j : Int) : List (Nat × Dir × Int) :=
  [(northWest, .n, j - 1), (north, .n, j), (northEast, .ne, -1), (east, .e, i), (southEast, .e, i + 1)]
/-- `A/definition/inflow_count.hpp:331-367` -/
def southEastOutputs (i j : Int) : List (Nat × Dir × Int) :=
  [(northEast, .e, i - 1), (east, .e, i), (southEast, .se, -1), (south, .s, j), (southWest, .s, j - 1)]
/-- `A/definition/inflow_count.hpp:369-405` -/
def southWestOutputs (i j : Int) : List (Nat × Dir × Int) :=
  [(northWest, .w, i - 1), (west, .w, i), (southWest, .sw, -1), (south, .s, j), (southEast, .s, j + 1)]

/-- `A/definition/inflow_count.hpp:135-405` (connectivity_ready): the output cells. The code keeps a collection per
direction; here the outputs of all directions are in one list. -/
def outputs (isNoData : Nat → Bool) (n0 n1 : Nat) (fd : List Nat) : M (List Output) := do
  let cell := fun (chain : Int → Int → List (Nat × Dir × Int)) i j out =>
    outputCell isNoData n0 n1 fd i j (chain i j) out
  let out : List Output := []
  let out ← if n1 > 2 then do
      let out ← forLoop (n1 - 2) (fun j out => cell northOutputs 0 (j + 1) out) out
      forLoop (n1 - 2) (fun j out => cell southOutputs (n0 - 1) (j + 1) out) out
    else .ok out
  let out ← if n0 > 2 then do
      let out ← forLoop (n0 - 2) (fun i out => cell westOutputs (i + 1) 0 out) out
      forLoop (n0 - 2) (fun i out => cell eastOutputs (i + 1) (n1 - 1) out) out
    else .ok out
  let out ← cell northWestOutputs 0 0 out
  let out ← cell northEastOutputs 0 (n1 - 1) out
  let out ← cell southEastOutputs (n0 - 1) (n1 - 1) out
  cell southWestOutputs (n0 - 1) 0 out

/-- `A/definition/inflow_count.hpp:407-420`: the messages sent in a direction: the indices, if there are any, followed by
an empty message. Only done if there is a neighbour. -/
def messages (outputs : List Output) (d : Dir) : List (List Int) :=
  let idxs := (outputs.filter fun o => o.dir = d).map Output.idx
  if idxs.isEmpty then [[]] else [idxs, []]

/-- `A/detail/idx_converter.hpp`, with the arguments of `A/definition/inflow_count.hpp:436-487`. -/
def convert (n0 n1 : Nat) (d : Dir) (idx : Int) : Int × Int :=
  match d with
  | .n => (0, idx)
  | .s => (n0 - 1, idx)
  | .w => (idx, 0)
  | .e => (idx, n1 - 1)
  | .nw => (0, 0)
  | .ne => (0, n1 - 1)
  | .se => (n0 - 1, n1 - 1)
  | .sw => (n0 - 1, 0)

/-- `A/definition/inflow_count.hpp:52-94` (monitor_cell_idx_inputs): read messages until an empty one is received. -/
def receive (conv : Int → Int × Int) : List (List Int) → List (Int × Int)
  | [] => []
  | m :: ms => if m.isEmpty then [] else m.map conv ++ receive conv ms

/-- `A/definition/inflow_count.hpp:422-505`: the input cells of partition (`k0`, `k1`), received from each direction.
`sent` are the outputs of all partitions. -/
def inputCells (g : Grid) (sent : List (List Output)) (k0 k1 : Nat) : M (List (List (Int × Int))) :=
  directions.mapM fun d =>
    if hasNeighbour g.n0 g.n1 k0 k1 d then do
      let q := ((k0 : Int) + d.offset.1) * g.n1 + (k1 + d.offset.2)
      let o ← rd sent q.toNat
      .ok (receive (convert (g.rows k0) (g.cols k1) d) (messages o d.sender))
    else .ok []

/-- `A/definition/inflow_count.hpp:528-577` (inflow_count_ready) -/
def countReady (isNoData : Nat → Bool) (mark : Nat → Nat) (n0 n1 : Nat) (fd : List Nat)
    (inputs : List (List (Int × Int))) : M (List Nat) := do
  let counts ← countPartition isNoData mark n0 n1 fd
  inputs.foldlM (fun counts cells => cells.foldlM (fun counts c => bump n0 n1 c.1 c.2 counts) counts) counts

/-- `A/definition/inflow_count.hpp:662-725` (inflow_count). Each partition's task first sends to its neighbours, which
does not block, and then receives from its neighbours. Hence the sends can be modelled as a first round (completing in
order `order1`), and the counts, for which the messages of all neighbours must have been received, as a second round
(completing in order `order2`). -/
def inflowCount (isNoData : Nat → Bool) (mark : Nat → Nat) (order1 order2 : List Nat) (x : PArr Nat) :
    M (PArr Nat) := do
  let g := x.grid
  let sent ← runTasks (g.n0 * g.n1) (fun k => do
    outputs isNoData (g.rows (k / g.n1)) (g.cols (k % g.n1)) (← rd x.parts k)) order1
  let parts ← runTasks (g.n0 * g.n1) (fun k => do
    countReady isNoData mark (g.rows (k / g.n1)) (g.cols (k % g.n1)) (← rd x.parts k)
      (← inputCells g sent (k / g.n1) (k % g.n1))) order2
  .ok ⟨g, parts⟩

end Lue.InflowCount

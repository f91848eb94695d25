import Verif.Util.AMap
import Verif.Partitioned.Store
import Mathlib.Data.Fintype.Defs
import Mathlib.Data.Fintype.Basic
import Mathlib.Algebra.Notation.Pi.Basic

/-!
# Model of the bookkeeping of the input cells and output cells of a partition

Models `source/framework/algorithm/include/lue/framework/algorithm/detail/array_partition_io.hpp` (`A` below), which is wrapped by
`component/server/array_partition_io.hpp` and `component/array_partition_io.hpp` (calls are forwarded).

The rank `n` is arbitrary. Indices, shapes and offsets are functions from dimensions to integers (no overflow). The type `V` of the values
is arbitrary. A `std::map` is a list of pairs in the order of insertion: the order of the keys is not modelled. Methods lock the
mutexes of the members they use, and are modelled as atomic steps. `debug` tells whether assertions are compiled in: a failing assertion
is modelled as a thrown exception. Serialization and migration of the component are not modelled.
-/
namespace Lue.PartitionIO

/-- `Indices`, `Shape`, `Offset`: `A:50,52,53` -/
abbrev Vec (n : Nat) := Fin n → Int

/-- The members of `ArrayPartitionIO`: `A:617-630` -/
structure State (n : Nat) (V : Type) where
  /-- `_partition_shape` -/
  shape : Vec n
  /-- `_input_cells_idxs` -/
  inputs : List (Vec n)
  /-- `_offsets` -/
  offsets : AMap (Vec n) (Vec n)
  /-- `_values` -/
  values : AMap (Vec n) V

variable {n : Nat} {V : Type}

/-- `lue_hpx_assert(c)` -/
def require (debug c : Bool) : M Unit := if debug && !c then .error .thrown else .ok ()

/-- `m.find(k) != m.end()` -/
def has {K W : Type} [DecidableEq K] (m : AMap K W) (k : K) : Bool := (m.get k).isSome

/-- `m.emplace(k, v)`: nothing happens if the key is present already. -/
def emplace {K W : Type} [DecidableEq K] (m : AMap K W) (k : K) (v : W) : AMap K W := if has m k then m else m ++ [(k, v)]

/-- `m.erase(k)`: the map without the key -/
def erase {K W : Type} [DecidableEq K] (m : AMap K W) (k : K) : AMap K W := m.filter fun e => !decide (e.1 = k)

/-- `m.at(k)` -/
def at' {K W : Type} [DecidableEq K] (m : AMap K W) (k : K) : M W :=
  match m.get k with
  | some w => .ok w
  | none => .error .thrown

/-- `is_within_partition`: `A:15-31` -/
def isWithinPartition (i shape : Vec n) : Bool := decide (∀ d, 0 ≤ i d ∧ i d < shape d)

/-- `on_partition_border`: `A:566-581` -/
def onPartitionBorder (i shape : Vec n) : Bool := decide (∃ d, i d = 0 ∨ i d = shape d - 1)

/-- `points_towards_neighbour`: `A:589-606` -/
def pointsTowardsNeighbour (i offset shape : Vec n) : Bool :=
  decide (∃ d, (i d = 0 ∧ offset d < 0) ∨ (i d = shape d - 1 ∧ 0 < offset d))

/-- `assert_invariants()`: `A:551-615` -/
def invariants (s : State n V) : Bool :=
  decide (s.offsets.length = s.values.length) &&
  (!decide (∀ d, s.shape d = 0) || (s.inputs.isEmpty && s.offsets.isEmpty && s.values.isEmpty)) &&
  s.inputs.all (fun i => isWithinPartition i s.shape && onPartitionBorder i s.shape) &&
  s.offsets.all (fun e => pointsTowardsNeighbour e.1 e.2 s.shape)

/-- The constructor: `A:84-97` -/
def construct (debug : Bool) (shape : Vec n) (inputs : List (Vec n)) : M (State n V) := do
  let s : State n V := ⟨shape, inputs, [], []⟩
  require debug (invariants s)
  pure s

/-- `add_output_cell`: `A:146-178` (both overloads) -/
def addOutputCell (debug : Bool) (s : State n V) (i offset : Vec n) (value : V) : M (State n V) := do
  require debug (!has s.offsets i)
  require debug (!has s.values i)
  let s' : State n V := ⟨s.shape, s.inputs, emplace s.offsets i offset, emplace s.values i value⟩
  require debug (invariants s')
  require debug (has s'.offsets i)
  require debug (has s'.values i)
  pure s'

/-- `contains_input_cell`: `A:181-187` -/
def containsInputCell (s : State n V) (i : Vec n) : Bool := s.inputs.contains i

/-- `remove_input_cell`: `A:190-201`. Erasing `end()` is undefined behaviour. -/
def removeInputCell (debug : Bool) (s : State n V) (i : Vec n) : M (State n V) := do
  require debug (s.inputs.contains i)
  if s.inputs.contains i then pure ⟨s.shape, s.inputs.erase i, s.offsets, s.values⟩ else .error .outOfBounds

/-- `is_solved`: `A:218-223` -/
def isSolved (s : State n V) : Bool := s.inputs.isEmpty

/-- `nr_input_cells`: `A:226-231` -/
def nrInputCells (s : State n V) : Nat := s.inputs.length

/-- `is_drained`: `A:245-250` -/
def isDrained (s : State n V) : Bool := s.offsets.isEmpty

/-- `partition_offset(output_cell_idxs, cell_offset)`: `A:520-542` -/
def partitionOffset (s : State n V) (i offset : Vec n) : Vec n := fun d =>
  if i d = 0 ∧ offset d = -1 then -1
  else if i d = s.shape d - 1 ∧ offset d = 1 then 1
  else 0

/-- `result.insert(x)` of a `std::set` -/
def setInsert (l : List (Vec n)) (x : Vec n) : List (Vec n) := if l.contains x then l else l ++ [x]

/-- `partition_offsets`: `A:261-297` -/
def partitionOffsets (s : State n V) : List (Vec n) :=
  s.offsets.foldl (fun result e => setInsert result (partitionOffset s e.1 e.2)) []

/-- The body of the loop of `partition_offset_counts`: `A:309-323`. The collections of offsets and counts are a single list of pairs. -/
def countOffset (l : List (Vec n × Nat)) (q : Vec n) : List (Vec n × Nat) :=
  match l with
  | [] => [(q, 1)]
  | (q', c) :: l => if q' = q then (q', c + 1) :: l else (q', c) :: countOffset l q

/-- `partition_offset_counts`: `A:300-335` -/
def partitionOffsetCounts (s : State n V) : List (Vec n × Nat) :=
  s.offsets.foldl (fun result e => countOffset result (partitionOffset s e.1 e.2)) []

/-- The indices of the input cell: `A:474-502`, the loop -/
def inputCellIdxs (s : State n V) (i offset shape : Vec n) : Vec n := fun d =>
  if i d = 0 ∧ offset d = -1 then shape d - 1
  else if i d = s.shape d - 1 ∧ offset d = 1 then 0
  else i d + offset d

/-- `input_cell`: `A:474-502`. `offset()` uses `at()`. -/
def inputCell (debug : Bool) (s : State n V) (i shape : Vec n) : M (Vec n) := do
  require debug (has s.offsets i)
  let offset ← at' s.offsets i
  let result := inputCellIdxs s i offset shape
  require debug (isWithinPartition result shape)
  pure result

/-- `value`: `A:466-471` -/
def value (debug : Bool) (s : State n V) (i : Vec n) : M V := do
  require debug (has s.values i)
  at' s.values i

/-- `remove_output_cell`: `A:505-517`. Keys of a map are unique: one element is erased if and only if the key is present. -/
def removeOutputCell (debug : Bool) (s : State n V) (i : Vec n) : M (State n V) := do
  require debug (has s.offsets i)
  require debug (has s.values i)
  let s' : State n V := ⟨s.shape, s.inputs, erase s.offsets i, erase s.values i⟩
  require debug (invariants s')
  pure s'

/-- The body of the loop of `drain`: `A:363-376` -/
def drainCell (debug : Bool) (s : State n V) (q shape : Vec n) (result : List (Vec n × V) × List (Vec n)) (e : Vec n × Vec n) :
    M (List (Vec n × V) × List (Vec n)) :=
  if partitionOffset s e.1 e.2 = q then do
    let r ← inputCell debug s e.1 shape
    let v ← value debug s e.1
    pure (result.1 ++ [(r, v)], result.2 ++ [e.1])
  else pure result

/-- `drain`: `A:338-389` -/
def drain (debug : Bool) (s : State n V) (q shape : Vec n) : M (State n V × List (Vec n × V)) := do
  require debug (!isDrained s)
  require debug (decide (∀ d, q d = -1 ∨ q d = 0 ∨ q d = 1))
  let result ← s.offsets.foldlM (drainCell debug s q shape) ([], [])
  let s' ← result.2.foldlM (removeOutputCell debug) s
  pure (s', result.1)

/-- Calling methods that change the state -/
inductive Op (n : Nat) (V : Type) where
  | addOutputCell (i offset : Vec n) (value : V)
  | removeInputCell (i : Vec n)
  | drain (q shape : Vec n)

/-- The effect of a call, and what it returns: for `drain` the offset passed in with each of the results -/
def Op.perform (debug : Bool) (s : State n V) : Op n V → M (State n V × List (Vec n × Vec n × V))
  | .addOutputCell i offset v => do pure (← PartitionIO.addOutputCell debug s i offset v, [])
  | .removeInputCell i => do pure (← PartitionIO.removeInputCell debug s i, [])
  | .drain q shape => do
    let r ← PartitionIO.drain debug s q shape
    pure (r.1, r.2.map fun e => (q, e))

/-- A history of calls, in the order in which they obtain the locks, and everything that is drained -/
def run (debug : Bool) (s : State n V) : List (Op n V) → M (State n V × List (Vec n × Vec n × V))
  | [] => pure (s, [])
  | op :: ops => do
    let r ← op.perform debug s
    let r' ← run debug r.1 ops
    pure (r'.1, r.2 ++ r'.2)

end Lue.PartitionIO

import Verif.Partitioned.Cells

/-!
C11: unique_id.
`A` below is `source/framework/algorithm/include/lue/framework/algorithm`.
-/
namespace Lue.UniqueId

/-- `A/definition/unique_id.hpp:12-66` (unique_id_partition): the elements of a partition are numbered consecutively.
`truth` is the conversion of an element to bool. The wrap around of the ID counter is not modelled. -/
def uniqueIdPartition {α : Type} (isNoData truth : α → Bool) (mark : Nat) (garbage : Nat → Nat) (data : List α)
    (startValue : Nat) : M (List Nat) := do
  let r ← forLoop data.length (fun i (s : List Nat × Nat) => do
    let x ← rd data i
    if isNoData x then
      return (← wr s.1 i mark, s.2)
    else if truth x then
      return (← wr s.1 i s.2, s.2 + 1)
    else
      return (← wr s.1 i 0, s.2)) (uninitialised data.length garbage, startValue)
  return r.1

/-- `std::rotate(v.begin() + i, v.begin() + i + 1, v.begin() + n)`: element `i` moves to position `n - 1`, the elements
after it move one position to the front. -/
def rotateOne {β : Type} (v : List β) (i n : Nat) : List β :=
  v.take i ++ (v.take n).drop (i + 1) ++ (v.take (i + 1)).drop i ++ v.drop n

/-- The variables of the loop in `unique_id_partitions2`: `A/definition/unique_id.hpp:99-126`. -/
structure State where
  /-- `partition_idxs` -/
  idxs : List Nat
  /-- `partition_sizes_`: the values the futures will obtain -/
  sizes : List Nat
  /-- `nr_partitions_to_handle` -/
  toHandle : Nat
  /-- `start_value` -/
  start : Nat
  /-- the tasks spawned: partition and start value -/
  launched : List (Nat × Nat)

/-- `A/definition/unique_id.hpp:128-168`: an iteration of the loop. `pick` is the index of a ready future, as returned
by `when_any`, which is passed the first `toHandle` futures and returns those. -/
def step (s : State) (pick : Nat) : M State := do
  let sizes := s.sizes.take s.toHandle
  let partitionIdx ← rd s.idxs pick
  let nrElements ← rd sizes pick
  return {
    idxs := rotateOne s.idxs pick s.toHandle
    sizes := rotateOne sizes pick s.toHandle
    toHandle := s.toHandle - 1
    start := s.start + nrElements
    launched := s.launched ++ [(partitionIdx, s.start)] }

/-- The loop. `picks` tells which of the remaining futures turns out to be ready, in each of the iterations. -/
def launches (sizes : List Nat) (picks : List Nat) : M (List (Nat × Nat)) := do
  let s ← picks.foldlM step ⟨List.range sizes.length, sizes, sizes.length, 1, []⟩
  return s.launched

/-- What `when_any` can return: there is an iteration for each partition, and in each the index of one of the futures
passed in is returned. -/
def IsPicks : Nat → List Nat → Prop
  | 0, [] => True
  | n + 1, p :: ps => p < n + 1 ∧ IsPicks n ps
  | _, _ => False

/-- `promise.set_value`: throws if the promise has been satisfied already. -/
def setPromise {π : Type} (promises : List (Option π)) (k : Nat) (v : π) : M (List (Option π)) :=
  match promises[k]? with
  | none => .error .outOfBounds
  | some (some _) => .error .thrown
  | some none => .ok (promises.set k (some v))

/-- The partitions, once all promises are satisfied. A promise which is never satisfied is an error. -/
def collect {π : Type} (promises : List (Option π)) : M (List π) :=
  promises.mapM fun
    | some r => .ok r
    | none => .error .outOfBounds

/-- `A/definition/unique_id.hpp:176-246`. `order` is the order in which the spawned tasks complete. -/
def uniqueId {α : Type} (isNoData truth : α → Bool) (mark : Nat) (garbage : Nat → Nat) (picks order : List Nat)
    (x : PArr α) : M (PArr Nat) := do
  let tasks ← launches (x.parts.map List.length) picks
  let promises ← order.foldlM (fun (promises : List (Option (List Nat))) t => do
    let (k, start) ← rd tasks t
    let p ← uniqueIdPartition isNoData truth mark garbage (← rd x.parts k) start
    setPromise promises k p) (List.replicate x.parts.length none)
  let parts ← collect promises
  return ⟨x.grid, parts⟩

end Lue.UniqueId

import Verif.Partitioned.Cells

/-!
Model of the aggregating operations. `A` below is `source/framework/algorithm/include/lue/framework/algorithm`.
-/
namespace Lue.Aggregate

variable {α ω τ : Type}

/-- The functions of an aggregating functor, e.g. `A/definition/sum.hpp:13-48`: `functor()`, `functor(x)`,
`functor(result, x)`, `functor.partition(result)`, `functor.partition(result1, result2)`. -/
structure Functor (α ω : Type) where
  none : ω
  one : α → ω
  step : ω → α → ω
  part1 : ω → ω
  part2 : ω → ω → ω

/-- The policies used: input no-data policy, domain policy, and the output no-data policy, which marks a value
(a constant function in `A/policy/mark_no_data_by_value.hpp`, the identity in `A/policy/dont_mark_no_data.hpp`) and
recognises a marked value. -/
structure Policies (α ω : Type) where
  indp : α → Bool
  dp : α → Bool
  mark : ω → ω
  isNoData : ω → Bool

/-- The inner loop, `A/unary_aggregate_operation.hpp:63-73` and `186-194`. -/
def innerLoop (n : Nat) (valid : Nat → Option τ) (step : ω → τ → ω) (idx : Nat) (result : ω) : Nat × ω :=
  if idx < n then
    match valid idx with
    | some x => innerLoop n valid step (idx + 1) (step result x)
    | none => innerLoop n valid step (idx + 1) result
  else (idx, result)
termination_by n - idx

theorem innerLoop_le (n : Nat) (valid : Nat → Option τ) (step : ω → τ → ω) (idx : Nat) (result : ω) :
    idx ≤ (innerLoop n valid step idx result).1 := by
  fun_induction innerLoop n valid step idx result <;> omega

/-- The outer loop, `A/unary_aggregate_operation.hpp:53-79` and `174-199`. The inner loop uses the same index
variable. -/
def outerLoop (n : Nat) (valid : Nat → Option τ) (init : τ → ω) (step : ω → τ → ω) (idx : Nat) (result : ω) : Nat × ω :=
  if _h : idx < n then
    match valid idx with
    | some x =>
      outerLoop n valid init step ((innerLoop n valid step (idx + 1) (init x)).1 + 1)
        (innerLoop n valid step (idx + 1) (init x)).2
    | none => outerLoop n valid init step (idx + 1) result
  else (idx, result)
termination_by n - idx
decreasing_by
  · have := innerLoop_le n valid step (idx + 1) (init x); omega
  · omega

/-- `A/unary_aggregate_operation.hpp:41-88` and `163-209`: both start with `functor()`, and mark the result as no-data
if no valid element is found, which is concluded from the value of the index after the loops. -/
def aggregate (n : Nat) (valid : Nat → Option τ) (init : τ → ω) (step : ω → τ → ω) (default : ω) (mark : ω → ω) : ω :=
  if n = 0 then mark default
  else
    let s := outerLoop n valid init step 0 default
    if s.1 = n then mark s.2 else s.2

/-- `A/unary_aggregate_operation.hpp:12-93` -/
def aggregatePartition (P : Policies α ω) (F : Functor α ω) (data : List α) : ω :=
  aggregate data.length (fun i => data[i]?.bind fun x => if !P.indp x && P.dp x then some x else none)
    F.one F.step F.none P.mark

/-- The continuation, `A/unary_aggregate_operation.hpp:157-210` -/
def aggregateResults (P : Policies α ω) (F : Functor α ω) (results : List ω) : ω :=
  aggregate results.length
    (fun i => results[i]?.bind fun r => let p := F.part1 r; if !P.isNoData p then some p else none)
    (fun p => p) F.part2 F.none P.mark

/-- `A/unary_aggregate_operation.hpp:126-213`. `order` is the order of completion of the tasks for the partitions. -/
def aggregateArray (P : Policies α ω) (F : Functor α ω) (order : List Nat) (x : PArr α) : M ω := do
  let results ← runTasks (x.grid.n0 * x.grid.n1)
    (fun k => do .ok (aggregatePartition P F (← rd x.parts k))) order
  .ok (aggregateResults P F results)

/-! ### Functors -/

/-- `A/definition/sum.hpp:13-48`, for equal input and output element types (the instantiated ones, see
`A/value_policies/sum.hpp`). -/
def sum [Zero α] [Add α] : Functor α α := ⟨0, id, fun r x => r + x, id, fun r s => r + s⟩

/-- `A/definition/minimum.hpp:13-48`; `big` is `std::numeric_limits<OutputElement>::max()`. -/
def minimum [LinearOrder α] (big : α) : Functor α α := ⟨big, id, fun r x => min r x, id, fun r s => min r s⟩

/-- `A/definition/maximum.hpp` -/
def maximum [LinearOrder α] (small : α) : Functor α α := ⟨small, id, fun r x => max r x, id, fun r s => max r s⟩

/-- `A/all.hpp:12-50`. Elements are integers used as truth values. -/
def all : Functor Int Int :=
  ⟨0, id, fun r x => if r ≠ 0 ∧ x ≠ 0 then 1 else 0, id, fun r s => if r ≠ 0 ∧ s ≠ 0 then 1 else 0⟩

/-- `A/any.hpp:13-52` -/
def any : Functor Int Int :=
  ⟨0, id, fun r x => if r ≠ 0 ∨ x ≠ 0 then 1 else 0, id, fun r s => if r ≠ 0 ∨ s ≠ 0 then 1 else 0⟩

/-- `A/none.hpp:11-50` -/
def none : Functor Int Int :=
  ⟨0, fun x => if x = 0 then 1 else 0, fun r x => if r ≠ 0 ∧ x = 0 then 1 else 0, id,
    fun r s => if r ≠ 0 ∧ s ≠ 0 then 1 else 0⟩

/-! ### unique -/

/-- `A/definition/unique.hpp:18-45`: insertion in an ordered set. Sets are lists without duplicates here, the ordering
of the elements is not modelled. -/
def uniquePartition [DecidableEq α] (isNoData : α → Bool) (data : List α) : M (List α) :=
  forLoop data.length (fun i (set : List α) => do
    let x ← rd data i
    .ok (if !isNoData x then set.insert x else set)) []

/-- `A/definition/unique.hpp:75-121` -/
def unique [DecidableEq α] (isNoData : α → Bool) (order : List Nat) (x : PArr α) : M (List α) := do
  let sets ← runTasks (x.grid.n0 * x.grid.n1) (fun k => do uniquePartition isNoData (← rd x.parts k)) order
  .ok (sets.foldl (fun set s => s.foldl (fun set e => set.insert e) set) [])

end Lue.Aggregate

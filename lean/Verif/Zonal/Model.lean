import Verif.Partitioned.Cells
import Verif.Util.AMap

/-!
Model of the zonal operations. `A` below is `source/framework/algorithm/include/lue/framework/algorithm`.

The order of iteration over an unordered map is unspecified: definitions which iterate take a function `iter` which
yields the elements in the order of iteration.
-/
namespace Lue.Zonal

variable {Z α σ ω : Type} [DecidableEq Z]

/-- Input no-data policies of the values and the zones, domain policy, value used to mark no-data. -/
structure Policies (Z α ω : Type) where
  indp1 : α → Bool
  indp2 : Z → Bool
  dp : Z → α → Bool
  mark : ω

/-- An aggregator keeps a statistic per zone in an unordered map. The operations differ in the way they change the
statistic of a zone, given the current statistic of the zone (if any), and in the way the statistic is converted to the
resulting value. -/
structure Aggregator (α σ ω : Type) where
  /-- `add(zone, value)` -/
  add : Option σ → α → σ
  /-- `merge(other)`, per zone of `other` -/
  merge : Option σ → σ → σ
  /-- `operator[](zone)` -/
  value : σ → ω

/-- The order of iteration over an unordered map. -/
def IsIter {K V : Type} (iter : AMap K V → AMap K V) : Prop := ∀ m, (iter m).Perm m

/-- `A/definition/zonal_operation.hpp:96-160`: statistics per zone of a partition -/
def zonalPartition (P : Policies Z α ω) (G : Aggregator α σ ω) (input : List α) (zones : List Z) : M (AMap Z σ) :=
  forLoop zones.length (fun i (m : AMap Z σ) => do
    let x ← rd input i
    let z ← rd zones i
    if !P.indp1 x && !P.indp2 z then
      if P.dp z x then .ok (m.put z (G.add (m.get z) x)) else .ok m
    else .ok m) []

/-- `A/definition/zonal_operation.hpp:28-78`: same, for a scalar -/
def zonalPartitionS (P : Policies Z α ω) (G : Aggregator α σ ω) (value : α) (zones : List Z) : M (AMap Z σ) :=
  if !P.indp1 value then
    forLoop zones.length (fun i (m : AMap Z σ) => do
      let z ← rd zones i
      if !P.indp2 z then
        if P.dp z value then .ok (m.put z (G.add (m.get z) value)) else .ok m
      else .ok m) []
  else .ok []

/-- `merge` of the aggregators, e.g. `A/definition/zonal_sum.hpp:46-52` -/
def mergeInto (G : Aggregator α σ ω) (iter : AMap Z σ → AMap Z σ) (m other : AMap Z σ) : AMap Z σ :=
  (iter other).foldl (fun m e => m.put e.1 (G.merge (m.get e.1) e.2)) m

/-- `A/definition/zonal_operation.hpp:281-296`, `417-432`: in the order of the partitions -/
def mergeAll (G : Aggregator α σ ω) (iter : AMap Z σ → AMap Z σ) (aggregators : List (AMap Z σ)) : AMap Z σ :=
  aggregators.foldl (mergeInto G iter) []

/-- `A/definition/zonal_operation.hpp:182-227`: zones to values. The zone is not tested for no-data. -/
def zonalPartition2 (P : Policies Z α ω) (G : Aggregator α σ ω) (garbage : Nat → ω) (m : AMap Z σ) (zones : List Z) :
    M (List ω) :=
  forLoop zones.length (fun i out => do
    let z ← rd zones i
    match m.get z with
    | none => wr out i P.mark
    | some s => wr out i (G.value s)) (uninitialised zones.length garbage)

/-- `A/definition/zonal_operation.hpp:352-460`. `order1` and `order2` are the orders of completion of the tasks in both
rounds. -/
def zonalArray (P : Policies Z α ω) (G : Aggregator α σ ω) (iter : AMap Z σ → AMap Z σ) (garbage : Nat → ω)
    (order1 order2 : List Nat) (x : PArr α) (z : PArr Z) : M (PArr ω) := do
  verifyCompatible x z
  let n := z.grid.n0 * z.grid.n1
  let aggregators ← runTasks n (fun k => do zonalPartition P G (← rd x.parts k) (← rd z.parts k)) order1
  let m := mergeAll G iter aggregators
  let parts ← runTasks n (fun k => do zonalPartition2 P G garbage m (← rd z.parts k)) order2
  .ok ⟨z.grid, parts⟩

/-- `A/definition/zonal_operation.hpp:250-338`: same, for a scalar -/
def zonalArrayS (P : Policies Z α ω) (G : Aggregator α σ ω) (iter : AMap Z σ → AMap Z σ) (garbage : Nat → ω)
    (order1 order2 : List Nat) (value : α) (z : PArr Z) : M (PArr ω) := do
  let n := z.grid.n0 * z.grid.n1
  let aggregators ← runTasks n (fun k => do zonalPartitionS P G value (← rd z.parts k)) order1
  let m := mergeAll G iter aggregators
  let parts ← runTasks n (fun k => do zonalPartition2 P G garbage m (← rd z.parts k)) order2
  .ok ⟨z.grid, parts⟩

/-! ### Aggregators -/

/-- `A/definition/zonal_sum.hpp:33-72` -/
def sum [Add α] : Aggregator α α α :=
  ⟨fun | none, x => x | some s, x => s + x, fun | none, x => x | some s, x => s + x, id⟩

/-- `A/definition/zonal_minimum.hpp:35-70`: `try_emplace`, followed by `std::min` -/
def minimum [LinearOrder α] : Aggregator α α α :=
  ⟨fun o x => min (o.getD x) x, fun o x => min (o.getD x) x, id⟩

/-- `A/definition/zonal_maximum.hpp:35-70` -/
def maximum [LinearOrder α] : Aggregator α α α :=
  ⟨fun o x => max (o.getD x) x, fun o x => max (o.getD x) x, id⟩

/-- `A/definition/zonal_mean.hpp:30-90`; `div` is the division of the sum by the number of values. -/
def mean [Add α] (div : α → Nat → α) : Aggregator α (α × Nat) α :=
  ⟨fun | none, x => (x, 1) | some s, x => (s.1 + x, s.2 + 1),
   fun | none, x => x | some s, x => (s.1 + x.1, s.2 + x.2), fun s => div s.1 s.2⟩

/-- `A/definition/zonal_diversity.hpp:28-75`. Sets are lists without duplicates. -/
def diversity [DecidableEq α] : Aggregator α (List α) Nat :=
  ⟨fun o x => (o.getD []).insert x, fun | none, s => s | some t, s => s.foldl (fun t e => t.insert e) t, List.length⟩

/-- `A/definition/zonal_majority.hpp:36-75`: frequencies per value -/
def majorityAdd [DecidableEq α] (o : Option (AMap α Nat)) (x : α) : AMap α Nat :=
  let f := o.getD []
  f.put x ((f.get x).getD 0 + 1)

/-- `A/definition/zonal_majority.hpp:52-80` -/
def majorityMerge [DecidableEq α] (iter : AMap α Nat → AMap α Nat) (o : Option (AMap α Nat)) (other : AMap α Nat) :
    AMap α Nat :=
  match o with
  | none => other
  | some f => (iter other).foldl (fun f e => f.put e.1 ((f.get e.1).getD 0 + e.2)) f

/-- `A/definition/zonal_majority.hpp:90-127`; `zero` is the initial value `OutputElement{}`. -/
def majorityValue [LinearOrder α] (iter : AMap α Nat → AMap α Nat) (zero : α) (f : AMap α Nat) : α :=
  ((iter f).foldl (fun (s : α × Nat) e =>
    if e.2 > s.2 then (e.1, e.2)
    else if e.2 = s.2 then (if e.1 > s.1 then (e.1, s.2) else s)
    else s) (zero, 0)).1

/-- `A/definition/zonal_majority.hpp` -/
def majority [LinearOrder α] (iter : AMap α Nat → AMap α Nat) (zero : α) : Aggregator α (AMap α Nat) α :=
  ⟨majorityAdd, majorityMerge iter, majorityValue iter zero⟩

end Lue.Zonal

import Verif.LocalOp.Model
import Verif.Aggregate.Model

/-!
C74: asynchronous execution. `A` below is `source/framework/algorithm/include/lue/framework/algorithm`.

Operations return before their tasks have been executed. The partitions of the resulting arrays are futures. A task is
executed once the partitions it depends on are ready (`hpx::dataflow`, `when_all`, `then`), while the thread which
called the operation continues calling other operations, until it waits for a result (`future.get()`, `wait()`).

If a task throws an exception, the partition it should have computed becomes ready nevertheless: it contains the
exception. Tasks depending on this partition are not executed, or fail as soon as they use it: their result contains an
exception as well (`hpx::unwrapping`, `future.get()`). If multiple inputs of a task contain an exception, the model leaves
open which one ends up in the result.

This is the contract of the HPX library. What is modelled of the code are the dependencies between the tasks it creates.
-/
namespace Lue.Dataflow

/-- A set of tasks created by an operation: the number of tasks, the results each task depends on (given the number of the
set, and the number of the task in the set), and what the task computes. -/
structure Stage (V : Type) where
  n : Nat
  deps : Nat → List (Nat × Nat)
  body : Nat → List V → M V

variable {V : Type}

/-- Partitions which have been read, created, or otherwise don't depend on other partitions. -/
def source (parts : List V) : Stage V where
  n := parts.length
  deps := fun _ => []
  body := fun k _ => rd parts k

/-- `A/definition/unary_local_operation.hpp:86-120`, `binary_local_operation.hpp:394-455`,
`ternary_local_operation.hpp`, `where.hpp`: per partition a task, which depends on the partitions with the same index of
the input arrays. -/
def localStage (n : Nat) (inputs : List Nat) (f : List V → M V) : Stage V where
  n := n
  deps := fun k => inputs.map fun a => (a, k)
  body := fun _ => f

/-- `A/definition/binary_local_operation.hpp:458-508`: tasks also depend on a scalar, which is task 0 of a set. -/
def localScalarStage (n : Nat) (inputs : List Nat) (scalar : Nat) (f : List V → M V) : Stage V where
  n := n
  deps := fun k => (inputs.map fun a => (a, k)) ++ [(scalar, 0)]
  body := fun _ => f

/-- The indices of the partitions around partition `k`, including itself: `A/definition/focal_operation.hpp`. -/
def around (n0 n1 k : Nat) : List Nat :=
  (List.range n0).flatMap fun k0 => ((List.range n1).filter fun k1 =>
    decide (k0 ≤ k / n1 + 1 ∧ k / n1 ≤ k0 + 1 ∧ k1 ≤ k % n1 + 1 ∧ k % n1 ≤ k1 + 1)).map fun k1 => k0 * n1 + k1

/-- `A/definition/focal_operation.hpp:1560-1640`: a task depends on the partitions around it, of all input arrays. -/
def focalStage (n0 n1 : Nat) (inputs : List Nat) (f : Nat → List V → M V) : Stage V where
  n := n0 * n1
  deps := fun k => inputs.flatMap fun a => (around n0 n1 k).map fun k' => (a, k')
  body := f

/-- The continuation of aggregate operations and the merging of results per zone: `A/unary_aggregate_operation.hpp:157-210`,
`A/definition/zonal_operation.hpp:301-320`. A single task, which depends on all tasks of a set. -/
def reduceStage (n a : Nat) (f : List V → M V) : Stage V where
  n := 1
  deps := fun _ => (List.range n).map fun k => (a, k)
  body := fun _ => f

/-- A thread calling operations, and waiting for results. What it does next can depend on the results. -/
inductive Script (V : Type) where
  | done
  /-- An exception has been thrown by `get`. -/
  | failed (e : Err)
  | issue (stage : Stage V) (rest : Script V)
  /-- `future.get()`: `rest` receives the result. -/
  | get (task : Nat × Nat) (rest : V → Script V)

/-- The state of the execution: what remains of the script, the sets of tasks created, and the results which are ready. -/
structure Config (V : Type) where
  script : Script V
  stages : List (Stage V)
  ready : Nat × Nat → Option (M V)

def Config.init (s : Script V) : Config V := ⟨s, [], fun _ => none⟩

/-- The result of a task given the results it depends on. -/
inductive Settles (ready : Nat × Nat → Option (M V)) (deps : List (Nat × Nat)) (body : List V → M V) : M V → Prop
  | ok {vs} : deps.map ready = vs.map (fun v => some (.ok v)) → Settles ready deps body (body vs)
  | error {d e} : (∀ d ∈ deps, ready d ≠ none) → d ∈ deps → ready d = some (.error e) → Settles ready deps body (.error e)

/-- Something happens: the thread continues, or a task is executed. -/
inductive Step : Config V → Config V → Prop
  | issue {stage rest stages ready} : Step ⟨.issue stage rest, stages, ready⟩ ⟨rest, stages ++ [stage], ready⟩
  | get {t rest stages ready v} : ready t = some (.ok v) → Step ⟨.get t rest, stages, ready⟩ ⟨rest v, stages, ready⟩
  | throw {t rest stages ready e} : ready t = some (.error e) → Step ⟨.get t rest, stages, ready⟩ ⟨.failed e, stages, ready⟩
  | task {script stages ready a k stage r} : stages[a]? = some stage → k < stage.n → ready (a, k) = none →
      Settles ready (stage.deps k) (stage.body k) r →
      Step ⟨script, stages, ready⟩ ⟨script, stages, Function.update ready (a, k) (some r)⟩

/-- The execution of any number of steps. -/
inductive Reach : Config V → Config V → Prop
  | refl {c} : Reach c c
  | step {c c' c''} : Reach c c' → Step c' c'' → Reach c c''

/-- Nothing can happen anymore. -/
def Stuck (c : Config V) : Prop := ∀ c', ¬ Step c c'

/-- A task exists. -/
def Exists (stages : List (Stage V)) (t : Nat × Nat) : Prop := ∃ stage, stages[t.1]? = some stage ∧ t.2 < stage.n

/-- Operations are called with arrays which are the result of operations which have been called before, and results are
only waited for after the operation has been called. -/
inductive Script.Ok : List (Stage V) → Script V → Prop
  | done {stages} : Script.Ok stages .done
  | failed {stages e} : Script.Ok stages (.failed e)
  | issue {stages stage rest} : (∀ k < stage.n, ∀ d ∈ stage.deps k, Exists stages d) →
      Script.Ok (stages ++ [stage]) rest → Script.Ok stages (.issue stage rest)
  | get {stages t rest} : Exists stages t → (∀ v, Script.Ok stages (rest v)) → Script.Ok stages (.get t rest)

/-! ### Specification -/

/-- A task succeeds: those it depends on do, and it does not throw given their results. -/
inductive Succeeds (stages : List (Stage V)) : Nat × Nat → V → Prop
  | intro {a k stage vs v} : stages[a]? = some stage → k < stage.n →
      vs.length = (stage.deps k).length →
      (∀ (i : Nat) (d : Nat × Nat) (w : V), (stage.deps k)[i]? = some d → vs[i]? = some w → Succeeds stages d w) →
      stage.body k vs = .ok v → Succeeds stages (a, k) v

/-- A task throws an exception. -/
def Throws (stages : List (Stage V)) (t : Nat × Nat) (e : Err) : Prop :=
  ∃ stage vs, stages[t.1]? = some stage ∧ t.2 < stage.n ∧ vs.length = (stage.deps t.2).length ∧
    (∀ (i : Nat) (d : Nat × Nat) (w : V), (stage.deps t.2)[i]? = some d → vs[i]? = some w → Succeeds stages d w) ∧ stage.body t.2 vs = .error e

/-- Task `t` needs the result of task `d`. -/
def Needs (stages : List (Stage V)) (d t : Nat × Nat) : Prop :=
  ∃ stage, stages[t.1]? = some stage ∧ t.2 < stage.n ∧ d ∈ stage.deps t.2

/-! ### One operation after the other -/

/-- The execution of the tasks of an operation, in some order of completion, given the results of all previous operations.
Nothing else happens in the mean time. -/
def runStage (order : List Nat) (stage : Stage V) (arrays : List (List V)) : M (List V) :=
  runTasks stage.n (fun k => do
    let vs ← (stage.deps k).mapM fun d => do rd (← rd arrays d.1) d.2
    stage.body k vs) order

/-- The execution of operations, one after the other. -/
inductive Sequential : List (Stage V) → List (List V) → Prop
  | nil : Sequential [] []
  | snoc {stages arrays stage order array} : Sequential stages arrays → IsOrder stage.n order →
      runStage order stage arrays = .ok array → Sequential (stages ++ [stage]) (arrays ++ [array])

end Lue.Dataflow

import Verif.Async.Stages
import Verif.Async.Flow
import Verif.Program.Theorems

/-!
C75: programs which are executed asynchronously. `A` below is
`source/framework/algorithm/include/lue/framework/algorithm`.

This combines C73 and C74: the thread executing a program calls operations. Each call creates tasks, and returns
arrays and scalars which are not ready yet. The thread only waits where the program branches on a scalar.

The kernels are those of the operations: local and focal operations with one or more inputs, zonal operations, aggregations,
computations with scalars, and operations using flow directions.

Simplification: the tasks of `accu` and operations like `accu_threshold` communicate through channels while they are being
executed. That is the subject of C19 and C67, where all interleavings of these tasks are considered. Here, such an operation
starts once all partitions of its arguments are ready, and results in any of its possible outcomes. In the code the tasks for
partitions of which the arguments are ready can start before that.
-/
namespace Lue.Async

open Lue.Program Lue.Dataflow

instance (t : Ty) : DecidableEq t.El := by cases t <;> exact inferInstance

/-- A zonal operation: the types of the zones, the values, and the results, and the statistic. -/
structure ZonalOp where
  z : Ty
  t : Ty
  u : Ty
  P : Zonal.Policies z.El t.El u.El
  Z : Statistic t u

variable {ι : Type} [DecidableEq ι] (T : ι → ZonalOp)

/-- The results of tasks: partitions, scalars, aggregators per zone, messages sent by `inflow_count`, and pairs of partitions
(the results of `accu_threshold`). `T` are the zonal operations used. -/
inductive Value : Type where
  | part (t : Ty) (l : List t.El)
  | scalar (t : Ty) (x : t.El)
  | zones (i : ι) (m : AMap (T i).z.El (T i).Z.σ)
  | outputs (l : List InflowCount.Output)
  | pair (l : List (Option ℚ) × List (Option ℚ))

/-- Partitions of arrays with elements of type `t`. -/
def parts (t : Ty) : Emb (Value T) (List t.El) where
  up := .part t
  down
    | .part t' l => if h : t' = t then .ok (h ▸ l) else .error .thrown
    | _ => .error .thrown
  down_up x := by simp

def scalars (t : Ty) : Emb (Value T) t.El where
  up := .scalar t
  down
    | .scalar t' l => if h : t' = t then .ok (h ▸ l) else .error .thrown
    | _ => .error .thrown
  down_up x := by simp

def aggregators (i : ι) : Emb (Value T) (AMap (T i).z.El (T i).Z.σ) where
  up := .zones i
  down
    | .zones i' l => if h : i' = i then .ok (h ▸ l) else .error .thrown
    | _ => .error .thrown
  down_up x := by simp

def messages : Emb (Value T) (List InflowCount.Output) where
  up := .outputs
  down
    | .outputs l => .ok l
    | _ => .error .thrown
  down_up _ := rfl

def pairs : Emb (Value T) (List (Option ℚ) × List (Option ℚ)) where
  up := .pair
  down
    | .pair l => .ok l
    | _ => .error .thrown
  down_up _ := rfl

/-- Calls of operations, see `Program.Op`. -/
inductive Call : Type where
  | fill (t : Ty) (dst : Nat) (value : Nat)
  | unary (t u : Ty) (dst : Nat) (P : LocalOp.Policies1 t.El u.El) (f : t.El → u.El) (x : Nat)
  | binary (t₁ t₂ u : Ty) (dst : Nat) (P : LocalOp.Policies2 t₁.El t₂.El u.El) (f : t₁.El → t₂.El → u.El) (x y : Nat)
  | binaryAS (t₁ t₂ u : Ty) (dst : Nat) (P : LocalOp.Policies2 t₁.El t₂.El u.El) (f : t₁.El → t₂.El → u.El) (x y : Nat)
  | binarySA (t₁ t₂ u : Ty) (dst : Nat) (P : LocalOp.Policies2 t₁.El t₂.El u.El) (f : t₁.El → t₂.El → u.El) (x y : Nat)
  | ternary (t₁ t₂ t₃ u : Ty) (dst : Nat) (P : LocalOp.Policies3 t₁.El t₂.El t₃.El u.El)
      (f : t₁.El → t₂.El → t₃.El → u.El) (x y z : Nat)
  | wher (c t : Ty) (dst : Nat) (P : LocalOp.Policies3 c.El t.El t.El t.El) (truth : c.El → Bool) (x y z : Nat)
  | focal (t u : Ty) (dst : Nat) (halo : Focal.Halo t.El) (radius : Nat) (functor : List t.El → M u.El) (x : Nat)
  | focal2 (t₁ t₂ u : Ty) (dst : Nat) (halo₁ : Focal.Halo t₁.El) (halo₂ : Focal.Halo t₂.El) (radius : Nat)
      (functor : List t₁.El → List t₂.El → M u.El) (x y : Nat)
  | zonal (i : ι) (dst : Nat) (x zones : Nat)
  | inflowCount (dst : Nat) (isNoData : Nat → Bool) (mark : Nat → Nat) (fd : Nat)
  | accu (dst : Nat) (isNoData : Nat → Bool) (within : ℚ → Bool) (fd : Nat) (inflow : Src .amount)
  | split (dst₁ dst₂ : Nat) (isNoData : Nat → Bool) (within : ℚ → ℚ → Bool) (rule : ℚ → ℚ → ℚ × ℚ) (fd : Nat)
      (inflow parameter : Src .amount)
  | aggregate (t u : Ty) (dst : Nat) (A : Aggregation t u) (x : Nat)
  | scalar (t₁ t₂ u : Ty) (dst : Nat) (f : t₁.El → t₂.El → u.El) (x y : Nat)

variable {T}

/-- The call in the model in which operations are executed one after the other. -/
def Call.op : Call (ι := ι) → (T : ι → ZonalOp) → Op
  | .fill t dst x, _ => .fill t dst x
  | .unary t u dst P f x, _ => .unary t u dst P f x
  | .binary t₁ t₂ u dst P f x y, _ => .binary t₁ t₂ u dst P f x y
  | .binaryAS t₁ t₂ u dst P f x y, _ => .binaryAS t₁ t₂ u dst P f x y
  | .binarySA t₁ t₂ u dst P f x y, _ => .binarySA t₁ t₂ u dst P f x y
  | .ternary t₁ t₂ t₃ u dst P f x y z, _ => .ternary t₁ t₂ t₃ u dst P f x y z
  | .wher c t dst P truth x y z, _ => .wher c t dst P truth x y z
  | .focal t u dst halo radius functor x, _ => .focal t u dst halo radius functor x
  | .focal2 t₁ t₂ u dst halo₁ halo₂ radius functor x y, _ => .focal2 t₁ t₂ u dst halo₁ halo₂ radius functor x y
  | .zonal i dst x zones, T => .zonal (T i).z (T i).t (T i).u dst (T i).P (T i).Z x zones
  | .inflowCount dst isNoData mark fd, _ => .inflowCount dst isNoData mark fd
  | .accu dst isNoData within fd inflow, _ => .accu dst isNoData within fd inflow
  | .split dst₁ dst₂ isNoData within rule fd inflow parameter, _ => .split dst₁ dst₂ isNoData within rule fd inflow parameter
  | .aggregate t u dst A x, _ => .aggregate t u dst A x
  | .scalar t₁ t₂ u dst f x y, _ => .scalar t₁ t₂ u dst f x y

/-- The variables of a program which is executed asynchronously: futures. An array is the number of a set of tasks, a
scalar the number of a set with a single task. -/
structure Env where
  arr : Ty → Nat → Nat
  sc : Ty → Nat → Nat

def Env.setArr (env : Env) (t : Ty) (x a : Nat) : Env := ⟨assign (F := fun _ => Nat) env.arr t x a, env.sc⟩
def Env.setSc (env : Env) (t : Ty) (x a : Nat) : Env := ⟨env.arr, assign (F := fun _ => Nat) env.sc t x a⟩

/-- What is not determined by the program: what is in new memory (three blocks per task at most), the order in which
elements of unordered maps are visited, and the outcome of operations using flow directions, if there are multiple. This can
be different for each operation called: `a` is the number of sets of tasks created before. -/
structure Unknown (T : ι → ZonalOp) where
  garbage : Nat → Nat → (t : Ty) → Nat → t.El
  iter : Nat → (i : ι) → AMap (T i).z.El (T i).Z.σ → AMap (T i).z.El (T i).Z.σ
  isIter : ∀ a i, Zonal.IsIter (iter a i)
  accu : Nat → (ℚ → Bool) → (Nat → Bool) → PArr Nat → Accu.Arg (Option ℚ) → PArr (Option ℚ)
  isAccu : ∀ a within isNoData fd inflow, (∃ y, Accu.AccuYields within isNoData fd inflow y) →
    Accu.AccuYields within isNoData fd inflow (accu a within isNoData fd inflow)
  split : Nat → (ℚ → ℚ → Bool) → (ℚ → ℚ → ℚ × ℚ) → (Nat → Bool) → PArr Nat → Accu.Arg (Option ℚ) → Accu.Arg (Option ℚ) →
    PArr (Option ℚ) × PArr (Option ℚ)
  isSplit : ∀ a within rule isNoData fd inflow parameter,
    (∃ outflow remainder, Accu.SplitYields within rule isNoData fd inflow parameter outflow remainder) →
    Accu.SplitYields within rule isNoData fd inflow parameter (split a within rule isNoData fd inflow parameter).1
      (split a within rule isNoData fd inflow parameter).2

/-! ### Operations using flow directions -/

/-- The results an argument consists of, of an array with `n` partitions. -/
def argDeps (env : Env) (n : Nat) : Src .amount → List (Nat × Nat)
  | .array x => (List.range n).map fun k => (env.arr .amount x, k)
  | .scalar x => [(env.sc .amount x, 0)]

/-- The argument, given these results. -/
def readArg (g : Grid) : Src .amount → List (Value T) → M (Accu.Arg (Option ℚ))
  | .array _, vs => do .ok (.array ⟨g, ← vs.mapM (parts T .amount).down⟩)
  | .scalar _, [v] => do .ok (.scalar (← (scalars T .amount).down v))
  | .scalar _, _ => .error .thrown

/-- `A/definition/accumulating_router.hpp:1365-1416` (accumulating_router), `A/definition/accu.hpp:222-246`: per partition a
task. -/
def accuStage (g : Grid) (W : Unknown T) (env : Env) (a : Nat) (isNoData : Nat → Bool) (within : ℚ → Bool) (fd : Nat)
    (inflow : Src .amount) : Stage (Value T) where
  n := g.n0 * g.n1
  deps := fun _ => ((List.range (g.n0 * g.n1)).map fun k => (env.arr .code fd, k)) ++ argDeps env (g.n0 * g.n1) inflow
  body := fun k vs => do
    let fd ← (vs.take (g.n0 * g.n1)).mapM (parts T .code).down
    let inflow ← readArg g inflow (vs.drop (g.n0 * g.n1))
    .ok ((parts T .amount).up (← rd (W.accu a within isNoData ⟨g, fd⟩ inflow).parts k))

/-- Same, operations with two results: `A/definition/accu_threshold.hpp:296-358`, `accu_fraction.hpp:288-350`,
`accu_capacity.hpp:291-353`, `accu_trigger.hpp:291-353`. A task computes two partitions. -/
def splitStage (g : Grid) (W : Unknown T) (env : Env) (a : Nat) (isNoData : Nat → Bool) (within : ℚ → ℚ → Bool)
    (rule : ℚ → ℚ → ℚ × ℚ) (fd : Nat) (inflow parameter : Src .amount) : Stage (Value T) where
  n := g.n0 * g.n1
  deps := fun _ => ((List.range (g.n0 * g.n1)).map fun k => (env.arr .code fd, k)) ++ (argDeps env (g.n0 * g.n1) inflow ++
    argDeps env (g.n0 * g.n1) parameter)
  body := fun k vs => do
    let fd ← (vs.take (g.n0 * g.n1)).mapM (parts T .code).down
    let vs := vs.drop (g.n0 * g.n1)
    let nr := (argDeps env (g.n0 * g.n1) inflow).length
    let inflow ← readArg g inflow (vs.take nr)
    let parameter ← readArg g parameter (vs.drop nr)
    let y := W.split a within rule isNoData ⟨g, fd⟩ inflow parameter
    .ok ((pairs T).up (← rd y.1.parts k, ← rd y.2.parts k))

/-- The sets of tasks created by a call, when `a` of them have been created before. See the operations in `Program.Op` for
the parts of the code. -/
def Call.stages (g : Grid) (W : Unknown T) (env : Env) (a : Nat) : Call (ι := ι) → List (Stage (Value T))
  | .fill t _ x => [fillStage (g.n0 * g.n1) (env.sc t x) fun k =>
      body1 (scalars T t) (parts T t) fun v => rd (store g fun _ _ => v).parts k]
  | .unary t u _ P f x => [localStage (g.n0 * g.n1) [env.arr t x]
      (body1 (parts T t) (parts T u) (LocalOp.unaryPartition P f (W.garbage a 0 u)))]
  | .binary t₁ t₂ u _ P f x y => [localStage (g.n0 * g.n1) [env.arr t₁ x, env.arr t₂ y]
      (body2 (parts T t₁) (parts T t₂) (parts T u) (LocalOp.binaryPartition P f (W.garbage a 0 u)))]
  | .binaryAS t₁ t₂ u _ P f x y => [localScalarStage (g.n0 * g.n1) [env.arr t₁ x] (env.sc t₂ y)
      (body2 (parts T t₁) (scalars T t₂) (parts T u) (LocalOp.binaryPartitionAS P f (W.garbage a 0 u)))]
  | .binarySA t₁ t₂ u _ P f x y => [localScalarStage (g.n0 * g.n1) [env.arr t₂ y] (env.sc t₁ x)
      (body2 (parts T t₂) (scalars T t₁) (parts T u) fun data value =>
        LocalOp.binaryPartitionSA P f (W.garbage a 0 u) value data)]
  | .ternary t₁ t₂ t₃ u _ P f x y z => [localStage (g.n0 * g.n1) [env.arr t₁ x, env.arr t₂ y, env.arr t₃ z]
      (body3 (parts T t₁) (parts T t₂) (parts T t₃) (parts T u) (LocalOp.ternaryPartition P f (W.garbage a 0 u)))]
  | .wher c t _ P truth x y z => [localStage (g.n0 * g.n1) [env.arr c x, env.arr t y, env.arr t z]
      (body3 (parts T c) (parts T t) (parts T t) (parts T t) (LocalOp.wherePartition P truth (W.garbage a 0 t)))]
  | .focal t u _ halo radius functor x => [focalStage g.n0 g.n1 [env.arr t x]
      (focalBody (parts T t) (parts T u) halo (W.garbage a 0 t) (W.garbage a 1 u) radius functor g)]
  | .focal2 t₁ t₂ u _ halo₁ halo₂ radius functor x y => [focalStage g.n0 g.n1 [env.arr t₁ x, env.arr t₂ y]
      (focalBody2 (parts T t₁) (parts T t₂) (parts T u) halo₁ halo₂ (W.garbage a 0 t₁) (W.garbage a 1 t₂) (W.garbage a 2 u)
        radius functor g)]
  | .zonal i _ x zones => [
      localStage (g.n0 * g.n1) [env.arr (T i).t x, env.arr (T i).z zones]
        (body2 (parts T (T i).t) (parts T (T i).z) (aggregators T i) (Zonal.zonalPartition (T i).P (T i).Z.G)),
      reduceStage (g.n0 * g.n1) a
        (bodyN (aggregators T i) (aggregators T i) fun l => .ok (Zonal.mergeAll (T i).Z.G (W.iter a i) l)),
      localScalarStage (g.n0 * g.n1) [env.arr (T i).z zones] (a + 1)
        (body2 (parts T (T i).z) (aggregators T i) (parts T (T i).u) fun p m =>
          Zonal.zonalPartition2 (T i).P (T i).Z.G (W.garbage a 0 (T i).u) m p)]
  | .inflowCount _ isNoData mark fd => [
      sendStage (parts T .code) (messages T) isNoData g (env.arr .code fd),
      countStage (parts T .code) (messages T) isNoData mark g (env.arr .code fd) a]
  | .accu _ isNoData within fd inflow => [accuStage g W env a isNoData within fd inflow]
  -- `hpx::split_future`
  | .split _ _ isNoData within rule fd inflow parameter => [
      splitStage g W env a isNoData within rule fd inflow parameter,
      localStage (g.n0 * g.n1) [a] (body1 (pairs T) (parts T .amount) fun p => .ok p.1),
      localStage (g.n0 * g.n1) [a] (body1 (pairs T) (parts T .amount) fun p => .ok p.2)]
  | .aggregate t u _ A x => [
      localStage (g.n0 * g.n1) [env.arr t x]
        (body1 (parts T t) (scalars T u) fun p => .ok (Aggregate.aggregatePartition A.P A.F p)),
      reduceStage (g.n0 * g.n1) a (bodyN (scalars T u) (scalars T u) fun rs => .ok (Aggregate.aggregateResults A.P A.F rs))]
  | .scalar t₁ t₂ u _ f x y => [scalarStage [env.sc t₁ x, env.sc t₂ y]
      (body2 (scalars T t₁) (scalars T t₂) (scalars T u) fun x y => .ok (f x y))]

/-- The variables after a call: the last set of tasks computes the result (the last two sets, if there are two results). -/
def Call.after (env : Env) (a : Nat) (T : ι → ZonalOp) : Call (ι := ι) → Env
  | .fill t dst _ => env.setArr t dst a
  | .unary _ u dst _ _ _ => env.setArr u dst a
  | .binary _ _ u dst _ _ _ _ => env.setArr u dst a
  | .binaryAS _ _ u dst _ _ _ _ => env.setArr u dst a
  | .binarySA _ _ u dst _ _ _ _ => env.setArr u dst a
  | .ternary _ _ _ u dst _ _ _ _ _ => env.setArr u dst a
  | .wher _ t dst _ _ _ _ _ => env.setArr t dst a
  | .focal _ u dst _ _ _ _ => env.setArr u dst a
  | .focal2 _ _ u dst _ _ _ _ _ _ => env.setArr u dst a
  | .zonal i dst _ _ => env.setArr (T i).u dst (a + 2)
  | .inflowCount dst _ _ _ => env.setArr .code dst (a + 1)
  | .accu dst _ _ _ _ => env.setArr .amount dst a
  | .split dst₁ dst₂ _ _ _ _ _ _ => (env.setArr .amount dst₁ (a + 1)).setArr .amount dst₂ (a + 2)
  | .aggregate _ u dst _ _ => env.setSc u dst (a + 1)
  | .scalar _ _ u dst _ _ _ => env.setSc u dst a

variable (ι) in
/-- Programs, see `Program.Stmt`. -/
inductive Prog : Type where
  | call (c : Call (ι := ι))
  | seq (p q : Prog)
  | ite (t : Ty) (x : Nat) (cond : t.El → Bool) (p q : Prog)
  | loop (t : Ty) (x : Nat) (cond : t.El → Bool) (p : Prog)

/-- The program in the model in which operations are executed one after the other. -/
def Prog.stmt (T : ι → ZonalOp) : Prog ι → Stmt
  | .call c => .op (c.op T)
  | .seq p q => .seq (p.stmt T) (q.stmt T)
  | .ite t x cond p q => .ite t x cond (p.stmt T) (q.stmt T)
  | .loop t x cond p => .loop t x cond (p.stmt T)

/-- The program does not contain `accu` and operations like it. These never end given a cycle of flow directions crossing
a border between partitions. -/
def Prog.NoRouting : Prog ι → Prop
  | .call (.accu ..) | .call (.split ..) => False
  | .call _ => True
  | .seq p q | .ite _ _ _ p q => p.NoRouting ∧ q.NoRouting
  | .loop _ _ _ p => p.NoRouting

/-- Calling operations: their tasks are created, nothing is waited for. -/
def issueAll {V : Type} (stages : List (Stage V)) (rest : Script V) : Script V := stages.foldr .issue rest

/-- The thread executing a program: at most `fuel` steps of it. `env` are the current variables, `a` the number of sets of
tasks created, and `fin` what the thread does at the end. Branching on a scalar requires its value: `future.get()`. -/
def thread (g : Grid) (W : Unknown T) (fin : Env → Script (Value T)) : Nat → List (Prog ι) → Env → Nat → Script (Value T)
  | 0, _, _, _ => .failed .diverged
  | _ + 1, [], env, _ => fin env
  | n + 1, .call c :: rest, env, a =>
      issueAll (c.stages g W env a) (thread g W fin n rest (c.after env a T) (a + (c.stages g W env a).length))
  | n + 1, .seq p q :: rest, env, a => thread g W fin n (p :: q :: rest) env a
  | n + 1, .ite t x cond p q :: rest, env, a => .get (env.sc t x, 0) fun v =>
      match (scalars T t).down v with
      | .ok v => thread g W fin n ((if cond v then p else q) :: rest) env a
      | .error e => .failed e
  | n + 1, .loop t x cond p :: rest, env, a => .get (env.sc t x, 0) fun v =>
      match (scalars T t).down v with
      | .ok v => thread g W fin n (if cond v then p :: .loop t x cond p :: rest else rest) env a
      | .error e => .failed e

/-- The variables, as far as these are used for waiting: arrays have a task per partition, scalars a single task. -/
def EnvOk {V : Type} (g : Grid) (stages : List (Stage V)) (env : Env) : Prop :=
  (∀ t x, ∃ st, stages[env.arr t x]? = some st ∧ st.n = g.n0 * g.n1) ∧
    ∀ t x, ∃ st, stages[env.sc t x]? = some st ∧ st.n = 1

/-- The arrays and scalars with which a program starts: these are the results of operations called before. If executed one
after the other, these operations result in the values `S`. -/
structure Started (g : Grid) (stages : List (Stage (Value T))) (env : Env) (S : Whole) : Prop where
  deps : ∀ stages₁ stage stages₂, stages = stages₁ ++ stage :: stages₂ → ∀ k < stage.n, ∀ d ∈ stage.deps k, Exists stages₁ d
  futures : EnvOk g stages env
  results : ∃ arrays, Sequential stages arrays ∧
    (∀ t x, arrays[env.arr t x]? = some ((store g (S.arr t x)).parts.map (Value.part t))) ∧
    ∀ t x, arrays[env.sc t x]? = some [Value.scalar t (S.sc t x)]

end Lue.Async

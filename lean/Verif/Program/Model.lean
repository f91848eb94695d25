import Verif.LocalOp.Properties
import Verif.Aggregate.Properties
import Verif.Zonal.Properties
import Verif.Focal.Properties
import Verif.InflowCount.Properties
import Verif.Accu.Operations

/-!
C73: models built from the operations. `A` below is `source/framework/algorithm/include/lue/framework/algorithm`.

A program is a sequence of calls of the operations, with branches and loops of which the conditions depend on scalars:
this is what a script using the Python package does (`source/framework/python`), or what the `simulate_step` function of a
model does (`A/../model`). Arrays and scalars are kept in variables. All arrays are partitioned the same way.

Simplifications: the tasks of an operation complete in any order, but operations are executed one after the other. In the
code an operation can start as soon as the partitions it needs are ready. Such partitions do not change anymore (C32).
Elements are natural numbers (flow directions, classes, counts), integers or exact rational numbers which can be no-data.
-/
namespace Lue.Program

/-- Types of elements: codes (flow directions, classes, counts), integers, amounts (which can be no-data). -/
inductive Ty where
  | code
  | int
  | amount
  deriving DecidableEq

abbrev Ty.El : Ty → Type
  | .code => Nat
  | .int => Int
  | .amount => Option ℚ

/-- The variables of a program which is executed: partitioned arrays and scalars. -/
structure State where
  arr : ∀ t : Ty, Nat → PArr t.El
  sc : ∀ t : Ty, Nat → t.El

/-- Same, for a program working with arrays which are not partitioned. -/
structure Whole where
  arr : ∀ t : Ty, Nat → Arr t.El
  sc : ∀ t : Ty, Nat → t.El

/-- Assignment to a variable, given the values of all variables. -/
def assign {F : Ty → Type} (vars : ∀ t : Ty, Nat → F t) (t : Ty) (x : Nat) (a : F t) : ∀ t : Ty, Nat → F t :=
  fun t' x' => if h : t = t' then (if x = x' then h ▸ a else vars t' x') else vars t' x'

/-- `dst = array` -/
def State.setArr (s : State) (t : Ty) (x : Nat) (a : PArr t.El) : State := ⟨assign (F := fun t => PArr t.El) s.arr t x a, s.sc⟩
/-- `dst = scalar` -/
def State.setSc (s : State) (t : Ty) (x : Nat) (a : t.El) : State := ⟨s.arr, assign (F := Ty.El) s.sc t x a⟩
def Whole.setArr (s : Whole) (t : Ty) (x : Nat) (a : Arr t.El) : Whole := ⟨assign (F := fun t => Arr t.El) s.arr t x a, s.sc⟩
def Whole.setSc (s : Whole) (t : Ty) (x : Nat) (a : t.El) : Whole := ⟨s.arr, assign (F := Ty.El) s.sc t x a⟩

/-- An argument which is an array or a scalar. -/
inductive Src (t : Ty) where
  | array (x : Nat)
  | scalar (x : Nat)

/-- The argument passed to an operation. -/
def Src.arg {t : Ty} (s : State) : Src t → Accu.Arg t.El
  | .array x => .array (s.arr t x)
  | .scalar x => .scalar (s.sc t x)

/-- The value of an argument in each cell. -/
def Src.values {t : Ty} (S : Whole) : Src t → Arr t.El
  | .array x => S.arr t x
  | .scalar x => fun _ _ => S.sc t x

/-- A zonal statistic: how it is accumulated (`A/definition/zonal_*.hpp`) and what it is of the values in a zone. -/
structure Statistic (t u : Ty) where
  σ : Type
  G : Zonal.Aggregator t.El σ u.El
  /-- `Is values result` -/
  Is : List t.El → u.El → Prop

/-- A zonal statistic only depends on the values in the zone: it can be computed per partition and merged. -/
def Statistic.Lawful {t u : Ty} (Z : Statistic t u) : Prop :=
  ∃ R : List t.El → Z.σ → Prop, Zonal.Summarises Z.G R ∧
    (∀ l s, R l s → Z.Is l (Z.G.value s)) ∧ ∀ l a b, Z.Is l a → Z.Is l b → a = b

/-- An aggregation over all cells: policies, functor, and the operator which is used to combine values. -/
structure Aggregation (t u : Ty) where
  P : Aggregate.Policies t.El u.El
  F : Aggregate.Functor t.El u.El
  φ : t.El → u.El
  op : u.El → u.El → u.El

/-- An aggregate can be computed per partition and combined. -/
def Aggregation.Lawful {t u : Ty} (A : Aggregation t u) : Prop := Aggregate.Lawful A.F id A.φ A.op ∧ Aggregate.Marks A.P

/-- Calls of operations. Variables are numbered, per type of element. The first variable receives the result. -/
inductive Op : Type 1 where
  /-- `create_array(shape, partition_shape, fill_value)` -/
  | fill (t : Ty) (dst : Nat) (value : Nat)
  /-- Unary, binary and ternary local operations: `A/definition/unary_local_operation.hpp:86-120`,
  `binary_local_operation.hpp:394-561`, `ternary_local_operation.hpp` -/
  | unary (t u : Ty) (dst : Nat) (P : LocalOp.Policies1 t.El u.El) (f : t.El → u.El) (x : Nat)
  | binary (t₁ t₂ u : Ty) (dst : Nat) (P : LocalOp.Policies2 t₁.El t₂.El u.El) (f : t₁.El → t₂.El → u.El) (x y : Nat)
  | binaryAS (t₁ t₂ u : Ty) (dst : Nat) (P : LocalOp.Policies2 t₁.El t₂.El u.El) (f : t₁.El → t₂.El → u.El) (x y : Nat)
  | binarySA (t₁ t₂ u : Ty) (dst : Nat) (P : LocalOp.Policies2 t₁.El t₂.El u.El) (f : t₁.El → t₂.El → u.El) (x y : Nat)
  | ternary (t₁ t₂ t₃ u : Ty) (dst : Nat) (P : LocalOp.Policies3 t₁.El t₂.El t₃.El u.El)
      (f : t₁.El → t₂.El → t₃.El → u.El) (x y z : Nat)
  /-- `where(condition, true, false)`: `A/definition/where.hpp` -/
  | wher (c t : Ty) (dst : Nat) (P : LocalOp.Policies3 c.El t.El t.El t.El) (truth : c.El → Bool) (x y z : Nat)
  /-- Focal operations: focal statistics, slope, aspect, convolution, `d8_flow_direction` (one array), `upstream`,
  `downstream` (two arrays). `A/definition/focal_operation.hpp` -/
  | focal (t u : Ty) (dst : Nat) (halo : Focal.Halo t.El) (radius : Nat) (functor : List t.El → M u.El) (x : Nat)
  | focal2 (t₁ t₂ u : Ty) (dst : Nat) (halo₁ : Focal.Halo t₁.El) (halo₂ : Focal.Halo t₂.El) (radius : Nat)
      (functor : List t₁.El → List t₂.El → M u.El) (x y : Nat)
  /-- Zonal operations: `A/definition/zonal_operation.hpp` -/
  | zonal (z t u : Ty) (dst : Nat) (P : Zonal.Policies z.El t.El u.El) (Z : Statistic t u) (x zones : Nat)
  /-- `inflow_count(flow_direction)`: `A/definition/inflow_count.hpp` -/
  | inflowCount (dst : Nat) (isNoData : Nat → Bool) (mark : Nat → Nat) (fd : Nat)
  /-- `accu(flow_direction, inflow)`: `A/definition/accu.hpp` -/
  | accu (dst : Nat) (isNoData : Nat → Bool) (within : ℚ → Bool) (fd : Nat) (inflow : Src .amount)
  /-- `accu_threshold`, `accu_fraction`, `accu_capacity`, `accu_trigger`: outflow and remainder -/
  | split (dst₁ dst₂ : Nat) (isNoData : Nat → Bool) (within : ℚ → ℚ → Bool) (rule : ℚ → ℚ → ℚ × ℚ) (fd : Nat)
      (inflow parameter : Src .amount)
  /-- `sum`, `minimum`, `maximum`, `all`, `any`, `none`: `A/unary_aggregate_operation.hpp` -/
  | aggregate (t u : Ty) (dst : Nat) (A : Aggregation t u) (x : Nat)
  /-- Computations with scalars -/
  | scalar (t₁ t₂ u : Ty) (dst : Nat) (f : t₁.El → t₂.El → u.El) (x y : Nat)

/-- The outcomes of a call. What is in new memory (`garbage`), the order in which tasks complete, the order in which
elements of unordered maps are visited and the schedule of the router are not determined by the arguments. -/
def Op.Runs (g : Grid) : Op → State → M State → Prop
  | .fill t dst x, s, r => r = .ok (s.setArr t dst (store g fun _ _ => s.sc t x))
  | .unary t u dst P f x, s, r => ∃ (garbage : Nat → u.El) (order : List Nat), IsOrder (g.n0 * g.n1) order ∧
      r = (LocalOp.unaryArray P f garbage order (s.arr t x)).map (s.setArr u dst)
  | .binary t₁ t₂ u dst P f x y, s, r => ∃ (garbage : Nat → u.El) (order : List Nat), IsOrder (g.n0 * g.n1) order ∧
      r = (LocalOp.binaryArray P f garbage order (s.arr t₁ x) (s.arr t₂ y)).map (s.setArr u dst)
  | .binaryAS t₁ t₂ u dst P f x y, s, r => ∃ (garbage : Nat → u.El) (order : List Nat), IsOrder (g.n0 * g.n1) order ∧
      r = (LocalOp.binaryArrayAS P f garbage order (s.arr t₁ x) (s.sc t₂ y)).map (s.setArr u dst)
  | .binarySA t₁ t₂ u dst P f x y, s, r => ∃ (garbage : Nat → u.El) (order : List Nat), IsOrder (g.n0 * g.n1) order ∧
      r = (LocalOp.binaryArraySA P f garbage order (s.sc t₁ x) (s.arr t₂ y)).map (s.setArr u dst)
  | .ternary t₁ t₂ t₃ u dst P f x y z, s, r => ∃ (garbage : Nat → u.El) (order : List Nat), IsOrder (g.n0 * g.n1) order ∧
      r = (LocalOp.array3 (LocalOp.ternaryPartition P f garbage) order (s.arr t₁ x) (s.arr t₂ y) (s.arr t₃ z)).map
        (s.setArr u dst)
  | .wher c t dst P truth x y z, s, r => ∃ (garbage : Nat → t.El) (order : List Nat), IsOrder (g.n0 * g.n1) order ∧
      r = (LocalOp.array3 (LocalOp.wherePartition P truth garbage) order (s.arr c x) (s.arr t y) (s.arr t z)).map
        (s.setArr t dst)
  | .focal t u dst halo radius functor x, s, r => ∃ (garbage : Nat → t.El) (garbage' : Nat → u.El) (order : List Nat),
      IsOrder (g.n0 * g.n1) order ∧
      r = (Focal.focal1 halo garbage garbage' radius functor order (s.arr t x)).map (s.setArr u dst)
  | .focal2 t₁ t₂ u dst halo₁ halo₂ radius functor x y, s, r => ∃ (garbage : Nat → t₁.El) (garbage' : Nat → t₂.El)
      (garbage'' : Nat → u.El) (order : List Nat), IsOrder (g.n0 * g.n1) order ∧
      r = (Focal.focal2 halo₁ halo₂ garbage garbage' garbage'' radius functor order (s.arr t₁ x) (s.arr t₂ y)).map
        (s.setArr u dst)
  | .zonal z t u dst P Z x zones, s, r => ∃ (_ : DecidableEq z.El) (iter : AMap z.El Z.σ → AMap z.El Z.σ)
      (garbage : Nat → u.El) (order1 order2 : List Nat), Zonal.IsIter iter ∧ IsOrder (g.n0 * g.n1) order1 ∧
      IsOrder (g.n0 * g.n1) order2 ∧
      r = (Zonal.zonalArray P Z.G iter garbage order1 order2 (s.arr t x) (s.arr z zones)).map (s.setArr u dst)
  | .inflowCount dst isNoData mark fd, s, r => ∃ order1 order2 : List Nat, IsOrder (g.n0 * g.n1) order1 ∧
      IsOrder (g.n0 * g.n1) order2 ∧
      r = (InflowCount.inflowCount isNoData mark order1 order2 (s.arr .code fd)).map (s.setArr .code dst)
  | .accu dst isNoData within fd inflow, s, r => ∃ y : PArr (Option ℚ),
      Accu.AccuYields within isNoData (s.arr .code fd) (inflow.arg s) y ∧ r = .ok (s.setArr .amount dst y)
  | .split dst₁ dst₂ isNoData within rule fd inflow parameter, s, r => ∃ outflow remainder : PArr (Option ℚ),
      Accu.SplitYields within rule isNoData (s.arr .code fd) (inflow.arg s) (parameter.arg s) outflow remainder ∧
      r = .ok ((s.setArr .amount dst₁ outflow).setArr .amount dst₂ remainder)
  | .aggregate t u dst A x, s, r => ∃ order : List Nat, IsOrder (g.n0 * g.n1) order ∧
      r = (Aggregate.aggregateArray A.P A.F order (s.arr t x)).map (s.setSc u dst)
  | .scalar t₁ t₂ u dst f x y, s, r => r = .ok (s.setSc u dst (f (s.sc t₁ x) (s.sc t₂ y)))

/-- Programs. -/
inductive Stmt : Type 1 where
  | op (o : Op)
  | seq (a b : Stmt)
  /-- `if cond(scalar): a else: b` -/
  | ite (t : Ty) (x : Nat) (cond : t.El → Bool) (a b : Stmt)
  /-- `while cond(scalar): a` -/
  | loop (t : Ty) (x : Nat) (cond : t.El → Bool) (a : Stmt)

/-- A step of the execution of what remains of a program. -/
inductive Step (g : Grid) : List Stmt → State → M (List Stmt × State) → Prop
  | op {o rest s r} : o.Runs g s r → Step g (.op o :: rest) s (r.map fun s' => (rest, s'))
  | seq {a b rest s} : Step g (.seq a b :: rest) s (.ok (a :: b :: rest, s))
  | ite {t x cond a b rest s} : Step g (.ite t x cond a b :: rest) s (.ok ((if cond (s.sc t x) then a else b) :: rest, s))
  | loop {t x cond a rest s} : Step g (.loop t x cond a :: rest) s
      (.ok (if cond (s.sc t x) then a :: .loop t x cond a :: rest else rest, s))

/-- The execution of `n` steps. -/
inductive Steps (g : Grid) : Nat → List Stmt → State → M (List Stmt × State) → Prop
  | nil {p s} : Steps g 0 p s (.ok (p, s))
  | more {n p s p' s' r} : Step g p s (.ok (p', s')) → Steps g n p' s' r → Steps g (n + 1) p s r
  | fail {n p s e} : Step g p s (.error e) → Steps g (n + 1) p s (.error e)

/-- The size of the partitions required by the operations in a program, in both directions: the kernels must fit in the
partitions (C14), and operations using flow directions require two cells (C18). -/
def Op.need : Op → Nat
  | .focal _ _ _ _ radius _ _ => 2 * radius + 1
  | .focal2 _ _ _ _ _ _ radius _ _ _ => 2 * radius + 1
  | .inflowCount .. => 2
  | .accu .. => 2
  | .split .. => 2
  | _ => 1

def Stmt.need : Stmt → Nat
  | .op o => o.need
  | .seq a b => max a.need b.need
  | .ite _ _ _ a b => max a.need b.need
  | .loop _ _ _ a => a.need

end Lue.Program

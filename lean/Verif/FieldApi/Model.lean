import Verif.PyOps.Model

/-!
# Model of the API of fields, in C++ and C

Models `source/framework/api/cxx` (`X` below), of which the operations do not depend on the type of the fields at compile
time, and `source/framework/api/c` (`C` below), which wraps that API for C programs. Overload resolution, which selects
the function called for each combination of types of arguments, is done by the C++ compiler. It is modelled here for
the overloads of the operations, which are those of the macros in
`source/framework/algorithm/include/lue/framework/algorithm/binary_local_operation.hpp` (`B` below),
`unary_local_operation.hpp` (`U` below) and `value_policies/*.hpp` (`VP` below).

Simplifications: the values of all element types are in a single type `V`. Policies and functors of the operations are
parameters (C07, C35, C58). Creating fields, I/O, `uniform`, `open_simplex_noise`, `accu` and `focal_mean` are not part of
this model. Memory allocation does not fail.
-/
namespace Lue.FieldApi

open Lue.LocalOp Lue.PyOps

/-- Alternatives of the variant: arrays, scalars and literals. `X/include/lue/framework/api/cxx/field.hpp.in:11-29` -/
inductive Kind where
  | array | scalar | literal
  deriving DecidableEq, Repr

/-- A field: a variant, `X/include/lue/framework/api/cxx/variant_wrapper.hpp:26-100`. -/
inductive Fld (V : Type) where
  | array (t : Ty) (a : PArr V)
  | scalar (t : Ty) (v : V)
  | literal (t : Ty) (v : V)

/-- Unary operations: `X/source/local/*.cpp` -/
inductive Op1 where
  | abs | acos | asin | atan | ceil | cos | exp | floor | log | log10 | logicalNot | negate | round | sin | sqrt | tan
  | trunc | valid
  deriving DecidableEq, Repr

/-- Binary operations: `X/source/local/*.cpp` -/
inductive Op2 where
  | add | atan2 | closeTo | divide | equalTo | greaterThan | greaterThanEqualTo | lessThan | lessThanEqualTo
  | logicalAnd | logicalExclusiveOr | logicalInclusiveOr | modulus | multiply | notEqualTo | pow | subtract | where2
  deriving DecidableEq, Repr

/-- `BooleanElement`, by default: `environment/cmake/LueConfiguration.cmake:120` -/
def booleanElement : Ty := .uint8

/-! ### Overload resolution -/

/-- A parameter of an overload: an array, a scalar, or a value, and the type of the elements. `none`: this type
is deduced. The type of a parameter for values is just `Element`, but all concepts reject types that are not
arithmetic. -/
structure Param where
  kind : Kind
  fixed : Option Ty
  deriving DecidableEq, Repr

/-- An overload: its parameters, and the concept that must be satisfied by the type deduced. -/
structure Overload where
  params : List Param
  concept_ : Ty → Bool

/-- Does the parameter accept the argument, given the type deduced? -/
def Param.accepts (p : Param) (t : Ty) (a : Kind × Ty) : Bool :=
  p.kind = a.1 && (match p.fixed with | some t' => a.2 = t' | none => a.2 = t)

/-- The type deduced from the first argument of which the parameter mentions it. -/
def candidate : List Param → List (Kind × Ty) → Option Ty
  | p :: ps, a :: as => if p.fixed.isNone then some a.2 else candidate ps as
  | _, _ => none

/-- Template argument deduction. -/
def Overload.deduce (o : Overload) (args : List (Kind × Ty)) : Option Ty :=
  match candidate o.params args with
  | some t =>
    if o.params.length = args.length ∧ ((o.params.zip args).all fun (p, a) => p.accepts t a) = true ∧
      o.concept_ t = true then some t else none
  | none => none

/-- What can be wrong: none of the overloads fits, in which case the overload without constraints
(`X/source/local/add.cpp:10-18`, etc.) is called, which throws an exception (`X/source/detail/unsupported_overload.hpp:14-30`)
with the types of the arguments. Or, more than one fits: the program does not compile. Or, the operation itself failed. -/
inductive ApiErr where
  | unsupported (args : List (Kind × Ty))
  | ambiguous
  | failed
  deriving DecidableEq, Repr

/-- Overload resolution: all overloads that fit are better than the one without constraints. None of them is better than
another one. -/
def resolve (os : List Overload) (args : List (Kind × Ty)) : Except ApiErr Ty :=
  match os.filterMap fun o => o.deduce args with
  | [] => .error (.unsupported args)
  | [t] => .ok t
  | _ => .error .ambiguous

def kinds : List Kind := [.array, .scalar, .literal]

/-- Concepts of the unary operations, last lines of `VP/abs.hpp`, etc. -/
def Op1.concept_ : Op1 → Ty → Bool
  | .abs, t | .negate, t => t.signed
  | .logicalNot, t => t.integral
  | .valid, _ => true
  | _, t => t.floating

/-- Concepts of the binary operations, last lines of `VP/add.hpp`, etc. -/
def Op2.concept_ : Op2 → Ty → Bool
  | .atan2, t | .closeTo, t | .pow, t => t.floating
  | .logicalAnd, t | .logicalExclusiveOr, t | .logicalInclusiveOr, t => t.integral
  | _, _ => true

/-- `U:114-181`: array, scalar, value -/
def overloads1 (op : Op1) : List Overload := kinds.map fun k => ⟨[⟨k, none⟩], op.concept_⟩

/-- `B:349-551`: all combinations of array, scalar and value. `VP/atan2.hpp:19-27`: arrays only. `VP/where.hpp:194-244`: the
first argument is an array with boolean elements, because the call provides the first template argument
(`X/source/local/where2.cpp:31`). The overloads with a future are irrelevant. -/
def overloads2 : Op2 → List Overload
  | .atan2 => [⟨[⟨.array, none⟩, ⟨.array, none⟩], Op2.concept_ .atan2⟩]
  | .where2 => kinds.map fun k => ⟨[⟨.array, some booleanElement⟩, ⟨k, none⟩], Op2.concept_ .where2⟩
  | op => kinds.flatMap fun k => kinds.map fun k' => ⟨[⟨k, none⟩, ⟨k', none⟩], op.concept_⟩

/-- `VP/where.hpp:19-189`: all combinations of array, scalar and value, for the last two arguments -/
def overloads3 : List Overload :=
  kinds.flatMap fun k => kinds.map fun k' =>
    ⟨[⟨.array, some booleanElement⟩, ⟨k, none⟩, ⟨k', none⟩], fun _ => true⟩

/-! ### Calls -/

/-- The type of a field, at run time: `std::visit` -/
def Fld.type {V : Type} : Fld V → Kind × Ty
  | .array t _ => (.array, t)
  | .scalar t _ => (.scalar, t)
  | .literal t _ => (.literal, t)

/-- What is passed to the operation. A literal is treated as a scalar. -/
def Fld.arg {V : Type} : Fld V → Arg V
  | .array _ a => .array a
  | .scalar _ v => .value v
  | .literal _ v => .value v

/-- All that is not defined in the files modelled. -/
structure Lib (V : Type) where
  policies1 : Op1 → Ty → Policies1 V V
  functor1 : Op1 → Ty → V → V
  policies2 : Op2 → Ty → Policies2 V V V
  functor2 : Op2 → Ty → V → V → V
  /-- Default no-data policies, used by `where` -/
  noData : Ty → V → Bool
  mark : Ty → V
  /-- Conversion of an element to `bool` -/
  truth : V → Bool

/-- `VP/where.hpp:9-14`, and the domain policy in `where.hpp:10-34`, with a single expression -/
def Lib.wherePolicies2 {V : Type} (lib : Lib V) (t : Ty) : Policies2 V V V :=
  ⟨lib.noData booleanElement, lib.noData t, fun c _ => lib.truth c, fun _ _ _ => true, lib.mark t⟩

/-- Idem, with two expressions -/
def Lib.wherePolicies3 {V : Type} (lib : Lib V) (t : Ty) : Policies3 V V V V :=
  ⟨lib.noData booleanElement, lib.noData t, lib.noData t, fun _ _ _ => true, lib.mark t⟩

/-- Policies of an operation. -/
def Lib.pol2 {V : Type} (lib : Lib V) (op : Op2) (t : Ty) : Policies2 V V V :=
  match op with
  | .where2 => lib.wherePolicies2 t
  | op => lib.policies2 op t

/-- Functor of an operation. -/
def Lib.fun2 {V : Type} (lib : Lib V) (op : Op2) (t : Ty) : V → V → V :=
  match op with
  | .where2 => whereFunctor
  | op => lib.functor2 op t

/-- The element type of the result: a template argument in some of the calls, `X/source/local/equal_to.cpp:32`, etc. -/
def Op1.out : Op1 → Ty → Ty
  | .logicalNot, _ | .valid, _ => booleanElement
  | _, t => t

/-- Idem -/
def Op2.out : Op2 → Ty → Ty
  | .closeTo, _ | .equalTo, _ | .greaterThan, _ | .greaterThanEqualTo, _ | .lessThan, _ | .lessThanEqualTo, _
  | .logicalAnd, _ | .logicalExclusiveOr, _ | .logicalInclusiveOr, _ | .notEqualTo, _ => booleanElement
  | _, t => t

/-- The field returned: the result is converted to a field. -/
def toField {V : Type} (t : Ty) : Arg V → Fld V
  | .array a => .array t a
  | .value v => .scalar t v

/-- `hpx` errors and exceptions are passed on. -/
def passed {α : Type} : M α → Except ApiErr α
  | .ok x => .ok x
  | .error _ => .error .failed

/-- The call of the overload. -/
def call1 {V : Type} (lib : Lib V) (op : Op1) (t : Ty) (order : List Nat) (garbage : Nat → V) : Arg V → M (Arg V)
  | .array x => do
    let r ← unaryArray (lib.policies1 op t) (lib.functor1 op t) garbage order x
    .ok (.array r)
  | .value x => .ok (.value (unaryScalar (lib.policies1 op t) (lib.functor1 op t) x))

/-- The call of the overload. -/
def call2 {V : Type} (lib : Lib V) (op : Op2) (t : Ty) (order : List Nat) (garbage : Nat → V) :
    Arg V → Arg V → M (Arg V)
  | .array x, .array y => do
    let r ← binaryArray (lib.pol2 op t) (lib.fun2 op t) garbage order x y
    .ok (.array r)
  | .array x, .value y => do
    let r ← binaryArrayAS (lib.pol2 op t) (lib.fun2 op t) garbage order x y
    .ok (.array r)
  | .value x, .array y => do
    let r ← binaryArraySA (lib.pol2 op t) (lib.fun2 op t) garbage order x y
    .ok (.array r)
  | .value x, .value y => .ok (.value (binaryScalar (lib.pol2 op t) (lib.fun2 op t) x y))

/-- The call of the overload of `where` with three arguments. The condition is always an array. -/
def call3 {V : Type} (lib : Lib V) (t : Ty) (order : List Nat) (garbage : Nat → V) :
    Arg V → Arg V → Arg V → M (Arg V)
  | .array c, .array x, .array y => do
    let r ← array3 (wherePartition (lib.wherePolicies3 t) lib.truth garbage) order c x y
    .ok (.array r)
  | .array c, .array x, .value y => do
    let r ← array2 (fun p q => wherePartitionAAS (lib.wherePolicies3 t) lib.truth garbage p q y) order c x
    .ok (.array r)
  | .array c, .value x, .array y => do
    let r ← array2 (fun p q => wherePartitionASA (lib.wherePolicies3 t) lib.truth garbage p x q) order c y
    .ok (.array r)
  | .array c, .value x, .value y => do
    let r ← array1 (fun p => wherePartitionASS (lib.wherePolicies3 t) lib.truth garbage p x y) order c
    .ok (.array r)
  | .value _, _, _ => .error .thrown

/-- The order in which the tasks of an operation complete, and the contents of uninitialised memory. -/
structure Sched (V : Type) where
  order : List Nat
  garbage : Nat → V

/-- `X/source/local/sqrt.cpp:23-28`, etc. -/
def api1 {V : Type} (lib : Lib V) (s : Sched V) (op : Op1) (x : Fld V) : Except ApiErr (Fld V) := do
  let t ← resolve (overloads1 op) [x.type]
  let r ← passed (call1 lib op t s.order s.garbage x.arg)
  .ok (toField (op.out t) r)

/-- `X/source/local/add.cpp:28-48`, `X/source/local/where2.cpp:25-33`, etc. -/
def api2 {V : Type} (lib : Lib V) (s : Sched V) (op : Op2) (x y : Fld V) : Except ApiErr (Fld V) := do
  let t ← resolve (overloads2 op) [x.type, y.type]
  let r ← passed (call2 lib op t s.order s.garbage x.arg y.arg)
  .ok (toField (op.out t) r)

/-- `X/source/local/where3.cpp:25-34` -/
def api3 {V : Type} (lib : Lib V) (s : Sched V) (c x y : Fld V) : Except ApiErr (Fld V) := do
  let t ← resolve overloads3 [c.type, x.type, y.type]
  let r ← passed (call3 lib t s.order s.garbage c.arg x.arg y.arg)
  .ok (toField t r)

/-! ### Operators: `X/include/lue/framework/api/cxx/operator.hpp` -/

/-- Binary operators. -/
inductive Oper2 where
  | plus | slash | eq | gt | ge | lt | le | andAnd | orOr | percent | star | ne | minus
  deriving DecidableEq, Repr

/-- Unary operators. -/
inductive Oper1 where
  | bang | minus
  deriving DecidableEq, Repr

/-- `operator.hpp:19-115` -/
def Oper2.op : Oper2 → Op2
  | .plus => .add | .slash => .divide | .eq => .equalTo | .gt => .greaterThan | .ge => .greaterThanEqualTo
  | .lt => .lessThan | .le => .lessThanEqualTo | .andAnd => .logicalAnd | .orOr => .logicalInclusiveOr
  | .percent => .modulus | .star => .multiply | .ne => .notEqualTo | .minus => .subtract

/-- `operator.hpp:73-76, 91-94` -/
def Oper1.op : Oper1 → Op1
  | .bang => .logicalNot | .minus => .negate

/-- Expressions. -/
inductive Expr (V : Type) where
  | field (x : Fld V)
  | call1 (op : Op1) (e : Expr V)
  | call2 (op : Op2) (e1 e2 : Expr V)
  | call3 (e1 e2 e3 : Expr V)
  | oper1 (o : Oper1) (e : Expr V)
  | oper2 (o : Oper2) (e1 e2 : Expr V)

/-- Evaluation of an expression. `s` tells what happens in each of the nodes. `operator&&` and `operator||` of fields
evaluate both operands. The order of evaluation of operands is unspecified in C++: here, if more than one throws, the
first one is the one reported. -/
def eval {V : Type} (lib : Lib V) : (List Nat → Sched V) → Expr V → Except ApiErr (Fld V)
  | _, .field x => .ok x
  | s, .call1 op e => do
    let x ← eval lib (fun p => s (0 :: p)) e
    api1 lib (s []) op x
  | s, .call2 op e1 e2 => do
    let x ← eval lib (fun p => s (0 :: p)) e1
    let y ← eval lib (fun p => s (1 :: p)) e2
    api2 lib (s []) op x y
  | s, .call3 e1 e2 e3 => do
    let c ← eval lib (fun p => s (0 :: p)) e1
    let x ← eval lib (fun p => s (1 :: p)) e2
    let y ← eval lib (fun p => s (2 :: p)) e3
    api3 lib (s []) c x y
  | s, .oper1 o e => do
    let x ← eval lib (fun p => s (0 :: p)) e
    api1 lib (s []) o.op x
  | s, .oper2 o e1 e2 => do
    let x ← eval lib (fun p => s (0 :: p)) e1
    let y ← eval lib (fun p => s (1 :: p)) e2
    api2 lib (s []) o.op x y

/-! ### C -/

/-- What is on the heap: a `Field` of the C API with a pointer to an instance (`C/include/lue/framework/api/c/field.h`),
or such an instance. -/
inductive Cell (V : Type) where
  | handle (inst : Nat)
  | inst (f : Fld V)

/-- The heap. Addresses `next` and higher have not been used yet. -/
structure Heap (V : Type) where
  mem : Nat → Option (Cell V)
  next : Nat

/-- What can be wrong with a C call: the C++ function throws, or the behaviour is undefined because a pointer is null,
or does not point to a field. -/
inductive CErr where
  | thrown (e : ApiErr)
  | undefined
  deriving DecidableEq, Repr

/-- `new` -/
def Heap.alloc {V : Type} (h : Heap V) (c : Cell V) : Heap V × Nat :=
  (⟨fun a => if a = h.next then some c else h.mem a, h.next + 1⟩, h.next)

/-- `delete` -/
def Heap.free {V : Type} (h : Heap V) (a : Nat) : Heap V := ⟨fun b => if b = a then none else h.mem b, h.next⟩

/-- `return new Field{.instance = new lue::api::Field{std::move(result)}}`, `C/source/local_operation.cpp:10`, etc. -/
def Heap.newField {V : Type} (h : Heap V) (f : Fld V) : Heap V × Nat :=
  let (h1, i) := h.alloc (.inst f)
  h1.alloc (.handle i)

/-- `as_cxx_field`, `C/source/field.hpp:7-33` -/
def Heap.deref {V : Type} (h : Heap V) (p : Option Nat) : Except CErr (Fld V) :=
  match p with
  | none => .error .undefined
  | some a =>
    match h.mem a with
    | some (.handle i) =>
      match h.mem i with
      | some (.inst f) => .ok f
      | _ => .error .undefined
    | _ => .error .undefined

/-- `destruct_field`, `C/source/field.cpp:6-17` -/
def Heap.destruct {V : Type} (h : Heap V) (p : Option Nat) : Except CErr (Heap V) :=
  match p with
  | none => .ok h
  | some a =>
    match h.mem a with
    | some (.handle i) =>
      match h.mem i with
      | some (.inst _) => .ok ((h.free i).free a)
      | _ => .error .undefined
    | _ => .error .undefined

/-- Exceptions thrown by a C++ function. -/
def rethrown {α : Type} : Except ApiErr α → Except CErr α
  | .ok x => .ok x
  | .error e => .error (.thrown e)

/-- Calls from C. Pointers may be null. -/
inductive CCall where
  | call1 (op : Op1) (p : Option Nat)
  | call2 (op : Op2) (p q : Option Nat)
  | where_ (p q r : Option Nat)
  | destruct (p : Option Nat)

/-- `C/source/local_operation.cpp:292-302`: without third argument, the version with two arguments is called. -/
def whereC {V : Type} (lib : Lib V) (s : Sched V) (h : Heap V) (p q : Option Nat) : Option Nat → Except CErr (Fld V)
  | none => do
    let x ← h.deref p
    let y ← h.deref q
    rethrown (api2 lib s .where2 x y)
  | some r => do
    let x ← h.deref p
    let y ← h.deref q
    let z ← h.deref (some r)
    rethrown (api3 lib s x y z)

/-- A new handle to the result. -/
def returned {V : Type} (h : Heap V) (f : Fld V) : Heap V × Option Nat := ((h.newField f).1, some (h.newField f).2)

/-- A call from C, `C/source/local_operation.cpp:6-302`. -/
def ccall {V : Type} (lib : Lib V) (s : Sched V) (h : Heap V) : CCall → Except CErr (Heap V × Option Nat)
  | .call1 op p => do
    let x ← h.deref p
    let r ← rethrown (api1 lib s op x)
    .ok (returned h r)
  | .call2 op p q => do
    let x ← h.deref p
    let y ← h.deref q
    let r ← rethrown (api2 lib s op x y)
    .ok (returned h r)
  | .where_ p q r => do
    let f ← whereC lib s h p q r
    .ok (returned h f)
  | .destruct p => do
    let h' ← h.destruct p
    .ok (h', none)

end Lue.FieldApi

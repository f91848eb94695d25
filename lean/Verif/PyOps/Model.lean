import Verif.LocalOp.Model

/-!
# Model of the operators of arrays and scalars in Python

Models `source/framework/python/include/lue/py/framework/core/partitioned_array.hpp` (`A` below) and
`source/framework/python/include/lue/py/framework/core/scalar.hpp` (`S` below): which special methods exist, for which
arguments, and what they call. Next to that, the way Python evaluates operators, and pybind11 selects overloads, which
are not part of the repository, are modelled by what is documented.

Simplifications: the values of all element types are in a single type `V`. The functions called are parameters: policies
and functor of the local operations (C07). Python numbers are a parameter.
-/
namespace Lue.PyOps

open Lue.LocalOp

/-- Element types. -/
inductive Ty where
  | uint8 | uint32 | uint64 | int8 | int32 | int64 | float32 | float64
  deriving DecidableEq, Repr

/-- `std::is_floating_point_v` -/
def Ty.floating : Ty → Bool
  | .float32 | .float64 => true
  | _ => false

/-- `std::is_integral_v` -/
def Ty.integral (t : Ty) : Bool := !t.floating

/-- `std::is_signed_v`: also true for floating point types -/
def Ty.signed : Ty → Bool
  | .uint8 | .uint32 | .uint64 => false
  | _ => true

/-- Binary operations of namespace `lue::value_policies`. -/
inductive Fn2 where
  | lessThan | lessThanEqualTo | equalTo | notEqualTo | greaterThan | greaterThanEqualTo
  | add | subtract | multiply | divide | modulus | pow
  | logicalInclusiveOr | logicalExclusiveOr | logicalAnd
  deriving DecidableEq, Repr

/-- Unary operations of namespace `lue::value_policies`. -/
inductive Fn1 where
  | abs | negate | logicalNot | floor
  deriving DecidableEq, Repr

/-- The element type of the result: comparisons and logical operations are called with `BooleanElement`, which is
`std::uint8_t` (A:54, S:51). -/
def Fn2.out : Fn2 → Ty → Ty
  | .add, t | .subtract, t | .multiply, t | .divide, t | .modulus, t | .pow, t => t
  | _, _ => .uint8

/-- The element type of the result. -/
def Fn1.out : Fn1 → Ty → Ty
  | .logicalNot, _ => .uint8
  | _, t => t

/-- Python's special methods. -/
inductive Method where
  | lt | le | eq | ne | gt | ge
  | add | radd | sub | rsub | mod | rmod | truediv | rtruediv | mul | rmul | floordiv | rfloordiv | pow | rpow
  | or | ror | xor | rxor | and | rand
  deriving DecidableEq, Repr

/-- Type of the argument of a method of a class with elements of some type: an array or scalar with elements of the same
type, or an element. -/
inductive Kind where
  | array | scalar | element
  deriving DecidableEq, Repr

/-- An overload: name of the method, type of the argument, function called, function called with the result, and whether
the object itself (or else the argument of the method) is the first argument of the function. -/
structure Def where
  name : Method
  arg : Kind
  fn : Fn2
  selfFirst : Bool
  post : Option Fn1 := none
  deriving DecidableEq, Repr

/-- Overloads of the methods of `PartitionedArray<Element, rank>`: A:107-533, in the same order. -/
def arrayDefs (t : Ty) : List Def :=
  [ -- A:107-123
    ⟨.lt, .array, .lessThan, true, none⟩, ⟨.lt, .scalar, .lessThan, true, none⟩,
    ⟨.lt, .element, .lessThan, true, none⟩,
    -- A:125-140
    ⟨.le, .array, .lessThanEqualTo, true, none⟩, ⟨.le, .scalar, .lessThanEqualTo, true, none⟩,
    ⟨.le, .element, .lessThanEqualTo, true, none⟩,
    -- A:142-157
    ⟨.eq, .array, .equalTo, true, none⟩, ⟨.eq, .scalar, .equalTo, true, none⟩, ⟨.eq, .element, .equalTo, true, none⟩,
    -- A:159-174
    ⟨.ne, .array, .notEqualTo, true, none⟩, ⟨.ne, .scalar, .notEqualTo, true, none⟩,
    ⟨.ne, .element, .notEqualTo, true, none⟩,
    -- A:176-191
    ⟨.gt, .array, .greaterThan, true, none⟩, ⟨.gt, .scalar, .greaterThan, true, none⟩,
    ⟨.gt, .element, .greaterThan, true, none⟩,
    -- A:193-208
    ⟨.ge, .array, .greaterThanEqualTo, true, none⟩, ⟨.ge, .scalar, .greaterThanEqualTo, true, none⟩,
    ⟨.ge, .element, .greaterThanEqualTo, true, none⟩,
    -- A:210-236
    ⟨.add, .array, .add, true, none⟩, ⟨.add, .scalar, .add, true, none⟩, ⟨.add, .element, .add, true, none⟩,
    ⟨.radd, .scalar, .add, false, none⟩, ⟨.radd, .element, .add, false, none⟩,
    -- A:238-264
    ⟨.sub, .array, .subtract, true, none⟩, ⟨.sub, .scalar, .subtract, true, none⟩,
    ⟨.sub, .element, .subtract, true, none⟩,
    ⟨.rsub, .element, .subtract, false, none⟩, ⟨.rsub, .scalar, .subtract, false, none⟩,
    -- A:266-324: all element types are arithmetic
    ⟨.mod, .array, .modulus, true, none⟩, ⟨.mod, .scalar, .modulus, true, none⟩, ⟨.mod, .element, .modulus, true, none⟩,
    ⟨.rmod, .scalar, .modulus, false, none⟩, ⟨.rmod, .element, .modulus, false, none⟩,
    ⟨.truediv, .array, .divide, true, none⟩, ⟨.truediv, .scalar, .divide, true, none⟩,
    ⟨.truediv, .element, .divide, true, none⟩,
    ⟨.rtruediv, .scalar, .divide, false, none⟩, ⟨.rtruediv, .element, .divide, false, none⟩ ] ++
  (if t.integral then
    [ -- A:343-433
      ⟨.or, .array, .logicalInclusiveOr, true, none⟩, ⟨.or, .scalar, .logicalInclusiveOr, true, none⟩,
      ⟨.or, .element, .logicalInclusiveOr, true, none⟩,
      ⟨.ror, .scalar, .logicalInclusiveOr, true, none⟩, ⟨.ror, .element, .logicalInclusiveOr, true, none⟩,
      ⟨.xor, .array, .logicalExclusiveOr, true, none⟩, ⟨.xor, .scalar, .logicalExclusiveOr, true, none⟩,
      ⟨.xor, .element, .logicalExclusiveOr, true, none⟩,
      ⟨.rxor, .scalar, .logicalExclusiveOr, true, none⟩, ⟨.rxor, .element, .logicalExclusiveOr, true, none⟩,
      ⟨.and, .array, .logicalAnd, true, none⟩, ⟨.and, .scalar, .logicalAnd, true, none⟩,
      ⟨.and, .element, .logicalAnd, true, none⟩,
      ⟨.rand, .scalar, .logicalAnd, true, none⟩, ⟨.rand, .element, .logicalAnd, true, none⟩ ]
  else []) ++
  (if t.floating then
    [ -- A:441-533
      ⟨.mul, .array, .multiply, true, none⟩, ⟨.mul, .scalar, .multiply, true, none⟩,
      ⟨.mul, .element, .multiply, true, none⟩,
      ⟨.rmul, .scalar, .multiply, false, none⟩, ⟨.rmul, .element, .multiply, false, none⟩,
      ⟨.floordiv, .array, .divide, true, some .floor⟩, ⟨.floordiv, .scalar, .divide, true, some .floor⟩,
      ⟨.floordiv, .element, .divide, true, some .floor⟩,
      ⟨.rfloordiv, .scalar, .divide, false, some .floor⟩, ⟨.rfloordiv, .element, .divide, false, some .floor⟩,
      ⟨.pow, .array, .pow, true, none⟩, ⟨.pow, .scalar, .pow, true, none⟩, ⟨.pow, .element, .pow, true, none⟩,
      ⟨.rpow, .scalar, .pow, false, none⟩, ⟨.rpow, .element, .pow, false, none⟩ ]
  else [])

/-- Overloads of the methods of `Scalar<Element>`: S:95-360, in the same order. -/
def scalarDefs (t : Ty) : List Def :=
  [ -- S:95-165
    ⟨.lt, .scalar, .lessThan, true, none⟩, ⟨.lt, .element, .lessThan, true, none⟩,
    ⟨.le, .scalar, .lessThanEqualTo, true, none⟩, ⟨.le, .element, .lessThanEqualTo, true, none⟩,
    ⟨.eq, .scalar, .equalTo, true, none⟩, ⟨.eq, .element, .equalTo, true, none⟩,
    ⟨.ne, .scalar, .notEqualTo, true, none⟩, ⟨.ne, .element, .notEqualTo, true, none⟩,
    ⟨.gt, .scalar, .greaterThan, true, none⟩, ⟨.gt, .element, .greaterThan, true, none⟩,
    ⟨.ge, .scalar, .greaterThanEqualTo, true, none⟩, ⟨.ge, .element, .greaterThanEqualTo, true, none⟩,
    -- S:167-201
    ⟨.add, .scalar, .add, true, none⟩, ⟨.add, .element, .add, true, none⟩, ⟨.radd, .element, .add, false, none⟩,
    ⟨.sub, .scalar, .subtract, true, none⟩, ⟨.sub, .element, .subtract, true, none⟩,
    ⟨.rsub, .element, .subtract, false, none⟩,
    -- S:203-240. The arguments of `__rmod__` are in the order of those of `__mod__`, S:219-223.
    ⟨.mod, .scalar, .modulus, true, none⟩, ⟨.mod, .element, .modulus, true, none⟩,
    ⟨.rmod, .element, .modulus, true, none⟩,
    ⟨.truediv, .scalar, .divide, true, none⟩, ⟨.truediv, .element, .divide, true, none⟩,
    ⟨.rtruediv, .element, .divide, false, none⟩ ] ++
  (if t.integral then
    [ -- S:259-301
      ⟨.or, .scalar, .logicalInclusiveOr, true, none⟩, ⟨.or, .element, .logicalInclusiveOr, true, none⟩,
      ⟨.xor, .scalar, .logicalExclusiveOr, true, none⟩, ⟨.xor, .element, .logicalExclusiveOr, true, none⟩,
      ⟨.and, .scalar, .logicalAnd, true, none⟩, ⟨.and, .element, .logicalAnd, true, none⟩ ]
  else []) ++
  (if t.floating then
    [ -- S:303-360
      ⟨.mul, .scalar, .multiply, true, none⟩, ⟨.mul, .element, .multiply, true, none⟩,
      ⟨.rmul, .element, .multiply, false, none⟩,
      ⟨.floordiv, .scalar, .divide, true, some .floor⟩, ⟨.floordiv, .element, .divide, true, some .floor⟩,
      ⟨.rfloordiv, .element, .divide, false, some .floor⟩,
      ⟨.pow, .scalar, .pow, true, none⟩, ⟨.pow, .element, .pow, true, none⟩, ⟨.rpow, .element, .pow, false, none⟩ ]
  else [])

/-! ### Objects and calls -/

/-- Objects: arrays, scalars and numbers. -/
inductive Obj (V Num : Type) where
  | array (t : Ty) (a : PArr V)
  | scalar (t : Ty) (v : V)
  | number (n : Num)

/-- What is passed to a function. -/
inductive Arg (V : Type) where
  | array (a : PArr V)
  | value (v : V)

/-- Binary operators. -/
inductive BinOp where
  | lt | le | eq | ne | gt | ge | add | sub | mod | truediv | mul | floordiv | pow | or | xor | and
  deriving DecidableEq, Repr

/-- Unary operators, and `abs`. -/
inductive UnOp where
  | abs | neg | invert | pos
  deriving DecidableEq, Repr

/-- Exceptions: `TypeError`, `ValueError`, or anything else, like division by zero of Python numbers or arrays whose
partitions don't match. -/
inductive PyErr where
  | typeError | valueError | other
  deriving DecidableEq, Repr

/-- All that is not defined in the files modelled. -/
structure Lib (V Num : Type) where
  /-- Default policies, per operation and element type. -/
  policies2 : Fn2 → Ty → Policies2 V V V
  /-- Functor -/
  functor2 : Fn2 → Ty → V → V → V
  /-- Default policies, per operation and element type. -/
  policies1 : Fn1 → Ty → Policies1 V V
  /-- Functor -/
  functor1 : Fn1 → Ty → V → V
  /-- Conversion of a Python number to an element, by pybind11. It fails if the number is not representable. -/
  convert : Ty → Num → Option V
  /-- Python's own operators on numbers -/
  numeric2 : BinOp → Num → Num → Except PyErr Num
  /-- Python's own operators on numbers -/
  numeric1 : UnOp → Num → Except PyErr Num
  /-- `False`, `True` -/
  ofBool : Bool → Num
  /-- Whether a number is considered true -/
  truth : Num → Bool
  /-- Operator `is` -/
  identical : Obj V Num → Obj V Num → Bool

/-- The orders in which the tasks of the operations called complete, and the contents of uninitialised memory. The first
index is the position in the list of operations called by a method. -/
structure Sched (V : Type) where
  order : Nat → List Nat
  garbage : Nat → Nat → V

/-- A call of one of the overloads of a binary operation. An element is treated like a scalar. -/
def call2 {V Num : Type} (lib : Lib V Num) (fn : Fn2) (t : Ty) (order : List Nat) (garbage : Nat → V) :
    Arg V → Arg V → M (Arg V)
  | .array x, .array y => do
    let r ← binaryArray (lib.policies2 fn t) (lib.functor2 fn t) garbage order x y
    .ok (.array r)
  | .array x, .value y => do
    let r ← binaryArrayAS (lib.policies2 fn t) (lib.functor2 fn t) garbage order x y
    .ok (.array r)
  | .value x, .array y => do
    let r ← binaryArraySA (lib.policies2 fn t) (lib.functor2 fn t) garbage order x y
    .ok (.array r)
  | .value x, .value y => .ok (.value (binaryScalar (lib.policies2 fn t) (lib.functor2 fn t) x y))

/-- A call of one of the overloads of a unary operation. -/
def call1 {V Num : Type} (lib : Lib V Num) (fn : Fn1) (t : Ty) (order : List Nat) (garbage : Nat → V) :
    Arg V → M (Arg V)
  | .array x => do
    let r ← unaryArray (lib.policies1 fn t) (lib.functor1 fn t) garbage order x
    .ok (.array r)
  | .value x => .ok (.value (unaryScalar (lib.policies1 fn t) (lib.functor1 fn t) x))

/-- The Python object for the result of a function. -/
def Arg.toObj {V Num : Type} (t : Ty) : Arg V → Obj V Num
  | .array a => .array t a
  | .value v => .scalar t v

/-- An exception thrown by C++ code. -/
def raised {α : Type} : M α → Except PyErr α
  | .ok x => .ok x
  | .error _ => .error .other

/-- pybind11: whether an object can be passed as an argument of a certain type. -/
def matchArg {V Num : Type} (lib : Lib V Num) (t : Ty) : Kind → Obj V Num → Option (Arg V)
  | .array, .array t' a => if t' = t then some (.array a) else none
  | .scalar, .scalar t' v => if t' = t then some (.value v) else none
  | .element, .number n => (lib.convert t n).map .value
  | _, _ => none

/-- The code of a method. -/
def Def.run {V Num : Type} (lib : Lib V Num) (s : Sched V) (d : Def) (t : Ty) (self arg : Arg V) :
    Except PyErr (Obj V Num) := do
  let r ← raised (if d.selfFirst then call2 lib d.fn t (s.order 0) (s.garbage 0) self arg
    else call2 lib d.fn t (s.order 0) (s.garbage 0) arg self)
  match d.post with
  | none => .ok (r.toObj (d.fn.out t))
  | some p => do
    let r ← raised (call1 lib p (d.fn.out t) (s.order 1) (s.garbage 1) r)
    .ok (r.toObj (p.out (d.fn.out t)))

/-- pybind11: the first overload of a method whose argument matches is called. `none`: there is no such method or overload.
In the latter case, `NotImplemented` is returned (because of `pybind11::is_operator`). -/
def dispatch {V Num : Type} (lib : Lib V Num) (s : Sched V) (t : Ty) (self : Arg V) (arg : Obj V Num) (m : Method) :
    List Def → Option (Except PyErr (Obj V Num))
  | [] => none
  | d :: ds =>
    if d.name = m then
      match matchArg lib t d.arg arg with
      | some a => some (d.run lib s t self a)
      | none => dispatch lib s t self arg m ds
    else dispatch lib s t self arg m ds

/-- `type(self).method(self, arg)`. Methods of numbers don't know about arrays and scalars. -/
def callMethod {V Num : Type} (lib : Lib V Num) (s : Sched V) (m : Method) (self arg : Obj V Num) :
    Option (Except PyErr (Obj V Num)) :=
  match self with
  | .array t a => dispatch lib s t (.array a) arg m (arrayDefs t)
  | .scalar t v => dispatch lib s t (.value v) arg m (scalarDefs t)
  | .number _ => none

/-- The method of the left operand. -/
def BinOp.method : BinOp → Method
  | .lt => .lt | .le => .le | .eq => .eq | .ne => .ne | .gt => .gt | .ge => .ge
  | .add => .add | .sub => .sub | .mod => .mod | .truediv => .truediv | .mul => .mul | .floordiv => .floordiv
  | .pow => .pow | .or => .or | .xor => .xor | .and => .and

/-- The method of the right operand. -/
def BinOp.reflected : BinOp → Method
  | .lt => .gt | .le => .ge | .eq => .eq | .ne => .ne | .gt => .lt | .ge => .le
  | .add => .radd | .sub => .rsub | .mod => .rmod | .truediv => .rtruediv | .mul => .rmul | .floordiv => .rfloordiv
  | .pow => .rpow | .or => .ror | .xor => .rxor | .and => .rand

/-- Python: what happens if none of the methods is implemented. -/
def fallback {V Num : Type} (lib : Lib V Num) (op : BinOp) (x y : Obj V Num) : Except PyErr (Obj V Num) :=
  match op with
  | .eq => .ok (.number (lib.ofBool (lib.identical x y)))
  | .ne => .ok (.number (lib.ofBool (!lib.identical x y)))
  | _ => .error .typeError

/-- Python: evaluation of `x op y`. None of the types is a subclass of another one. -/
def binary {V Num : Type} (lib : Lib V Num) (s : Sched V) (op : BinOp) (x y : Obj V Num) : Except PyErr (Obj V Num) :=
  match x, y with
  | .number n, .number m => do
    let r ← lib.numeric2 op n m
    .ok (.number r)
  | _, _ =>
    match callMethod lib s op.method x y with
    | some r => r
    | none =>
      match callMethod lib s op.reflected y x with
      | some r => r
      | none => fallback lib op x y

/-- The unary methods: `__abs__`, `__neg__` A:326-339, S:242-256; `__invert__` A:435-438, S:297-300. There is no
`__pos__`. -/
def unaryFn (t : Ty) : UnOp → Option Fn1
  | .abs => if t.signed || t.floating then some .abs else none
  | .neg => if t.signed || t.floating then some .negate else none
  | .invert => if t.integral then some .logicalNot else none
  | .pos => none

/-- The code of a unary method. -/
def runUnary {V Num : Type} (lib : Lib V Num) (s : Sched V) (op : UnOp) (t : Ty) (x : Arg V) :
    Except PyErr (Obj V Num) :=
  match unaryFn t op with
  | some fn => do
    let r ← raised (call1 lib fn t (s.order 0) (s.garbage 0) x)
    .ok (r.toObj (fn.out t))
  | none => .error .typeError

/-- Python: evaluation of `op x`. -/
def unary {V Num : Type} (lib : Lib V Num) (s : Sched V) (op : UnOp) : Obj V Num → Except PyErr (Obj V Num)
  | .array t a => runUnary lib s op t (.array a)
  | .scalar t v => runUnary lib s op t (.value v)
  | .number n => do
    let r ← lib.numeric1 op n
    .ok (.number r)

/-- `bool(x)`: A:99-105, S:86-92 -/
def truth {V Num : Type} (lib : Lib V Num) : Obj V Num → Except PyErr Bool
  | .array _ _ => .error .valueError
  | .scalar _ _ => .error .valueError
  | .number n => .ok (lib.truth n)

/-- Expressions. -/
inductive Expr (V Num : Type) where
  | obj (x : Obj V Num)
  | unary (op : UnOp) (e : Expr V Num)
  | binary (op : BinOp) (e1 e2 : Expr V Num)
  /-- `e1 op1 e2 op2 e3`: a chain of comparisons -/
  | chain (op1 op2 : BinOp) (e1 e2 e3 : Expr V Num)

/-- Evaluation of an expression. `s` tells what happens in each of the nodes of the expression. The operand in the middle
of a chain is evaluated once. -/
def eval {V Num : Type} (lib : Lib V Num) : (List Nat → Sched V) → Expr V Num → Except PyErr (Obj V Num)
  | _, .obj x => .ok x
  | s, .unary op e => do
    let x ← eval lib (fun p => s (0 :: p)) e
    unary lib (s []) op x
  | s, .binary op e1 e2 => do
    let x ← eval lib (fun p => s (0 :: p)) e1
    let y ← eval lib (fun p => s (1 :: p)) e2
    binary lib (s []) op x y
  | s, .chain op1 op2 e1 e2 e3 => do
    let x ← eval lib (fun p => s (0 :: p)) e1
    let y ← eval lib (fun p => s (1 :: p)) e2
    let r ← binary lib (s []) op1 x y
    let b ← truth lib r
    if b then do
      let z ← eval lib (fun p => s (2 :: p)) e3
      binary lib (s [3]) op2 y z
    else .ok r

end Lue.PyOps

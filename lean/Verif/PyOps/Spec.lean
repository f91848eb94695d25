import Verif.PyOps.Model
import Verif.LocalOp.Properties

/-!
# Operators in Python: specification
-/
namespace Lue.PyOps

open Lue.LocalOp

/-- What a binary operation does with elements (C07): no-data is marked. -/
def Lib.element2 {V Num : Type} (lib : Lib V Num) (fn : Fn2) (t : Ty) (x y : V) : V :=
  (binarySpec (lib.policies2 fn t) (lib.functor2 fn t) x y).getD (lib.policies2 fn t).mark

/-- What a unary operation does with elements. -/
def Lib.element1 {V Num : Type} (lib : Lib V Num) (fn : Fn1) (t : Ty) (x : V) : V :=
  (unarySpec (lib.policies1 fn t) (lib.functor1 fn t) x).getD (lib.policies1 fn t).mark

/-- What is expected of the operations: comparing elements the other way around, with the mirrored comparison, gives the
same result, and the logical operations are symmetric. -/
structure Lib.Mirrored {V Num : Type} (lib : Lib V Num) : Prop where
  lt : ∀ t x y, lib.element2 .greaterThan t x y = lib.element2 .lessThan t y x
  le : ∀ t x y, lib.element2 .greaterThanEqualTo t x y = lib.element2 .lessThanEqualTo t y x
  eq : ∀ t x y, lib.element2 .equalTo t x y = lib.element2 .equalTo t y x
  ne : ∀ t x y, lib.element2 .notEqualTo t x y = lib.element2 .notEqualTo t y x
  or : ∀ t x y, lib.element2 .logicalInclusiveOr t x y = lib.element2 .logicalInclusiveOr t y x
  xor : ∀ t x y, lib.element2 .logicalExclusiveOr t x y = lib.element2 .logicalExclusiveOr t y x
  and : ∀ t x y, lib.element2 .logicalAnd t x y = lib.element2 .logicalAnd t y x

/-- The meaning of the operators: what is computed for a left and right element, and the type of the result. -/
def Lib.meaning {V Num : Type} (lib : Lib V Num) (t : Ty) : BinOp → V → V → V
  | .lt => lib.element2 .lessThan t
  | .le => lib.element2 .lessThanEqualTo t
  | .eq => lib.element2 .equalTo t
  | .ne => lib.element2 .notEqualTo t
  | .gt => lib.element2 .greaterThan t
  | .ge => lib.element2 .greaterThanEqualTo t
  | .add => lib.element2 .add t
  | .sub => lib.element2 .subtract t
  | .mul => lib.element2 .multiply t
  | .truediv => lib.element2 .divide t
  | .floordiv => fun x y => lib.element1 .floor t (lib.element2 .divide t x y)
  | .mod => lib.element2 .modulus t
  | .pow => lib.element2 .pow t
  | .or => lib.element2 .logicalInclusiveOr t
  | .xor => lib.element2 .logicalExclusiveOr t
  | .and => lib.element2 .logicalAnd t

/-- Type of the elements of the result. -/
def BinOp.result (op : BinOp) (t : Ty) : Ty :=
  if op ∈ [.lt, .le, .eq, .ne, .gt, .ge, .or, .xor, .and] then .uint8 else t

/-- Operators which are available for all operands. -/
def BinOp.general (op : BinOp) : Bool := op ∈ [.lt, .le, .eq, .ne, .gt, .ge, .add, .sub, .mod, .truediv]

/-- Logical operators. -/
def BinOp.logical (op : BinOp) : Bool := op ∈ [.or, .xor, .and]

/-- Is it an array? -/
inductive Rank where
  | array | scalar
  deriving DecidableEq, Repr

/-- What an object stands for: a number, or a value per cell. In case of a scalar, all cells have the same value. -/
inductive Den (V Num : Type) where
  | number (n : Num)
  | field (k : Rank) (t : Ty) (u : Nat → Nat → V)

/-- An array if one of the operands is an array. -/
def Rank.max : Rank → Rank → Rank
  | .scalar, .scalar => .scalar
  | _, _ => .array

/-- What `x op y` should stand for, with an array or scalar as left or right operand. A number as operand is converted to
the element type of the other operand. The result is a value per cell, computed from the values of the left and
right operand in the cell. `none`: not supported. -/
def denote2 {V Num : Type} (lib : Lib V Num) (op : BinOp) : Den V Num → Den V Num → Option (Den V Num)
  | .number n, .number m =>
    match lib.numeric2 op n m with
    | .ok r => some (.number r)
    | .error _ => none
  | .field k t u, .field k' t' u' =>
    if t = t' ∧ (op.general ∨ (op.logical ∧ t.integral) ∨ (¬ op.logical ∧ t.floating)) then
      some (.field (k.max k') (op.result t) fun i j => lib.meaning t op (u i j) (u' i j))
    else none
  | .field k t u, .number n =>
    match lib.convert t n with
    | some v =>
      if op.general ∨ (op.logical ∧ t.integral) ∨ (¬ op.logical ∧ t.floating) then
        some (.field k (op.result t) fun i j => lib.meaning t op (u i j) v)
      else none
    | none => none
  | .number n, .field k t u =>
    match lib.convert t n with
    | some v =>
      -- The logical operators of scalars don't support numbers as left operand
      if op.general ∨ (op.logical ∧ t.integral ∧ k = .array) ∨ (¬ op.logical ∧ t.floating) then
        some (.field k (op.result t) fun i j => lib.meaning t op v (u i j))
      else none
    | none => none

/-- What `op x` should stand for. -/
def denote1 {V Num : Type} (lib : Lib V Num) (op : UnOp) : Den V Num → Option (Den V Num)
  | .number n =>
    match lib.numeric1 op n with
    | .ok r => some (.number r)
    | .error _ => none
  | .field k t u =>
    match op with
    | .abs => if t.signed then some (.field k t fun i j => lib.element1 .abs t (u i j)) else none
    | .neg => if t.signed then some (.field k t fun i j => lib.element1 .negate t (u i j)) else none
    | .invert => if t.integral then some (.field k .uint8 fun i j => lib.element1 .logicalNot t (u i j)) else none
    | .pos => none

/-- Object `x` stands for `d`. Arrays have grid `g`. -/
inductive Denotes {V Num : Type} (g : Grid) : Obj V Num → Den V Num → Prop where
  | number (n : Num) : Denotes g (.number n) (.number n)
  | scalar (t : Ty) (v : V) : Denotes g (.scalar t v) (.field .scalar t fun _ _ => v)
  | array (t : Ty) (a : PArr V) (u : Nat → Nat → V) (hg : a.grid = g) (hr : Represents a u) :
      Denotes g (.array t a) (.field .array t u)

/-- What an expression should stand for. `cells` tells what the arrays in the expression stand for. There
are no chains of comparisons of arrays or scalars. -/
inductive Means {V Num : Type} (lib : Lib V Num) (g : Grid) : Expr V Num → Den V Num → Prop where
  | obj {x : Obj V Num} {d : Den V Num} (h : Denotes g x d) : Means lib g (.obj x) d
  | unary {op : UnOp} {e : Expr V Num} {d r : Den V Num} (h : Means lib g e d) (hr : denote1 lib op d = some r) :
      Means lib g (.unary op e) r
  | binary {op : BinOp} {e1 e2 : Expr V Num} {d1 d2 r : Den V Num} (h1 : Means lib g e1 d1) (h2 : Means lib g e2 d2)
      (hr : denote2 lib op d1 d2 = some r)
      -- The one case in which something else is computed
      (hswap : ¬ (op = .mod ∧ (∃ n, d1 = .number n) ∧ ∃ t u, d2 = .field .scalar t u)) :
      Means lib g (.binary op e1 e2) r

end Lue.PyOps

import Verif.FieldApi.Model
import Verif.PyOps.Spec

/-!
# The API of fields: specification
-/
namespace Lue.FieldApi

open Lue.LocalOp Lue.PyOps

/-- What a field stands for: a value per cell, of some element type. Scalars and literals have the same value everywhere. -/
structure Den (V : Type) where
  rank : PyOps.Rank
  ty : Ty
  value : Nat → Nat → V

/-- Field `x` stands for `d`. Arrays have grid `g`. -/
inductive Denotes {V : Type} (g : Grid) : Fld V → Den V → Prop where
  | literal (t : Ty) (v : V) : Denotes g (.literal t v) ⟨.scalar, t, fun _ _ => v⟩
  | scalar (t : Ty) (v : V) : Denotes g (.scalar t v) ⟨.scalar, t, fun _ _ => v⟩
  | array (t : Ty) (a : PArr V) (u : Nat → Nat → V) (hg : a.grid = g) (hr : Represents a u) :
      Denotes g (.array t a) ⟨.array, t, u⟩

/-- Element types for which an operation is defined: `abs` and `negate` need a sign, `logical_not` needs integers, and `valid`
is defined for all types. The others need floating point numbers. -/
def defined1 (op : Op1) (t : Ty) : Prop :=
  (op = .valid) ∨ (op = .logicalNot ∧ t.floating = false) ∨ ((op = .abs ∨ op = .negate) ∧ t.signed = true) ∨
    (op ∉ [.valid, .logicalNot, .abs, .negate] ∧ t.floating = true)

instance (op : Op1) (t : Ty) : Decidable (defined1 op t) := by unfold defined1; infer_instance

/-- Is the result a boolean field? -/
def boolean1 (op : Op1) : Prop := op ∈ [Op1.logicalNot, .valid]

instance (op : Op1) : Decidable (boolean1 op) := by unfold boolean1; infer_instance

/-- What a unary operation does with an element (C07): no-data is marked. -/
def Lib.element1 {V : Type} (lib : Lib V) (op : Op1) (t : Ty) (x : V) : V :=
  (unarySpec (lib.policies1 op t) (lib.functor1 op t) x).getD (lib.policies1 op t).mark

/-- What a unary operation on a field stands for. `none`: not defined. -/
def denote1 {V : Type} (lib : Lib V) (op : Op1) (d : Den V) : Option (Den V) :=
  if defined1 op d.ty then
    some ⟨d.rank, if boolean1 op then .uint8 else d.ty, fun i j => lib.element1 op d.ty (d.value i j)⟩
  else none

/-- Element types for which a binary operation is defined: logical operations need integers, `close_to`, `pow` and
`atan2` need floating point numbers. -/
def defined2 (op : Op2) (t : Ty) : Prop :=
  (op ∈ [.logicalAnd, .logicalInclusiveOr, .logicalExclusiveOr] → t.floating = false) ∧
    (op ∈ [.closeTo, .pow, .atan2] → t.floating = true)

instance (op : Op2) (t : Ty) : Decidable (defined2 op t) := by unfold defined2; infer_instance

/-- Is the result a boolean field? These are the comparisons and logical operations. -/
def boolean2 (op : Op2) : Prop :=
  op ∈ [Op2.lessThan, .lessThanEqualTo, .equalTo, .notEqualTo, .greaterThanEqualTo, .greaterThan, .closeTo, .logicalAnd,
    .logicalInclusiveOr, .logicalExclusiveOr]

instance (op : Op2) : Decidable (boolean2 op) := by unfold boolean2; infer_instance

/-- What a binary operation does with elements (C07). -/
def Lib.element2 {V : Type} (lib : Lib V) (op : Op2) (t : Ty) (x y : V) : V :=
  (binarySpec (lib.policies2 op t) (lib.functor2 op t) x y).getD (lib.policies2 op t).mark

/-- `where(condition, x)`: `x` if the condition holds, no-data otherwise -/
def Lib.select2 {V : Type} (lib : Lib V) (t : Ty) (c x : V) : V :=
  if lib.noData .uint8 c = false ∧ lib.truth c = true ∧ lib.noData t x = false then x else lib.mark t

/-- `where(condition, x, y)`: `x` if the condition holds, `y` otherwise, no-data if the condition or the one selected
is no-data -/
def Lib.select3 {V : Type} (lib : Lib V) (t : Ty) (c x y : V) : V :=
  if lib.noData .uint8 c then lib.mark t
  else
    let z := if lib.truth c then x else y
    if lib.noData t z then lib.mark t else z

/-- What a binary operation on fields stands for. Both fields must have elements of the same type, except for `where`, which
selects elements of any type given an array of booleans. `atan2` is defined for arrays only. The result is an array if one
of the fields is an array. -/
def denote2 {V : Type} (lib : Lib V) (op : Op2) (d1 d2 : Den V) : Option (Den V) :=
  if op = .where2 then
    if d1.rank = .array ∧ d1.ty = .uint8 then
      some ⟨.array, d2.ty, fun i j => lib.select2 d2.ty (d1.value i j) (d2.value i j)⟩
    else none
  else if d1.ty = d2.ty ∧ defined2 op d1.ty ∧ (op = .atan2 → d1.rank = .array ∧ d2.rank = .array) then
    some ⟨d1.rank.max d2.rank, if boolean2 op then .uint8 else d1.ty,
      fun i j => lib.element2 op d1.ty (d1.value i j) (d2.value i j)⟩
  else none

/-- What a selection stands for. -/
def denote3 {V : Type} (lib : Lib V) (d1 d2 d3 : Den V) : Option (Den V) :=
  if d1.rank = .array ∧ d1.ty = .uint8 ∧ d2.ty = d3.ty then
    some ⟨.array, d2.ty, fun i j => lib.select3 d2.ty (d1.value i j) (d2.value i j) (d3.value i j)⟩
  else none

/-- The operations the operators stand for. -/
def operation2 : Oper2 → Op2
  | .plus => .add | .minus => .subtract | .star => .multiply | .slash => .divide | .percent => .modulus
  | .lt => .lessThan | .le => .lessThanEqualTo | .eq => .equalTo | .ne => .notEqualTo | .ge => .greaterThanEqualTo
  | .gt => .greaterThan
  | .andAnd => .logicalAnd | .orOr => .logicalInclusiveOr

/-- Idem -/
def operation1 : Oper1 → Op1
  | .minus => .negate | .bang => .logicalNot

/-- What an expression stands for. `none`: it contains an operation that is not defined for its arguments. -/
inductive Means {V : Type} (lib : Lib V) (g : Grid) : Expr V → Option (Den V) → Prop where
  | field {x : Fld V} {d : Den V} (h : Denotes g x d) : Means lib g (.field x) (some d)
  | call1 {op : Op1} {e : Expr V} {o : Option (Den V)} (h : Means lib g e o) :
      Means lib g (.call1 op e) (o.bind (denote1 lib op))
  | call2 {op : Op2} {e1 e2 : Expr V} {o1 o2 : Option (Den V)} (h1 : Means lib g e1 o1) (h2 : Means lib g e2 o2) :
      Means lib g (.call2 op e1 e2) (o1.bind fun d1 => o2.bind fun d2 => denote2 lib op d1 d2)
  | call3 {e1 e2 e3 : Expr V} {o1 o2 o3 : Option (Den V)} (h1 : Means lib g e1 o1) (h2 : Means lib g e2 o2)
      (h3 : Means lib g e3 o3) :
      Means lib g (.call3 e1 e2 e3)
        (o1.bind fun d1 => o2.bind fun d2 => o3.bind fun d3 => denote3 lib d1 d2 d3)
  | oper1 {o : Oper1} {e : Expr V} {d : Option (Den V)} (h : Means lib g e d) :
      Means lib g (.oper1 o e) (d.bind (denote1 lib (operation1 o)))
  | oper2 {o : Oper2} {e1 e2 : Expr V} {o1 o2 : Option (Den V)} (h1 : Means lib g e1 o1) (h2 : Means lib g e2 o2) :
      Means lib g (.oper2 o e1 e2) (o1.bind fun d1 => o2.bind fun d2 => denote2 lib (operation2 o) d1 d2)

/-! ### C -/

/-- Heaps that can come about: a C program starts without fields, obtains fields from elsewhere (for example by reading them
from a file), and calls functions. Calls that throw an exception leave the heap as it is. -/
inductive Reach {V : Type} (lib : Lib V) : Heap V → Prop where
  | start (n : Nat) : Reach lib ⟨fun _ => none, n⟩
  | obtain_ {h : Heap V} (hr : Reach lib h) (f : Fld V) : Reach lib (h.newField f).1
  | call {h h' : Heap V} (hr : Reach lib h) (s : Sched V) (c : CCall) (r : Option Nat)
      (hc : ccall lib s h c = .ok (h', r)) : Reach lib h'

/-- A number of calls that return. -/
inductive Steps {V : Type} (lib : Lib V) : Heap V → List CCall → Heap V → Prop where
  | nil (h : Heap V) : Steps lib h [] h
  | cons {h h' h'' : Heap V} {s : Sched V} {c : CCall} {cs : List CCall} {r : Option Nat}
      (hc : ccall lib s h c = .ok (h', r)) (hs : Steps lib h' cs h'') : Steps lib h (c :: cs) h''

end Lue.FieldApi

import Verif.LocalOp.Model
import Mathlib.Analysis.SpecialFunctions.Trigonometric.Arctan
import Mathlib.Analysis.SpecialFunctions.Trigonometric.Inverse
import Mathlib.Analysis.SpecialFunctions.Log.Base
import Mathlib.Analysis.SpecialFunctions.Pow.Real

/-!
Model of the local operations on elements of floating point types, and of comparisons and logical operations, with the
policies used by default by `lue::value_policies`.
`A` below is `source/framework/algorithm/include/lue/framework/algorithm`.

Values of floating point types are modelled as real numbers, infinities and NaN. Signed zeros are not distinguished. What
the processor and the mathematical library compute is the value of the function on real numbers, rounded. How is a
parameter, and may be different for each function. Special cases are those of IEEE 754 and of Annex F of the C standard.
-/
namespace Lue.FloatOps

open Lue.LocalOp

/-- A value of type `float` or `double` -/
inductive Fl where
  | nan
  | inf (negative : Bool)
  | fin (r : ℝ)

/-- The operations the result of which is rounded -/
inductive Fn where
  | add | subtract | multiply | divide | sqrt | log | log10 | acos | asin | atan | sin | cos | tan | exp | pow
  deriving DecidableEq

/-- A floating point type, and the mathematical library -/
structure Lib where
  /-- The largest number -/
  big : ℝ
  big_large : 4 ≤ big
  /-- The numbers which can be represented -/
  Rep : ℝ → Prop
  rep_le : ∀ r, Rep r → |r| ≤ big
  /-- Numbers are not arbitrarily close to zero -/
  rep_ge : ∀ r, Rep r → r ≠ 0 → 1 / big ^ 2 ≤ |r|
  rep_neg : ∀ r, Rep r → Rep (-r)
  rep_floor : ∀ r, Rep r → Rep ⌊r⌋
  rep_zero : Rep 0
  /-- The remainder of a division is exact -/
  rep_mod : ∀ a b, Rep a → Rep b → b ≠ 0 → Rep (a - b * (if 0 ≤ a / b then (⌊a / b⌋ : ℝ) else (⌈a / b⌉ : ℝ)))
  /-- Rounding -/
  round : Fn → ℝ → Fl
  round_rep : ∀ f y v, round f y = .fin v → Rep v
  /-- There is no overflow if the number is in the range of the type -/
  round_fin : ∀ f y, |y| ≤ big → ∃ v, round f y = .fin v
  round_nan : ∀ f y, round f y ≠ .nan

variable (L : Lib)

/-! ### What C++ computes -/

/-- `std::isnan` -/
def isNaN : Fl → Bool
  | .nan => true
  | _ => false

/-- `std::isinf` -/
def isInf : Fl → Bool
  | .inf _ => true
  | _ => false

/-- `x >= z` for a number `z` -/
noncomputable def geq (x : Fl) (z : ℝ) : Bool :=
  match x with
  | .nan => false
  | .inf n => !n
  | .fin r => decide (z ≤ r)

/-- `x <= z` -/
noncomputable def leq (x : Fl) (z : ℝ) : Bool :=
  match x with
  | .nan => false
  | .inf n => n
  | .fin r => decide (r ≤ z)

/-- `x != 0` -/
noncomputable def nonzero : Fl → Bool
  | .fin r => decide (r ≠ 0)
  | _ => true

/-- `-x`: `A/negate.hpp:21-24` -/
noncomputable def neg : Fl → Fl
  | .nan => .nan
  | .inf n => .inf (!n)
  | .fin r => .fin (-r)

/-- `x + y`: `A/add.hpp:21-26` -/
noncomputable def add : Fl → Fl → Fl
  | .fin a, .fin b => L.round .add (a + b)
  | .inf n, .inf m => if n = m then .inf n else .nan
  | .inf n, .fin _ => .inf n
  | .fin _, .inf m => .inf m
  | .nan, _ => .nan
  | _, .nan => .nan

/-- `x - y`: `A/subtract.hpp:21-26` -/
noncomputable def sub : Fl → Fl → Fl
  | .fin a, .fin b => L.round .subtract (a - b)
  | .inf n, .inf m => if n = m then .nan else .inf n
  | .inf n, .fin _ => .inf n
  | .fin _, .inf m => .inf (!m)
  | .nan, _ => .nan
  | _, .nan => .nan

/-- `x * y`: `A/multiply.hpp` -/
noncomputable def mul : Fl → Fl → Fl
  | .fin a, .fin b => L.round .multiply (a * b)
  | .inf n, .inf m => .inf (n != m)
  | .inf n, .fin b => if b = 0 then .nan else .inf (n != decide (b < 0))
  | .fin a, .inf m => if a = 0 then .nan else .inf (decide (a < 0) != m)
  | .nan, _ => .nan
  | _, .nan => .nan

/-- `x / y`: `A/divide.hpp:23-28`. The sign of zero is not modelled, the sign of an infinity in case of a division by zero
is not correct. -/
noncomputable def div : Fl → Fl → Fl
  | .fin a, .fin b => if b = 0 then (if a = 0 then .nan else .inf (decide (a < 0))) else L.round .divide (a / b)
  | .inf _, .inf _ => .nan
  | .inf n, .fin b => .inf (n != decide (b < 0))
  | .fin _, .inf _ => .fin 0
  | .nan, _ => .nan
  | _, .nan => .nan

/-- `std::fmod`: `A/modulus.hpp:21-33` -/
noncomputable def mod : Fl → Fl → Fl
  | .fin a, .fin b =>
    if b = 0 then .nan else .fin (a - b * (if 0 ≤ a / b then (⌊a / b⌋ : ℝ) else (⌈a / b⌉ : ℝ)))
  | .fin a, .inf _ => .fin a
  | _, _ => .nan

/-- `std::abs`: `A/abs.hpp:22-25` -/
noncomputable def abs : Fl → Fl
  | .nan => .nan
  | .inf _ => .inf false
  | .fin r => .fin |r|

/-- `std::floor`: `A/floor.hpp:23` -/
noncomputable def floor : Fl → Fl
  | .fin r => .fin ⌊r⌋
  | x => x

/-- `std::ceil`: `A/ceil.hpp:23` -/
noncomputable def ceil : Fl → Fl
  | .fin r => .fin ⌈r⌉
  | x => x

/-- `std::trunc`: `A/trunc.hpp:23` -/
noncomputable def trunc : Fl → Fl
  | .fin r => .fin (if 0 ≤ r then (⌊r⌋ : ℝ) else (⌈r⌉ : ℝ))
  | x => x

/-- `std::round`: halfway cases away from zero: `A/round.hpp:23` -/
noncomputable def roundTo : Fl → Fl
  | .fin r => .fin (if 0 ≤ r then (⌊r + 1 / 2⌋ : ℝ) else (⌈r - 1 / 2⌉ : ℝ))
  | x => x

/-- `std::sqrt`: `A/sqrt.hpp:23` -/
noncomputable def sqrt : Fl → Fl
  | .fin r => if r < 0 then .nan else L.round .sqrt (Real.sqrt r)
  | .inf n => if n then .nan else .inf false
  | .nan => .nan

/-- `std::log`: `A/log.hpp:23` -/
noncomputable def log : Fl → Fl
  | .fin r => if r < 0 then .nan else if r = 0 then .inf true else L.round .log (Real.log r)
  | .inf n => if n then .nan else .inf false
  | .nan => .nan

/-- `std::log10`: `A/log10.hpp:23` -/
noncomputable def log10 : Fl → Fl
  | .fin r => if r < 0 then .nan else if r = 0 then .inf true else L.round .log10 (Real.logb 10 r)
  | .inf n => if n then .nan else .inf false
  | .nan => .nan

/-- `std::acos`: `A/acos.hpp:23` -/
noncomputable def acos : Fl → Fl
  | .fin r => if -1 ≤ r ∧ r ≤ 1 then L.round .acos (Real.arccos r) else .nan
  | _ => .nan

/-- `std::asin`: `A/asin.hpp:23` -/
noncomputable def asin : Fl → Fl
  | .fin r => if -1 ≤ r ∧ r ≤ 1 then L.round .asin (Real.arcsin r) else .nan
  | _ => .nan

/-- `std::atan`: `A/atan.hpp:23` -/
noncomputable def atan : Fl → Fl
  | .fin r => L.round .atan (Real.arctan r)
  | .inf n => L.round .atan (if n then -(Real.pi / 2) else Real.pi / 2)
  | .nan => .nan

/-- `std::sin`, `std::cos`, `std::tan`: `A/sin.hpp:23`, `A/cos.hpp:23`, `A/tan.hpp:23` -/
noncomputable def sin : Fl → Fl
  | .fin r => L.round .sin (Real.sin r)
  | _ => .nan

noncomputable def cos : Fl → Fl
  | .fin r => L.round .cos (Real.cos r)
  | _ => .nan

noncomputable def tan : Fl → Fl
  | .fin r => L.round .tan (Real.tan r)
  | _ => .nan

/-- `std::exp`: `A/exp.hpp:23` -/
noncomputable def exp : Fl → Fl
  | .fin r => L.round .exp (Real.exp r)
  | .inf n => if n then .fin 0 else .inf false
  | .nan => .nan

/-- `std::pow`, for finite arguments: `A/pow.hpp:24`. Infinite arguments are not modelled. -/
noncomputable def pow : Fl → Fl → Fl
  | .fin a, .fin b =>
    if a < 0 ∧ b ≠ (⌊b⌋ : ℝ) then .nan
    else if a = 0 ∧ b < 0 then .inf false
    else L.round .pow (a ^ b)
  | _, _ => .nan

/-! ### Policies: NaN is no-data (`A/policy/default_value_policies.hpp:18-27`) -/

/-- Unary operations of which all arguments are within the domain, and all results are within the range:
`A/value_policies/{sin,cos,atan,ceil,floor,round,trunc,negate,abs}.hpp` -/
def allPolicies : Policies1 Fl Fl where
  indp := isNaN
  dp := fun _ => true
  rp := fun _ _ => true
  mark := .nan

/-- `A/sqrt.hpp:38-46`, `A/log.hpp:38-46`, `A/log10.hpp:38-46` -/
noncomputable def nonNegativePolicies : Policies1 Fl Fl where
  indp := isNaN
  dp := fun x => geq x 0
  rp := fun _ _ => true
  mark := .nan

/-- `A/value_policies/acos.hpp:9-24`, `A/value_policies/asin.hpp:9-24` -/
noncomputable def unitPolicies : Policies1 Fl Fl where
  indp := isNaN
  dp := fun x => geq x (-1) && leq x 1
  rp := fun _ _ => true
  mark := .nan

/-- `A/value_policies/tan.hpp:9-24` -/
def tanPolicies : Policies1 Fl Fl where
  indp := isNaN
  dp := fun x => !isInf x
  rp := fun _ _ => true
  mark := .nan

/-- `A/value_policies/exp.hpp:9-27` -/
def expPolicies : Policies1 Fl Fl where
  indp := isNaN
  dp := fun _ => true
  rp := fun _ r => !isInf r
  mark := .nan

/-- `A/value_policies/add.hpp:9-34`, `A/out_of_range.hpp:44-60` -/
noncomputable def addPolicies : Policies2 Fl Fl Fl where
  indp1 := isNaN
  indp2 := isNaN
  dp := fun _ _ => true
  rp := fun x y _ => !isInf (add L x y)
  mark := .nan

/-- `A/value_policies/subtract.hpp:9-35`, `A/out_of_range.hpp:97-115` -/
noncomputable def subPolicies : Policies2 Fl Fl Fl where
  indp1 := isNaN
  indp2 := isNaN
  dp := fun _ _ => true
  rp := fun x y _ => !isInf (sub L x y)
  mark := .nan

/-- `A/value_policies/multiply.hpp:9-35`, `A/out_of_range.hpp:152-170` -/
noncomputable def mulPolicies : Policies2 Fl Fl Fl where
  indp1 := isNaN
  indp2 := isNaN
  dp := fun _ _ => true
  rp := fun x y _ => !isInf (mul L x y)
  mark := .nan

/-- `A/divide.hpp:36-47`, `A/value_policies/divide.hpp:9-40`, `A/out_of_range.hpp:180-199` -/
noncomputable def divPolicies : Policies2 Fl Fl Fl where
  indp1 := isNaN
  indp2 := isNaN
  dp := fun _ y => nonzero y
  rp := fun _ _ r => !isInf r
  mark := .nan

/-- `A/modulus.hpp:41-52`, `A/value_policies/modulus.hpp` -/
noncomputable def modPolicies : Policies2 Fl Fl Fl where
  indp1 := isNaN
  indp2 := isNaN
  dp := fun _ y => nonzero y
  rp := fun _ _ _ => true
  mark := .nan

/-- `A/pow.hpp:33-37`, `A/value_policies/pow.hpp` -/
def powPolicies : Policies2 Fl Fl Fl where
  indp1 := isNaN
  indp2 := isNaN
  dp := fun _ _ => true
  rp := fun _ _ _ => true
  mark := .nan

/-! ### Comparisons and logical operations: the result is an integer -/

/-- Comparing values with an operator: false if one of them is NaN, except for `!=` -/
inductive Cmp where
  | eq | ne | lt | le | gt | ge
  deriving DecidableEq

noncomputable def cmpReal : Cmp → ℝ → ℝ → Bool
  | .eq, a, b => decide (a = b)
  | .ne, a, b => decide (a ≠ b)
  | .lt, a, b => decide (a < b)
  | .le, a, b => decide (a ≤ b)
  | .gt, a, b => decide (b < a)
  | .ge, a, b => decide (b ≤ a)

/-- An infinity compares as a number larger (smaller) than all other numbers -/
noncomputable def compare (c : Cmp) : Fl → Fl → Bool
  | .fin a, .fin b => cmpReal c a b
  | .inf n, .inf m => cmpReal c (if n then -1 else 1) (if m then -1 else 1)
  | .inf n, .fin _ => cmpReal c (if n then -1 else 1) 0
  | .fin _, .inf m => cmpReal c 0 (if m then -1 else 1)
  | _, _ => c == .ne

/-- `bool` converted to an integral type -/
def ofBool (b : Bool) : Int := if b then 1 else 0

/-- `A/equal_to.hpp:21-26`, `A/not_equal_to.hpp:21-26`, `A/less_than.hpp:21-26`, `A/less_than_equal_to.hpp:21-26`,
`A/greater_than.hpp:21-26`, `A/greater_than_equal_to.hpp:21-26` -/
noncomputable def compareFunctor (c : Cmp) (x y : Fl) : Int := ofBool (compare c x y)

/-- `A/value_policies/{equal_to,not_equal_to,less_than,less_than_equal_to,greater_than,greater_than_equal_to}.hpp`, given
the no-data value of the result -/
def comparePolicies (mark : Int) : Policies2 Fl Fl Int where
  indp1 := isNaN
  indp2 := isNaN
  dp := fun _ _ => true
  rp := fun _ _ _ => true
  mark := mark

/-- `CloseTo::operator()`: `A/close_to.hpp:32-38` -/
noncomputable def closeTo (relative absolute : Fl) (x y : Fl) : Int :=
  ofBool (compare .le (abs (sub L x y)) (add L absolute (mul L relative (abs y))))

/-- Logical operators, on integers: `A/logical_and.hpp:21-26`, `A/logical_inclusive_or.hpp:21-26`,
`A/logical_exclusive_or.hpp:21-26` -/
inductive Logic where
  | and | or | xor
  deriving DecidableEq

def logicFunctor (o : Logic) (x y : Int) : Int :=
  match o with
  | .and => ofBool (x != 0 && y != 0)
  | .or => ofBool (x != 0 || y != 0)
  | .xor => ofBool ((x != 0) != (y != 0))

/-- `A/logical_not.hpp:21-25` -/
def notFunctor (x : Int) : Int := ofBool (!(x != 0))

/-- `A/value_policies/logical_*.hpp`, given the no-data values of the arguments and the result -/
def logicPolicies (nd mark : Int) : Policies2 Int Int Int where
  indp1 := fun x => x == nd
  indp2 := fun y => y == nd
  dp := fun _ _ => true
  rp := fun _ _ _ => true
  mark := mark

def notPolicies (nd mark : Int) : Policies1 Int Int where
  indp := fun x => x == nd
  dp := fun _ => true
  rp := fun _ _ => true
  mark := mark

end Lue.FloatOps

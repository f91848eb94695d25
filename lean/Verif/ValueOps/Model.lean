import Verif.LocalOp.Model
import Mathlib.Data.Rat.Floor

/-!
Model of the arithmetic of local operations on elements of fixed-width integer types, and of the conversions between
element types, with the policies used by default by `lue::value_policies`.
`A` below is `source/framework/algorithm/include/lue/framework/algorithm`.

Elements are integers which fit their type. What the processor does when a result does not fit (wrap-around, undefined
behaviour in case of signed types, conversion of a floating point value which does not fit) is not specified: functors
take a parameter `junk` which tells what value happens to be stored then.
-/
namespace Lue.ValueOps

open Lue.LocalOp

/-- An integral element type: `std::int8_t`, ..., `std::uint64_t`. -/
structure IntType where
  isSigned : Bool
  bits : Nat
  deriving DecidableEq, Repr

/-- `std::numeric_limits<T>::min()` -/
def IntType.lo (T : IntType) : Int := if T.isSigned then -2 ^ (T.bits - 1) else 0

/-- Number of bits, not counting the sign bit: `std::numeric_limits<T>::digits`. -/
def IntType.digits (T : IntType) : Nat := if T.isSigned then T.bits - 1 else T.bits

/-- `std::numeric_limits<T>::max()` -/
def IntType.hi (T : IntType) : Int := 2 ^ T.digits - 1

/-- Whether a value can be stored in an object of type `T`. -/
def IntType.fits (T : IntType) (x : Int) : Bool := decide (T.lo ≤ x) && decide (x ≤ T.hi)

def int8 : IntType := ⟨true, 8⟩
def uint8 : IntType := ⟨false, 8⟩
def int32 : IntType := ⟨true, 32⟩
def uint32 : IntType := ⟨false, 32⟩
def int64 : IntType := ⟨true, 64⟩
def uint64 : IntType := ⟨false, 64⟩

/-- Integral promotion: operands smaller than `int` are converted to `int`. -/
def IntType.promoted (T : IntType) : IntType := if T.bits < 32 then int32 else T

/-- The default no-data value, `A/policy/detect_no_data_by_value.hpp:37-56` -/
def IntType.noData (T : IntType) : Int := if T.isSigned then T.lo else T.hi

/-- `DetectNoDataByValue::is_no_data`, `A/policy/detect_no_data_by_value.hpp:91-94` -/
def isNoData (value : Int) (x : Int) : Bool := x == value

/-- Storing the result of an arithmetic expression, or of a conversion, in an element of type `T`. -/
def assign (T : IntType) (junk : Int) (r : Int) : Int := if T.fits r then r else junk

/-! ### Checked arithmetic -/

/-- The conversion to, and arithmetic of, `boost::safe_numerics::safe<T>`: an exception is thrown if the value does not
fit. Boost is not part of the repository, this is what it documents. -/
def safe (T : IntType) (r : Int) : M Int := if T.fits r then .ok r else .error .thrown

/-- `safe_add`, `safe_subtract`, `safe_multiply`: `A/out_of_range.hpp:19-49`, `73-103`, `128-158`. Operator `op` is
evaluated in the type the operands are promoted to. The exception is caught, and turned into a status. -/
def safeStatus (T : IntType) (op : Int → Int → Int) (x y : Int) : Bool :=
  let r : M Int := do
    let a1 ← safe T x
    let a2 ← safe T y
    let r ← safe T.promoted (op a1 a2)
    safe T r
  match r with
  | .ok _ => true
  | .error _ => false

/-- `divide_within_range`, for integers: `A/out_of_range.hpp:180-199` -/
def divideWithinRange (_x _y _r : Int) : Bool := true

/-! ### Functors and policies -/

/-- The no-data values used by the policies for the inputs and for the output. The default ones are given by
`IntType.noData`, but constructors of policies accept others. -/
structure Marks2 where
  nd1 : Int
  nd2 : Int
  mark : Int

structure Marks1 where
  nd : Int
  mark : Int

def defaultMarks2 (T : IntType) : Marks2 := ⟨T.noData, T.noData, T.noData⟩
def defaultMarks1 (T U : IntType) : Marks1 := ⟨T.noData, U.noData⟩

/-- `Add::operator()`, `A/add.hpp:21-26` -/
def addFunctor (T : IntType) (junk : Int → Int → Int) (x y : Int) : Int := assign T (junk x y) (x + y)

/-- `A/value_policies/add.hpp:9-40` -/
def addPolicies (T : IntType) (m : Marks2) : Policies2 Int Int Int where
  indp1 := isNoData m.nd1
  indp2 := isNoData m.nd2
  dp := fun _ _ => true
  rp := fun x y _ => safeStatus T (· + ·) x y
  mark := m.mark

/-- `Subtract::operator()`, `A/subtract.hpp:21-26` -/
def subtractFunctor (T : IntType) (junk : Int → Int → Int) (x y : Int) : Int := assign T (junk x y) (x - y)

/-- `A/value_policies/subtract.hpp` -/
def subtractPolicies (T : IntType) (m : Marks2) : Policies2 Int Int Int where
  indp1 := isNoData m.nd1
  indp2 := isNoData m.nd2
  dp := fun _ _ => true
  rp := fun x y _ => safeStatus T (· - ·) x y
  mark := m.mark

/-- `Multiply::operator()`, `A/multiply.hpp` -/
def multiplyFunctor (T : IntType) (junk : Int → Int → Int) (x y : Int) : Int := assign T (junk x y) (x * y)

/-- `A/value_policies/multiply.hpp` -/
def multiplyPolicies (T : IntType) (m : Marks2) : Policies2 Int Int Int where
  indp1 := isNoData m.nd1
  indp2 := isNoData m.nd2
  dp := fun _ _ => true
  rp := fun x y _ => safeStatus T (· * ·) x y
  mark := m.mark

/-- `Divide::operator()`, `A/divide.hpp:23-28`: integer division rounds towards zero. -/
def divideFunctor (T : IntType) (junk : Int → Int → Int) (x y : Int) : Int := assign T (junk x y) (x.tdiv y)

/-- `A/divide.hpp:36-47`, `A/value_policies/divide.hpp:9-40` -/
def dividePolicies (m : Marks2) : Policies2 Int Int Int where
  indp1 := isNoData m.nd1
  indp2 := isNoData m.nd2
  dp := fun _ y => y != 0
  rp := divideWithinRange
  mark := m.mark

/-- `Modulus::operator()`, `A/modulus.hpp:21-33`, for integers. The result of the C++ operator is not specified either if
the quotient does not fit. -/
def modulusFunctor (T : IntType) (junk : Int → Int → Int) (x y : Int) : Int :=
  if T.promoted.fits (x.tdiv y) then assign T (junk x y) (x.tmod y) else junk x y

/-- `A/modulus.hpp:41-52`, `A/value_policies/modulus.hpp` -/
def modulusPolicies (m : Marks2) : Policies2 Int Int Int where
  indp1 := isNoData m.nd1
  indp2 := isNoData m.nd2
  dp := fun _ y => y != 0
  rp := fun _ _ _ => true
  mark := m.mark

/-- `Negate::operator()`, `A/negate.hpp:21-24` -/
def negateFunctor (T : IntType) (junk : Int → Int) (x : Int) : Int := assign T (junk x) (-x)

/-- `A/value_policies/negate.hpp` -/
def negatePolicies (m : Marks1) : Policies1 Int Int where
  indp := isNoData m.nd
  dp := fun _ => true
  rp := fun _ _ => true
  mark := m.mark

/-- `Abs::operator()`, `A/abs.hpp:22-25` -/
def absFunctor (T : IntType) (junk : Int → Int) (x : Int) : Int := assign T (junk x) |x|

/-- `A/value_policies/abs.hpp`. The operation is only available for signed types. -/
def absPolicies (T : IntType) (m : Marks1) : Policies1 Int Int where
  indp := isNoData m.nd
  dp := fun _ => true
  rp := fun x _ => x != T.lo
  mark := m.mark

/-! ### Conversions between element types -/

/-- `Cast::operator()`, `A/cast.hpp:20-23`, from an integral type to an integral type. -/
def castFunctor (U : IntType) (junk : Int → Int) (x : Int) : Int := assign U (junk x) x

/-- `policy::cast::RangePolicy::within_range`, `A/value_policies/cast.hpp:50-120`, from integral type `T` to integral
type `U`. A conversion between types with the same signedness is narrowing if the type gets smaller. -/
def castWithinRange (T U : IntType) (x : Int) : Bool :=
  if T.isSigned && U.isSigned && decide (T.bits > U.bits) then decide (x ≥ U.lo) && decide (x ≤ U.hi)
  else if !T.isSigned && !U.isSigned && decide (T.bits > U.bits) then decide (x ≤ U.hi)
  else if T.isSigned && !U.isSigned then
    if T.bits ≤ U.bits then decide (x ≥ 0)
    else decide (x ≥ 0) && decide (x ≤ U.hi)
  else if !T.isSigned && U.isSigned && decide (T.bits ≥ U.bits) then decide (x ≤ U.hi)
  else true

/-- `A/value_policies/cast.hpp:127-134` -/
def castPolicies (T U : IntType) (m : Marks1) : Policies1 Int Int where
  indp := isNoData m.nd
  dp := fun _ => true
  rp := fun x _ => castWithinRange T U x
  mark := m.mark

/-- A value of a floating point type. -/
inductive FloatValue where
  | nan
  | infinite (negative : Bool)
  | finite (q : ℚ)
  deriving DecidableEq

/-- Precision of `float` and `double`: `std::numeric_limits<T>::digits`. -/
def float32Digits : Nat := 24
def float64Digits : Nat := 53

/-- Conversion of a non-negative integer to a floating point type with a precision of `p` bits: round to nearest, ties to
even. -/
def roundToFloat (p : Nat) (z : Nat) : Nat :=
  if z < 2 ^ p then z
  else
    let e := z.log2 + 1 - p
    let q := z / 2 ^ e
    let r := z % 2 ^ e
    (if 2 * r > 2 ^ e ∨ (2 * r = 2 ^ e ∧ q % 2 = 1) then q + 1 else q) * 2 ^ e

/-- `DetectNoDataByNaN::is_no_data`, `A/policy/detect_no_data_by_nan.hpp` -/
def isNaN : FloatValue → Bool
  | .nan => true
  | _ => false

/-- `argument >= z`, for an integer converted to the floating point type -/
def FloatValue.ge (x : FloatValue) (z : Int) : Bool :=
  match x with
  | .nan => false
  | .infinite negative => !negative
  | .finite q => decide ((z : ℚ) ≤ q)

/-- `argument <= z` -/
def FloatValue.le (x : FloatValue) (z : Int) : Bool :=
  match x with
  | .nan => false
  | .infinite negative => negative
  | .finite q => decide (q ≤ (z : ℚ))

/-- Rounding towards zero. -/
def truncate (q : ℚ) : Int := q.num.tdiv q.den

/-- `Cast::operator()` from a floating point type to integral type `U`. -/
def castFloatFunctor (U : IntType) (junk : FloatValue → Int) (x : FloatValue) : Int :=
  match x with
  | .finite q => assign U (junk x) (truncate q)
  | _ => junk x

/-- `policy::cast::RangePolicy::within_range`, `A/value_policies/cast.hpp:109-115`, from a floating point type with
precision `p` to integral type `U`. The smallest value of `U` is a power of two, or zero: it can always be converted
exactly. The largest one is converted by `static_cast`. -/
def castFloatWithinRange (p : Nat) (U : IntType) (x : FloatValue) : Bool :=
  x.ge U.lo && x.le (roundToFloat p U.hi.toNat)

def castFloatPolicies (p : Nat) (U : IntType) (mark : Int) : Policies1 FloatValue Int where
  indp := isNaN
  dp := fun _ => true
  rp := fun x _ => castFloatWithinRange p U x
  mark := mark

end Lue.ValueOps

import Verif.PyOps.Model
import Mathlib.Tactic.Ring

/-!
# Creating scalar fields in Python

Models `source/framework/api/python/source/scalar.cpp` for integral numbers. pybind11 converts the Python number to a
`double` (`scalar.cpp:131`), which is then converted to the element type (`scalar.cpp:22`). Rounding of Python's conversion
of integral numbers to `double` is round half to even (IEEE 754). Numbers larger than the largest `double`, which raise an
exception in Python, and numbers with a fraction are not modelled.
-/
namespace Lue.FieldApi

open Lue.PyOps

/-- Kind of a numpy type -/
inductive DKind where
  | i | u | f | other
  deriving DecidableEq, Repr

/-- `scalar.cpp:44-118`: the element type, given the kind and size of a numpy type -/
def elementType : DKind → Nat → Option Ty
  | .i, 1 => some .int8
  | .i, 4 => some .int32
  | .i, 8 => some .int64
  | .u, 1 => some .uint8
  | .u, 4 => some .uint32
  | .u, 8 => some .uint64
  | .f, 4 => some .float32
  | .f, 8 => some .float64
  | _, _ => none

/-- Number of bits that don't fit in a significand of `bits` bits. -/
def excess (bits n : Nat) : Nat := Nat.log2 n + 1 - bits

/-- Round half to even to a multiple of `2 ^ e`. -/
def roundMultiple (n e : Nat) : Nat :=
  let q := n / 2 ^ e
  let r := n % 2 ^ e
  let up := 2 * r > 2 ^ e ∨ (2 * r = 2 ^ e ∧ q % 2 = 1)
  (if up then q + 1 else q) * 2 ^ e

/-- An integral number, rounded to a floating point number with a significand of `bits` bits. -/
def roundTo (bits : Nat) (n : Int) : Int :=
  if 0 ≤ n then (roundMultiple n.natAbs (excess bits n.natAbs) : Int)
  else -(roundMultiple n.natAbs (excess bits n.natAbs) : Int)

/-- Smallest and largest value of integral types -/
def range : Ty → Int × Int
  | .uint8 => (0, 2 ^ 8 - 1)
  | .uint32 => (0, 2 ^ 32 - 1)
  | .uint64 => (0, 2 ^ 64 - 1)
  | .int8 => (-2 ^ 7, 2 ^ 7 - 1)
  | .int32 => (-2 ^ 31, 2 ^ 31 - 1)
  | .int64 => (-2 ^ 63, 2 ^ 63 - 1)
  -- Not used
  | .float32 | .float64 => (0, 0)

/-- `static_cast<Element>(value)`, `scalar.cpp:22`. `none`: the behaviour is undefined. -/
def castTo (t : Ty) (d : Int) : Option Int :=
  match t with
  | .float64 => some d
  | .float32 => some (roundTo 24 d)
  | t => if (range t).1 ≤ d ∧ d ≤ (range t).2 then some d else none

/-- What can be wrong -/
inductive ScalarErr where
  | unsupported | undefined
  deriving DecidableEq, Repr

/-- The value of the scalar. -/
def castScalar (t : Ty) (n : Int) : Except ScalarErr (Ty × Int) :=
  match castTo t (roundTo 53 n) with
  | some v => .ok (t, v)
  | none => .error .undefined

/-- `scalar.cpp:30-123`: `create_scalar(value, dtype)` -/
def createScalar (n : Int) (kind : DKind) (size : Nat) : Except ScalarErr (Ty × Int) :=
  match elementType kind size with
  | none => .error .unsupported
  | some t => castScalar t n

theorem roundMultiple_zero (n : Nat) : roundMultiple n 0 = n := by
  unfold roundMultiple
  simp [Nat.mod_one]

theorem excess_zero {bits n : Nat} (h : n < 2 ^ bits) (h0 : n ≠ 0) : excess bits n = 0 := by
  unfold excess
  have := (Nat.log2_lt h0).mpr h
  omega

theorem roundTo_exact {bits : Nat} {n : Int} (h : n.natAbs ≤ 2 ^ bits) (hb : 0 < bits) : roundTo bits n = n := by
  have key : roundMultiple n.natAbs (excess bits n.natAbs) = n.natAbs := by
    by_cases h0 : n.natAbs = 0
    · rw [h0]
      have : excess bits 0 = 0 := by
        unfold excess
        have : Nat.log2 0 = 0 := by decide
        omega
      rw [this, roundMultiple_zero]
    · by_cases hlt : n.natAbs < 2 ^ bits
      · rw [excess_zero hlt h0, roundMultiple_zero]
      · have he : n.natAbs = 2 ^ bits := by omega
        have hx : excess bits n.natAbs = 1 := by
          unfold excess
          rw [he, Nat.log2_two_pow]
          omega
        obtain ⟨b, rfl⟩ : ∃ b, bits = b + 1 := ⟨bits - 1, by omega⟩
        have h2 : (2 : Nat) ^ (b + 1) = 2 * 2 ^ b := by ring
        rw [hx]
        unfold roundMultiple
        rw [he, h2]
        simp only [Nat.pow_one, Nat.mul_mod_right, Nat.mul_div_cancel_left _ (show 0 < 2 by decide)]
        rw [if_neg (by omega)]
        omega
  unfold roundTo
  rw [key]
  split <;> omega

/-- Specification: the numpy type of elements, as a kind and a number of bytes -/
def numpyType : Ty → DKind × Nat
  | .uint8 => (.u, 1) | .uint32 => (.u, 4) | .uint64 => (.u, 8)
  | .int8 => (.i, 1) | .int32 => (.i, 4) | .int64 => (.i, 8)
  | .float32 => (.f, 4) | .float64 => (.f, 8)

/-- C62: the type of the elements is the one corresponding to the numpy type passed in. Other numpy types are refused. -/
theorem elementType_iff (kind : DKind) (size : Nat) (t : Ty) :
    elementType kind size = some t ↔ numpyType t = (kind, size) := by
  constructor
  · intro h
    unfold elementType at h
    split at h <;> first | (obtain rfl := Option.some.inj h; rfl) | cases h
  · intro h
    cases t <;> (obtain ⟨rfl, rfl⟩ := Prod.mk.inj h; rfl)

/-- Specification: the number is one of the values of the type -/
def FitsIn (t : Ty) (n : Int) : Prop :=
  match (numpyType t).1 with
  | .u => 0 ≤ n ∧ n < 2 ^ (8 * (numpyType t).2)
  | .i => -2 ^ (8 * (numpyType t).2 - 1) ≤ n ∧ n < 2 ^ (8 * (numpyType t).2 - 1)
  | _ => True

theorem fitsIn_range {t : Ty} (h : t.floating = false) (n : Int) : FitsIn t n ↔ (range t).1 ≤ n ∧ n ≤ (range t).2 := by
  cases t <;> first | (cases h; done) | (unfold FitsIn numpyType range; norm_num; omega)

/-- C62: a scalar created from an integral number has this number as value, if the number fits in the element type, and is
not larger than 2^53 (2^24 in case of 32 bit floating point elements). -/
theorem createScalar_exact (n : Int) (kind : DKind) (size : Nat) (t : Ty) (ht : elementType kind size = some t)
    (hn : n.natAbs ≤ 2 ^ (if t = .float32 then 24 else 53))
    (hr : FitsIn t n) : createScalar n kind size = .ok (t, n) := by
  have h53 : n.natAbs ≤ 2 ^ 53 := by
    split at hn
    · exact Nat.le_trans hn (by decide)
    · exact hn
  unfold createScalar
  rw [ht]
  show castScalar t n = _
  unfold castScalar
  rw [roundTo_exact h53 (by decide)]
  cases t with
  | float32 =>
    show Except.ok (Ty.float32, roundTo 24 n) = _
    rw [roundTo_exact (by simpa using hn) (by decide)]
  | float64 => rfl
  | uint8 | uint32 | uint64 | int8 | int32 | int64 =>
    unfold castTo
    dsimp only
    rw [if_pos ((fitsIn_range rfl n).mp hr)]

/-- C62, finding: 64 bit integral numbers larger than 2^53 are rounded without notice. -/
theorem createScalar_rounds : createScalar (2 ^ 53 + 1) .i 8 = .ok (.int64, 2 ^ 53) := by decide +kernel

/-- C62, finding: numbers that don't fit in the element type are not detected. The behaviour of the conversion is
undefined. -/
theorem createScalar_undefined (n : Int) (kind : DKind) (size : Nat) (t : Ty) (ht : elementType kind size = some t)
    (h : ¬ FitsIn t n) (hn : n.natAbs ≤ 2 ^ 53) : createScalar n kind size = .error .undefined := by
  unfold createScalar
  rw [ht]
  show castScalar t n = _
  unfold castScalar
  rw [roundTo_exact hn (by decide)]
  cases t with
  | float32 => exact absurd trivial h
  | float64 => exact absurd trivial h
  | uint8 | uint32 | uint64 | int8 | int32 | int64 =>
    unfold castTo
    dsimp only
    rw [if_neg (fun hc => h ((fitsIn_range rfl n).mpr hc))]

example : createScalar 300 .u 1 = .error .undefined :=
  createScalar_undefined 300 .u 1 .uint8 rfl (by unfold FitsIn numpyType; decide) (by decide)

/-- Even numbers that fit may not be representable after rounding: 2^63 - 1 becomes 2^63. -/
example : createScalar (2 ^ 63 - 1) .i 8 = .error .undefined := by decide +kernel

example : createScalar (-5) .i 4 = .ok (.int32, -5) :=
  createScalar_exact (-5) .i 4 .int32 rfl (by decide) (by unfold FitsIn numpyType; decide)

example : createScalar 5 .u 2 = .error .unsupported := rfl

end Lue.FieldApi

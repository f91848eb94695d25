import Verif.ValueOps.Model
import Verif.LocalOp.Properties
import Mathlib.Tactic.Linarith
import Mathlib.Tactic.Ring
import Mathlib.Algebra.Order.Group.Int.Sum
import Mathlib.Algebra.Order.Field.Power

/-!
C35: arithmetic and conversions of elements of fixed-width integer types never silently give a wrong value: the result
is the exact one, or no-data if the exact one is not a valid value of the element type.
-/
namespace Lue.ValueOps

open Lue.LocalOp

/-! ### Specification -/

/-- The valid element, if any, with exact value `r`: it must fit the type, and differ from the no-data value. -/
def element (T : IntType) (noData : Int) (r : Int) : Option Int :=
  if (T.lo ≤ r ∧ r ≤ T.hi) ∧ r ≠ noData then some r else none

/-- The value of an element, `none` if it is no-data. -/
def read (noData : Int) (x : Int) : Option Int := if x = noData then none else some x

/-- What a binary operation must compute for a cell, given the exact result of the operation on integers (`none` if the
result is not defined). -/
def exact2 (T : IntType) (m : Marks2) (g : Int → Int → Option Int) (x y : Int) : Option Int := do
  let a ← read m.nd1 x
  let b ← read m.nd2 y
  let r ← g a b
  element T m.mark r

/-- Same, for a unary operation with output elements of type `U`. -/
def exact1 (U : IntType) (m : Marks1) (g : Int → Option Int) (x : Int) : Option Int := do
  let a ← read m.nd x
  let r ← g a
  element U m.mark r

/-- Array `v` contains elements of type `T`. -/
def OfType (T : IntType) (a0 a1 : Nat) (v : Arr Int) : Prop :=
  ∀ i j, i < a0 → j < a1 → T.lo ≤ v i j ∧ v i j ≤ T.hi

/-- All overloads of a binary operation on elements of type `T` compute `g` exactly. -/
def Exact2 (T : IntType) (m : Marks2) (P : Policies2 Int Int Int) (f : Int → Int → Int)
    (g : Int → Int → Option Int) : Prop :=
  -- array, array
  (∀ (garbage : Nat → Int) (x y : PArr Int) (v w : Arr Int) (order : List Nat), Represents x v → Represents y w →
    y.grid = x.grid → OfType T x.grid.a0 x.grid.a1 v → OfType T x.grid.a0 x.grid.a1 w →
    IsOrder (x.grid.n0 * x.grid.n1) order →
    ∃ r u, binaryArray P f garbage order x y = .ok r ∧ r.grid = x.grid ∧ Represents r u ∧
      ∀ i j, i < x.grid.a0 → j < x.grid.a1 → read m.mark (u i j) = exact2 T m g (v i j) (w i j)) ∧
  -- array, scalar
  (∀ (garbage : Nat → Int) (x : PArr Int) (v : Arr Int) (b : Int) (order : List Nat), Represents x v →
    OfType T x.grid.a0 x.grid.a1 v → T.lo ≤ b → b ≤ T.hi → IsOrder (x.grid.n0 * x.grid.n1) order →
    ∃ r u, binaryArrayAS P f garbage order x b = .ok r ∧ r.grid = x.grid ∧ Represents r u ∧
      ∀ i j, i < x.grid.a0 → j < x.grid.a1 → read m.mark (u i j) = exact2 T m g (v i j) b) ∧
  -- scalar, array
  (∀ (garbage : Nat → Int) (a : Int) (y : PArr Int) (w : Arr Int) (order : List Nat), Represents y w →
    OfType T y.grid.a0 y.grid.a1 w → T.lo ≤ a → a ≤ T.hi → IsOrder (y.grid.n0 * y.grid.n1) order →
    ∃ r u, binaryArraySA P f garbage order a y = .ok r ∧ r.grid = y.grid ∧ Represents r u ∧
      ∀ i j, i < y.grid.a0 → j < y.grid.a1 → read m.mark (u i j) = exact2 T m g a (w i j)) ∧
  -- scalar, scalar
  (∀ a b : Int, T.lo ≤ a → a ≤ T.hi → T.lo ≤ b → b ≤ T.hi →
    read m.mark (binaryScalar P f a b) = exact2 T m g a b)

/-- All overloads of a unary operation from elements of type `T` to elements of type `U` compute `g` exactly. -/
def Exact1 (T U : IntType) (m : Marks1) (P : Policies1 Int Int) (f : Int → Int) (g : Int → Option Int) : Prop :=
  (∀ (garbage : Nat → Int) (x : PArr Int) (v : Arr Int) (order : List Nat), Represents x v →
    OfType T x.grid.a0 x.grid.a1 v → IsOrder (x.grid.n0 * x.grid.n1) order →
    ∃ r u, unaryArray P f garbage order x = .ok r ∧ r.grid = x.grid ∧ Represents r u ∧
      ∀ i j, i < x.grid.a0 → j < x.grid.a1 → read m.mark (u i j) = exact1 U m g (v i j)) ∧
  (∀ a : Int, T.lo ≤ a → a ≤ T.hi → read m.mark (unaryScalar P f a) = exact1 U m g a)

/-! ### From cells to arrays -/

theorem exact2_of_cell {T : IntType} {m : Marks2} {P : Policies2 Int Int Int} {f : Int → Int → Int}
    {g : Int → Int → Option Int}
    (h : ∀ a b : Int, T.lo ≤ a → a ≤ T.hi → T.lo ≤ b → b ≤ T.hi →
      read m.mark ((binarySpec P f a b).getD P.mark) = exact2 T m g a b) : Exact2 T m P f g := by
  refine ⟨?_, ?_, ?_, ?_⟩
  · intro garbage x y v w order hx hy hg hv hw ho
    obtain ⟨r, h1, h2, h3⟩ := binary_spec P f garbage hx hy hg ho
    exact ⟨r, _, h1, h2, h3, fun i j hi hj => h _ _ (hv i j hi hj).1 (hv i j hi hj).2 (hw i j hi hj).1 (hw i j hi hj).2⟩
  · intro garbage x v b order hx hv hb hb' ho
    obtain ⟨r, h1, h2, h3⟩ := binaryAS_spec P f garbage hx b ho
    exact ⟨r, _, h1, h2, h3, fun i j hi hj => h _ _ (hv i j hi hj).1 (hv i j hi hj).2 hb hb'⟩
  · intro garbage a y w order hy hw ha ha' ho
    obtain ⟨r, h1, h2, h3⟩ := binarySA_spec P f garbage a hy ho
    exact ⟨r, _, h1, h2, h3, fun i j hi hj => h _ _ ha ha' (hw i j hi hj).1 (hw i j hi hj).2⟩
  · intro a b ha ha' hb hb'
    rw [scalar2_spec]; exact h a b ha ha' hb hb'

theorem exact1_of_cell {T U : IntType} {m : Marks1} {P : Policies1 Int Int} {f : Int → Int}
    {g : Int → Option Int}
    (h : ∀ a : Int, T.lo ≤ a → a ≤ T.hi →
      read m.mark ((unarySpec P f a).getD P.mark) = exact1 U m g a) : Exact1 T U m P f g := by
  refine ⟨?_, ?_⟩
  · intro garbage x v order hx hv ho
    obtain ⟨r, h1, h2, h3⟩ := unary_spec P f garbage hx ho
    exact ⟨r, _, h1, h2, h3, fun i j hi hj => h _ (hv i j hi hj).1 (hv i j hi hj).2⟩
  · intro a ha ha'
    rw [scalar_spec]; exact h a ha ha'

theorem cell2 {T : IntType} {m : Marks2} {P : Policies2 Int Int Int} {f : Int → Int → Int}
    {g : Int → Int → Option Int} {a b : Int} (h1 : P.indp1 = isNoData m.nd1) (h2 : P.indp2 = isNoData m.nd2)
    (hm : P.mark = m.mark)
    (hundef : a ≠ m.nd1 → b ≠ m.nd2 → (g a b = none ↔ P.dp a b = false))
    (hval : ∀ r, a ≠ m.nd1 → b ≠ m.nd2 → g a b = some r →
      (P.rp a b (f a b) = true → f a b = r ∧ T.lo ≤ r ∧ r ≤ T.hi) ∧ (P.rp a b (f a b) = false → ¬ (T.lo ≤ r ∧ r ≤ T.hi))) :
    read m.mark ((binarySpec P f a b).getD P.mark) = exact2 T m g a b := by
  unfold binarySpec exact2 valid
  rw [h1, h2, hm]
  by_cases ha : a = m.nd1
  · simp [isNoData, read, ha]
  by_cases hb : b = m.nd2
  · simp [isNoData, read, ha, hb]
  have hu := hundef ha hb
  cases hg : g a b with
  | none =>
    have := hu.mp hg
    simp [isNoData, read, ha, hb, hg, this, guard, failure]
  | some r =>
    have hd : P.dp a b = true := by
      by_contra hc
      have := hu.mpr (by simpa using hc)
      rw [hg] at this; cases this
    obtain ⟨hv1, hv2⟩ := hval r ha hb hg
    cases hr : P.rp a b (f a b) with
    | false =>
      have := hv2 hr
      simp [isNoData, read, ha, hb, hg, hd, hr, guard, failure, element, this]
    | true =>
      obtain ⟨e, l, u⟩ := hv1 hr
      rw [e] at hr
      by_cases hrm : r = m.mark
      · rw [hrm] at hr; simp [isNoData, read, ha, hb, hg, hd, hr, guard, e, element, hrm]
      · simp [isNoData, read, ha, hb, hg, hd, hr, guard, e, element, l, u, hrm]

theorem cell1 {U : IntType} {m : Marks1} {P : Policies1 Int Int} {f : Int → Int}
    {g : Int → Option Int} {a : Int} (h1 : P.indp = isNoData m.nd)
    (hm : P.mark = m.mark) (hd : P.dp a = true)
    (hval : a ≠ m.nd → ∃ r, g a = some r ∧
      (P.rp a (f a) = true → f a = r ∧ U.lo ≤ r ∧ r ≤ U.hi) ∧ (P.rp a (f a) = false → ¬ (U.lo ≤ r ∧ r ≤ U.hi))) :
    read m.mark ((unarySpec P f a).getD P.mark) = exact1 U m g a := by
  unfold unarySpec exact1 valid
  rw [h1, hm]
  by_cases ha : a = m.nd
  · simp [isNoData, read, ha]
  obtain ⟨r, hg, hv1, hv2⟩ := hval ha
  cases hr : P.rp a (f a) with
  | false =>
    have := hv2 hr
    simp [isNoData, read, ha, hg, hd, hr, guard, failure, element, this]
  | true =>
    obtain ⟨e, l, u⟩ := hv1 hr
    rw [e] at hr
    by_cases hrm : r = m.mark
    · rw [hrm] at hr; simp [isNoData, read, ha, hg, hd, hr, guard, e, element, hrm]
    · simp [isNoData, read, ha, hg, hd, hr, guard, e, element, l, u, hrm]

/-! ### Integral types -/

theorem fits_iff {T : IntType} {x : Int} : T.fits x = true ↔ T.lo ≤ x ∧ x ≤ T.hi := by simp [IntType.fits]

theorem assign_fits {T : IntType} {junk r : Int} (h : T.lo ≤ r ∧ r ≤ T.hi) : assign T junk r = r := by
  simp [assign, fits_iff, h]

theorem lo_signed {T : IntType} (h : T.isSigned = true) : T.lo = -2 ^ (T.bits - 1) := by simp [IntType.lo, h]
theorem hi_signed {T : IntType} (h : T.isSigned = true) : T.hi = 2 ^ (T.bits - 1) - 1 := by
  simp [IntType.hi, IntType.digits, h]
theorem lo_unsigned {T : IntType} (h : T.isSigned = false) : T.lo = 0 := by simp [IntType.lo, h]
theorem hi_unsigned {T : IntType} (h : T.isSigned = false) : T.hi = 2 ^ T.bits - 1 := by
  simp [IntType.hi, IntType.digits, h]

theorem pow_le_pow_int {a b : Nat} (h : a ≤ b) : (2 : Int) ^ a ≤ 2 ^ b := pow_le_pow_right₀ (by norm_num) h

theorem pow_pos_int (a : Nat) : (0 : Int) < 2 ^ a := by positivity

/-- Promotion does not lose values. -/
theorem promoted_fits {T : IntType} {r : Int} (h : T.lo ≤ r ∧ r ≤ T.hi) : T.promoted.lo ≤ r ∧ r ≤ T.promoted.hi := by
  unfold IntType.promoted
  split
  · next hb =>
    have e1 : int32.lo = -2 ^ 31 := rfl
    have e2 : int32.hi = 2 ^ 31 - 1 := rfl
    rw [e1, e2]
    have p1 : (2 : Int) ^ (T.bits - 1) ≤ 2 ^ 31 := pow_le_pow_int (by omega)
    have p2 : (2 : Int) ^ T.bits ≤ 2 ^ 31 := pow_le_pow_int (by omega)
    cases hs : T.isSigned with
    | true =>
      rw [lo_signed hs, hi_signed hs] at h
      omega
    | false =>
      rw [lo_unsigned hs, hi_unsigned hs] at h
      omega
  · exact h

theorem safeStatus_iff {T : IntType} {op : Int → Int → Int} {x y : Int} (hx : T.lo ≤ x ∧ x ≤ T.hi)
    (hy : T.lo ≤ y ∧ y ≤ T.hi) : safeStatus T op x y = true ↔ T.lo ≤ op x y ∧ op x y ≤ T.hi := by
  unfold safeStatus safe
  simp only [fits_iff.mpr hx, fits_iff.mpr hy, if_true, M.bind_ok]
  by_cases h : T.lo ≤ op x y ∧ op x y ≤ T.hi
  · simp [fits_iff.mpr h, fits_iff.mpr (promoted_fits h), M.bind_ok, h]
  · have : T.fits (op x y) = false := by
      by_contra hc
      exact h (fits_iff.mp (by simpa using hc))
    by_cases hp : T.promoted.fits (op x y) = true
    · simp [hp, this, M.bind_ok, h]
    · simp only [hp]
      simp [h, Bind.bind, Except.bind]

theorem safe_op_exact (T : IntType) (m : Marks2) (op : Int → Int → Int) (junk : Int → Int → Int)
    (P : Policies2 Int Int Int) (h1 : P.indp1 = isNoData m.nd1) (h2 : P.indp2 = isNoData m.nd2) (hm : P.mark = m.mark)
    (hd : ∀ x y, P.dp x y = true) (hr : ∀ x y r, P.rp x y r = safeStatus T op x y) :
    Exact2 T m P (fun x y => assign T (junk x y) (op x y)) (fun x y => some (op x y)) := by
  refine exact2_of_cell fun a b ha ha' hb hb' => cell2 h1 h2 hm ?_ ?_
  · intro _ _; simp [hd]
  · intro r _ _ hg
    have hg : op a b = r := by simpa using hg
    subst hg
    have := safeStatus_iff (op := op) ⟨ha, ha'⟩ ⟨hb, hb'⟩
    rw [hr]
    refine ⟨fun h => ⟨assign_fits (this.mp h), this.mp h⟩, fun h hc => ?_⟩
    rw [this.mpr hc] at h; cases h

/-! ### C35 -/

/-- Addition of arrays and scalars: the sum, or no-data if the sum does not fit. For all integral element types, all
no-data values and whatever the processor computes when the sum does not fit. -/
theorem add_exact (T : IntType) (m : Marks2) (junk : Int → Int → Int) :
    Exact2 T m (addPolicies T m) (addFunctor T junk) (fun a b => some (a + b)) :=
  safe_op_exact T m (· + ·) junk _ rfl rfl rfl (fun _ _ => rfl) (fun _ _ _ => rfl)

/-- Subtraction. -/
theorem subtract_exact (T : IntType) (m : Marks2) (junk : Int → Int → Int) :
    Exact2 T m (subtractPolicies T m) (subtractFunctor T junk) (fun a b => some (a - b)) :=
  safe_op_exact T m (· - ·) junk _ rfl rfl rfl (fun _ _ => rfl) (fun _ _ _ => rfl)

/-- Multiplication. -/
theorem multiply_exact (T : IntType) (m : Marks2) (junk : Int → Int → Int) :
    Exact2 T m (multiplyPolicies T m) (multiplyFunctor T junk) (fun a b => some (a * b)) :=
  safe_op_exact T m (· * ·) junk _ rfl rfl rfl (fun _ _ => rfl) (fun _ _ _ => rfl)

theorem natAbs_tdiv_le (a b : Int) : (a.tdiv b).natAbs ≤ a.natAbs := by
  rw [Int.natAbs_tdiv]; exact Nat.div_le_self _ _

theorem tdiv_fits {T : IntType} {a b : Int} (ha : T.lo ≤ a ∧ a ≤ T.hi) (hb : T.lo ≤ b ∧ b ≤ T.hi)
    (h : ¬ (T.isSigned = true ∧ a = T.lo ∧ b = -1)) : T.lo ≤ a.tdiv b ∧ a.tdiv b ≤ T.hi := by
  cases hs : T.isSigned with
  | false =>
    rw [lo_unsigned hs] at *
    rw [hi_unsigned hs] at *
    have h1 : 0 ≤ a.tdiv b := Int.tdiv_nonneg ha.1 hb.1
    have := natAbs_tdiv_le a b
    omega
  | true =>
    rw [hs, lo_signed hs] at h
    rw [lo_signed hs, hi_signed hs] at *
    have hp := pow_pos_int (T.bits - 1)
    have := natAbs_tdiv_le a b
    by_cases hal : a = -2 ^ (T.bits - 1)
    · have hb1 : b ≠ -1 := fun hc => h ⟨rfl, hal, hc⟩
      rcases lt_trichotomy b 0 with hneg | h0 | hpos
      · -- b ≤ -2: the absolute value is at most halved
        have h3 : (a.tdiv b).natAbs ≤ a.natAbs / 2 := by
          rw [Int.natAbs_tdiv]
          exact Nat.div_le_div_left (by omega) (by norm_num)
        omega
      · subst h0; simp; omega
      · have h3 : a.tdiv b ≤ 0 := by
          have : 0 ≤ (-a).tdiv b := Int.tdiv_nonneg (by omega) (by omega)
          rw [Int.neg_tdiv] at this
          omega
        omega
    · omega

/-- Division: rounded towards zero, no-data in case of division by zero. This holds if dividing the smallest value of a
signed type by minus one does not happen, because the smallest value is the no-data value. -/
theorem divide_exact (T : IntType) (m : Marks2) (hm : T.isSigned = true → m.nd1 = T.lo ∨ m.nd2 = -1)
    (junk : Int → Int → Int) :
    Exact2 T m (dividePolicies m) (divideFunctor T junk) (fun a b => if b = 0 then none else some (a.tdiv b)) := by
  refine exact2_of_cell fun a b ha ha' hb hb' => cell2 rfl rfl rfl ?_ ?_
  · intro _ _
    by_cases h0 : b = 0 <;> simp [dividePolicies, h0]
  · intro r hna hnb hg
    by_cases h0 : b = 0
    · simp [h0] at hg
    · have hg : a.tdiv b = r := by simpa [h0] using hg
      subst hg
      have hf := tdiv_fits (T := T) ⟨ha, ha'⟩ ⟨hb, hb'⟩ (by
        rintro ⟨hs, h1, h2⟩
        rcases hm hs with h | h <;> omega)
      refine ⟨fun _ => ⟨assign_fits hf, hf⟩, fun h => ?_⟩
      simp [dividePolicies, divideWithinRange] at h

/-- This includes the default policies. -/
theorem divide_default_exact (T : IntType) (junk : Int → Int → Int) :
    Exact2 T (defaultMarks2 T) (dividePolicies (defaultMarks2 T)) (divideFunctor T junk)
      (fun a b => if b = 0 then none else some (a.tdiv b)) :=
  divide_exact T _ (fun h => Or.inl (by simp [defaultMarks2, IntType.noData, h])) junk

/-- It does not hold for other no-data values: the range policy of divide accepts everything. If zero is the no-data
value, the result of dividing the smallest value of a signed type by minus one is whatever the processor makes of it. -/
theorem divide_not_exact (T : IntType) (hs : T.isSigned = true) (hb : 0 < T.bits) (v : Int) (hv : v ≠ 0) :
    read 0 (binaryScalar (dividePolicies ⟨0, 0, 0⟩) (divideFunctor T fun _ _ => v) T.lo (-1)) = some v := by
  have hlo := lo_signed hs
  have hp := pow_pos_int (T.bits - 1)
  have hn : T.lo ≠ 0 := by omega
  have hf : T.fits (T.lo.tdiv (-1)) = false := by
    by_contra hc
    have := fits_iff.mp (by simpa using hc : T.fits (T.lo.tdiv (-1)) = true)
    rw [Int.tdiv_neg, Int.tdiv_one, hi_signed hs] at this
    omega
  rw [Int.tdiv_neg, Int.tdiv_one] at hf
  simp [binaryScalar, dividePolicies, isNoData, hn, divideWithinRange, divideFunctor, assign, hf, read, hv]

/-- Modulus: the remainder of the division rounded towards zero. -/
theorem modulus_exact (T : IntType) (m : Marks2) (hm : T.isSigned = true → m.nd1 = T.lo ∨ m.nd2 = -1)
    (junk : Int → Int → Int) :
    Exact2 T m (modulusPolicies m) (modulusFunctor T junk) (fun a b => if b = 0 then none else some (a.tmod b)) := by
  refine exact2_of_cell fun a b ha ha' hb hb' => cell2 rfl rfl rfl ?_ ?_
  · intro _ _
    by_cases h0 : b = 0 <;> simp [modulusPolicies, h0]
  · intro r hna hnb hg
    by_cases h0 : b = 0
    · simp [h0] at hg
    · have hg : a.tmod b = r := by simpa [h0] using hg
      subst hg
      have hq := tdiv_fits (T := T) ⟨ha, ha'⟩ ⟨hb, hb'⟩ (by
        rintro ⟨hs, h1, h2⟩
        rcases hm hs with h | h <;> omega)
      have hf : T.lo ≤ a.tmod b ∧ a.tmod b ≤ T.hi := by
        have h1 : (a.tmod b).natAbs ≤ a.natAbs := by rw [Int.natAbs_tmod]; exact Nat.mod_le _ _
        rcases le_or_gt 0 a with h | h
        · have := Int.tmod_nonneg b h
          have hl : T.lo ≤ 0 := by
            cases hs : T.isSigned with
            | true => rw [lo_signed hs]; have := pow_pos_int (T.bits - 1); omega
            | false => rw [lo_unsigned hs]
          omega
        · have h2 : a.tmod b ≤ 0 := by
            have := Int.tmod_nonneg b (by omega : 0 ≤ -a)
            rw [Int.neg_tmod] at this
            omega
          have hh : 0 ≤ T.hi := by
            unfold IntType.hi
            have := pow_pos_int T.digits
            omega
          omega
      refine ⟨fun _ => ⟨?_, hf⟩, fun h => ?_⟩
      · rw [modulusFunctor, if_pos (fits_iff.mpr (promoted_fits hq)), assign_fits hf]
      · simp [modulusPolicies] at h

/-- Negation of signed values, if the smallest value is the no-data value (as it is by default). -/
theorem negate_exact (T : IntType) (hs : T.isSigned = true) (m : Marks1) (hm : m.nd = T.lo) (junk : Int → Int) :
    Exact1 T T m (negatePolicies m) (negateFunctor T junk) (fun a => some (-a)) := by
  refine exact1_of_cell fun a ha ha' => cell1 rfl rfl rfl fun hna => ⟨-a, rfl, fun _ => ?_, fun h => ?_⟩
  · have hf : T.lo ≤ -a ∧ -a ≤ T.hi := by
      rw [hm] at hna
      rw [lo_signed hs] at *
      rw [hi_signed hs] at *
      omega
    exact ⟨assign_fits hf, hf⟩
  · simp [negatePolicies] at h

/-- Absolute values: for all no-data values. -/
theorem abs_exact (T : IntType) (hs : T.isSigned = true) (m : Marks1) (junk : Int → Int) :
    Exact1 T T m (absPolicies T m) (absFunctor T junk) (fun a => some |a|) := by
  refine exact1_of_cell fun a ha ha' => cell1 rfl rfl rfl fun hna => ⟨|a|, rfl, fun h => ?_, fun h => ?_⟩
  · have hl : a ≠ T.lo := by simpa [absPolicies] using h
    have hf : T.lo ≤ |a| ∧ |a| ≤ T.hi := by
      rw [lo_signed hs] at *
      rw [hi_signed hs] at *
      have := pow_pos_int (T.bits - 1)
      rcases abs_cases a with h | h <;> omega
    exact ⟨assign_fits hf, hf⟩
  · have hl : a = T.lo := by simpa [absPolicies] using h
    rw [hl, lo_signed hs, hi_signed hs]
    have := pow_pos_int (T.bits - 1)
    rw [abs_neg, abs_of_pos this]
    omega

/-- Conversion between integral types: the same value, or no-data if the value does not fit. -/
theorem cast_exact (T U : IntType) (hT : 0 < T.bits) (hU : 0 < U.bits) (m : Marks1) (junk : Int → Int) :
    Exact1 T U m (castPolicies T U m) (castFunctor U junk) (fun a => some a) := by
  refine exact1_of_cell fun a ha ha' => cell1 rfl rfl rfl fun hna => ⟨a, rfl, ?_⟩
  have key : castWithinRange T U a = true ↔ U.lo ≤ a ∧ a ≤ U.hi := by
    unfold castWithinRange
    cases hs : T.isSigned <;> cases hu : U.isSigned <;>
      simp only [hs, hu, Bool.not_false, Bool.not_true, Bool.and_false, Bool.and_true, Bool.false_and, Bool.true_and,
        Bool.false_eq_true, if_false, if_true, decide_eq_true_eq]
    · rw [lo_unsigned hs, hi_unsigned hs] at *
      rw [lo_unsigned hu, hi_unsigned hu]
      split
      · simp; omega
      · next h => have := pow_le_pow_int (by omega : T.bits ≤ U.bits); simp; omega
    · rw [lo_unsigned hs, hi_unsigned hs] at *
      rw [lo_signed hu, hi_signed hu]
      have := pow_pos_int (U.bits - 1)
      split
      · simp; omega
      · next h => have := pow_le_pow_int (by omega : T.bits ≤ U.bits - 1); simp; omega
    · rw [lo_signed hs, hi_signed hs] at *
      rw [lo_unsigned hu, hi_unsigned hu]
      split
      · next h => have := pow_le_pow_int (by omega : T.bits - 1 ≤ U.bits); simp; omega
      · simp
    · rw [lo_signed hs, hi_signed hs] at *
      rw [lo_signed hu, hi_signed hu]
      split
      · simp
      · next h => have := pow_le_pow_int (by omega : T.bits - 1 ≤ U.bits - 1); simp; omega
  refine ⟨fun h => ⟨assign_fits (key.mp h), key.mp h⟩, fun h hc => ?_⟩
  have h : castWithinRange T U a = false := h
  rw [key.mpr hc] at h; cases h

/-! ### Conversion of floating point values -/

/-- The value is stored in a floating point type with a precision of `p` bits. -/
def OfPrecision (p : Nat) : FloatValue → Prop
  | .finite q => ∃ (k : Int) (e : Int), k.natAbs < 2 ^ p ∧ q = k * 2 ^ e
  | _ => True

/-- What conversion to an integral type must compute: the value rounded towards zero, if the value is between the smallest
and largest value of the type, or else no-data. -/
def exactFloat (U : IntType) (mark : Int) (x : FloatValue) : Option Int :=
  match x with
  | .finite q => if (U.lo : ℚ) ≤ q ∧ q ≤ U.hi then element U mark (truncate q) else none
  | _ => none

theorem roundToFloat_small {p n : Nat} (h : n ≤ p) : roundToFloat p (2 ^ n - 1) = 2 ^ n - 1 := by
  unfold roundToFloat
  rw [if_pos]
  have := Nat.pow_le_pow_right (n := 2) (by norm_num) h
  have := Nat.two_pow_pos n
  omega

theorem roundToFloat_large {p n : Nat} (hp : 0 < p) (h : p < n) : roundToFloat p (2 ^ n - 1) = 2 ^ n := by
  have h1 : 2 ^ p < 2 ^ n := Nat.pow_lt_pow_right (by norm_num) h
  have hl : (2 ^ n - 1).log2 = n - 1 := by
    rw [Nat.log2_eq_iff (by have := Nat.two_pow_pos p; omega)]
    have : 2 ^ n = 2 * 2 ^ (n - 1) := by rw [← Nat.pow_succ']; congr 1; omega
    rw [show n - 1 + 1 = n by omega]
    have := Nat.two_pow_pos (n - 1)
    omega
  unfold roundToFloat
  rw [if_neg (by omega)]
  simp only [hl]
  obtain ⟨e, he⟩ : ∃ e, n = p + e := ⟨n - p, by omega⟩
  rw [show n - 1 + 1 - p = e by omega]
  have hE : 0 < 2 ^ e := Nat.two_pow_pos e
  have hE2 : 2 ≤ 2 ^ e := by
    calc 2 = 2 ^ 1 := rfl
      _ ≤ 2 ^ e := Nat.pow_le_pow_right (by norm_num) (by omega)
  have hP : 2 ≤ 2 ^ p := by
    calc 2 = 2 ^ 1 := rfl
      _ ≤ 2 ^ p := Nat.pow_le_pow_right (by norm_num) (by omega)
  have hz : 2 ^ n - 1 = (2 ^ e - 1) + 2 ^ e * (2 ^ p - 1) := by
    rw [he, Nat.pow_add, Nat.mul_sub, Nat.mul_one, Nat.mul_comm (2 ^ p)]
    have : 2 ^ e ≤ 2 ^ e * 2 ^ p := Nat.le_mul_of_pos_right _ (by omega)
    omega
  have hq : (2 ^ n - 1) / 2 ^ e = 2 ^ p - 1 := by
    rw [hz, Nat.add_mul_div_left _ _ hE, Nat.div_eq_of_lt (by omega)]; omega
  have hr : (2 ^ n - 1) % 2 ^ e = 2 ^ e - 1 := by
    rw [hz, Nat.add_mul_mod_self_left, Nat.mod_eq_of_lt (by omega)]
  rw [hq, hr]
  have hodd : (2 ^ p - 1) % 2 = 1 := by
    have : 2 ^ p = 2 * 2 ^ (p - 1) := by rw [← Nat.pow_succ']; congr 1; omega
    omega
  rw [if_pos (by omega), show 2 ^ p - 1 + 1 = 2 ^ p by omega, ← Nat.pow_add, ← he]

theorem toNat_hi (U : IntType) : U.hi.toNat = 2 ^ U.digits - 1 := by
  unfold IntType.hi
  have := Nat.two_pow_pos U.digits
  have e : ((2 ^ U.digits : Nat) : Int) = 2 ^ U.digits := by push_cast; rfl
  omega

theorem truncate_le {q : ℚ} {z : Int} (h : q ≤ z) (hz : 0 ≤ z) : truncate q ≤ z := by
  unfold truncate
  rcases le_or_gt 0 q.num with hn | hn
  · rw [Int.tdiv_eq_ediv_of_nonneg hn, ← Rat.floor_def']
    exact Int.cast_le (R := ℚ) |>.mp ((Int.floor_le q).trans h)
  · have : 0 ≤ (-q.num).tdiv q.den := Int.tdiv_nonneg (by omega) (by positivity)
    rw [Int.neg_tdiv] at this
    omega

theorem truncate_neg (q : ℚ) : truncate (-q) = - truncate q := by simp [truncate, Int.neg_tdiv]

theorem le_truncate {q : ℚ} {z : Int} (h : (z : ℚ) ≤ q) (hz : z ≤ 0) : z ≤ truncate q := by
  have := truncate_le (q := -q) (z := -z) (by push_cast; linarith) (by omega)
  rw [truncate_neg] at this
  omega

/-- `truncate` rounds towards zero. -/
theorem truncate_spec (q : ℚ) : truncate q = if 0 ≤ q then ⌊q⌋ else ⌈q⌉ := by
  have key : ∀ q : ℚ, 0 ≤ q → truncate q = ⌊q⌋ := by
    intro q hq
    rw [truncate, Int.tdiv_eq_ediv_of_nonneg (Rat.num_nonneg.mpr hq), ← Rat.floor_def']
  split
  · next h => exact key q h
  · next h =>
    have := key (-q) (by linarith)
    rw [truncate_neg, Int.floor_neg] at this
    omega

theorem lo_nonpos (U : IntType) : U.lo ≤ 0 := by
  cases hs : U.isSigned with
  | true => rw [lo_signed hs]; have := pow_pos_int (U.bits - 1); omega
  | false => rw [lo_unsigned hs]

theorem hi_nonneg (U : IntType) : 0 ≤ U.hi := by
  unfold IntType.hi; have := pow_pos_int U.digits; omega

/-- A value of limited precision cannot be in between the largest value of an integral type with more bits and the next
integer. -/
theorem no_value_between {p n : Nat} (h : p < n) {q : ℚ} (hq : OfPrecision p (.finite q))
    (h1 : ((2 ^ n - 1 : Int) : ℚ) < q) (h2 : q < (2 ^ n : Int)) : False := by
  obtain ⟨k, e, hk, rfl⟩ := hq
  rcases le_or_gt 0 e with he | he
  · obtain ⟨m, rfl⟩ := Int.eq_ofNat_of_zero_le he
    have e1 : ((k : ℚ) * 2 ^ (m : Int)) = ((k * 2 ^ m : Int) : ℚ) := by push_cast; rw [zpow_natCast]
    rw [e1] at h1 h2
    have a1 := Int.cast_lt (R := ℚ) |>.mp h1
    have a2 := Int.cast_lt (R := ℚ) |>.mp h2
    omega
  · have e2 : (2 : ℚ) ^ e ≤ 2⁻¹ := by
      calc (2 : ℚ) ^ e ≤ 2 ^ (-1 : Int) := zpow_le_zpow_right₀ (by norm_num) (by omega)
        _ = 2⁻¹ := by norm_num
    have e3 : (0 : ℚ) < 2 ^ e := by positivity
    have hk2 : (k : ℚ) ≤ 2 ^ p := by
      have : k ≤ ((2 ^ p : Nat) : Int) := by omega
      exact_mod_cast this
    have hpn : (2 : ℚ) ^ p ≤ 2 ^ n / 2 := by
      have : (2 : ℚ) ^ (p + 1) ≤ 2 ^ n := pow_le_pow_right₀ (by norm_num) (by omega)
      rw [pow_succ] at this
      linarith
    have hn2 : (2 : ℚ) ≤ 2 ^ n := by
      calc (2 : ℚ) = 2 ^ 1 := by norm_num
        _ ≤ 2 ^ n := pow_le_pow_right₀ (by norm_num) (by omega)
    push_cast at h1
    have : (k : ℚ) * 2 ^ e ≤ 2 ^ p * 2⁻¹ := by
      rcases le_or_gt 0 k with hk0 | hk0
      · have : (0 : ℚ) ≤ k := by exact_mod_cast hk0
        calc (k : ℚ) * 2 ^ e ≤ k * 2⁻¹ := by gcongr
          _ ≤ 2 ^ p * 2⁻¹ := by gcongr
      · have h' : (k : ℚ) < 0 := by exact_mod_cast hk0
        have : (k : ℚ) * 2 ^ e < 0 := mul_neg_of_neg_of_pos h' e3
        have : (0 : ℚ) < 2 ^ p * 2⁻¹ := by positivity
        linarith
    linarith

theorem castFloat_cell (p : Nat) (hp : 0 < p) (U : IntType) (mark : Int) (junk : FloatValue → Int) (x : FloatValue)
    (hx : OfPrecision p x) (hlim : U.digits ≤ p ∨ x ≠ .finite (2 ^ U.digits)) :
    read mark ((unarySpec (castFloatPolicies p U mark) (castFloatFunctor U junk) x).getD mark) =
      exactFloat U mark x := by
  cases x with
  | nan => simp [unarySpec, valid, castFloatPolicies, isNaN, read, exactFloat]
  | infinite n =>
    have : castFloatWithinRange p U (.infinite n) = false := by
      cases n <;> simp [castFloatWithinRange, FloatValue.ge, FloatValue.le]
    simp [unarySpec, valid, castFloatPolicies, isNaN, read, exactFloat, this, guard, failure]
  | finite q =>
    have key : castFloatWithinRange p U (.finite q) = true ↔ (U.lo : ℚ) ≤ q ∧ q ≤ U.hi := by
      simp only [castFloatWithinRange, FloatValue.ge, FloatValue.le, Bool.and_eq_true, decide_eq_true_eq]
      rw [toNat_hi]
      constructor
      · rintro ⟨h1, h2⟩
        refine ⟨h1, ?_⟩
        rcases Nat.lt_or_ge p U.digits with h | h
        · rw [roundToFloat_large hp h] at h2
          by_contra hc
          have hne : q ≠ (2 ^ U.digits : Int) := by
            rcases hlim with h' | h'
            · omega
            · intro e; apply h'; rw [e]; push_cast; rfl
          refine no_value_between h hx (by simpa [IntType.hi] using hc) (lt_of_le_of_ne ?_ hne)
          exact_mod_cast h2
        · rw [roundToFloat_small h] at h2
          refine h2.trans (le_of_eq ?_)
          have := toNat_hi U
          have h3 := hi_nonneg U
          have : ((2 ^ U.digits - 1 : Nat) : Int) = U.hi := by omega
          exact_mod_cast this
      · rintro ⟨h1, h2⟩
        refine ⟨h1, h2.trans ?_⟩
        have h3 : U.hi ≤ (roundToFloat p (2 ^ U.digits - 1) : Int) := by
          have e : ((2 ^ U.digits : Nat) : Int) = 2 ^ U.digits := by push_cast; rfl
          have := Nat.two_pow_pos U.digits
          rcases Nat.lt_or_ge p U.digits with h | h
          · rw [roundToFloat_large hp h, IntType.hi]; omega
          · rw [roundToFloat_small h, IntType.hi]; omega
        exact_mod_cast h3
    by_cases hr : (U.lo : ℚ) ≤ q ∧ q ≤ U.hi
    · have hf : U.lo ≤ truncate q ∧ truncate q ≤ U.hi :=
        ⟨le_truncate hr.1 (lo_nonpos U), truncate_le hr.2 (hi_nonneg U)⟩
      have ha := assign_fits (junk := junk (.finite q)) hf
      by_cases hm : truncate q = mark
      · rw [hm] at ha
        simp [unarySpec, valid, castFloatPolicies, isNaN, key.mpr hr, guard, read, exactFloat, hr, castFloatFunctor,
          element, hm, ha]
      · simp [unarySpec, valid, castFloatPolicies, isNaN, key.mpr hr, guard, read, exactFloat, hr, castFloatFunctor,
          ha, element, hf, hm]
    · have : castFloatWithinRange p U (.finite q) = false := by
        by_contra hc
        exact hr (key.mp (by simpa using hc))
      simp [unarySpec, valid, castFloatPolicies, isNaN, this, guard, failure, read, exactFloat, hr]

/-- Conversion of floating point values to integral values, for types whose largest value can be stored in the floating
point type (like double to int32), and for all values of other types except one. -/
theorem cast_float_exact (p : Nat) (hp : 0 < p) (U : IntType) (mark : Int) (junk : FloatValue → Int)
    (garbage : Nat → Int) (x : PArr FloatValue) (v : Arr FloatValue) (order : List Nat) (hx : Represents x v)
    (hv : ∀ i j, i < x.grid.a0 → j < x.grid.a1 → OfPrecision p (v i j) ∧
      (U.digits ≤ p ∨ v i j ≠ .finite (2 ^ U.digits)))
    (ho : IsOrder (x.grid.n0 * x.grid.n1) order) :
    ∃ r u, unaryArray (castFloatPolicies p U mark) (castFloatFunctor U junk) garbage order x = .ok r ∧
      r.grid = x.grid ∧ Represents r u ∧
      ∀ i j, i < x.grid.a0 → j < x.grid.a1 → read mark (u i j) = exactFloat U mark (v i j) := by
  obtain ⟨r, h1, h2, h3⟩ := unary_spec (castFloatPolicies p U mark) (castFloatFunctor U junk) garbage hx ho
  exact ⟨r, _, h1, h2, h3, fun i j hi hj => castFloat_cell p hp U mark junk _ (hv i j hi hj).1 (hv i j hi hj).2⟩

/-- The exception: the smallest power of two that does not fit the integral type is accepted, although it does not fit.
The result is whatever the processor makes of it. This is the case for float to int32, uint32, int64, uint64 and for
double to int64, uint64. -/
theorem cast_float_not_exact (p : Nat) (hp : 0 < p) (U : IntType) (h : p < U.digits) (mark v : Int) (hv : v ≠ mark) :
    OfPrecision p (.finite (2 ^ U.digits)) ∧ exactFloat U mark (.finite (2 ^ U.digits)) = none ∧
    read mark (unaryScalar (castFloatPolicies p U mark) (castFloatFunctor U fun _ => v) (.finite (2 ^ U.digits))) =
      some v := by
  have hpow : (0 : ℚ) < 2 ^ U.digits := by positivity
  refine ⟨⟨1, U.digits, ?_, by simp⟩, ?_, ?_⟩
  · simpa using Nat.one_lt_two_pow (by omega : p ≠ 0)
  · rw [exactFloat, if_neg]
    rintro ⟨_, h2⟩
    rw [IntType.hi] at h2
    push_cast at h2
    linarith
  · have hlo : (U.lo : ℚ) ≤ 2 ^ U.digits := by
      have : (U.lo : ℚ) ≤ 0 := by exact_mod_cast lo_nonpos U
      linarith
    have hw : castFloatWithinRange p U (.finite (2 ^ U.digits)) = true := by
      simp only [castFloatWithinRange, FloatValue.ge, FloatValue.le, Bool.and_eq_true, decide_eq_true_eq]
      rw [toNat_hi, roundToFloat_large hp h]
      exact ⟨hlo, by push_cast; exact le_refl _⟩
    have ht : truncate (2 ^ U.digits : ℚ) = 2 ^ U.digits := by
      rw [truncate_spec, if_pos hpow.le]
      have : (2 ^ U.digits : ℚ) = ((2 ^ U.digits : Int) : ℚ) := by push_cast; rfl
      rw [this, Int.floor_intCast]
    have hf : U.fits (2 ^ U.digits) = false := by
      by_contra hc
      have := fits_iff.mp (by simpa using hc : U.fits (2 ^ U.digits) = true)
      rw [IntType.hi] at this
      omega
    simp [unaryScalar, castFloatPolicies, isNaN, hw, castFloatFunctor, ht, assign, hf, read, hv]

/-! ### Examples -/

/-- Adding unsigned 8 bit values. 255 is no-data. -/
example : (binaryScalar (addPolicies uint8 (defaultMarks2 uint8)) (addFunctor uint8 fun x y => (x + y) % 256)) 200 54
    = 254 := by decide +kernel
example : (binaryScalar (addPolicies uint8 (defaultMarks2 uint8)) (addFunctor uint8 fun x y => (x + y) % 256)) 200 56
    = 255 := by decide +kernel
example : exact2 uint8 (defaultMarks2 uint8) (fun a b => some (a + b)) 200 56 = none := by decide +kernel
example : exact2 int8 (defaultMarks2 int8) (fun a b => some (a * b)) (-9) 14 = some (-126) := by decide +kernel
example : exact2 int32 (defaultMarks2 int32) (fun a b => some (a * b)) 65536 32768 = none := by decide +kernel

/-- The hypotheses of the theorems about arrays are met. -/
example : ∃ (x y : PArr Int), Represents x (fun i j => 10 * i + j) ∧ Represents y (fun i j => i * j) ∧
    y.grid = x.grid ∧ IsOrder (x.grid.n0 * x.grid.n1) [4, 1, 0, 5, 3, 2] ∧
    OfType int8 x.grid.a0 x.grid.a1 (fun i j => 10 * (i : Int) + j) :=
  ⟨store ⟨5, 7, 2, 2⟩ _, store ⟨5, 7, 2, 2⟩ _, store_represents ⟨by decide, by decide, by decide, by decide⟩ _,
    store_represents ⟨by decide, by decide, by decide, by decide⟩ _, rfl, by unfold IsOrder; decide, by
      intro i j hi hj
      have e1 : int8.lo = -128 := rfl
      have e2 : int8.hi = 127 := rfl
      have hi : i < 5 := hi
      have hj : j < 7 := hj
      rw [e1, e2]; simp only; omega⟩

example : float32Digits < int32.digits ∧ float64Digits < uint64.digits ∧ int32.digits ≤ float64Digits := by
  decide +kernel

end Lue.ValueOps

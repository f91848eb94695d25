import Verif.FloatOps.Spec
import Mathlib.Analysis.SpecialFunctions.Log.Deriv
import Mathlib.Analysis.SpecialFunctions.Trigonometric.Bounds
import Mathlib.Analysis.Complex.ExponentialBounds
import Mathlib.Analysis.Real.Pi.Bounds

/-!
C58: local operations on floating point elements compute the mathematical function, rounded, and no-data where this is not
defined or too large.
-/
namespace Lue.FloatOps

open Lue.LocalOp

variable {L : Lib}

/-! ### From cells to arrays -/

theorem unarySpec_nan {P : Policies1 Fl Fl} {f : Fl → Fl} (h1 : P.indp = isNaN) (hm : P.mark = .nan) :
    (unarySpec P f .nan).getD P.mark = .nan := by
  simp [unarySpec, valid, h1, hm, isNaN]

theorem unarySpec_fin {P : Policies1 Fl Fl} {f : Fl → Fl} (h1 : P.indp = isNaN) (hm : P.mark = .nan) (r : ℝ) :
    (unarySpec P f (.fin r)).getD P.mark =
      if P.dp (.fin r) = true then if P.rp (.fin r) (f (.fin r)) = true then f (.fin r) else .nan else .nan := by
  by_cases h2 : P.dp (.fin r) <;> by_cases h3 : P.rp (.fin r) (f (.fin r)) <;>
    simp [unarySpec, valid, h1, hm, isNaN, h2, h3, guard, failure]

theorem binarySpec_nan {P : Policies2 Fl Fl Fl} {f : Fl → Fl → Fl} (h1 : P.indp1 = isNaN) (h2 : P.indp2 = isNaN)
    (hm : P.mark = .nan) {x y : Fl} (h : x = .nan ∨ y = .nan) : (binarySpec P f x y).getD P.mark = .nan := by
  by_cases hx : x = .nan
  · subst hx; simp [binarySpec, valid, h1, hm, isNaN]
  · obtain rfl := h.resolve_left hx
    have : isNaN x = false := by cases x <;> first | rfl | exact absurd rfl hx
    simp [binarySpec, valid, h1, h2, hm, this]
    simp [isNaN]

theorem binarySpec_fin {P : Policies2 Fl Fl Fl} {f : Fl → Fl → Fl} (h1 : P.indp1 = isNaN) (h2 : P.indp2 = isNaN)
    (hm : P.mark = .nan) (a b : ℝ) :
    (binarySpec P f (.fin a) (.fin b)).getD P.mark =
      if P.dp (.fin a) (.fin b) = true then if P.rp (.fin a) (.fin b) (f (.fin a) (.fin b)) = true
        then f (.fin a) (.fin b) else .nan else .nan := by
  by_cases h3 : P.dp (.fin a) (.fin b) <;> by_cases h4 : P.rp (.fin a) (.fin b) (f (.fin a) (.fin b)) <;>
    simp [binarySpec, valid, h1, h2, hm, isNaN, h3, h4, guard, failure]

/-- What must hold for the result of an operation on numbers -/
def Correct (L : Lib) (rnd : ℝ → Fl) (y : Option ℝ) (z : Fl) : Prop :=
  Element L z ∧ number z = y.bind (fun y => number (rnd y))

theorem correct_nan {rnd : ℝ → Fl} : Correct L rnd none .nan := ⟨.inl rfl, rfl⟩

theorem correct_round {fn : Fn} {y : ℝ} (h : |y| ≤ L.big) : Correct L (L.round fn) (some y) (L.round fn y) := by
  obtain ⟨v, hv⟩ := L.round_fin fn y h
  exact ⟨.inr ⟨v, hv, L.round_rep fn y v hv⟩, rfl⟩

/-- The result is checked: an infinity is replaced by no-data. -/
theorem correct_checked {fn : Fn} {y : ℝ} :
    Correct L (L.round fn) (some y) (if (!isInf (L.round fn y)) = true then L.round fn y else .nan) := by
  cases h : L.round fn y with
  | nan => exact absurd h (L.round_nan fn y)
  | inf n => exact ⟨.inl rfl, by simp [isInf, number, h]⟩
  | fin v => exact ⟨.inr ⟨v, rfl, L.round_rep fn y v h⟩, by simp [isInf, number, h]⟩

theorem correct_fin {y : ℝ} (h : L.Rep y) : Correct L Fl.fin (some y) (.fin y) := ⟨.inr ⟨y, rfl, h⟩, rfl⟩

theorem computes1_of_cell {ok : ℝ → Prop} {P : Policies1 Fl Fl} {f : Fl → Fl} {rnd : ℝ → Fl} {g : ℝ → Option ℝ}
    (h1 : P.indp = isNaN) (hm : P.mark = .nan)
    (h : ∀ r, L.Rep r → ok r → Correct L rnd (g r)
      (if P.dp (.fin r) = true then if P.rp (.fin r) (f (.fin r)) = true then f (.fin r) else .nan else .nan)) :
    Computes1 L ok P f rnd g := by
  have key : ∀ c, Good1 L ok c → Element L ((unarySpec P f c).getD P.mark) ∧
      number ((unarySpec P f c).getD P.mark) = expected1 rnd g c := by
    rintro c ⟨rfl | ⟨r, rfl, hr⟩, hok⟩
    · rw [unarySpec_nan h1 hm]; exact ⟨.inl rfl, rfl⟩
    · rw [unarySpec_fin h1 hm]
      exact h r hr (hok r rfl)
  refine ⟨?_, ?_⟩
  · intro garbage x v order hx hv ho
    obtain ⟨r, h1, h2, h3⟩ := unary_spec P f garbage hx ho
    exact ⟨r, _, h1, h2, h3, fun i j hi hj => key _ (hv i j hi hj)⟩
  · intro a ha
    rw [scalar_spec]; exact key a ha

theorem computes2_of_cell {ok : ℝ → ℝ → Prop} {P : Policies2 Fl Fl Fl} {f : Fl → Fl → Fl} {rnd : ℝ → Fl}
    {g : ℝ → ℝ → Option ℝ} (h1 : P.indp1 = isNaN) (h2 : P.indp2 = isNaN) (hm : P.mark = .nan)
    (h : ∀ a b, L.Rep a → L.Rep b → ok a b → Correct L rnd (g a b)
      (if P.dp (.fin a) (.fin b) = true then if P.rp (.fin a) (.fin b) (f (.fin a) (.fin b)) = true
        then f (.fin a) (.fin b) else .nan else .nan)) :
    Computes2 L ok P f rnd g := by
  have key : ∀ x y, Good2 L ok x y → Element L ((binarySpec P f x y).getD P.mark) ∧
      number ((binarySpec P f x y).getD P.mark) = expected2 rnd g x y := by
    rintro x y ⟨rfl | ⟨a, rfl, ha⟩, hy, hok⟩
    · rw [binarySpec_nan h1 h2 hm (.inl rfl)]; exact ⟨.inl rfl, rfl⟩
    · rcases hy with rfl | ⟨b, rfl, hb⟩
      · rw [binarySpec_nan h1 h2 hm (.inr rfl)]; exact ⟨.inl rfl, rfl⟩
      · rw [binarySpec_fin h1 h2 hm]
        exact h a b ha hb (hok a b rfl rfl)
  refine ⟨?_, ?_, ?_, ?_⟩
  · intro garbage x y v w order hx hy hg hv ho
    obtain ⟨r, h1, h2, h3⟩ := binary_spec P f garbage hx hy hg ho
    exact ⟨r, _, h1, h2, h3, fun i j hi hj => key _ _ (hv i j hi hj)⟩
  · intro garbage x v b order hx hv ho
    obtain ⟨r, h1, h2, h3⟩ := binaryAS_spec P f garbage hx b ho
    exact ⟨r, _, h1, h2, h3, fun i j hi hj => key _ _ (hv i j hi hj)⟩
  · intro garbage a y w order hy hw ho
    obtain ⟨r, h1, h2, h3⟩ := binarySA_spec P f garbage a hy ho
    exact ⟨r, _, h1, h2, h3, fun i j hi hj => key _ _ (hw i j hi hj)⟩
  · intro a b h
    rw [scalar2_spec]; exact key a b h

/-! ### Bounds -/

theorem two_log_le {x : ℝ} (hx : 4 ≤ x) : 2 * Real.log x ≤ x := by
  have h0 : (0 : ℝ) < x := by linarith
  have hs : 0 < Real.sqrt x := Real.sqrt_pos.mpr h0
  have h1 := Real.log_le_sub_one_of_pos hs
  have h2 : Real.log (Real.sqrt x) = Real.log x / 2 := Real.log_sqrt h0.le
  have h3 : Real.sqrt x * Real.sqrt x = x := Real.mul_self_sqrt h0.le
  nlinarith [sq_nonneg (Real.sqrt x - 2)]

theorem log_bound {r : ℝ} (h : L.Rep r) (hr : 0 < r) : |Real.log r| ≤ L.big := by
  have hb := L.big_large
  have hb0 : (0 : ℝ) < L.big := by linarith
  have h1 := L.rep_le r h
  have h2 := L.rep_ge r h hr.ne'
  rw [abs_of_pos hr] at h1 h2
  have h3 := two_log_le hb
  have h4 := Real.log_le_log hr h1
  have h5 := Real.log_le_log (by positivity) h2
  have h6 : 0 ≤ Real.log L.big := Real.log_nonneg (by linarith)
  rw [Real.log_div one_ne_zero (by positivity), Real.log_one, Real.log_pow] at h5
  rw [abs_le]
  push_cast at h5
  constructor <;> linarith

theorem log10_bound {r : ℝ} (h : L.Rep r) (hr : 0 < r) : |Real.logb 10 r| ≤ L.big := by
  have h1 := log_bound h hr
  have h10 : 1 ≤ Real.log 10 := by
    rw [Real.le_log_iff_exp_le (by norm_num)]
    have := Real.exp_one_lt_d9
    linarith
  rw [Real.logb, abs_div, abs_of_pos (by linarith : 0 < Real.log 10)]
  refine le_trans (div_le_self (abs_nonneg _) h10) h1

theorem sqrt_bound {r : ℝ} (h : L.Rep r) (hr : 0 ≤ r) : |Real.sqrt r| ≤ L.big := by
  have hb := L.big_large
  have h1 := L.rep_le r h
  rw [abs_of_nonneg hr] at h1
  rw [abs_of_nonneg (Real.sqrt_nonneg r), Real.sqrt_le_left (by linarith)]
  nlinarith

theorem pi_bound : Real.pi ≤ L.big := le_trans Real.pi_le_four L.big_large

/-! ### Unary operations -/

/-- C58: the square root of non-negative values -/
theorem sqrt_computes : Computes1 L (fun _ => True) nonNegativePolicies (sqrt L) (L.round .sqrt)
    (fun r => if 0 ≤ r then some (Real.sqrt r) else none) := by
  refine computes1_of_cell rfl rfl fun r hr _ => ?_
  by_cases h : 0 ≤ r
  · simpa [nonNegativePolicies, geq, sqrt, h, not_lt.mpr h] using correct_round (sqrt_bound hr h)
  · simpa [nonNegativePolicies, geq, h] using correct_nan

/-- C58: the natural logarithm of values. Zero is excluded. -/
theorem log_computes : Computes1 L (fun r => r ≠ 0) nonNegativePolicies (log L) (L.round .log)
    (fun r => if 0 < r then some (Real.log r) else none) := by
  refine computes1_of_cell rfl rfl fun r hr hne => ?_
  by_cases h : 0 < r
  · simpa [nonNegativePolicies, geq, log, h, h.le, hne, not_lt.mpr h.le] using correct_round (log_bound hr h)
  · have h' : ¬0 ≤ r := fun h' => h (lt_of_le_of_ne h' (Ne.symm hne))
    simpa [nonNegativePolicies, geq, h, h'] using correct_nan

/-- C58: the logarithm, base 10 -/
theorem log10_computes : Computes1 L (fun r => r ≠ 0) nonNegativePolicies (log10 L) (L.round .log10)
    (fun r => if 0 < r then some (Real.logb 10 r) else none) := by
  refine computes1_of_cell rfl rfl fun r hr hne => ?_
  by_cases h : 0 < r
  · simpa [nonNegativePolicies, geq, log10, h, h.le, hne, not_lt.mpr h.le] using correct_round (log10_bound hr h)
  · have h' : ¬0 ≤ r := fun h' => h (lt_of_le_of_ne h' (Ne.symm hne))
    simpa [nonNegativePolicies, geq, h, h'] using correct_nan

/-- C58, finding: the logarithms of zero are not no-data, but minus infinity -/
theorem log_zero : unaryScalar nonNegativePolicies (log L) (.fin 0) = .inf true ∧
    unaryScalar nonNegativePolicies (log10 L) (.fin 0) = .inf true := by
  constructor <;> simp [unaryScalar, nonNegativePolicies, isNaN, geq, log, log10]

theorem acos_computes : Computes1 L (fun _ => True) unitPolicies (acos L) (L.round .acos)
    (fun r => if -1 ≤ r ∧ r ≤ 1 then some (Real.arccos r) else none) := by
  refine computes1_of_cell rfl rfl fun r hr _ => ?_
  by_cases h : -1 ≤ r ∧ r ≤ 1
  · have hb : |Real.arccos r| ≤ L.big := by
      rw [abs_of_nonneg (Real.arccos_nonneg r)]
      exact le_trans (Real.arccos_le_pi r) pi_bound
    simpa [unitPolicies, geq, leq, acos, h.1, h.2] using correct_round hb
  · have : (decide (-1 ≤ r) && decide (r ≤ 1)) = false := by
      rw [← Bool.decide_and]; exact decide_eq_false h
    simpa [unitPolicies, geq, leq, h, this] using correct_nan

theorem asin_computes : Computes1 L (fun _ => True) unitPolicies (asin L) (L.round .asin)
    (fun r => if -1 ≤ r ∧ r ≤ 1 then some (Real.arcsin r) else none) := by
  refine computes1_of_cell rfl rfl fun r hr _ => ?_
  by_cases h : -1 ≤ r ∧ r ≤ 1
  · have hb : |Real.arcsin r| ≤ L.big := by
      have := @pi_bound L
      have := Real.arcsin_le_pi_div_two r
      have := Real.neg_pi_div_two_le_arcsin r
      have := Real.pi_pos
      rw [abs_le]; constructor <;> linarith
    simpa [unitPolicies, geq, leq, asin, h.1, h.2] using correct_round hb
  · have : (decide (-1 ≤ r) && decide (r ≤ 1)) = false := by
      rw [← Bool.decide_and]; exact decide_eq_false h
    simpa [unitPolicies, geq, leq, h, this] using correct_nan

theorem atan_computes : Computes1 L (fun _ => True) allPolicies (atan L) (L.round .atan)
    (fun r => some (Real.arctan r)) := by
  refine computes1_of_cell rfl rfl fun r hr _ => ?_
  have hb : |Real.arctan r| ≤ L.big := by
    have := @pi_bound L
    have := Real.arctan_lt_pi_div_two r
    have := Real.neg_pi_div_two_lt_arctan r
    have := Real.pi_pos
    rw [abs_le]; constructor <;> linarith
  simpa [allPolicies, atan] using correct_round hb

theorem sin_computes : Computes1 L (fun _ => True) allPolicies (sin L) (L.round .sin) (fun r => some (Real.sin r)) := by
  refine computes1_of_cell rfl rfl fun r hr _ => ?_
  have hb : |Real.sin r| ≤ L.big := le_trans (Real.abs_sin_le_one r) (by have := L.big_large; linarith)
  simpa [allPolicies, sin] using correct_round hb

theorem cos_computes : Computes1 L (fun _ => True) allPolicies (cos L) (L.round .cos) (fun r => some (Real.cos r)) := by
  refine computes1_of_cell rfl rfl fun r hr _ => ?_
  have hb : |Real.cos r| ≤ L.big := le_trans (Real.abs_cos_le_one r) (by have := L.big_large; linarith)
  simpa [allPolicies, cos] using correct_round hb

/-- C58: the tangent of values for which it is defined, and not too large -/
theorem tan_computes : Computes1 L (fun r => Real.cos r ≠ 0 ∧ |Real.tan r| ≤ L.big) tanPolicies (tan L) (L.round .tan)
    (fun r => some (Real.tan r)) := by
  refine computes1_of_cell rfl rfl fun r hr hb => ?_
  simpa [tanPolicies, tan, isInf] using correct_round hb.2

/-- C58: the exponential function, no-data if the result is too large -/
theorem exp_computes : Computes1 L (fun _ => True) expPolicies (exp L) (L.round .exp) (fun r => some (Real.exp r)) := by
  refine computes1_of_cell rfl rfl fun r hr _ => ?_
  simpa [expPolicies, exp] using correct_checked (y := Real.exp r)

theorem rep_ceil {r : ℝ} (h : L.Rep r) : L.Rep ⌈r⌉ := by
  have := L.rep_neg _ (L.rep_floor _ (L.rep_neg r h))
  rwa [Int.floor_neg, Int.cast_neg, neg_neg] at this

theorem abs_computes : Computes1 L (fun _ => True) allPolicies abs Fl.fin (fun r => some |r|) := by
  refine computes1_of_cell rfl rfl fun r hr _ => ?_
  have : L.Rep |r| := by
    rcases abs_choice r with h | h <;> rw [h]
    · exact hr
    · exact L.rep_neg r hr
  simpa [allPolicies, abs] using correct_fin this

theorem negate_computes : Computes1 L (fun _ => True) allPolicies neg Fl.fin (fun r => some (-r)) := by
  refine computes1_of_cell rfl rfl fun r hr _ => ?_
  simpa [allPolicies, neg] using correct_fin (L.rep_neg r hr)

theorem floor_computes : Computes1 L (fun _ => True) allPolicies floor Fl.fin (fun r => some (⌊r⌋ : ℝ)) := by
  refine computes1_of_cell rfl rfl fun r hr _ => ?_
  simpa [allPolicies, floor] using correct_fin (L.rep_floor r hr)

theorem ceil_computes : Computes1 L (fun _ => True) allPolicies ceil Fl.fin (fun r => some (⌈r⌉ : ℝ)) := by
  refine computes1_of_cell rfl rfl fun r hr _ => ?_
  simpa [allPolicies, ceil] using correct_fin (rep_ceil hr)

/-- The value of a partial function that is described by a property -/
theorem computes_described {P : Policies1 Fl Fl} {f : Fl → Fl} {rnd : ℝ → Fl} {g h : ℝ → Option ℝ} {ok : ℝ → Prop}
    (e : ∀ r, g r = h r) (c : Computes1 L ok P f rnd g) : Computes1 L ok P f rnd h := by
  rwa [← funext e]

theorem isTruncated_unique {a : ℝ} {n m : ℤ} (hn : IsTruncated a n) (hm : IsTruncated a m) : n = m := by
  obtain ⟨n1, n2, n3⟩ := hn
  obtain ⟨m1, m2, m3⟩ := hm
  rw [abs_lt] at n1 m1
  have key : ∀ {k : ℤ}, 0 ≤ a → |(k : ℝ)| ≤ |a| → 0 ≤ a * k → a - k < 1 → k = ⌊a⌋ := by
    intro k h0 h2 h3 h4
    rw [abs_of_nonneg h0] at h2
    exact (Int.floor_eq_iff.mpr ⟨le_trans (le_abs_self _) h2, by linarith⟩).symm
  have key' : ∀ {k : ℤ}, a < 0 → |(k : ℝ)| ≤ |a| → 0 ≤ a * k → -1 < a - k → k = ⌈a⌉ := by
    intro k h0 h2 h3 h4
    rw [abs_of_neg h0] at h2
    exact (Int.ceil_eq_iff.mpr ⟨by linarith, by linarith [neg_abs_le (k : ℝ)]⟩).symm
  by_cases h0 : 0 ≤ a
  · rw [key h0 n2 n3 n1.2, key h0 m2 m3 m1.2]
  · rw [key' (not_le.mp h0) n2 n3 n1.1, key' (not_le.mp h0) m2 m3 m1.1]

theorem isTruncated_trunc (a : ℝ) : ∃ n : ℤ, (if 0 ≤ a then (⌊a⌋ : ℝ) else (⌈a⌉ : ℝ)) = n ∧ IsTruncated a n := by
  by_cases h : 0 ≤ a
  · refine ⟨⌊a⌋, if_pos h, ?_, ?_, ?_⟩
    · rw [abs_lt]; constructor <;> linarith [Int.floor_le a, Int.lt_floor_add_one a]
    · have : (0 : ℝ) ≤ ⌊a⌋ := by exact_mod_cast Int.floor_nonneg.mpr h
      rw [abs_of_nonneg this, abs_of_nonneg h]; exact Int.floor_le a
    · have : (0 : ℝ) ≤ ⌊a⌋ := by exact_mod_cast Int.floor_nonneg.mpr h
      exact mul_nonneg h this
  · have h' : a < 0 := not_le.mp h
    have hc : (⌈a⌉ : ℝ) ≤ 0 := by exact_mod_cast Int.ceil_le.mpr (by simpa using h'.le)
    refine ⟨⌈a⌉, if_neg h, ?_, ?_, ?_⟩
    · rw [abs_lt]; constructor <;> linarith [Int.le_ceil a, Int.ceil_lt_add_one a]
    · rw [abs_of_nonpos hc, abs_of_neg h']; linarith [Int.le_ceil a]
    · exact mul_nonneg_of_nonpos_of_nonpos h'.le hc

/-- C58: `trunc` removes the fraction -/
theorem trunc_computes (g : ℝ → ℤ) (hg : ∀ r, IsTruncated r (g r)) :
    Computes1 L (fun _ => True) allPolicies trunc Fl.fin (fun r => some (g r)) := by
  refine computes1_of_cell rfl rfl fun r hr _ => ?_
  obtain ⟨n, hn, ht⟩ := isTruncated_trunc r
  rw [isTruncated_unique (hg r) ht]
  have hrep : L.Rep n := by
    rw [← hn]; split
    · exact L.rep_floor r hr
    · exact rep_ceil hr
  have : trunc (.fin r) = .fin n := by rw [← hn]; rfl
  simpa [allPolicies, this] using correct_fin hrep

theorem isNearest_unique {a : ℝ} {n m : ℤ} (hn : IsNearest a n) (hm : IsNearest a m) : n = m := by
  wlog h : n ≤ m generalizing n m
  · exact (this hm hn (by omega)).symm
  obtain ⟨n1, n2⟩ := hn
  obtain ⟨m1, m2⟩ := hm
  rw [abs_le] at n1 m1
  by_contra hne
  have h1 : n + 1 ≤ m := by omega
  have h1r : (n : ℝ) + 1 ≤ m := by exact_mod_cast h1
  have hm' : m = n + 1 := by
    have : (m : ℝ) ≤ n + 1 := by linarith
    have : m ≤ n + 1 := by exact_mod_cast this
    omega
  subst hm'
  push_cast at *
  have ha : a = n + 1 / 2 := by linarith
  have e1 : |a - (n : ℝ)| = 1 / 2 := by rw [ha]; norm_num
  have e2 : |a - ((n : ℝ) + 1)| = 1 / 2 := by
    rw [ha, show (n : ℝ) + 1 / 2 - (n + 1) = -(1 / 2) by ring, abs_neg]; norm_num
  have hn := n2 e1
  have hm := m2 e2
  rcases le_or_gt 0 n with hs | hs
  · have hs' : (0 : ℝ) ≤ n := by exact_mod_cast hs
    rw [ha, abs_of_nonneg (by linarith), abs_of_nonneg hs'] at hn
    linarith
  · have hs' : (n : ℝ) + 1 ≤ 0 := by
      have : n + 1 ≤ 0 := by omega
      exact_mod_cast this
    rw [ha, abs_of_nonpos (by linarith), abs_of_nonpos hs'] at hm
    linarith

theorem isNearest_round (a : ℝ) :
    ∃ n : ℤ, (if 0 ≤ a then (⌊a + 1 / 2⌋ : ℝ) else (⌈a - 1 / 2⌉ : ℝ)) = n ∧ IsNearest a n ∧ (n = ⌊a⌋ ∨ n = ⌈a⌉) := by
  by_cases h : 0 ≤ a
  · refine ⟨⌊a + 1 / 2⌋, if_pos h, ⟨?_, ?_⟩, ?_⟩
    · rw [abs_le]; constructor <;> linarith [Int.floor_le (a + 1 / 2), Int.lt_floor_add_one (a + 1 / 2)]
    · intro he
      have h1 := Int.floor_le (a + 1 / 2)
      have h2 := Int.lt_floor_add_one (a + 1 / 2)
      have : a ≤ ⌊a + 1 / 2⌋ := by
        rcases abs_choice (a - (⌊a + 1 / 2⌋ : ℝ)) with hc | hc <;> rw [hc] at he <;> linarith
      rw [abs_of_nonneg h, abs_of_nonneg (le_trans h this)]
      exact this
    · by_cases hc : a + 1 / 2 < ⌊a⌋ + 1
      · left
        exact Int.floor_eq_iff.mpr ⟨by linarith [Int.floor_le a], hc⟩
      · right
        have h1 := Int.lt_floor_add_one a
        have h2 := Int.floor_le a
        have h3 : ⌈a⌉ = ⌊a⌋ + 1 := Int.ceil_eq_iff.mpr ⟨by push_cast; linarith, by push_cast; linarith⟩
        rw [h3]
        exact Int.floor_eq_iff.mpr ⟨by push_cast; linarith, by push_cast; linarith⟩
  · have h' : a < 0 := not_le.mp h
    refine ⟨⌈a - 1 / 2⌉, if_neg h, ⟨?_, ?_⟩, ?_⟩
    · rw [abs_le]; constructor <;> linarith [Int.le_ceil (a - 1 / 2), Int.ceil_lt_add_one (a - 1 / 2)]
    · intro he
      have h1 := Int.le_ceil (a - 1 / 2)
      have h2 := Int.ceil_lt_add_one (a - 1 / 2)
      have : (⌈a - 1 / 2⌉ : ℝ) ≤ a := by
        rcases abs_choice (a - (⌈a - 1 / 2⌉ : ℝ)) with hc | hc <;> rw [hc] at he <;> linarith
      rw [abs_of_neg h', abs_of_nonpos (by linarith)]
      linarith
    · by_cases hc : (⌈a⌉ : ℝ) - 1 < a - 1 / 2
      · right
        exact Int.ceil_eq_iff.mpr ⟨hc, by linarith [Int.le_ceil a]⟩
      · left
        have h1 := Int.ceil_lt_add_one a
        have h2 := Int.le_ceil a
        have h3 : ⌊a⌋ = ⌈a⌉ - 1 := Int.floor_eq_iff.mpr ⟨by push_cast; linarith, by push_cast; linarith⟩
        rw [h3]
        exact Int.ceil_eq_iff.mpr ⟨by push_cast; linarith, by push_cast; linarith⟩

/-- C58: `round` gives the nearest integer -/
theorem round_computes (g : ℝ → ℤ) (hg : ∀ r, IsNearest r (g r)) :
    Computes1 L (fun _ => True) allPolicies roundTo Fl.fin (fun r => some (g r)) := by
  refine computes1_of_cell rfl rfl fun r hr _ => ?_
  obtain ⟨n, hn, ht, hc⟩ := isNearest_round r
  rw [isNearest_unique (hg r) ht]
  have hrep : L.Rep n := by
    rcases hc with rfl | rfl
    · exact L.rep_floor r hr
    · exact rep_ceil hr
  have : roundTo (.fin r) = .fin n := by rw [← hn]; rfl
  simpa [allPolicies, this] using correct_fin hrep

/-! ### Binary operations -/

theorem add_computes : Computes2 L (fun _ _ => True) (addPolicies L) (add L) (L.round .add) (fun a b => some (a + b)) := by
  refine computes2_of_cell rfl rfl rfl fun a b ha hb _ => ?_
  simpa [addPolicies, add] using correct_checked (y := a + b)

theorem subtract_computes :
    Computes2 L (fun _ _ => True) (subPolicies L) (sub L) (L.round .subtract) (fun a b => some (a - b)) := by
  refine computes2_of_cell rfl rfl rfl fun a b ha hb _ => ?_
  simpa [subPolicies, sub] using correct_checked (y := a - b)

theorem multiply_computes :
    Computes2 L (fun _ _ => True) (mulPolicies L) (mul L) (L.round .multiply) (fun a b => some (a * b)) := by
  refine computes2_of_cell rfl rfl rfl fun a b ha hb _ => ?_
  simpa [mulPolicies, mul] using correct_checked (y := a * b)

/-- C58: dividing by zero gives no-data -/
theorem divide_computes : Computes2 L (fun _ _ => True) divPolicies (div L) (L.round .divide)
    (fun a b => if b = 0 then none else some (a / b)) := by
  refine computes2_of_cell rfl rfl rfl fun a b ha hb _ => ?_
  by_cases h : b = 0
  · simpa [divPolicies, nonzero, h] using correct_nan
  · simpa [divPolicies, nonzero, div, h] using correct_checked (y := a / b)

theorem isRemainder_unique {a b x y : ℝ} (hx : IsRemainder a b x) (hy : IsRemainder a b y) : x = y := by
  obtain ⟨x1, x2, n, hn⟩ := hx
  obtain ⟨y1, y2, m, hm⟩ := hy
  have hb : b ≠ 0 := by
    rintro rfl
    rw [abs_zero] at x1
    exact absurd x1 (not_lt.mpr (abs_nonneg x))
  have hbp : 0 < |b| := abs_pos.mpr hb
  have hd : |x - y| < |b| := by
    rcases lt_trichotomy a 0 with h | h | h
    · have hx0 : x ≤ 0 := by by_contra hc; nlinarith
      have hy0 : y ≤ 0 := by by_contra hc; nlinarith
      rw [abs_of_nonpos hx0] at x1
      rw [abs_of_nonpos hy0] at y1
      rw [abs_lt]; constructor <;> linarith
    · -- both are multiples of b
      have key : ∀ {z : ℝ} {k : ℤ}, |z| < |b| → a = k * b + z → z = 0 := by
        intro z k hz he
        have : z = -(k : ℝ) * b := by linarith
        rw [this, abs_mul, abs_neg] at hz
        have hk : |(k : ℝ)| < 1 := by
          by_contra hc
          have := mul_le_mul_of_nonneg_right (not_lt.mp hc) hbp.le
          linarith
        have hk' : |k| < 1 := by exact_mod_cast hk
        have : k = 0 := by
          have := abs_nonneg k
          exact Int.abs_lt_one_iff.mp hk'
        rw [‹z = -(k : ℝ) * b›, this]; simp
      rw [key x1 hn, key y1 hm]; simpa using hb
    · have hx0 : 0 ≤ x := by by_contra hc; nlinarith
      have hy0 : 0 ≤ y := by by_contra hc; nlinarith
      rw [abs_of_nonneg hx0] at x1
      rw [abs_of_nonneg hy0] at y1
      rw [abs_lt]; constructor <;> linarith
  have he : x - y = ((m - n : ℤ) : ℝ) * b := by push_cast; linarith
  rw [he, abs_mul] at hd
  have hk : |((m - n : ℤ) : ℝ)| < 1 := by
    by_contra hc
    have := mul_le_mul_of_nonneg_right (not_lt.mp hc) hbp.le
    linarith
  have hk' : |m - n| < 1 := by exact_mod_cast hk
  have : m - n = 0 := Int.abs_lt_one_iff.mp hk'
  rw [this] at he
  simp at he
  linarith

theorem isRemainder_mod (a : ℝ) {b : ℝ} (hb : b ≠ 0) :
    IsRemainder a b (a - b * (if 0 ≤ a / b then (⌊a / b⌋ : ℝ) else (⌈a / b⌉ : ℝ))) := by
  obtain ⟨n, hn, h1, h2, h3⟩ := isTruncated_trunc (a / b)
  rw [hn]
  have hbp : 0 < |b| := abs_pos.mpr hb
  have e : a - b * n = b * (a / b - n) := by field_simp
  have ea : a = b * (a / b) := by field_simp
  refine ⟨?_, ?_, n, by ring⟩
  · rw [e, abs_mul]
    nlinarith
  · have : 0 ≤ (a / b - n) * (a / b) := by
      rcases le_total 0 (a / b) with h | h
      · rw [abs_of_nonneg h] at h2
        have := le_trans (le_abs_self _) h2
        exact mul_nonneg (by linarith) h
      · rw [abs_of_nonpos h] at h2
        have := neg_abs_le (n : ℝ)
        exact mul_nonneg_of_nonpos_of_nonpos (by linarith) h
    rw [e]
    calc (0 : ℝ) ≤ b ^ 2 * ((a / b - n) * (a / b)) := mul_nonneg (sq_nonneg b) this
      _ = b * (a / b - n) * (b * (a / b)) := by ring
      _ = _ := by rw [← ea]

/-- C58: the remainder of a division. Dividing by zero gives no-data. -/
theorem modulus_computes (g : ℝ → ℝ → ℝ) (hg : ∀ a b, b ≠ 0 → IsRemainder a b (g a b)) :
    Computes2 L (fun _ _ => True) modPolicies mod Fl.fin (fun a b => if b = 0 then none else some (g a b)) := by
  refine computes2_of_cell rfl rfl rfl fun a b ha hb _ => ?_
  by_cases h : b = 0
  · simpa [modPolicies, nonzero, h] using correct_nan
  · have e := isRemainder_unique (hg a b h) (isRemainder_mod a h)
    have hrep := L.rep_mod a b ha hb h
    rw [← e] at hrep
    have hm : mod (.fin a) (.fin b) = .fin (g a b) := by rw [e]; exact if_neg h
    simpa [modPolicies, nonzero, hm, h] using correct_fin hrep

/-- C58: powers which are defined and not too large. The power of a negative number is only defined if the exponent is an
integer. -/
theorem pow_computes : Computes2 L (fun a b => ¬(a = 0 ∧ b < 0) ∧ |a ^ b| ≤ L.big) powPolicies (pow L) (L.round .pow)
    (fun a b => open Classical in if 0 ≤ a ∨ ∃ n : ℤ, b = n then some (a ^ b) else none) := by
  refine computes2_of_cell rfl rfl rfl fun a b ha hb hok => ?_
  have hiff : (a < 0 ∧ b ≠ (⌊b⌋ : ℝ)) ↔ ¬(0 ≤ a ∨ ∃ n : ℤ, b = n) := by
    rw [not_or, not_le]
    refine and_congr_right fun _ => not_congr ⟨fun h => ⟨_, h⟩, ?_⟩
    rintro ⟨n, rfl⟩
    rw [Int.floor_intCast]
  by_cases h : 0 ≤ a ∨ ∃ n : ℤ, b = n
  · have hm : pow L (.fin a) (.fin b) = L.round .pow (a ^ b) := by
      unfold pow; dsimp only
      rw [if_neg (fun hc => hiff.mp hc h), if_neg hok.1]
    have := correct_round (fn := .pow) hok.2
    simp only [powPolicies, hm, if_true, if_pos h]
    exact this
  · have hm : pow L (.fin a) (.fin b) = .nan := by
      unfold pow; dsimp only
      rw [if_pos (hiff.mpr h)]
    simp only [powPolicies, hm, if_true, if_neg h]
    exact correct_nan

/-- C58: the power of a number with an exponent which is an integer is repeated multiplication -/
theorem pow_integer (a : ℝ) (n : ℕ) : a ^ (n : ℝ) = a ^ n := Real.rpow_natCast a n

/-- C58, finding: powers of zero with a negative exponent are not no-data, but infinite -/
theorem pow_zero_negative {b : ℝ} (hb : b < 0) : binaryScalar powPolicies (pow L) (.fin 0) (.fin b) = .inf false := by
  simp [binaryScalar, powPolicies, isNaN, pow, hb]

/-- C58, finding: powers which are too large are not no-data -/
theorem pow_overflow {a b : ℝ} (ha : 0 < a) (n : Bool) (h : L.round .pow (a ^ b) = .inf n) :
    binaryScalar powPolicies (pow L) (.fin a) (.fin b) = .inf n := by
  have h1 : ¬(a < 0 ∧ b ≠ (⌊b⌋ : ℝ)) := fun hc => absurd hc.1 (not_lt.mpr ha.le)
  have h2 : ¬(a = 0 ∧ b < 0) := fun hc => absurd hc.1 ha.ne'
  have hm : pow L (.fin a) (.fin b) = .inf n := by
    unfold pow; dsimp only
    rw [if_neg h1, if_neg h2, h]
  simp [binaryScalar, powPolicies, isNaN, hm]

/-! ### When there is no result -/

/-- C58: if the values of a function are not too large, the result is no-data if and only if the argument is, or the
function is not defined. -/
theorem noData_iff {fn : Fn} {g : ℝ → Option ℝ} (hg : ∀ r y, L.Rep r → g r = some y → |y| ≤ L.big) {x : Fl}
    (hx : Element L x) : expected1 (L.round fn) g x = none ↔ x = .nan ∨ ∃ r, x = .fin r ∧ g r = none := by
  rcases hx with rfl | ⟨r, rfl, hr⟩
  · simp [expected1, number]
  · cases h : g r with
    | none => simp [expected1, number, h]
    | some y =>
      obtain ⟨v, hv⟩ := L.round_fin fn y (hg r y hr h)
      simp [expected1, number, h, hv]

/-- C58: same, for binary operations -/
theorem noData_iff2 {fn : Fn} {g : ℝ → ℝ → Option ℝ} {x y : Fl} (hx : Element L x) (hy : Element L y)
    (hg : ∀ a b z, x = .fin a → y = .fin b → g a b = some z → |z| ≤ L.big) :
    expected2 (L.round fn) g x y = none ↔ x = .nan ∨ y = .nan ∨ ∃ a b, x = .fin a ∧ y = .fin b ∧ g a b = none := by
  rcases hx with rfl | ⟨a, rfl, ha⟩
  · simp [expected2, number]
  · rcases hy with rfl | ⟨b, rfl, hb⟩
    · simp [expected2, number]
    · cases h : g a b with
      | none => simp [expected2, number, h]
      | some z =>
        obtain ⟨v, hv⟩ := L.round_fin fn z (hg a b z rfl rfl h)
        simp [expected2, number, h, hv]

/-- C58: functions of which the values are never too large -/
theorem bounded : (∀ r y, L.Rep r → (if 0 ≤ r then some (Real.sqrt r) else none) = some y → |y| ≤ L.big) ∧
    (∀ r y, L.Rep r → (if 0 < r then some (Real.log r) else none) = some y → |y| ≤ L.big) ∧
    (∀ r y, L.Rep r → (if 0 < r then some (Real.logb 10 r) else none) = some y → |y| ≤ L.big) := by
  refine ⟨?_, ?_, ?_⟩ <;> intro r y hr h <;> split at h <;> rename_i hc <;> cases h
  · exact sqrt_bound hr hc
  · exact log_bound hr hc
  · exact log10_bound hr hc

/-! ### Comparisons -/

theorem cmpReal_iff (c : Cmp) (a b : ℝ) : cmpReal c a b = true ↔ c.holds a b := by
  cases c <;> simp [cmpReal, Cmp.holds]

theorem compare_iff (c : Cmp) {x y : Fl} {a b : EReal} (hx : value x = some a) (hy : value y = some b) :
    compare c x y = true ↔ c.holds a b := by
  cases x with
  | nan => cases hx
  | inf n =>
    cases y with
    | nan => cases hy
    | inf m =>
      obtain rfl := Option.some.inj hx
      obtain rfl := Option.some.inj hy
      cases n <;> cases m <;> cases c <;> simp [compare, cmpReal, Cmp.holds] <;> norm_num
    | fin s =>
      obtain rfl := Option.some.inj hx
      obtain rfl := Option.some.inj hy
      cases n <;> cases c <;> simp [compare, cmpReal, Cmp.holds] <;> norm_num
  | fin r =>
    cases y with
    | nan => cases hy
    | inf m =>
      obtain rfl := Option.some.inj hx
      obtain rfl := Option.some.inj hy
      cases m <;> cases c <;> simp [compare, cmpReal, Cmp.holds] <;> norm_num
    | fin s =>
      obtain rfl := Option.some.inj hx
      obtain rfl := Option.some.inj hy
      exact cmpReal_iff c r s

theorem compare_cell (c : Cmp) (mark : Int) (x y : Fl) :
    Compared c mark x y ((binarySpec (comparePolicies mark) (compareFunctor c) x y).getD mark) := by
  unfold Compared
  cases hx : value x with
  | none =>
    have : isNaN x = true := by cases x <;> first | rfl | cases hx
    simp [binarySpec, valid, comparePolicies, this]
  | some a =>
    have h1 : isNaN x = false := by cases x <;> first | rfl | cases hx
    cases hy : value y with
    | none =>
      have : isNaN y = true := by cases y <;> first | rfl | cases hy
      simp [binarySpec, valid, comparePolicies, h1, this]
    | some b =>
      have h2 : isNaN y = false := by cases y <;> first | rfl | cases hy
      have e : (binarySpec (comparePolicies mark) (compareFunctor c) x y).getD mark = compareFunctor c x y := by
        simp [binarySpec, valid, comparePolicies, h1, h2, guard]
      rw [e]
      have := compare_iff c hx hy
      dsimp only
      unfold compareFunctor ofBool
      constructor
      · intro h; rw [if_pos (this.mpr h)]
      · intro h; rw [if_neg (fun hc => h (this.mp hc))]

/-- C58: comparing arrays, an array with a scalar, and a scalar with an array -/
theorem compare_spec (c : Cmp) (mark : Int) (garbage : Nat → Int) :
    (∀ (x y : PArr Fl) (v w : Arr Fl) (order : List Nat), Represents x v → Represents y w → y.grid = x.grid →
      IsOrder (x.grid.n0 * x.grid.n1) order →
      ∃ r u, binaryArray (comparePolicies mark) (compareFunctor c) garbage order x y = .ok r ∧ r.grid = x.grid ∧
        Represents r u ∧ ∀ i j, i < x.grid.a0 → j < x.grid.a1 → Compared c mark (v i j) (w i j) (u i j)) ∧
    (∀ (x : PArr Fl) (v : Arr Fl) (b : Fl) (order : List Nat), Represents x v →
      IsOrder (x.grid.n0 * x.grid.n1) order →
      ∃ r u, binaryArrayAS (comparePolicies mark) (compareFunctor c) garbage order x b = .ok r ∧ r.grid = x.grid ∧
        Represents r u ∧ ∀ i j, i < x.grid.a0 → j < x.grid.a1 → Compared c mark (v i j) b (u i j)) ∧
    (∀ (a : Fl) (y : PArr Fl) (w : Arr Fl) (order : List Nat), Represents y w →
      IsOrder (y.grid.n0 * y.grid.n1) order →
      ∃ r u, binaryArraySA (comparePolicies mark) (compareFunctor c) garbage order a y = .ok r ∧ r.grid = y.grid ∧
        Represents r u ∧ ∀ i j, i < y.grid.a0 → j < y.grid.a1 → Compared c mark a (w i j) (u i j)) := by
  refine ⟨?_, ?_, ?_⟩
  · intro x y v w order hx hy hg ho
    obtain ⟨r, h1, h2, h3⟩ := binary_spec (comparePolicies mark) (compareFunctor c) garbage hx hy hg ho
    exact ⟨r, _, h1, h2, h3, fun i j hi hj => compare_cell c mark _ _⟩
  · intro x v b order hx ho
    obtain ⟨r, h1, h2, h3⟩ := binaryAS_spec (comparePolicies mark) (compareFunctor c) garbage hx b ho
    exact ⟨r, _, h1, h2, h3, fun i j hi hj => compare_cell c mark _ _⟩
  · intro a y w order hy ho
    obtain ⟨r, h1, h2, h3⟩ := binarySA_spec (comparePolicies mark) (compareFunctor c) garbage a hy ho
    exact ⟨r, _, h1, h2, h3, fun i j hi hj => compare_cell c mark _ _⟩

/-! ### Logical operations -/

theorem logic_cell (o : Logic) (nd mark : Int) (x y : Int) :
    Decided o nd mark x y ((binarySpec (logicPolicies nd mark) (logicFunctor o) x y).getD mark) := by
  constructor
  · intro h
    by_cases hx : x = nd
    · simp [binarySpec, valid, logicPolicies, hx]
    · have hy := h.resolve_left hx
      simp [binarySpec, valid, logicPolicies, hx, hy]
  · intro hx hy
    have e : (binarySpec (logicPolicies nd mark) (logicFunctor o) x y).getD mark = logicFunctor o x y := by
      simp [binarySpec, valid, logicPolicies, hx, hy, guard]
    rw [e]
    cases o <;> by_cases h1 : x = 0 <;> by_cases h2 : y = 0 <;> simp [logicFunctor, ofBool, Logic.holds, h1, h2, bne]

/-- C58: logical operations on arrays -/
theorem logic_spec (o : Logic) (nd mark : Int) (garbage : Nat → Int) (x y : PArr Int) (v w : Arr Int)
    (order : List Nat) (hx : Represents x v) (hy : Represents y w) (hg : y.grid = x.grid)
    (ho : IsOrder (x.grid.n0 * x.grid.n1) order) :
    ∃ r u, binaryArray (logicPolicies nd mark) (logicFunctor o) garbage order x y = .ok r ∧ r.grid = x.grid ∧
      Represents r u ∧ ∀ i j, i < x.grid.a0 → j < x.grid.a1 → Decided o nd mark (v i j) (w i j) (u i j) := by
  obtain ⟨r, h1, h2, h3⟩ := binary_spec (logicPolicies nd mark) (logicFunctor o) garbage hx hy hg ho
  exact ⟨r, _, h1, h2, h3, fun i j hi hj => logic_cell o nd mark _ _⟩

/-- C58: negation -/
theorem not_spec (nd mark : Int) (garbage : Nat → Int) (x : PArr Int) (v : Arr Int)
    (order : List Nat) (hx : Represents x v) (ho : IsOrder (x.grid.n0 * x.grid.n1) order) :
    ∃ r u, unaryArray (notPolicies nd mark) notFunctor garbage order x = .ok r ∧ r.grid = x.grid ∧
      Represents r u ∧ ∀ i j, i < x.grid.a0 → j < x.grid.a1 →
        (v i j = nd → u i j = mark) ∧ (v i j ≠ nd → (v i j = 0 → u i j = 1) ∧ (v i j ≠ 0 → u i j = 0)) := by
  obtain ⟨r, h1, h2, h3⟩ := unary_spec (notPolicies nd mark) notFunctor garbage hx ho
  refine ⟨r, _, h1, h2, h3, fun i j hi hj => ⟨?_, ?_⟩⟩
  · intro h; simp [unarySpec, valid, notPolicies, h]
  · intro h
    have e : (unarySpec (notPolicies nd mark) notFunctor (v i j)).getD mark = notFunctor (v i j) := by
      simp [unarySpec, valid, notPolicies, h, guard]
    show (_ → (unarySpec (notPolicies nd mark) notFunctor (v i j)).getD mark = _) ∧
      (_ → (unarySpec (notPolicies nd mark) notFunctor (v i j)).getD mark = _)
    rw [e]
    constructor <;> intro h0 <;> simp [notFunctor, ofBool, h0]

/-! ### Examples -/

/-- A small type: integers from -4 to 4, rounding toward zero -/
noncomputable def small : Lib where
  big := 4
  big_large := le_refl _
  Rep := fun r => |r| ≤ 4 ∧ ∃ n : ℤ, r = n
  rep_le := fun _ h => h.1
  rep_ge := by
    rintro r ⟨-, n, rfl⟩ h
    have : n ≠ 0 := by rintro rfl; simp at h
    have : 1 ≤ |n| := Int.one_le_abs this
    have : (1 : ℝ) ≤ |(n : ℝ)| := by exact_mod_cast this
    norm_num
    linarith
  rep_neg := by
    rintro r ⟨h, n, rfl⟩
    exact ⟨by rwa [abs_neg], -n, by push_cast; rfl⟩
  rep_floor := by
    rintro r ⟨h, n, rfl⟩
    rw [Int.floor_intCast]
    exact ⟨h, n, rfl⟩
  rep_zero := ⟨by norm_num, 0, by norm_num⟩
  rep_mod := by
    rintro a b ⟨ha, n, rfl⟩ ⟨hb, m, rfl⟩ h
    have hr := isRemainder_mod (n : ℝ) h
    refine ⟨le_trans hr.1.le hb, ?_⟩
    split
    · exact ⟨n - m * ⌊(n : ℝ) / m⌋, by push_cast; rfl⟩
    · exact ⟨n - m * ⌈(n : ℝ) / m⌉, by push_cast; rfl⟩
  round := fun _ y => if |y| ≤ 4 then .fin (if 0 ≤ y then (⌊y⌋ : ℝ) else (⌈y⌉ : ℝ)) else .inf (decide (y < 0))
  round_rep := by
    intro _ y v h
    split at h
    · rename_i hy
      obtain rfl := Fl.fin.inj h
      obtain ⟨n, hn, ht⟩ := isTruncated_trunc y
      rw [hn]
      exact ⟨le_trans ht.2.1 hy, n, rfl⟩
    · cases h
  round_fin := by
    intro _ y h
    exact ⟨_, if_pos h⟩
  round_nan := by
    intro _ y h
    split at h <;> cases h

/-- Elements and arrays as in the theorems exist. -/
example : Element small (.fin 3) ∧ Element small .nan ∧ Good1 small (fun r => r ≠ 0) (.fin 3) ∧
    Good2 small (fun a b => ¬(a = 0 ∧ b < 0) ∧ |a ^ b| ≤ small.big) (.fin 2) (.fin 2) := by
  have h3 : Element small (.fin 3) := .inr ⟨3, rfl, by norm_num, 3, by norm_num⟩
  have h2 : Element small (.fin 2) := .inr ⟨2, rfl, by norm_num, 2, by norm_num⟩
  refine ⟨h3, .inl rfl, ⟨h3, ?_⟩, h2, h2, ?_⟩
  · rintro a h; cases h; norm_num
  · rintro a b h h'; cases h; cases h'
    refine ⟨by norm_num, ?_⟩
    show |(2 : ℝ) ^ (2 : ℝ)| ≤ 4
    rw [show (2 : ℝ) ^ (2 : ℝ) = 4 by norm_num]
    norm_num

example : ∃ (x : PArr Fl), Represents x (fun i j => Fl.fin ((i : ℝ) - (j : ℝ))) ∧
    IsOrder (x.grid.n0 * x.grid.n1) [1, 0, 3, 2] ∧
    ∀ i j, i < x.grid.a0 → j < x.grid.a1 → Good1 small (fun _ => True) (Fl.fin ((i : ℝ) - (j : ℝ))) := by
  refine ⟨store ⟨4, 4, 2, 2⟩ _, store_represents ⟨by decide, by decide, by decide, by decide⟩ _,
    by unfold IsOrder; decide, ?_⟩
  intro i j hi hj
  have hi : i < 4 := hi
  have hj : j < 4 := hj
  refine ⟨.inr ⟨_, rfl, ?_, (i : ℤ) - (j : ℤ), by push_cast; rfl⟩, fun _ _ => trivial⟩
  have hi' : (i : ℝ) < 4 := by exact_mod_cast hi
  have hj' : (j : ℝ) < 4 := by exact_mod_cast hj
  have := Nat.cast_nonneg (α := ℝ) i
  have := Nat.cast_nonneg (α := ℝ) j
  rw [abs_le]; constructor <;> linarith

/-- Functions as in the theorems about `round`, `trunc` and `modulus` exist. -/
theorem described : (∃ g : ℝ → ℤ, ∀ r, IsNearest r (g r)) ∧ (∃ g : ℝ → ℤ, ∀ r, IsTruncated r (g r)) ∧
    ∃ g : ℝ → ℝ → ℝ, ∀ a b, b ≠ 0 → IsRemainder a b (g a b) := by
  refine ⟨?_, ?_, ⟨_, fun a b h => isRemainder_mod a h⟩⟩
  · exact Classical.skolem.mp fun r => by obtain ⟨n, -, h, -⟩ := isNearest_round r; exact ⟨n, h⟩
  · exact Classical.skolem.mp fun r => by obtain ⟨n, -, h⟩ := isTruncated_trunc r; exact ⟨n, h⟩

/-- C58, finding: `close_to` depends on the order of its arguments -/
theorem closeTo_asymmetric : closeTo small (.fin 1) (.fin 0) (.fin 0) (.fin 4) = 1 ∧
    closeTo small (.fin 1) (.fin 0) (.fin 4) (.fin 0) = 0 := by
  have hn : ∀ (fn : Fn) (n : ℤ), |(n : ℝ)| ≤ 4 → small.round fn (n : ℝ) = .fin n := by
    intro fn n h
    show (if |(n : ℝ)| ≤ 4 then _ else _) = _
    rw [if_pos h]; simp
  have e0 : ∀ fn, small.round fn 0 = .fin 0 := fun fn => by simpa using hn fn 0 (by simp)
  have e4 : ∀ fn, small.round fn 4 = .fin 4 := fun fn => by simpa using hn fn 4 (by simp)
  have em : ∀ fn, small.round fn (-4) = .fin (-4) := fun fn => by simpa using hn fn (-4) (by simp)
  constructor <;> simp [closeTo, sub, mul, add, abs, e0, e4, em, compare, cmpReal, ofBool]

end Lue.FloatOps

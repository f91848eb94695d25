import Verif.KinematicWave.Spec
import Mathlib.Analysis.SpecialFunctions.Pow.Continuity
import Mathlib.Analysis.SpecialFunctions.Pow.Deriv
import Mathlib.Topology.Order.IntermediateValue
import Mathlib.Tactic.FieldSimp
import Mathlib.Tactic.LinearCombination
import Mathlib.Tactic.Positivity
import Mathlib.Tactic.Linarith

/-!
C38: the discharge of a single cell.
-/
namespace Lue.KinematicWave

theorem fq_strictMono {w : Wave} (h : w.Physical) {p q : ℝ} (hp : 0 ≤ p) (hpq : p < q) : w.fq p < w.fq q := by
  have h1 : p ^ w.beta < q ^ w.beta := Real.rpow_lt_rpow hp hpq h.beta
  have h2 : w.dt / w.length * p < w.dt / w.length * q := mul_lt_mul_of_pos_left hpq (div_pos h.dt h.length)
  have h3 : w.alpha * p ^ w.beta < w.alpha * q ^ w.beta := mul_lt_mul_of_pos_left h1 h.alpha
  unfold Wave.fq
  linarith

theorem knownTerms_nonneg {w : Wave} (h : w.Physical) (hl : 0 ≤ w.lateral) : 0 ≤ w.knownTerms := by
  have h1 := Real.rpow_nonneg h.current w.beta
  have h2 := (div_pos h.dt h.length).le
  have h3 := mul_nonneg h2 h.upstream
  have h4 := mul_nonneg h.alpha.le h1
  have h5 := mul_nonneg h.dt.le hl
  unfold Wave.knownTerms
  linarith

/-- C38: the equation solved is the balance of the water in the reach. -/
theorem fq_eq_zero_iff {w : Wave} (h : w.Physical) (q : ℝ) : w.fq q = 0 ↔ Balance w q := by
  have hl := h.length.ne'
  have key : w.length * w.fq q = w.dt * q + w.length * (w.alpha * q ^ w.beta) -
      (w.dt * w.upstream + w.length * (w.alpha * w.current ^ w.beta) + w.dt * (w.length * w.lateral)) := by
    unfold Wave.fq Wave.knownTerms
    field_simp
  unfold Balance
  constructor
  · intro h0
    rw [h0, mul_zero] at key
    linarith
  · intro h0
    have : w.length * w.fq q = 0 := by rw [key, h0, sub_self]
    exact (mul_eq_zero.1 this).resolve_left hl

/-- C38: for all meaningful arguments there is precisely one discharge for which the water balance holds. -/
theorem balance_existsUnique {w : Wave} (h : w.Physical) (hl : 0 ≤ w.lateral) : ∃! q : ℝ, 0 ≤ q ∧ Balance w q := by
  have hd := div_pos h.dt h.length
  have hk := knownTerms_nonneg h hl
  have h0 : w.fq 0 ≤ 0 := by
    unfold Wave.fq
    rw [Real.zero_rpow h.beta.ne', mul_zero, mul_zero]
    linarith
  set t := w.knownTerms / (w.dt / w.length) with ht
  have htp : 0 ≤ t := div_nonneg hk hd.le
  have h1 : 0 ≤ w.fq t := by
    have e : w.dt / w.length * t = w.knownTerms := mul_div_cancel₀ _ hd.ne'
    have := mul_nonneg h.alpha.le (Real.rpow_nonneg htp w.beta)
    unfold Wave.fq
    rw [e]
    linarith
  have hc : ContinuousOn w.fq (Set.Icc 0 t) := by
    unfold Wave.fq
    have : Continuous fun q : ℝ => q ^ w.beta := Real.continuous_rpow_const h.beta.le
    fun_prop
  obtain ⟨q, hq, hq0⟩ := intermediate_value_Icc htp hc ⟨h0, h1⟩
  refine ⟨q, ⟨hq.1, (fq_eq_zero_iff h q).1 hq0⟩, ?_⟩
  rintro q' ⟨hq', hb⟩
  have hb := (fq_eq_zero_iff h q').2 hb
  rcases lt_trichotomy q q' with hlt | he | hlt
  · have := fq_strictMono h hq.1 hlt; rw [hb, hq0] at this; exact absurd this (lt_irrefl _)
  · exact he.symm
  · have := fq_strictMono h hq' hlt; rw [hb, hq0] at this; exact absurd this (lt_irrefl _)

/-- C38: the derivative passed to the solver is the derivative of the function passed to the solver. -/
theorem dfq_correct (w : Wave) {q : ℝ} (hq : 0 < q) : HasDerivAt w.fq (w.dfq q) q := by
  have h1 : HasDerivAt (fun q : ℝ => q ^ w.beta) (w.beta * q ^ (w.beta - 1)) q :=
    Real.hasDerivAt_rpow_const (Or.inl hq.ne')
  have h2 := (((hasDerivAt_id q).const_mul (w.dt / w.length)).add (h1.const_mul w.alpha)).sub_const w.knownTerms
  have e : w.dfq q = w.dt / w.length * 1 + w.alpha * (w.beta * q ^ (w.beta - 1)) := by unfold Wave.dfq; ring
  rw [e]
  exact h2

/-- C38: the derivative is never smaller than the time step duration divided by the length of the reach, in particular it is
not zero: the steps of the solver are well defined. -/
theorem dfq_bound {w : Wave} (h : w.Physical) {q : ℝ} (hq : 0 ≤ q) : w.dt / w.length ≤ w.dfq q := by
  have := mul_nonneg (mul_nonneg h.alpha.le h.beta.le) (Real.rpow_nonneg hq (w.beta - 1))
  unfold Wave.dfq
  linarith

/-- C38: the initial guess is positive. -/
theorem guess_pos {tiny : ℝ} (ht : 0 < tiny) (w : Wave) : 0 < w.guess tiny := by
  unfold Wave.guess
  split_ifs
  · exact lt_of_lt_of_le ht (le_max_right _ _)
  · exact ht

/-- The tangent used for the initial guess is well defined: the divisor is positive. -/
theorem guess_divisor_pos {w : Wave} (h : w.Physical) :
    0 < w.dt / w.length + w.alpha * w.beta * ((w.current + w.upstream) / 2) ^ (w.beta - 1) := by
  have h1 := div_pos h.dt h.length
  have h2 : 0 ≤ (w.current + w.upstream) / 2 := by have := h.current; have := h.upstream; linarith
  have := mul_nonneg (mul_nonneg h.alpha.le h.beta.le) (Real.rpow_nonneg h2 (w.beta - 1))
  linarith

/-- C38: how wrong a discharge can be, given by how much the equation is violated. This holds for what an iterative solver
which stops early returns. -/
theorem residual_bound {w : Wave} (h : w.Physical) {q r : ℝ} (hq : 0 ≤ q) (hr : 0 ≤ r) (hb : Balance w q) :
    |r - q| ≤ w.length / w.dt * |w.fq r| := by
  have h0 := (fq_eq_zero_iff h q).2 hb
  have hd := div_pos h.dt h.length
  have key : w.dt / w.length * |r - q| ≤ |w.fq r| := by
    have e : w.fq r = w.dt / w.length * (r - q) + w.alpha * (r ^ w.beta - q ^ w.beta) := by
      have : w.fq r = w.fq r - w.fq q := by rw [h0, sub_zero]
      rw [this]; unfold Wave.fq; ring
    rcases le_total q r with hle | hle
    · have h1 : q ^ w.beta ≤ r ^ w.beta := Real.rpow_le_rpow hq hle h.beta.le
      have h2 := mul_nonneg h.alpha.le (sub_nonneg.2 h1)
      have h3 := mul_nonneg hd.le (sub_nonneg.2 hle)
      rw [e, abs_of_nonneg (sub_nonneg.2 hle), abs_of_nonneg (by linarith)]
      linarith
    · have h1 : r ^ w.beta ≤ q ^ w.beta := Real.rpow_le_rpow hr hle h.beta.le
      have h2 := mul_nonneg h.alpha.le (sub_nonneg.2 h1)
      have h3 := mul_nonneg hd.le (sub_nonneg.2 hle)
      have e2 : w.alpha * (r ^ w.beta - q ^ w.beta) = -(w.alpha * (q ^ w.beta - r ^ w.beta)) := by ring
      have e3 : w.dt / w.length * (r - q) = -(w.dt / w.length * (q - r)) := by ring
      rw [e, abs_of_nonpos (sub_nonpos.2 hle), abs_of_nonpos (by linarith)]
      linarith
  have := mul_le_mul_of_nonneg_left key (div_pos h.length h.dt).le
  have e : w.length / w.dt * (w.dt / w.length * |r - q|) = |r - q| := by
    have := h.length.ne'
    have := h.dt.ne'
    field_simp
  rw [e] at this
  exact this

/-- C38: more water, more discharge -/
theorem balance_mono {w w' : Wave} (h : w.Physical) (h' : w'.Physical) (hu : w.upstream ≤ w'.upstream)
    (hc : w.current ≤ w'.current) (hl : w.lateral ≤ w'.lateral) (ha : w'.alpha = w.alpha) (hb : w'.beta = w.beta)
    (hd : w'.dt = w.dt) (hx : w'.length = w.length) {q q' : ℝ} (hq : 0 ≤ q) (hq' : 0 ≤ q') (e : Balance w q)
    (e' : Balance w' q') : q ≤ q' := by
  by_contra hlt
  have hlt : q' < q := not_le.1 hlt
  have h1 : q' ^ w.beta ≤ q ^ w.beta := Real.rpow_le_rpow hq' hlt.le h.beta.le
  have h2 : w.current ^ w.beta ≤ w'.current ^ w.beta := Real.rpow_le_rpow h.current hc h.beta.le
  have k1 := mul_lt_mul_of_pos_left hlt h.dt
  have k2 := mul_le_mul_of_nonneg_left (mul_le_mul_of_nonneg_left h1 h.alpha.le) h.length.le
  have k3 := mul_le_mul_of_nonneg_left (mul_le_mul_of_nonneg_left h2 h.alpha.le) h.length.le
  have k4 := mul_le_mul_of_nonneg_left hu h.dt.le
  have k5 := mul_le_mul_of_nonneg_left (mul_le_mul_of_nonneg_left hl h.length.le) h.dt.le
  unfold Balance at e e'
  rw [ha, hb, hd, hx] at e'
  linarith

variable {solve : Solver} {tiny largest : ℝ}

/-- C38: the new discharge is the one for which the water balance holds, given an ideal solver, and a discharge which can be
represented. -/
theorem newDischarge_balance (hs : Ideal solve) (ht : 0 < tiny) {w : Wave} (h : w.Physical) (hl : 0 ≤ w.lateral)
    (hmax : ∀ q : ℝ, 0 ≤ q → Balance w q → q ≤ largest) :
    0 ≤ newDischarge solve tiny largest w ∧ Balance w (newDischarge solve tiny largest w) := by
  obtain ⟨q, ⟨hq0, hqb⟩, huniq⟩ := balance_existsUnique h hl
  have hnl : ¬ w.lateral < 0 := not_lt.2 hl
  suffices newDischarge solve tiny largest w = q by rw [this]; exact ⟨hq0, hqb⟩
  unfold newDischarge
  simp only [hnl, if_false]
  have hge : w.lateral ≥ 0 := hl
  simp only [hge, if_true]
  split_ifs with hw
  · refine hs _ _ 0 largest q hq0 (hmax q hq0 hqb) ((fq_eq_zero_iff h q).2 hqb) ?_ ?_ (guess_pos ht _)
    · intro r hr _ h0
      exact huniq r ⟨hr, (fq_eq_zero_iff h r).1 h0⟩
    · intro r hr
      exact dfq_correct w hr
  · push Not at hw
    have e1 : w.upstream = 0 := by have := h.upstream; have := h.current; linarith [hw.1]
    have e2 : w.current = 0 := by have := h.upstream; have := h.current; linarith [hw.1]
    have e3 : w.lateral = 0 := le_antisymm hw.2 hl
    refine huniq 0 ⟨le_refl _, ?_⟩
    unfold Balance
    rw [e1, e2, e3]
    ring

/-- C38: given extraction (negative lateral inflow), the discharge is the one without lateral inflow, minus the amount
extracted, but never negative: no more water is extracted than there is. -/
theorem newDischarge_extraction (w : Wave) (hl : w.lateral < 0)
    (hn : 0 ≤ newDischarge solve tiny largest { w with lateral := 0 }) :
    newDischarge solve tiny largest w =
      max (newDischarge solve tiny largest { w with lateral := 0 } - w.length * |w.lateral|) 0 := by
  have e0 : newDischarge solve tiny largest w = newDischarge solve tiny largest { w with lateral := 0 } -
      min (w.length * |w.lateral|) (newDischarge solve tiny largest { w with lateral := 0 }) := by
    unfold newDischarge
    simp only [hl, if_true, not_lt.2 hl.le, or_false, not_le.2 hl, if_false, lt_irrefl, le_refl, ge_iff_le, gt_iff_lt]
  rw [e0]
  rcases le_total (w.length * |w.lateral|) (newDischarge solve tiny largest { w with lateral := 0 }) with hle | hle
  · rw [min_eq_left hle, max_eq_left (sub_nonneg.2 hle)]
  · rw [min_eq_right hle, sub_self, max_eq_right (sub_nonpos.2 hle)]

/-- C38: the new discharge is never negative, whatever the solver, as long as it respects the lower bound passed to it. -/
theorem newDischarge_nonneg (hs : ∀ f g lo hi, lo ≤ hi → lo ≤ solve f g lo hi) (hm : 0 ≤ largest) (w : Wave) :
    0 ≤ newDischarge solve tiny largest w := by
  have key : ∀ q : ℝ, 0 ≤ q → 0 ≤ (if w.lateral < 0 then q - min (w.length * |w.lateral|) q else q) := by
    intro q hq
    split_ifs
    · exact sub_nonneg.2 (min_le_right _ _)
    · exact hq
  unfold newDischarge
  apply key
  split_ifs
  · exact hs _ _ _ _ hm
  · exact hs _ _ _ _ hm
  · exact le_refl _

/-- C38: a cell which does not receive water does not discharge water, whatever the solver. -/
theorem newDischarge_dry (w : Wave) (hu : w.upstream = 0) (hc : w.current = 0) (hl : w.lateral = 0) :
    newDischarge solve tiny largest w = 0 := by
  unfold newDischarge
  simp [hu, hc, hl]

/-- An ideal solver exists. -/
theorem exists_ideal : ∃ solve : Solver, Ideal solve := by
  classical
  refine ⟨fun f _ lo hi => if h : ∃ r, lo ≤ r ∧ r ≤ hi ∧ (f r).1 = 0 then h.choose else lo, ?_⟩
  intro f guess lo hi r h1 h2 h3 h4 _ _
  have hex : ∃ r, lo ≤ r ∧ r ≤ hi ∧ (f r).1 = 0 := ⟨r, h1, h2, h3⟩
  simp only
  rw [dif_pos hex]
  exact h4 _ hex.choose_spec.1 hex.choose_spec.2.1 hex.choose_spec.2.2

/-- A case which meets the hypotheses: with `alpha = beta = dt = length = 1` the water is divided equally over what leaves the
reach and what remains in it. -/
theorem newDischarge_example (hs : Ideal solve) (ht : 0 < tiny) (hm : 3 ≤ largest) :
    newDischarge solve tiny largest ⟨3, 2, 1, 1, 1, 1, 1⟩ = 3 := by
  have hp : (⟨3, 2, 1, 1, 1, 1, 1⟩ : Wave).Physical := by constructor <;> norm_num
  have hb : ∀ q : ℝ, Balance ⟨3, 2, 1, 1, 1, 1, 1⟩ q ↔ q = 3 := by
    intro q
    simp only [Balance, Real.rpow_one]
    constructor
    · intro h; linarith
    · intro h; rw [h]; norm_num
  obtain ⟨_, h⟩ := newDischarge_balance (largest := largest) hs ht hp (by norm_num)
    (fun q _ h => by rw [(hb q).1 h]; exact hm)
  exact (hb _).1 h

end Lue.KinematicWave

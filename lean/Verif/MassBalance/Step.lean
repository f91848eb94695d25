import Verif.MassBalance.Spec
import Verif.Rounding.Theorems
import Verif.Accu.Split

/-! C77: splitting, and the balance of a cell given those of the cells draining into it. -/
namespace Lue.MassBalance

open Lue.FloatOps Lue.Accu Lue.Routing Lue.Rounding

variable {L : Lib} {u η : ℝ}

/-- What is used of a way to split material -/
structure Splits (L : Lib) (u : ℝ) (ok : Fl → Prop) (split : Fl → Fl → Fl × Fl) (rule : Rule) : Prop where
  splits : ∀ p t, ok p → L.Rep t → 0 ≤ t → ∃ o r, split p (.fin t) = (.fin o, .fin r) ∧ L.Rep o ∧ L.Rep r ∧
    0 ≤ o ∧ 0 ≤ r ∧ o ≤ t ∧ r ≤ t ∧ |o + r - t| ≤ u * t ∧ rule p t o r

theorem sub_split (hA : AccurateSplit L u η) {t a : ℝ} (ht : L.Rep t) (ha : L.Rep a) (h0 : 0 ≤ a) (h : a ≤ t) :
    ∃ s, sub L (.fin t) (.fin a) = .fin s ∧ L.Rep s ∧ 0 ≤ s ∧ s ≤ t ∧ |s - (t - a)| ≤ u * (t - a) := by
  have hn : 0 ≤ t - a := by linarith
  have hbig : |t - a| ≤ L.big := by
    rw [abs_of_nonneg hn]
    have := L.rep_le t ht
    rw [abs_of_nonneg (by linarith)] at this
    linarith
  obtain ⟨s, hs⟩ := L.round_fin .subtract (t - a) hbig
  refine ⟨s, hs, L.round_rep _ _ _ hs, hA.monotone_ge _ _ _ _ L.rep_zero hn hs, hA.monotone_le _ _ _ _ ht (by linarith) hs, ?_⟩
  have := hA.subtract _ _ _ ht ha hs
  rwa [abs_of_nonneg hn] at this

theorem threshold_splits (hA : AccurateSplit L u η) : Splits L u (IsAmount L) (thresholdSplit L) (thresholdRule u) where
  splits p t hp ht h0 := by
    have hu := hA.u_nonneg
    have hut : 0 ≤ u * t := mul_nonneg hu h0
    have hkeep : (∀ a, p = .fin a → t ≤ a) → compare .gt (.fin t) p = false → _ := fun h1 (h2 : compare .gt (.fin t) p = false) =>
      (⟨0, t, by simp [thresholdSplit, h2], L.rep_zero, ht, le_refl _, h0, h0, le_refl _, by simpa using hut,
        fun a ha hlt => absurd (h1 a ha) (not_le.2 hlt), fun _ => ⟨rfl, rfl⟩⟩ :
        ∃ o r, thresholdSplit L p (.fin t) = (.fin o, .fin r) ∧ L.Rep o ∧ L.Rep r ∧
          0 ≤ o ∧ 0 ≤ r ∧ o ≤ t ∧ r ≤ t ∧ |o + r - t| ≤ u * t ∧ thresholdRule u p t o r)
    rcases hp with rfl | ⟨a, rfl, ha, ha0⟩
    · exact hkeep (fun a h => by cases h) (by simp [FloatOps.compare, cmpReal])
    · by_cases hlt : a < t
      · obtain ⟨s, h1, h2, h3, h4, h5⟩ := sub_split hA ht ha ha0 hlt.le
        refine ⟨s, a, ?_, h2, ha, h3, ha0, h4, hlt.le, ?_, ?_, ?_⟩
        · simp [thresholdSplit, FloatOps.compare, cmpReal, hlt, h1]
        · have e : s + a - t = s - (t - a) := by ring
          rw [e]
          exact h5.trans (mul_le_mul_of_nonneg_left (by linarith) hu)
        · intro b hb _
          cases hb
          exact ⟨rfl, h5⟩
        · intro h
          exact absurd (h a rfl) (not_le.2 hlt)
      · refine hkeep (fun b hb => ?_) (by simpa [FloatOps.compare, cmpReal] using hlt)
        cases hb
        exact not_lt.1 hlt

theorem capacity_splits (hA : AccurateSplit L u η) : Splits L u (IsAmount L) (capacitySplit L) (capacityRule u) where
  splits p t hp ht h0 := by
    have hu := hA.u_nonneg
    have hut : 0 ≤ u * t := mul_nonneg hu h0
    have hkeep : (∀ a, p = .fin a → t ≤ a) → compare .gt (.fin t) p = false → _ := fun h1 (h2 : compare .gt (.fin t) p = false) =>
      (⟨t, 0, by simp [capacitySplit, h2], ht, L.rep_zero, h0, le_refl _, le_refl _, h0, by simpa using hut,
        fun a ha hlt => absurd (h1 a ha) (not_le.2 hlt), fun _ => ⟨rfl, rfl⟩⟩ :
        ∃ o r, capacitySplit L p (.fin t) = (.fin o, .fin r) ∧ L.Rep o ∧ L.Rep r ∧
          0 ≤ o ∧ 0 ≤ r ∧ o ≤ t ∧ r ≤ t ∧ |o + r - t| ≤ u * t ∧ capacityRule u p t o r)
    rcases hp with rfl | ⟨a, rfl, ha, ha0⟩
    · exact hkeep (fun a h => by cases h) (by simp [FloatOps.compare, cmpReal])
    · by_cases hlt : a < t
      · obtain ⟨s, h1, h2, h3, h4, h5⟩ := sub_split hA ht ha ha0 hlt.le
        refine ⟨a, s, ?_, ha, h2, ha0, h3, hlt.le, h4, ?_, ?_, ?_⟩
        · simp [capacitySplit, FloatOps.compare, cmpReal, hlt, h1]
        · have e : a + s - t = s - (t - a) := by ring
          rw [e]
          exact h5.trans (mul_le_mul_of_nonneg_left (by linarith) hu)
        · intro b hb _
          cases hb
          exact ⟨rfl, h5⟩
        · intro h
          exact absurd (h a rfl) (not_le.2 hlt)
      · refine hkeep (fun b hb => ?_) (by simpa [FloatOps.compare, cmpReal] using hlt)
        cases hb
        exact not_lt.1 hlt

theorem trigger_splits (hA : AccurateSplit L u η) : Splits L u (IsAmount L) triggerSplit triggerRule where
  splits p t hp ht h0 := by
    have hut : 0 ≤ u * t := mul_nonneg hA.u_nonneg h0
    have hkeep : (∀ a, p = .fin a → t < a) → compare .lt (.fin t) p = true →
        ∃ o r, triggerSplit p (.fin t) = (.fin o, .fin r) ∧ L.Rep o ∧ L.Rep r ∧
          0 ≤ o ∧ 0 ≤ r ∧ o ≤ t ∧ r ≤ t ∧ |o + r - t| ≤ u * t ∧ triggerRule p t o r := fun h1 h2 =>
      ⟨0, t, by simp [triggerSplit, h2], L.rep_zero, ht, le_refl _, h0, h0, le_refl _, by simpa using hut,
        fun a ha hle => absurd (h1 a ha) (not_lt.2 hle), fun _ => ⟨rfl, rfl⟩⟩
    rcases hp with rfl | ⟨a, rfl, ha, ha0⟩
    · exact hkeep (fun a h => by cases h) (by simp [FloatOps.compare, cmpReal])
    · by_cases hlt : t < a
      · exact hkeep (fun b hb => by cases hb; exact hlt) (by simpa [FloatOps.compare, cmpReal] using hlt)
      · refine ⟨t, 0, by simp [triggerSplit, FloatOps.compare, cmpReal, hlt], ht, L.rep_zero, h0, le_refl _, le_refl _, h0,
          by simpa using hut, fun _ _ _ => ⟨rfl, rfl⟩, fun h => absurd (h a rfl) hlt⟩

theorem fraction_splits (hA : AccurateSplit L u η) : Splits L u (IsFraction L) (fractionSplit L) (fractionRule u η) where
  splits p t hp ht h0 := by
    obtain ⟨a, rfl, ha, ha0, ha1⟩ := hp
    have hu := hA.u_nonneg
    have hat : 0 ≤ a * t := mul_nonneg ha0 h0
    have hat1 : a * t ≤ t := by nlinarith
    have hbig : |a * t| ≤ L.big := by
      rw [abs_of_nonneg hat]
      have := L.rep_le t ht
      rw [abs_of_nonneg h0] at this
      linarith
    obtain ⟨d, hd⟩ := L.round_fin .multiply (a * t) hbig
    have hd1 : L.Rep d := L.round_rep _ _ _ hd
    have hd2 : 0 ≤ d := hA.monotone_ge _ _ _ _ L.rep_zero hat hd
    have hd3 : d ≤ t := hA.monotone_le _ _ _ _ ht hat1 hd
    obtain ⟨s, h1, h2, h3, h4, h5⟩ := sub_split hA ht hd1 hd2 hd3
    have hm : mul L (.fin a) (.fin t) = .fin d := hd
    refine ⟨d, s, ?_, hd1, h2, hd2, h3, hd3, h4, ?_, ?_⟩
    · simp [fractionSplit, hm, h1]
    · have e : d + s - t = s - (t - d) := by ring
      rw [e]
      exact h5.trans (mul_le_mul_of_nonneg_left (by linarith) hu)
    · intro b hb
      cases hb
      have := hA.multiply _ _ _ ha ht hd
      rw [abs_of_nonneg hat] at this
      exact ⟨this, h5⟩

/-- The result of adding numbers which are not negative is not negative. -/
theorem Added.nonneg (hA : AccurateSplit L u η) {l : List ℝ} {s : Fl} (h : Added L l s) (hl : ∀ x ∈ l, 0 ≤ x) {v : ℝ}
    (hv : s = .fin v) : 0 ≤ v := by
  induction h generalizing v with
  | one _ => cases hv; exact hl _ (by simp)
  | perm _ hp ih => exact ih (fun x hx => hl x (hp.mem_iff.1 hx)) hv
  | @add l m s t h1 h2 ih1 ih2 =>
    cases hs : s with
    | nan => subst hs; simp [FloatOps.add] at hv
    | inf n =>
      subst hs
      cases ht : t with
      | nan => subst ht; simp [FloatOps.add] at hv
      | inf m => subst ht; simp only [FloatOps.add] at hv; split at hv <;> cases hv
      | fin b => subst ht; simp [FloatOps.add] at hv
    | fin a =>
      subst hs
      cases ht : t with
      | nan => subst ht; simp [FloatOps.add] at hv
      | inf m => subst ht; simp [FloatOps.add] at hv
      | fin b =>
        subst ht
        have ha := ih1 (fun x hx => hl x (by simp [hx])) rfl
        have hb := ih2 (fun x hx => hl x (by simp [hx])) rfl
        exact hA.monotone_ge _ _ _ _ L.rep_zero (by linarith) hv

theorem magnitude_of_nonneg {l : List ℝ} (h : ∀ x ∈ l, 0 ≤ x) : magnitude l = l.sum := by
  unfold magnitude
  congr 1
  conv_rhs => rw [← List.map_id l]
  exact List.map_congr_left fun x hx => abs_of_nonneg (h x hx)

/-- Amounts for the catchment of a cell which drains into another one -/
structure Amounts where
  n : ℕ
  o : ℝ
  r : ℝ
  x : ℝ

/-- The balance of a catchment -/
structure Amounts.Ok (u : ℝ) (a : Amounts) : Prop where
  n_pos : 1 ≤ a.n
  o_nonneg : 0 ≤ a.o
  r_nonneg : 0 ≤ a.r
  x_nonneg : 0 ≤ a.x
  mass : |(a.o + a.r) - a.x| ≤ ((1 + u) ^ (2 * a.n - 1) - 1) * a.x

def totalN (l : List Amounts) : ℕ := (l.map Amounts.n).sum
def totalO (l : List Amounts) : ℝ := (l.map Amounts.o).sum
def totalR (l : List Amounts) : ℝ := (l.map Amounts.r).sum
def totalX (l : List Amounts) : ℝ := (l.map Amounts.x).sum

theorem length_le_totalN {l : List Amounts} (h : ∀ a ∈ l, a.Ok u) : l.length ≤ totalN l := by
  induction l with
  | nil => simp
  | cons a l ih =>
    have h1 := (h a (by simp)).n_pos
    have h2 := ih fun b hb => h b (by simp [hb])
    have : totalN (a :: l) = a.n + totalN l := by simp [totalN]
    rw [this, List.length_cons]
    omega

theorem n_le_totalN {l : List Amounts} (h : ∀ a ∈ l, a.Ok u) {a : Amounts} (ha : a ∈ l) :
    a.n + (l.length - 1) ≤ totalN l := by
  induction l with
  | nil => simp at ha
  | cons b l ih =>
    have h1 := (h b (by simp)).n_pos
    have h2 := length_le_totalN fun b hb => h b (List.mem_cons_of_mem _ hb)
    have e : totalN (b :: l) = b.n + totalN l := by simp [totalN]
    rw [e, List.length_cons]
    rcases List.mem_cons.1 ha with rfl | ha
    · omega
    · have := ih (fun b hb => h b (List.mem_cons_of_mem _ hb)) ha
      omega

theorem totals (hu : 0 ≤ u) (k : ℕ) {l : List Amounts} (h : ∀ a ∈ l, a.Ok u) (hk : ∀ a ∈ l, 2 * a.n - 1 ≤ k) :
    0 ≤ totalO l ∧ 0 ≤ totalR l ∧ 0 ≤ totalX l ∧ |(totalO l + totalR l) - totalX l| ≤ ((1 + u) ^ k - 1) * totalX l := by
  induction l with
  | nil => simp [totalO, totalR, totalX]
  | cons a l ih =>
    obtain ⟨h1, h2, h3, h4⟩ := ih (fun b hb => h b (by simp [hb])) fun b hb => hk b (by simp [hb])
    obtain ⟨_, o0, r0, x0, hm⟩ := h a (by simp)
    have eo : totalO (a :: l) = a.o + totalO l := by simp [totalO]
    have er : totalR (a :: l) = a.r + totalR l := by simp [totalR]
    have ex : totalX (a :: l) = a.x + totalX l := by simp [totalX]
    rw [eo, er, ex]
    refine ⟨by linarith, by linarith, by linarith, ?_⟩
    have hp : (1 + u) ^ (2 * a.n - 1) ≤ (1 + u) ^ k := pow_le_pow_right₀ (by linarith) (hk a (by simp))
    have hm' := hm.trans (mul_le_mul_of_nonneg_right (sub_le_sub_right hp 1) x0)
    have e : a.o + totalO l + (a.r + totalR l) - (a.x + totalX l) =
        ((a.o + a.r) - a.x) + ((totalO l + totalR l) - totalX l) := by ring
    rw [e]
    refine (abs_add_le _ _).trans ?_
    linarith

/-- The balance of a cell and its catchment, given those of the cells draining into it -/
theorem balance_step (hu : 0 ≤ u) {l : List Amounts} (h : ∀ a ∈ l, a.Ok u) {x t o r : ℝ} (hx : 0 ≤ x) (ht : 0 ≤ t)
    (htot : |t - (totalO l + x)| ≤ ((1 + u) ^ l.length - 1) * (totalO l + x)) (hs : |o + r - t| ≤ u * t) :
    |(o + (totalR l + r)) - (totalX l + x)| ≤ ((1 + u) ^ (2 * (totalN l + 1) - 1) - 1) * (totalX l + x) := by
  have hlen := length_le_totalN h
  set m := l.length with hm
  set q := 2 * totalN l - m with hq
  obtain ⟨hO, hR, hX, hb⟩ := totals hu q h fun a ha => by
    have := n_le_totalN h ha
    have h1 := (h a ha).n_pos
    have h2 : 1 ≤ m := List.length_pos_of_mem ha
    omega
  have h1u : (1 : ℝ) ≤ 1 + u := by linarith
  have hpow : (1 + u) ^ (2 * (totalN l + 1) - 1) = (1 + u) ^ (m + 1) * (1 + u) ^ q := by
    rw [← pow_add]; congr 1; omega
  set E := (1 + u) ^ q with hE
  set F := (1 + u) ^ m with hF
  have hE1 : 1 ≤ E := one_le_pow₀ h1u
  have hF1 : 1 ≤ F := one_le_pow₀ h1u
  have hF' : (1 + u) ^ (m + 1) = F * (1 + u) := pow_succ _ _
  rw [hpow, hF']
  set O := totalO l
  set R := totalR l
  set X := totalX l
  -- Not more flows in than what enters upstream, apart from rounding
  have hOX : O ≤ E * X := by
    have := (abs_le.1 hb).2
    linarith
  have htF : t ≤ F * (O + x) := by
    have := (abs_le.1 htot).2
    linarith
  have e : (o + (R + r)) - (X + x) = (o + r - t) + (t - (O + x)) + ((O + R) - X) := by ring
  rw [e]
  refine (abs_add_le _ _).trans ?_
  have h3 := abs_add_le (o + r - t) (t - (O + x))
  have h4 : u * t ≤ u * (F * (O + x)) := mul_le_mul_of_nonneg_left htF hu
  have hG1 : 1 ≤ F * (1 + u) := one_le_mul_of_one_le_of_one_le hF1 h1u
  have h5 : (F * (1 + u) - 1) * (O + x) ≤ (F * (1 + u) - 1) * (E * X + x) :=
    mul_le_mul_of_nonneg_left (by linarith) (by linarith)
  have h6 : (F * (1 + u) - 1) * x ≤ (F * (1 + u) * E - 1) * x := by
    refine mul_le_mul_of_nonneg_right ?_ hx
    have := le_mul_of_one_le_right (by linarith : (0 : ℝ) ≤ F * (1 + u)) hE1
    linarith
  have e2 : u * (F * (O + x)) + (F - 1) * (O + x) = (F * (1 + u) - 1) * (O + x) := by ring
  have e3 : (F * (1 + u) - 1) * (E * X + x) + (E - 1) * X = (F * (1 + u) * E - 1) * X + (F * (1 + u) - 1) * x := by ring
  have e4 : (F * (1 + u) * E - 1) * (X + x) = (F * (1 + u) * E - 1) * X + (F * (1 + u) * E - 1) * x := by ring
  linarith

/-- What enters a cell and what flows into it can be added. -/
theorem balance_fits (hu : 0 ≤ u) {l : List Amounts} (h : ∀ a ∈ l, a.Ok u) {x : ℝ} (hx : 0 ≤ x) {big : ℝ}
    (hbig : (1 + u) ^ (2 * (totalN l + 1) - 1) * (totalX l + x) ≤ big) :
    (1 + u) ^ l.length * (totalO l + x) ≤ big := by
  have hlen := length_le_totalN h
  set m := l.length with hm
  set q := 2 * totalN l - m with hq
  obtain ⟨hO, hR, hX, hb⟩ := totals hu q h fun a ha => by
    have := n_le_totalN h ha
    have h1 := (h a ha).n_pos
    have h2 : 1 ≤ m := List.length_pos_of_mem ha
    omega
  have h1u : (1 : ℝ) ≤ 1 + u := by linarith
  have hE1 : (1 : ℝ) ≤ (1 + u) ^ q := one_le_pow₀ h1u
  have hF1 : (1 : ℝ) ≤ (1 + u) ^ m := one_le_pow₀ h1u
  have hOX : totalO l ≤ (1 + u) ^ q * totalX l := by
    have := (abs_le.1 hb).2
    linarith
  refine le_trans ?_ hbig
  have hpow : (1 + u) ^ m * (1 + u) ^ q ≤ (1 + u) ^ (2 * (totalN l + 1) - 1) := by
    rw [← pow_add]
    exact pow_le_pow_right₀ h1u (by omega)
  have h1 : (1 + u) ^ m * (totalO l + x) ≤ (1 + u) ^ m * ((1 + u) ^ q * (totalX l + x)) := by
    refine mul_le_mul_of_nonneg_left ?_ (by linarith)
    have := le_mul_of_one_le_left hx hE1
    rw [mul_add]
    linarith
  refine h1.trans ?_
  rw [← mul_assoc]
  exact mul_le_mul_of_nonneg_right hpow (by linarith)

end Lue.MassBalance

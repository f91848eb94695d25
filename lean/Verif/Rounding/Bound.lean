import Verif.Rounding.Spec
import Mathlib.Algebra.Order.BigOperators.Group.List
import Mathlib.Tactic.Linarith
import Mathlib.Tactic.Ring
import Mathlib.Tactic.Positivity

/-! Sums of floating point numbers, in whatever order they are added. -/
namespace Lue.Rounding

open Lue.FloatOps

/-- The result of adding up a list of numbers pairwise, in some order. -/
inductive Added (L : Lib) : List ℝ → Fl → Prop
  | one {x : ℝ} : L.Rep x → Added L [x] (.fin x)
  | add {l m : List ℝ} {s t : Fl} : Added L l s → Added L m t → Added L (l ++ m) (add L s t)
  | perm {l m : List ℝ} {s : Fl} : Added L l s → l.Perm m → Added L m s

variable {L : Lib} {u η : ℝ}

theorem magnitude_append (l m : List ℝ) : magnitude (l ++ m) = magnitude l + magnitude m := by simp [magnitude]

theorem magnitude_perm {l m : List ℝ} (h : l.Perm m) : magnitude l = magnitude m := (h.map _).sum_eq

theorem magnitude_nonneg (l : List ℝ) : 0 ≤ magnitude l := by
  refine List.sum_nonneg ?_
  intro a ha
  obtain ⟨x, _, rfl⟩ := List.mem_map.1 ha
  exact abs_nonneg x

theorem sum_le_magnitude (l : List ℝ) : |l.sum| ≤ magnitude l := by
  induction l with
  | nil => simp [magnitude]
  | cons x l ih =>
    have : magnitude (x :: l) = |x| + magnitude l := by simp [magnitude]
    rw [List.sum_cons, this]
    exact (abs_add_le _ _).trans (by linarith)

theorem Added.length_pos {l : List ℝ} {s : Fl} (h : Added L l s) : 1 ≤ l.length := by
  induction h with
  | one _ => simp
  | add _ _ h1 h2 => simp; omega
  | perm _ hp ih => rwa [← hp.length_eq]

/-- Results which are numbers can be represented. -/
theorem Added.rep {l : List ℝ} {s : Fl} (h : Added L l s) {v : ℝ} (hv : s = .fin v) : L.Rep v := by
  induction h generalizing v with
  | one h => cases hv; exact h
  | perm _ _ ih => exact ih hv
  | @add l m s t h1 h2 ih1 ih2 =>
    cases s <;> cases t <;> simp only [FloatOps.add] at hv <;> try (exact absurd hv (by simp))
    · split at hv <;> cases hv
    · exact L.round_rep _ _ _ hv

/-- Adding zero does not change anything. -/
theorem Added.zero_add (hA : Accurate L u η) {l : List ℝ} {s : Fl} (h : Added L l s) : FloatOps.add L (.fin 0) s = s := by
  cases hs : s with
  | nan => rfl
  | inf n => rfl
  | fin v =>
    simp only [FloatOps.add, _root_.zero_add]
    exact hA.exact v (h.rep hs)

/-- Same, if the numbers fit. -/
theorem fits_mono {l m : List ℝ} (hu : 0 ≤ u) (hlen : l.length ≤ m.length) (hmag : magnitude l ≤ magnitude m)
    (h : Fits L u m) : Fits L u l := by
  unfold Fits at h ⊢
  refine le_trans ?_ h
  have h1 : (1 : ℝ) ≤ 1 + u := by linarith
  exact mul_le_mul (pow_le_pow_right₀ h1 (by omega)) hmag (magnitude_nonneg l) (by positivity)

theorem magnitude_sublist {l m : List ℝ} (h : l.Sublist m) : magnitude l ≤ magnitude m := by
  induction h with
  | slnil => exact le_refl _
  | cons a _ ih =>
    have : ∀ k : List ℝ, magnitude (a :: k) = |a| + magnitude k := fun k => by simp [magnitude]
    rw [this]
    have := abs_nonneg a
    linarith
  | cons_cons a _ ih =>
    have : ∀ k : List ℝ, magnitude (a :: k) = |a| + magnitude k := fun k => by simp [magnitude]
    rw [this, this]
    linarith

theorem fits_sublist {l m : List ℝ} (hu : 0 ≤ u) (h : l.Sublist m) (hm : Fits L u m) : Fits L u l :=
  fits_mono hu h.length_le (magnitude_sublist h) hm

theorem fits_perm {l m : List ℝ} (h : l.Perm m) : Fits L u l ↔ Fits L u m := by
  unfold Fits
  rw [h.length_eq, magnitude_perm h]

theorem isSum_perm {l m : List ℝ} {s : Fl} (h : l.Perm m) : IsSum u l s ↔ IsSum u m s := by
  unfold IsSum
  rw [h.length_eq, magnitude_perm h, h.sum_eq]

/-- The error of a sum, in whatever order the numbers have been added. -/
theorem Added.isSum (hA : Accurate L u η) {l : List ℝ} {s : Fl} (h : Added L l s) (hl : Fits L u l) : IsSum u l s := by
  have h1u : (1 : ℝ) ≤ 1 + u := by have := hA.u_nonneg; linarith
  have h0u : (0 : ℝ) ≤ 1 + u := by linarith
  induction h with
  | @one x hx => exact ⟨x, rfl, by simp⟩
  | perm _ hp ih => exact (isSum_perm hp).1 (ih ((fits_perm hp).2 hl))
  | @add l m s t h1 h2 ih1 ih2 =>
    have hl1 := h1.length_pos
    have hl2 := h2.length_pos
    obtain ⟨a, rfl, ha⟩ := ih1 (fits_sublist hA.u_nonneg (List.sublist_append_left l m) hl)
    obtain ⟨b, rfl, hb⟩ := ih2 (fits_sublist hA.u_nonneg (List.sublist_append_right l m) hl)
    unfold Fits at hl
    -- All but the last addition
    set d := l.length + m.length - 2 with hd
    have hlen : (l ++ m).length - 1 = d + 1 := by simp; omega
    rw [hlen, magnitude_append] at hl
    have hml := magnitude_nonneg l
    have hmm := magnitude_nonneg m
    set E := (1 + u) ^ d with hE
    have hE1 : 1 ≤ E := one_le_pow₀ h1u
    have e1 : (1 + u) ^ (l.length - 1) ≤ E := pow_le_pow_right₀ h1u (by omega)
    have e2 : (1 + u) ^ (m.length - 1) ≤ E := pow_le_pow_right₀ h1u (by omega)
    have ha' : |a - l.sum| ≤ (E - 1) * magnitude l := ha.trans (mul_le_mul_of_nonneg_right (by linarith) hml)
    have hb' : |b - m.sum| ≤ (E - 1) * magnitude m := hb.trans (mul_le_mul_of_nonneg_right (by linarith) hmm)
    have hdiff : |(a + b) - (l.sum + m.sum)| ≤ (E - 1) * (magnitude l + magnitude m) := by
      have : (a + b) - (l.sum + m.sum) = (a - l.sum) + (b - m.sum) := by ring
      rw [this]
      exact (abs_add_le _ _).trans (by linarith)
    have hab : |a + b| ≤ E * (magnitude l + magnitude m) := by
      have h3 : |l.sum + m.sum| ≤ magnitude l + magnitude m :=
        (abs_add_le _ _).trans (by have := sum_le_magnitude l; have := sum_le_magnitude m; linarith)
      have h4 : |a + b| ≤ |(a + b) - (l.sum + m.sum)| + |l.sum + m.sum| := by
        have := abs_add_le ((a + b) - (l.sum + m.sum)) (l.sum + m.sum)
        simpa using this
      linarith
    have hpow : (1 + u) ^ (d + 1) = E * (1 + u) := pow_succ _ _
    have hbig : |a + b| ≤ L.big := by
      refine hab.trans (le_trans ?_ hl)
      rw [hpow]
      refine mul_le_mul_of_nonneg_right ?_ (by linarith)
      exact le_mul_of_one_le_right (by linarith) h1u
    obtain ⟨v, hv⟩ := L.round_fin .add (a + b) hbig
    refine ⟨v, hv, ?_⟩
    have hr := hA.add a b v (h1.rep rfl) (h2.rep rfl) hv
    rw [hlen, magnitude_append, List.sum_append, hpow]
    have h5 : |v - (l.sum + m.sum)| ≤ |v - (a + b)| + |(a + b) - (l.sum + m.sum)| := by
      have := abs_add_le (v - (a + b)) ((a + b) - (l.sum + m.sum))
      simpa using this
    have h6 : u * |a + b| ≤ u * (E * (magnitude l + magnitude m)) := mul_le_mul_of_nonneg_left hab hA.u_nonneg
    calc |v - (l.sum + m.sum)| ≤ u * (E * (magnitude l + magnitude m)) + (E - 1) * (magnitude l + magnitude m) := by linarith
      _ = (E * (1 + u) - 1) * (magnitude l + magnitude m) := by ring

/-- If all numbers involved can be represented, the result is exact. -/
theorem Added.exact (hA : Accurate L u η) {l : List ℝ} {s : Fl} (h : Added L l s) (hl : ExactlyAdded L l) :
    s = .fin l.sum := by
  induction h with
  | one _ => simp
  | perm _ hp ih => rw [← hp.sum_eq]; exact ih fun ys hy => hl ys ((hp.subperm_left).1 hy)
  | @add l m s t h1 h2 ih1 ih2 =>
    rw [ih1 fun ys hy => hl ys (hy.trans (List.sublist_append_left l m).subperm),
      ih2 fun ys hy => hl ys (hy.trans (List.sublist_append_right l m).subperm), List.sum_append]
    simp only [FloatOps.add]
    refine hA.exact _ ?_
    have := hl (l ++ m) (List.Subperm.refl _)
    rwa [List.sum_append] at this

/-- The error of a mean. -/
theorem Added.isMean (hA : Accurate L u η) {l : List ℝ} {s : Fl} (h : Added L l s) (hl : Fits L u l)
    (hn : L.Rep (l.length : ℝ)) : IsMean u η l (div L s (.fin (l.length : ℝ))) := by
  have h1u : (1 : ℝ) ≤ 1 + u := by have := hA.u_nonneg; linarith
  obtain ⟨v, rfl, hv⟩ := h.isSum hA hl
  have hpos := h.length_pos
  have hn1 : (1 : ℝ) ≤ (l.length : ℝ) := by exact_mod_cast hpos
  have hn0 : (l.length : ℝ) ≠ 0 := by linarith
  set n : ℝ := (l.length : ℝ) with hnn
  set E := (1 + u) ^ (l.length - 1) with hE
  have hE1 : 1 ≤ E := one_le_pow₀ h1u
  have hmag := magnitude_nonneg l
  unfold Fits at hl
  have hvE : |v| ≤ E * magnitude l := by
    have h4 : |v| ≤ |v - l.sum| + |l.sum| := by
      have := abs_add_le (v - l.sum) l.sum
      simpa using this
    have := sum_le_magnitude l
    linarith
  have habs : |v / n| = |v| / n := by rw [abs_div, abs_of_pos (by linarith : (0 : ℝ) < n)]
  have hq : |v / n| ≤ E * (magnitude l / n) := by
    rw [habs, ← mul_div_assoc]
    exact div_le_div_of_nonneg_right hvE (by linarith)
  have hbig : |v / n| ≤ L.big := by
    rw [habs]
    exact (div_le_self (abs_nonneg v) hn1).trans (hvE.trans hl)
  obtain ⟨q, hqv⟩ := L.round_fin .divide (v / n) hbig
  refine ⟨q, ?_, ?_⟩
  · simp only [FloatOps.div, if_neg hn0]; exact hqv
  have hr := hA.divide v n q (h.rep rfl) hn hn0 hqv
  have h5 : |q - l.sum / n| ≤ |q - v / n| + |v / n - l.sum / n| := by
    have := abs_add_le (q - v / n) (v / n - l.sum / n)
    simpa using this
  have h6 : |v / n - l.sum / n| ≤ (E - 1) * (magnitude l / n) := by
    rw [← sub_div, abs_div, abs_of_pos (by linarith : (0 : ℝ) < n), ← mul_div_assoc]
    exact div_le_div_of_nonneg_right hv (by linarith)
  have h7 : u * |v / n| ≤ u * (E * (magnitude l / n)) := mul_le_mul_of_nonneg_left hq hA.u_nonneg
  have hpow : (1 + u) ^ l.length = E * (1 + u) := by
    rw [hE, ← pow_succ]; congr 1; omega
  rw [hpow]
  calc |q - l.sum / n| ≤ u * (E * (magnitude l / n)) + η + (E - 1) * (magnitude l / n) := by linarith
    _ = (E * (1 + u) - 1) * (magnitude l / n) + η := by ring

end Lue.Rounding

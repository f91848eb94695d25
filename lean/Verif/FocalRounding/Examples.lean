import Verif.FocalRounding.Results
import Verif.MassBalance.Examples

/-! C78: the hypotheses of the theorems are met. -/
namespace Lue.FocalRounding

open Lue.FloatOps Lue.Focal Lue.FocalStats Lue.Rounding Lue.MassBalance

/-- No-data in the first cell, twos in the second column, ones elsewhere -/
def exField (i j : Nat) : Fl := if i = 0 ∧ j = 0 then .nan else if j = 1 then .fin 2 else .fin 1

theorem coarseRep_nat {n : Nat} (h : n ≤ 4) : coarse.Rep (n : ℝ) :=
  ⟨n, by push_cast; rfl, by rw [abs_of_nonneg (by omega)]; omega, .inl (by rw [abs_of_nonneg (by omega)]; omega)⟩

theorem exField_element (i j : Nat) : Element coarse (exField i j) := by
  unfold exField
  split
  · exact .inl rfl
  · split
    · exact .inr ⟨2, rfl, by simpa using coarseRep_nat (n := 2) (by omega)⟩
    · exact .inr ⟨1, rfl, by simpa using coarseRep_nat (n := 1) (by omega)⟩

/-- Two partitions of 3 × 3 cells, or one of 3 × 6 cells -/
example : Represents (store ⟨3, 6, 3, 3⟩ exField) exField ∧ Represents (store ⟨3, 6, 3, 6⟩ exField) exField ∧
    LargeEnough ⟨3, 6, 3, 3⟩ (2 * 1 + 1) ∧ LargeEnough ⟨3, 6, 3, 6⟩ (2 * 1 + 1) ∧ IsOrder 2 [1, 0] ∧ IsOrder 1 [0] :=
  ⟨store_represents ⟨by decide, by decide, by decide, by decide⟩ _,
    store_represents ⟨by decide, by decide, by decide, by decide⟩ _,
    largeEnough ⟨by decide, by decide, by decide, by decide⟩ _ (by decide),
    largeEnough ⟨by decide, by decide, by decide, by decide⟩ _ (by decide), List.Perm.swap _ _ _, List.Perm.refl _⟩

/-- The kernel -/
example : IsKernel (boxKernel 1 (1 : Nat)) 1 (fun _ _ => 1) ∧
    IsKernel (boxKernel 1 (Fl.fin 2)) 1 (fun a b => Fl.fin ((fun _ _ => 2 : Nat → Nat → ℝ) a b)) ∧ coarse.Rep 2 :=
  ⟨boxKernel_spec 1 1, boxKernel_spec 1 (Fl.fin 2), by simpa using coarseRep_nat (n := 2) (by omega)⟩

theorem ex_windowNumbers : windowNumbers ⟨3, 6, 3, 3⟩ exField (fun _ _ => 1) 1 0 0 = [2, 1, 2] := by
  have : windowNumbers ⟨3, 6, 3, 3⟩ exField (fun _ _ => 1) 1 0 0 =
    [exField 0 0, exField 0 1, exField 1 0, exField 1 1].filterMap number := rfl
  rw [this]
  simp [exField, number_fin, number_nan, List.filterMap_cons]

theorem ex_neighbourNumbers : neighbourNumbers ⟨3, 6, 3, 3⟩ exField (fun _ _ => 1) 1 0 1 = [1, 1, 2, 1] := by
  have : neighbourNumbers ⟨3, 6, 3, 3⟩ exField (fun _ _ => 1) 1 0 1 =
    [exField 0 0, exField 0 2, exField 1 0, exField 1 1, exField 1 2].filterMap number := rfl
  rw [this]
  simp [exField, number_fin, number_nan, List.filterMap_cons]

theorem ex_weightedNumbers : weightedNumbers ⟨3, 6, 3, 3⟩ exField (fun _ _ => 2) 1 0 0 = [4, 2, 4] := by
  have : weightedNumbers ⟨3, 6, 3, 3⟩ exField (fun _ _ => 2) 1 0 0 =
    [exField 0 0, exField 0 1, exField 1 0, exField 1 1].filterMap fun x => (number x).map fun y => 2 * y := rfl
  rw [this]
  norm_num [exField, number_fin, number_nan, List.filterMap_cons]

/-- The numbers fit. -/
example : Rounding.Fits coarse (1 / 5) (windowNumbers ⟨3, 6, 3, 3⟩ exField (fun _ _ => 1) 1 0 0) ∧
    FitsProducts coarse (1 / 5) 2 (weightedNumbers ⟨3, 6, 3, 3⟩ exField (fun _ _ => 2) 1 0 0) ∧
    FitsHighPass coarse (1 / 5) 2 2 (neighbourNumbers ⟨3, 6, 3, 3⟩ exField (fun _ _ => 1) 1 0 1) ∧
    coarse.Rep ((neighbourNumbers ⟨3, 6, 3, 3⟩ exField (fun _ _ => 1) 1 0 1).length : ℝ) := by
  rw [ex_windowNumbers, ex_neighbourNumbers, ex_weightedNumbers]
  refine ⟨?_, ?_, ?_, coarseRep_nat (n := 4) (by omega)⟩
  · show ((1 : ℝ) + 1 / 5) ^ 2 * magnitude [2, 1, 2] ≤ 10000
    norm_num [magnitude]
  · show ((1 : ℝ) + 1 / 5) ^ 3 * magnitude [4, 2, 4] + ((3 : ℕ) : ℝ) * (1 + 1 / 5) ^ 2 * 2 ≤ 10000
    norm_num [magnitude]
  · show ((1 : ℝ) + 1 / 5) ^ 4 * (2 * |2| * ((4 : ℕ) : ℝ) + magnitude [1, 1, 2, 1]) +
      (1 + 1 / 5) * (1 + (1 + 1 / 5) * ((4 : ℕ) : ℝ)) * 2 ≤ 10000
    norm_num [magnitude]

/-- The claims are not met by anything. -/
example : IsSum (1 / 5) [2, 1, 2] (.fin 4) ∧ ¬ IsSum (1 / 5) [2, 1, 2] (.fin 2) ∧
    ¬ IsSumOfProducts (1 / 5) 0 [4, 2, 4] (.fin 1) ∧ ¬ IsHighPass 0 0 2 [1, 1, 2, 1] (.fin 10) := by
  refine ⟨⟨4, rfl, by norm_num [magnitude, abs_le]⟩, ?_, ?_, ?_⟩
  · rintro ⟨v, h, h'⟩
    obtain rfl := Fl.fin.inj h
    norm_num [magnitude, abs_le] at h'
  · rintro ⟨v, h, h'⟩
    obtain rfl := Fl.fin.inj h
    norm_num [magnitude, abs_le] at h'
  · rintro ⟨v, h, h'⟩
    obtain rfl := Fl.fin.inj h
    norm_num [magnitude, abs_le, highPassMagnitude, highPassSmall] at h'

/-- An exact result: high pass of 2 surrounded by 1, 1, 2, 1 -/
example : IsHighPass 0 0 2 [1, 1, 2, 1] (.fin 11) :=
  ⟨11, rfl, by norm_num [magnitude, highPassMagnitude, highPassSmall]⟩

/-- All at once -/
example (garbage : Nat → Fl) : ∃ out w, focalMean coarse (boxKernel 1 (1 : Nat)) garbage [1, 0] (store ⟨3, 6, 3, 3⟩ exField) =
    .ok out ∧ out.grid = ⟨3, 6, 3, 3⟩ ∧ Represents out w ∧ IsMean (1 / 5) 2 [2, 1, 2] (w 0 0) := by
  obtain ⟨out, w, h1, h2, h3, h4⟩ := focal_mean_correct (boxKernel_spec 1 (1 : Nat)) garbage
    (x := store ⟨3, 6, 3, 3⟩ exField) (store_represents ⟨by decide, by decide, by decide, by decide⟩ _)
    (fun i j _ _ => exField_element i j) (largeEnough ⟨by decide, by decide, by decide, by decide⟩ _ (by decide))
    (order := [1, 0]) (List.Perm.swap _ _ _) coarse_accurate
  refine ⟨out, w, h1, h2, h3, ?_⟩
  have h := (h4 0 0 (by decide) (by decide)).2
  have e : windowNumbers (store ⟨3, 6, 3, 3⟩ exField).grid exField (fun _ _ => 1) 1 0 0 = [2, 1, 2] := ex_windowNumbers
  rw [e] at h
  refine h (by simp) ?_ (coarseRep_nat (n := 3) (by omega))
  show ((1 : ℝ) + 1 / 5) ^ 2 * magnitude [2, 1, 2] ≤ 10000
  norm_num [magnitude]

end Lue.FocalRounding

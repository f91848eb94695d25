import Verif.MassBalance.Theorems
import Verif.Rounding.Examples

/-! C77: the hypotheses of the theorems are met. -/
namespace Lue.MassBalance

open Lue.FloatOps Lue.Accu Lue.Routing Lue.InflowCount Lue.Rounding

/-- The type with few digits meets the hypothesis. -/
theorem coarse_accurateSplit : AccurateSplit coarse (1 / 5) 2 where
  toAccurate := coarse_accurate
  subtract := by
    rintro a b s ha hb h
    have h : coarseRound (a + -b) = .fin s := h
    have := coarse_accurate.add a (-b) s ha (coarse.rep_neg b hb) h
    rwa [← sub_eq_add_neg] at this
  multiply := by
    intro a b s _ _ h
    have h : coarseRound (a * b) = .fin s := h
    have h0 := abs_nonneg (a * b)
    generalize a * b = y at h h0
    unfold coarseRound at h
    split at h
    · obtain rfl := Fl.fin.inj h
      have key : |(if |⌊y⌋| ≤ 4 then ((⌊y⌋ : ℤ) : ℝ) else ((2 * ⌊y / 2⌋ : ℤ) : ℝ)) - y| ≤ 2 := by
        rw [abs_le]
        have h1 := Int.floor_le y
        have h2 := Int.lt_floor_add_one y
        have h3 := Int.floor_le (y / 2)
        have h4 := Int.lt_floor_add_one (y / 2)
        split
        · constructor <;> linarith
        · push_cast
          constructor <;> linarith
      linarith
    · cases h
  monotone_le := by
    intro _ y r s _ hyr h
    have h : coarseRound y = .fin s := h
    unfold coarseRound at h
    split at h
    · obtain rfl := Fl.fin.inj h
      have h1 := Int.floor_le y
      have h3 := Int.floor_le (y / 2)
      split
      · linarith
      · push_cast; linarith
    · cases h
  monotone_ge := by
    rintro _ y r s ⟨n, rfl, _, hn⟩ hyr h
    have h : coarseRound y = .fin s := h
    unfold coarseRound at h
    split at h
    · obtain rfl := Fl.fin.inj h
      have h1 : n ≤ ⌊y⌋ := Int.le_floor.2 hyr
      have h2 : ⌊y / 2⌋ = ⌊y⌋ / 2 := by
        have h3 := Int.floor_le y
        have h4 := Int.lt_floor_add_one y
        rw [Int.floor_eq_iff]
        have e1 : 2 * (⌊y⌋ / 2) ≤ ⌊y⌋ := by omega
        have e2 : ⌊y⌋ + 1 ≤ 2 * (⌊y⌋ / 2) + 2 := by omega
        have e1 : (2 : ℝ) * ((⌊y⌋ / 2 : ℤ) : ℝ) ≤ ⌊y⌋ := by exact_mod_cast e1
        have e2 : (⌊y⌋ : ℝ) + 1 ≤ 2 * ((⌊y⌋ / 2 : ℤ) : ℝ) + 2 := by exact_mod_cast e2
        constructor <;> linarith
      split
      · exact_mod_cast h1
      · rename_i h5
        rw [h2]
        have : n ≤ 2 * (⌊y⌋ / 2) := by
          have : 5 ≤ |⌊y⌋| := by omega
          rcases le_abs.1 this with h6 | h6
          · rcases hn with hn | hn
            · have := (abs_le.1 hn).2
              omega
            · omega
          · rcases hn with hn | hn
            · have := (abs_le.1 hn).1
              omega
            · omega
        exact_mod_cast this
    · cases h

/-- Splitting loses material: 8 is split into 6 and 1. -/
example : thresholdSplit coarse (.fin 1) (.fin 8) = (.fin 6, .fin 1) ∧ ¬ (6 + 1 : ℝ) = 8 ∧
    |(6 + 1 : ℝ) - 8| ≤ 1 / 5 * 8 := by
  refine ⟨?_, by norm_num, by norm_num⟩
  have h : sub coarse (.fin 8) (.fin 1) = .fin 6 := by
    show coarseRound ((8 : ℝ) - 1) = _
    have e : (8 : ℝ) - 1 = ((7 : ℤ) : ℝ) := by norm_num
    rw [e, coarseRound_int (by norm_num)]
    norm_num
  simp [thresholdSplit, FloatOps.compare, cmpReal, h]

theorem example_valid {ok : Fl → Prop} {p : Fl} (h : ok p) (d : Cell) (hd : exampleNetwork d.1 d.2 ≠ 0) :
    ValidCell coarse ok (· == 0) exampleNetwork (fun _ _ => some (.fin 1)) (fun _ _ => some p) (fun _ => 1) d :=
  ⟨by simpa using hd, rfl, ⟨1, by norm_num, by norm_num, by norm_num⟩, by norm_num, p, rfl, h⟩

example : IsAmount coarse (.fin 2) ∧ IsAmount coarse (.inf false) ∧ IsFraction coarse (.fin 1) :=
  ⟨.inr ⟨2, rfl, ⟨2, by norm_num, by norm_num, by norm_num⟩, by norm_num⟩, .inl rfl,
    ⟨1, rfl, ⟨1, by norm_num, by norm_num, by norm_num⟩, by norm_num, le_refl _⟩⟩

/-- There is an outcome, whatever the operation. -/
example (within : Fl → Fl → Bool) (split : Fl → Fl → Fl × Fl) (p : Fl) :
    ∃ o r, Yields coarse within split (· == 0) (store ⟨4, 4, 2, 2⟩ exampleNetwork) (.scalar (some (.fin 1)))
      (.scalar (some p)) o r :=
  (yields_iff (inflow := .scalar (some (.fin 1))) (f := fun _ _ => some (.fin 1)) (parameter := .scalar (some p))
    (q := fun _ _ => some p) example_flowDirections (fun _ _ => rfl) (fun _ _ => rfl)).2
    fun ⟨u, _, _, h, _⟩ => example_acyclic u h

/-- The amounts fit, whatever the cell. -/
example (c : Cell) : Fits coarse (1 / 5) (catchmentNumbers 4 4 exampleNetwork (fun _ => 1) c) := by
  classical
  have h1 : (catchmentNumbers 4 4 exampleNetwork (fun _ => 1) c).length ≤ 16 := by
    unfold catchmentNumbers
    rw [List.length_map, Finset.length_toList]
    refine (Finset.card_le_card (t := allCells 4 4) ?_).trans (by decide)
    exact Finset.filter_subset _ _
  have e : (catchmentNumbers 4 4 exampleNetwork (fun _ => 1) c).sum =
      ((catchmentNumbers 4 4 exampleNetwork (fun _ => 1) c).length : ℝ) := by
    unfold catchmentNumbers
    simp
  unfold Fits
  have h3 : ((1 : ℝ) + 1 / 5) ^ (2 * (catchmentNumbers 4 4 exampleNetwork (fun _ => 1) c).length - 1) ≤ (1 + 1 / 5) ^ 31 :=
    pow_le_pow_right₀ (by norm_num) (by omega)
  have h2 : (catchmentNumbers 4 4 exampleNetwork (fun _ => 1) c).sum ≤ 16 := by rw [e]; exact_mod_cast h1
  refine (mul_le_mul h3 h2 (by rw [e]; positivity) (by norm_num)).trans ?_
  show ((1 : ℝ) + 1 / 5) ^ 31 * 16 ≤ 10000
  norm_num

end Lue.MassBalance

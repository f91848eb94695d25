import Verif.Rounding.Theorems
import Verif.Accu.Operations
import Verif.FloatOps.Properties

/-! C76: the hypotheses of the theorems are met, also by types whose results depend on the order of the additions. -/
namespace Lue.Rounding

open Lue.FloatOps

/-- Whole numbers which are not too large, and even if they are larger than four -/
def CoarseRep (r : ℝ) : Prop := ∃ n : ℤ, r = n ∧ |n| ≤ 10000 ∧ (|n| ≤ 4 ∨ 2 ∣ n)

noncomputable def coarseRound (y : ℝ) : Fl :=
  if |y| ≤ 10000 then .fin (if |⌊y⌋| ≤ 4 then ((⌊y⌋ : ℤ) : ℝ) else ((2 * ⌊y / 2⌋ : ℤ) : ℝ)) else .inf (decide (y < 0))

theorem coarse_two {a b x : ℝ} (ha : CoarseRep a) (hb : CoarseRep b) (hr : IsRemainder a b x) (h : |x| ≤ |a|) :
    CoarseRep x := by
  obtain ⟨n, rfl, hn, hn'⟩ := ha
  obtain ⟨m, rfl, hm, hm'⟩ := hb
  obtain ⟨h1, _, k, hk⟩ := hr
  have e : x = ((n - k * m : ℤ) : ℝ) := by push_cast; linarith
  rw [e] at h h1
  have h : |n - k * m| ≤ |n| := by exact_mod_cast h
  have h1 : |n - k * m| < |m| := by exact_mod_cast h1
  refine ⟨n - k * m, e, by omega, ?_⟩
  by_cases h4 : |n - k * m| ≤ 4
  · exact .inl h4
  · right
    have e1 : 2 ∣ n := by omega
    have e2 : 2 ∣ m := by omega
    exact dvd_sub e1 (e2.mul_left k)

/-- A type whose numbers have few digits -/
noncomputable def coarse : Lib where
  big := 10000
  big_large := by norm_num
  Rep := CoarseRep
  rep_le := by
    rintro r ⟨n, rfl, h, _⟩
    exact_mod_cast h
  rep_ge := by
    rintro r ⟨n, rfl, _⟩ h
    have : n ≠ 0 := by rintro rfl; simp at h
    have : 1 ≤ |n| := Int.one_le_abs this
    have : (1 : ℝ) ≤ |(n : ℝ)| := by exact_mod_cast this
    refine le_trans ?_ this
    norm_num
  rep_neg := by
    rintro r ⟨n, rfl, h, h'⟩
    refine ⟨-n, by push_cast; rfl, by rwa [abs_neg], ?_⟩
    rw [abs_neg]
    exact h'.imp_right fun h => (dvd_neg).2 h
  rep_floor := by
    rintro r ⟨n, rfl, h⟩
    rw [Int.floor_intCast]
    exact ⟨n, rfl, h⟩
  rep_zero := ⟨0, by norm_num, by norm_num, by norm_num⟩
  rep_mod := by
    intro a b ha hb h
    have hr := isRemainder_mod a h
    refine coarse_two ha hb hr ?_
    obtain ⟨n, hn, ht⟩ := isTruncated_trunc (a / b)
    rw [hn]
    have e : a - b * n = b * (a / b - n) := by field_simp
    have ea : |a| = |b| * |a / b| := by rw [← abs_mul]; congr 1; field_simp
    rw [e, abs_mul, ea]
    refine mul_le_mul_of_nonneg_left ?_ (abs_nonneg b)
    obtain ⟨h1, h2, h3⟩ := ht
    rcases le_total 0 (a / b) with hq | hq
    · have hn0 : (0 : ℝ) ≤ n := by
        by_contra hneg
        push Not at hneg
        have hn1 : (n : ℝ) ≤ -1 := by
          have : n < 0 := by exact_mod_cast hneg
          have : n ≤ -1 := by omega
          exact_mod_cast this
        rw [abs_of_pos (by linarith)] at h1
        linarith
      rw [abs_of_nonneg hq, abs_of_nonneg hn0] at h2
      rw [abs_of_nonneg hq, abs_of_nonneg (by linarith)]
      linarith
    · have hn0 : (n : ℝ) ≤ 0 := by
        by_contra hneg
        push Not at hneg
        have hn1 : (1 : ℝ) ≤ n := by
          have : 0 < n := by exact_mod_cast hneg
          have : 1 ≤ n := by omega
          exact_mod_cast this
        rw [abs_of_neg (by linarith)] at h1
        linarith
      rw [abs_of_nonpos hq, abs_of_nonpos hn0] at h2
      rw [abs_of_nonpos hq, abs_of_nonpos (by linarith)]
      linarith
  round := fun _ y => coarseRound y
  round_rep := by
    intro _ y v h
    unfold coarseRound at h
    split at h
    · rename_i hy
      obtain rfl := Fl.fin.inj h
      rw [abs_le] at hy
      split
      · rename_i h4
        exact ⟨⌊y⌋, rfl, by omega, .inl h4⟩
      · refine ⟨2 * ⌊y / 2⌋, rfl, ?_, .inr ⟨_, rfl⟩⟩
        have h1 : (-5000 : ℤ) ≤ ⌊y / 2⌋ := Int.le_floor.2 (by push_cast; linarith)
        have h2 : ⌊y / 2⌋ ≤ 5000 := by
          have : ⌊y / 2⌋ < 5001 := Int.floor_lt.2 (by push_cast; linarith)
          omega
        rw [abs_le]
        omega
    · cases h
  round_fin := by
    intro _ y h
    exact ⟨_, if_pos h⟩
  round_nan := by
    intro _ y h
    unfold coarseRound at h
    split at h <;> cases h

theorem coarseRound_int {n : ℤ} (h : |n| ≤ 10000) :
    coarseRound (n : ℝ) = .fin (if |n| ≤ 4 then (n : ℝ) else ((2 * (n / 2) : ℤ) : ℝ)) := by
  unfold coarseRound
  rw [if_pos (by exact_mod_cast h), Int.floor_intCast]
  have : ⌊(n : ℝ) / 2⌋ = n / 2 := by
    have h2 : ⌊(n : ℝ) / 2⌋ = n / 2 := by
      rw [Int.floor_eq_iff]
      have e1 : 2 * (n / 2) ≤ n := by omega
      have e2 : n < 2 * (n / 2) + 2 := by omega
      have e1 : (2 : ℝ) * ((n / 2 : ℤ) : ℝ) ≤ n := by exact_mod_cast e1
      have e2 : (n : ℝ) < 2 * ((n / 2 : ℤ) : ℝ) + 2 := by exact_mod_cast e2
      constructor <;> linarith
    exact h2
  rw [this]

/-- The hypothesis of the theorems about the type is met. -/
theorem coarse_accurate : Accurate coarse (1 / 5) 2 where
  u_nonneg := by norm_num
  η_nonneg := by norm_num
  exact := by
    rintro y ⟨n, rfl, h, h'⟩
    show coarseRound _ = _
    rw [coarseRound_int h]
    congr 1
    split
    · rfl
    · rename_i h4
      have : 2 * (n / 2) = n := by omega
      rw [this]
  add := by
    rintro a b s ⟨n, rfl, -⟩ ⟨m, rfl, -⟩ h
    have h : coarseRound ((n : ℝ) + (m : ℝ)) = .fin s := h
    have e : (n : ℝ) + (m : ℝ) = ((n + m : ℤ) : ℝ) := by push_cast; rfl
    rw [e] at h ⊢
    generalize n + m = k at h
    by_cases hk : |k| ≤ 10000
    · rw [coarseRound_int hk] at h
      obtain rfl := Fl.fin.inj h
      split
      · simp
      · rename_i h4
        have h6 : |2 * (k / 2) - k| ≤ 1 := by rw [abs_le]; omega
        have h5 : 5 * |2 * (k / 2) - k| ≤ |k| := by omega
        have h5 : (5 : ℝ) * |((2 * (k / 2) : ℤ) : ℝ) - k| ≤ |(k : ℝ)| := by exact_mod_cast h5
        linarith
    · exfalso
      unfold coarseRound at h
      rw [if_neg (by intro h; exact hk (by exact_mod_cast h))] at h
      cases h
  divide := by
    intro a b s _ _ _ h
    have h : coarseRound (a / b) = .fin s := h
    have h0 := abs_nonneg (a / b)
    generalize a / b = y at h h0
    unfold coarseRound at h
    split at h
    · obtain rfl := Fl.fin.inj h
      have key : |(if |⌊y⌋| ≤ 4 then ((⌊y⌋ : ℤ) : ℝ) else ((2 * ⌊y / 2⌋ : ℤ) : ℝ)) - y| ≤ 2 := by
        rw [abs_le]
        have h1 := Int.floor_le y
        have h2 := Int.lt_floor_add_one y
        have h3 := Int.floor_le (y / 2)
        have h4 := Int.lt_floor_add_one (y / 2)
        split
        · constructor <;> linarith
        · push_cast
          constructor <;> linarith
      linarith
    · cases h

theorem element_int {n : ℤ} (h : |n| ≤ 4) : Element coarse (.fin n) := .inr ⟨n, rfl, n, rfl, by omega, .inl h⟩

/-- A row of four cells -/
def row (i j : Nat) : Fl := if i = 0 then (match j with | 0 => .fin 4 | 1 => .nan | 2 => .fin 1 | _ => .fin 1) else .nan

theorem row_element (i j : Nat) : Element coarse (row i j) := by
  unfold row
  split
  · split
    · simpa using element_int (n := 4) (by norm_num)
    · exact .inl rfl
    · simpa using element_int (n := 1) (by norm_num)
    · simpa using element_int (n := 1) (by norm_num)
  · exact .inl rfl

theorem row_numbers : numbers ⟨1, 4, 1, 2⟩ row = [4, 1, 1] := by
  have : numbers ⟨1, 4, 1, 2⟩ row = [row 0 0, row 0 1, row 0 2, row 0 3].filterMap number := rfl
  rw [this]
  simp [row, number_fin, number_nan, List.filterMap_cons]

/-- The arrays meet the hypotheses of the theorems. -/
example : Fits coarse (1 / 5) (numbers ⟨1, 4, 1, 2⟩ row) := by
  rw [row_numbers]
  show ((1 : ℝ) + 1 / 5) ^ 2 * magnitude [4, 1, 1] ≤ 10000
  norm_num [magnitude]

example : Represents (store ⟨1, 4, 1, 2⟩ row) row ∧ Represents (store ⟨1, 4, 1, 4⟩ row) row ∧ IsOrder 2 [1, 0] ∧ IsOrder 1 [0] :=
  ⟨store_represents ⟨by decide, by decide, by decide, by decide⟩ _,
    store_represents ⟨by decide, by decide, by decide, by decide⟩ _, List.Perm.swap _ _ _, List.Perm.refl _⟩

theorem coarse_add {n m k : ℤ} (h : |n + m| ≤ 10000) (hk : k = if |n + m| ≤ 4 then n + m else 2 * ((n + m) / 2)) :
    add coarse (.fin n) (.fin m) = .fin k := by
  have : add coarse (.fin n) (.fin m) = coarseRound ((n : ℝ) + (m : ℝ)) := rfl
  rw [this]
  have e : (n : ℝ) + (m : ℝ) = ((n + m : ℤ) : ℝ) := by push_cast; rfl
  rw [e, coarseRound_int h, hk]
  split <;> rfl

/-- The result depends on the partitioning: `(4 + 1) + 1` is 4, ... -/
example : sum coarse [0] (store ⟨1, 4, 1, 4⟩ row) = .ok (.fin 4) := by
  have hx : Represents (store ⟨1, 4, 1, 4⟩ row) row := store_represents ⟨by decide, by decide, by decide, by decide⟩ _
  have e : add coarse (.fin 4) (.fin 1) = .fin 4 := by
    simpa using coarse_add (n := 4) (m := 1) (k := 4) (by norm_num) (by norm_num)
  unfold sum
  rw [Aggregate.aggregateArray_eq _ _ hx (order := [0]) (List.Perm.refl _)]
  have p : (store ⟨1, 4, 1, 4⟩ row).parts = [[.fin 4, .nan, .fin 1, .fin 1]] := rfl
  rw [p, List.map_cons, List.map_nil, Aggregate.aggregatePartition_eq]
  have q : Aggregate.validCells sumPolicies [.fin 4, .nan, .fin 1, .fin 1] = [.fin 4, .fin 1, .fin 1] := by
    simp [Aggregate.validCells, sumPolicies, isNaN_fin, isNaN_nan, List.filter_cons]
  rw [q]
  have q2 : (Aggregate.fold1 (sumFunctor coarse).one (sumFunctor coarse).step [.fin 4, .fin 1, .fin 1]).getD
      (sumPolicies.mark (sumFunctor coarse).none) = add coarse (add coarse (.fin 4) (.fin 1)) (.fin 1) := rfl
  rw [q2, e, e]
  rw [Aggregate.aggregateResults_eq]; rfl

/-- ... and `4 + (1 + 1)` is 6. -/
example : sum coarse [1, 0] (store ⟨1, 4, 1, 2⟩ row) = .ok (.fin 6) := by
  have e1 : add coarse (.fin 1) (.fin 1) = .fin 2 := by
    simpa using coarse_add (n := 1) (m := 1) (k := 2) (by norm_num) (by norm_num)
  have e2 : add coarse (.fin 4) (.fin 2) = .fin 6 := by
    simpa using coarse_add (n := 4) (m := 2) (k := 6) (by norm_num) (by norm_num)
  have hx : Represents (store ⟨1, 4, 1, 2⟩ row) row := store_represents ⟨by decide, by decide, by decide, by decide⟩ _
  unfold sum
  rw [Aggregate.aggregateArray_eq _ _ hx (List.Perm.swap _ _ _)]
  have p : (store ⟨1, 4, 1, 2⟩ row).parts = [[.fin 4, .nan], [.fin 1, .fin 1]] := rfl
  rw [p]
  have q1 : Aggregate.aggregatePartition sumPolicies (sumFunctor coarse) [.fin 4, .nan] = .fin 4 := by
    rw [Aggregate.aggregatePartition_eq]; rfl
  have q2 : Aggregate.aggregatePartition sumPolicies (sumFunctor coarse) [.fin 1, .fin 1] = add coarse (.fin 1) (.fin 1) := by
    rw [Aggregate.aggregatePartition_eq]; rfl
  rw [List.map_cons, List.map_cons, List.map_nil, q1, q2, e1]
  have q3 : Aggregate.aggregateResults sumPolicies (sumFunctor coarse) [.fin 4, .fin 2] = add coarse (.fin 4) (.fin 2) := by
    rw [Aggregate.aggregateResults_eq]; rfl
  rw [q3, e2]

/-- Both are within the limits. -/
example : IsSum (1 / 5) [4, 1, 1] (.fin 4) ∧ IsSum (1 / 5) [4, 1, 1] (.fin 6) ∧ ¬ IsSum (1 / 5) [4, 1, 1] (.fin 2) := by
  refine ⟨⟨4, rfl, ?_⟩, ⟨6, rfl, ?_⟩, ?_⟩
  · norm_num [magnitude, abs_le]
  · norm_num [magnitude]
  · rintro ⟨v, h, h'⟩
    obtain rfl := Fl.fin.inj h
    norm_num [magnitude, abs_le] at h'

/-- Numbers which can be added exactly -/
example : ExactlyAdded coarse [1, 2] := by
  intro ys h
  obtain ⟨l, h1, h2⟩ := h
  rw [← h1.sum_eq]
  have : l = [] ∨ l = [1] ∨ l = [2] ∨ l = [1, 2] := by
    cases h2 with
    | cons _ h =>
      cases h with
      | cons _ h => cases h; simp
      | cons_cons _ h => cases h; simp
    | cons_cons _ h =>
      cases h with
      | cons _ h => cases h; simp
      | cons_cons _ h => cases h; simp
  rcases this with rfl | rfl | rfl | rfl
  · exact ⟨0, by norm_num, by norm_num, by norm_num⟩
  · exact ⟨1, by norm_num, by norm_num, by norm_num⟩
  · exact ⟨2, by norm_num, by norm_num, by norm_num⟩
  · exact ⟨3, by norm_num, by norm_num, by norm_num⟩

/-- Zones -/
example : zoneNumbers ⟨1, 4, 1, 2⟩ row (fun _ j => j % 2) 0 = [4, 1] := by
  have : zoneNumbers ⟨1, 4, 1, 2⟩ row (fun _ j => j % 2) 0 = [row 0 0, row 0 2].filterMap number := rfl
  rw [this]
  simp [row, number_fin, number_nan, List.filterMap_cons]

open Lue.Routing Lue.Accu Lue.InflowCount in
/-- Routing material: there is an outcome, and all cells are valid. -/
example : (∃ y, AccuYields coarse (· == 0) (store ⟨4, 4, 2, 2⟩ exampleNetwork) (.scalar (some (.fin 1))) y) ∧
    (∀ c : Cell, ¬ OnCycle 4 4 exampleNetwork c) ∧
    ∀ d : Cell, exampleNetwork d.1 d.2 ≠ 0 → ValidAt coarse (· == 0) exampleNetwork (fun _ _ => some (.fin 1)) (fun _ => 1) d := by
  refine ⟨(accu_yields (inflow := .scalar (some (.fin 1))) (f := fun _ _ => some (.fin 1)) example_flowDirections
    (fun _ _ => rfl)).2 fun ⟨u, _, _, h, _⟩ => example_acyclic u h, example_acyclic, fun d hd => ?_⟩
  exact ⟨by simpa using hd, rfl, ⟨1, by norm_num, by norm_num, by norm_num⟩, by norm_num⟩

open Lue.Routing Lue.Accu Lue.InflowCount in
/-- The amounts which arrive fit, whatever the cell. -/
example (c : Cell) : Fits coarse (1 / 5) (catchmentNumbers 4 4 exampleNetwork (fun _ => 1) c) := by
  classical
  have h1 : (catchmentNumbers 4 4 exampleNetwork (fun _ => 1) c).length ≤ 16 := by
    unfold catchmentNumbers
    rw [List.length_map, Finset.length_toList]
    refine (Finset.card_le_card (t := allCells 4 4) ?_).trans (by decide)
    exact Finset.filter_subset _ _
  have h2 : magnitude (catchmentNumbers 4 4 exampleNetwork (fun _ => 1) c) ≤ 16 := by
    have e : magnitude (catchmentNumbers 4 4 exampleNetwork (fun _ => 1) c) =
        ((catchmentNumbers 4 4 exampleNetwork (fun _ => 1) c).length : ℝ) := by
      unfold catchmentNumbers magnitude
      rw [List.map_map, List.length_map]
      simp [Function.comp_def]
    rw [e]
    exact_mod_cast h1
  unfold Fits
  have h3 : ((1 : ℝ) + 1 / 5) ^ ((catchmentNumbers 4 4 exampleNetwork (fun _ => 1) c).length - 1) ≤ (1 + 1 / 5) ^ 15 :=
    pow_le_pow_right₀ (by norm_num) (by omega)
  refine (mul_le_mul h3 h2 (magnitude_nonneg _) (by norm_num)).trans ?_
  show ((1 : ℝ) + 1 / 5) ^ 15 * 16 ≤ 10000
  norm_num

end Lue.Rounding

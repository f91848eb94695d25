import Verif.FocalStats.Lemmas
import Verif.Focal.Properties
import Mathlib.Algebra.Order.Field.Basic
import Mathlib.Algebra.BigOperators.Group.List.Basic
import Mathlib.Algebra.Order.BigOperators.Group.List
import Mathlib.Data.Rat.Defs
import Mathlib.Tactic.Ring
import Mathlib.Tactic.Linarith

/-!
C15: geometry of kernels. C16: focal statistics.
-/
namespace Lue.FocalStats

open Lue.Focal

variable {α β γ W : Type}

/-! ### C15 -/

/-- All weights of a box kernel are the same. -/
theorem boxKernel_spec (r : Nat) (value : W) : IsKernel (boxKernel r value) r (fun _ _ => value) where
  extent_eq := rfl
  get_eq i j hi hj := by
    unfold Kernel.get boxKernel
    rw [if_pos ⟨hi, hj⟩]
    apply rd_ok
    simp only [List.getElem?_replicate, idx_lt hi hj, if_true]

/-- The weights of a circle kernel: the value within distance `r` from the centre, zero elsewhere. -/
def circleWeight [Zero W] (r : Nat) (value : W) (i j : Nat) : W :=
  if ((i : Int) - r) ^ 2 + ((j : Int) - r) ^ 2 ≤ (r : Int) ^ 2 then value else 0

theorem circleKernel_spec [Zero W] (r : Nat) (value : W) :
    ∃ k, circleKernel r value = .ok k ∧ IsKernel k r (circleWeight r value) := by
  set n := 2 * r + 1 with hn
  have hc : ∀ i j : Nat, (((i : Int) - r) * ((i : Int) - r) + ((j : Int) - r) * ((j : Int) - r) ≤ (r : Int) * r) ↔
      (((i : Int) - r) ^ 2 + ((j : Int) - r) ^ 2 ≤ (r : Int) ^ 2) := by
    intro i j; rw [pow_two, pow_two, pow_two]
  -- the state after handling the cells before (`i`, `j`)
  let Inv (i j : Nat) (data : List W) : Prop := data.length = n * n ∧ ∀ a b, a < n → b < n →
    data[a * n + b]? = some (if a < i ∨ (a = i ∧ b < j) then circleWeight r value a b else 0)
  have inner : ∀ i < n, ∀ data, Inv i 0 data → ∃ data', forLoop n (fun idx1 data => do
      let dist1 : Int := ((idx1 : Int) - r) * ((idx1 : Int) - r)
      if ((i : Int) - r) * ((i : Int) - r) + dist1 ≤ (r : Int) * r then
        if i < n ∧ idx1 < n then wr data (i * n + idx1) value else .error .outOfBounds
      else return data) data = .ok data' ∧ Inv i n data' := by
    intro i hi data hd
    apply forLoop_inv (Inv i) _ _ hd
    intro j hj data hd
    by_cases h : ((i : Int) - r) * ((i : Int) - r) + ((j : Int) - r) * ((j : Int) - r) ≤ (r : Int) * r
    · refine ⟨data.set (i * n + j) value, ?_, ?_⟩
      · simp only [h, if_true, hi, hj, and_self]
        exact wr_ok _ (by rw [hd.1]; exact idx_lt hi hj)
      · refine ⟨by simp [hd.1], fun a b ha hb => ?_⟩
        by_cases hab : a = i ∧ b = j
        · obtain ⟨rfl, rfl⟩ := hab
          rw [List.getElem?_set_self (by rw [hd.1]; exact idx_lt ha hb)]
          simp only [circleWeight, (hc a b).mp h, if_true, lt_irrefl, false_or, true_and, Nat.lt_succ_self]
        · have : i * n + j ≠ a * n + b := by
            intro he
            apply hab
            constructor
            · have := congrArg (· / n) he
              simp only [idx_div hj, idx_div hb] at this
              exact this.symm
            · have := congrArg (· % n) he
              simp only [idx_mod hj, idx_mod hb] at this
              exact this.symm
          rw [List.getElem?_set_ne this, hd.2 a b ha hb]
          congr 1
          apply if_congr _ rfl rfl
          omega
    · refine ⟨data, by simp only [h, if_false]; rfl, hd.1, fun a b ha hb => ?_⟩
      rw [hd.2 a b ha hb]
      by_cases hab : a = i ∧ b = j
      · obtain ⟨rfl, rfl⟩ := hab
        have : circleWeight r value a b = 0 := by
          simp only [circleWeight, if_neg (fun h' => h ((hc a b).mpr h'))]
        simp [this]
      · congr 1
        apply if_congr _ rfl rfl
        omega
  obtain ⟨data, h1, h2⟩ := forLoop_inv (n := n) (fun i data => Inv i 0 data)
    (body := fun (idx0 : Nat) data => forLoop n (fun (idx1 : Nat) data => do
      let dist1 : Int := ((idx1 : Int) - r) * ((idx1 : Int) - r)
      if ((idx0 : Int) - r) * ((idx0 : Int) - r) + dist1 ≤ (r : Int) * r then
        if idx0 < n ∧ idx1 < n then wr data (idx0 * n + idx1) value else .error .outOfBounds
      else return data) data) (by
      intro i hi data hd
      obtain ⟨data', h1, h2⟩ := inner i hi data hd
      refine ⟨data', h1, h2.1, fun a b ha hb => ?_⟩
      rw [h2.2 a b ha hb]
      congr 1
      apply if_congr _ rfl rfl
      omega) (List.replicate (n * n) (0 : W)) (by
      refine ⟨by simp, fun a b ha hb => ?_⟩
      rw [List.getElem?_replicate, if_pos (idx_lt ha hb), if_neg (by omega)])
  refine ⟨⟨n, data⟩, ?_, rfl, ?_⟩
  · unfold circleKernel
    simp only [← hn]
    simp only at h1
    rw [h1]
    rfl
  · intro i j hi hj
    unfold Kernel.get
    rw [if_pos ⟨hi, hj⟩]
    apply rd_ok
    rw [h2.2 i j hi hj, if_pos (by omega)]

/-- The circle is symmetric: reflection in both axes, and transposition. -/
theorem circle_symmetric [Zero W] (r : Nat) (value : W) {i j : Nat} (hi : i < 2 * r + 1) (hj : j < 2 * r + 1) :
    circleWeight r value (2 * r - i) j = circleWeight r value i j ∧
    circleWeight r value i (2 * r - j) = circleWeight r value i j ∧
    circleWeight r value j i = circleWeight r value i j := by
  have h1 : ((2 * r - i : Nat) : Int) - r = -((i : Int) - r) := by omega
  have h2 : ((2 * r - j : Nat) : Int) - r = -((j : Int) - r) := by omega
  refine ⟨?_, ?_, ?_⟩
  · simp only [circleWeight, h1, neg_sq]
  · simp only [circleWeight, h2, neg_sq]
  · simp only [circleWeight, add_comm]

/-- The centre and the extreme cells in the four directions are in the circle, for radii larger than 0 the corners are
not. -/
theorem circle_extremes [Zero W] (r : Nat) (value : W) :
    circleWeight r value r r = value ∧ circleWeight r value 0 r = value ∧ circleWeight r value (2 * r) r = value ∧
    circleWeight r value r 0 = value ∧ circleWeight r value r (2 * r) = value ∧
    (0 < r → circleWeight r value 0 0 = 0) := by
  refine ⟨?_, ?_, ?_, ?_, ?_, ?_⟩
  · unfold circleWeight
    rw [if_pos (by simp only [sub_self]; have := sq_nonneg (r : Int); simpa using this)]
  · unfold circleWeight
    rw [if_pos (by push_cast; ring_nf; exact le_refl _)]
  · unfold circleWeight
    rw [if_pos (by push_cast; ring_nf; exact le_refl _)]
  · unfold circleWeight
    rw [if_pos (by push_cast; ring_nf; exact le_refl _)]
  · unfold circleWeight
    rw [if_pos (by push_cast; ring_nf; exact le_refl _)]
  · intro h
    unfold circleWeight
    rw [if_neg]
    have : (0 : Int) < (r : Int) ^ 2 := by positivity
    push_cast
    rw [not_le]
    linarith [neg_sq (r : Int), show ((0 : Int) - r) ^ 2 = (r : Int) ^ 2 by ring]

example : circleWeight 2 (1 : Nat) 1 1 = 1 ∧ circleWeight 2 (1 : Nat) 0 1 = 0 := by decide

/-! ### C16 -/

section
variable [DecidableEq W] [Zero W] {isNoData : α → Bool} {k : Kernel W} {wt : Nat → Nat → W} {r : Nat}

/-- The cells that contribute, in terms of the cells of the array: those within reach of the kernel which have a weight
and a valid value. Cells outside of the array contribute if the halo values are valid. -/
theorem mem_focalValues (h : Halo α) (a0 a1 : Nat) (v : Arr α) (i j : Nat) (y : α) :
    y ∈ focalValues isNoData wt (extended h a0 a1 v) r i j ↔
      ∃ i' j' : Int, (i : Int) - r ≤ i' ∧ i' ≤ i + r ∧ (j : Int) - r ≤ j' ∧ j' ≤ j + r ∧
        wt (i' - (i - r)).toNat (j' - (j - r)).toNat ≠ 0 ∧ isNoData y = false ∧ y = extended h a0 a1 v i' j' := by
  simp only [focalValues, List.mem_map, List.mem_filter, mem_offsets, decide_eq_true_eq]
  constructor
  · rintro ⟨⟨d0, d1⟩, ⟨⟨h0, h1⟩, h2, h3⟩, rfl⟩
    simp only at h0 h1
    refine ⟨(i : Int) - r + d0, (j : Int) - r + d1, by omega, by omega, by omega, by omega, ?_, h3, rfl⟩
    have e0 : ((i : Int) - r + d0 - (i - r)).toNat = d0 := by omega
    have e1 : ((j : Int) - r + d1 - (j - r)).toNat = d1 := by omega
    rw [e0, e1]; exact h2
  · rintro ⟨i', j', h1, h2, h3, h4, h5, h6, rfl⟩
    refine ⟨((i' - (i - r)).toNat, (j' - (j - r)).toNat), ⟨⟨by simp only; omega, by simp only; omega⟩, h5, ?_⟩, ?_⟩
    · unfold at_
      rwa [show (i : Int) - r + ((i' - (i - r)).toNat : Int) = i' by omega,
        show (j : Int) - r + ((j' - (j - r)).toNat : Int) = j' by omega]
    · unfold at_
      rw [show (i : Int) - r + ((i' - (i - r)).toNat : Int) = i' by omega,
        show (j : Int) - r + ((j' - (j - r)).toNat : Int) = j' by omega]

/-- In case the halo contains no-data values, only cells of the array contribute. -/
theorem mem_focalValues_noData (mark : α) (hm : isNoData mark = true) (a0 a1 : Nat) (v : Arr α) (i j : Nat) (y : α) :
    y ∈ focalValues isNoData wt (extended ⟨mark, mark, mark, mark, mark, mark, mark, mark⟩ a0 a1 v) r i j ↔
      ∃ i' j' : Nat, i' < a0 ∧ j' < a1 ∧ i ≤ i' + r ∧ i' ≤ i + r ∧ j ≤ j' + r ∧ j' ≤ j + r ∧
        wt (i' + r - i) (j' + r - j) ≠ 0 ∧ isNoData y = false ∧ y = v i' j' := by
  rw [mem_focalValues]
  constructor
  · rintro ⟨i', j', h1, h2, h3, h4, h5, h6, h7⟩
    have hin : 0 ≤ i' ∧ i' < a0 ∧ 0 ≤ j' ∧ j' < a1 := by
      by_contra hn
      have : extended ⟨mark, mark, mark, mark, mark, mark, mark, mark⟩ a0 a1 v i' j' = mark := by
        unfold extended
        simp only
        split_ifs <;> first | rfl | (exfalso; omega)
      rw [this] at h7
      rw [h7, hm] at h6
      cases h6
    refine ⟨i'.toNat, j'.toNat, by omega, by omega, by omega, by omega, by omega, by omega, ?_, h6, ?_⟩
    · rwa [show i'.toNat + r - i = (i' - (i - r)).toNat by omega, show j'.toNat + r - j = (j' - (j - r)).toNat by omega]
    · rw [h7]
      unfold extended
      rw [if_neg (by omega), if_pos (by omega), if_neg (by omega), if_pos (by omega)]
  · rintro ⟨i', j', h1, h2, h3, h4, h5, h6, h7, h8, h9⟩
    refine ⟨i', j', by omega, by omega, by omega, by omega, ?_, h8, ?_⟩
    · rwa [show ((i' : Int) - (i - r)).toNat = i' + r - i by omega, show ((j' : Int) - (j - r)).toNat = j' + r - j by omega]
    · rw [h9]
      unfold extended
      rw [if_neg (by omega), if_pos (by omega), if_neg (by omega), if_pos (by omega)]
      rfl

variable (hk : IsKernel k r wt)
include hk

theorem focalSum_ok [AddCommMonoid α] (mark : α) (f : Int → Int → α) (i j : Nat) :
    focalSum isNoData k mark (windowAt f r i j) =
      .ok (if focalValues isNoData wt f r i j = [] then mark else (focalValues isNoData wt f r i j).sum) := by
  unfold focalSum
  rw [hk.size_eq, cellLoop_ok (g := fun d s => if isNoData (at_ f r i j d) = false ∧ wt d.1 d.2 ≠ 0
      then (s.1 + at_ f r i j d, true) else s)]
  · rw [foldl_focalValues isNoData wt f r i j (fun (s : α × Bool) x => (s.1 + x, true)), foldl_add_sum, M.bind_ok]
    cases focalValues isNoData wt f r i j <;> simp <;> rfl
  · intro d0 h0 d1 h1 s
    rw [hk.get_eq d0 d1 h0 h1, windowGet_ok f r i j h0 h1]
    simp only [M.bind_ok]
    cases isNoData (at_ f r i j (d0, d1)) <;> by_cases h : wt d0 d1 = 0 <;> simp [h] <;> rfl

theorem focalMean_ok [AddCommMonoid α] (div : α → Nat → α) (mark : α) (f : Int → Int → α) (i j : Nat) :
    focalMean isNoData k div mark (windowAt f r i j) =
      .ok (if focalValues isNoData wt f r i j = [] then mark
        else div (focalValues isNoData wt f r i j).sum (focalValues isNoData wt f r i j).length) := by
  unfold focalMean
  rw [hk.size_eq, cellLoop_ok (g := fun d s => if isNoData (at_ f r i j d) = false ∧ wt d.1 d.2 ≠ 0
      then (s.1 + at_ f r i j d, s.2 + 1) else s)]
  · rw [foldl_focalValues isNoData wt f r i j (fun (s : α × Nat) x => (s.1 + x, s.2 + 1)), foldl_mean, M.bind_ok]
    cases focalValues isNoData wt f r i j <;> simp <;> rfl
  · intro d0 h0 d1 h1 s
    rw [hk.get_eq d0 d1 h0 h1, windowGet_ok f r i j h0 h1]
    simp only [M.bind_ok]
    cases isNoData (at_ f r i j (d0, d1)) <;> by_cases h : wt d0 d1 = 0 <;> simp [h] <;> rfl

theorem focalMinimum_ok [LinearOrder α] (zero mark : α) (f : Int → Int → α) (i j : Nat) :
    ∃ y, focalMinimum isNoData k zero mark (windowAt f r i j) = .ok y ∧
      (focalValues isNoData wt f r i j = [] → y = mark) ∧
      (focalValues isNoData wt f r i j ≠ [] → y ∈ focalValues isNoData wt f r i j ∧
        ∀ z ∈ focalValues isNoData wt f r i j, y ≤ z) := by
  unfold focalMinimum
  rw [hk.size_eq, cellLoop_ok (g := fun d (s : α × Bool) => if isNoData (at_ f r i j d) = false ∧ wt d.1 d.2 ≠ 0
      then (if !s.2 then (at_ f r i j d, true) else (min s.1 (at_ f r i j d), s.2)) else s)]
  · rw [foldl_focalValues isNoData wt f r i j
      (fun (s : α × Bool) x => if !s.2 then (x, true) else (min s.1 x, s.2)), M.bind_ok]
    cases focalValues isNoData wt f r i j with
    | nil => exact ⟨mark, rfl, fun _ => rfl, fun h => absurd rfl h⟩
    | cons x l =>
      rw [List.foldl_cons]
      simp only [Bool.not_false, if_true, foldl_min]
      exact ⟨l.foldl min x, rfl, fun h => by simp at h, fun _ => foldl_min_spec l x⟩
  · intro d0 h0 d1 h1 s
    rw [hk.get_eq d0 d1 h0 h1, windowGet_ok f r i j h0 h1]
    simp only [M.bind_ok]
    cases isNoData (at_ f r i j (d0, d1)) <;> by_cases h : wt d0 d1 = 0 <;> cases hs : s.2 <;> simp [h, hs] <;> rfl

theorem focalMaximum_ok [LinearOrder α] (zero mark : α) (f : Int → Int → α) (i j : Nat) :
    ∃ y, focalMaximum isNoData k zero mark (windowAt f r i j) = .ok y ∧
      (focalValues isNoData wt f r i j = [] → y = mark) ∧
      (focalValues isNoData wt f r i j ≠ [] → y ∈ focalValues isNoData wt f r i j ∧
        ∀ z ∈ focalValues isNoData wt f r i j, z ≤ y) := by
  unfold focalMaximum
  rw [hk.size_eq, cellLoop_ok (g := fun d (s : α × Bool) => if isNoData (at_ f r i j d) = false ∧ wt d.1 d.2 ≠ 0
      then (if !s.2 then (at_ f r i j d, true) else (max s.1 (at_ f r i j d), s.2)) else s)]
  · rw [foldl_focalValues isNoData wt f r i j
      (fun (s : α × Bool) x => if !s.2 then (x, true) else (max s.1 x, s.2)), M.bind_ok]
    cases focalValues isNoData wt f r i j with
    | nil => exact ⟨mark, rfl, fun _ => rfl, fun h => absurd rfl h⟩
    | cons x l =>
      rw [List.foldl_cons]
      simp only [Bool.not_false, if_true, foldl_max]
      exact ⟨l.foldl max x, rfl, fun h => by simp at h, fun _ => foldl_max_spec l x⟩
  · intro d0 h0 d1 h1 s
    rw [hk.get_eq d0 d1 h0 h1, windowGet_ok f r i j h0 h1]
    simp only [M.bind_ok]
    cases isNoData (at_ f r i j (d0, d1)) <;> by_cases h : wt d0 d1 = 0 <;> cases hs : s.2 <;> simp [h, hs] <;> rfl

theorem focalMajority_ok [LinearOrder α] (zero mark : α) (f : Int → Int → α) (i j : Nat) :
    ∃ y, focalMajority isNoData k zero mark (windowAt f r i j) = .ok y ∧
      (focalValues isNoData wt f r i j = [] → y = mark) ∧
      (focalValues isNoData wt f r i j ≠ [] → IsMajority (focalValues isNoData wt f r i j) y) := by
  unfold focalMajority
  rw [hk.size_eq, cellLoop_ok (g := fun d (s : AMap α Nat) => if isNoData (at_ f r i j d) = false ∧ wt d.1 d.2 ≠ 0
      then s.put (at_ f r i j d) ((s.get (at_ f r i j d)).getD 0 + 1) else s)]
  · rw [foldl_focalValues isNoData wt f r i j
      (fun (s : AMap α Nat) x => s.put x ((s.get x).getD 0 + 1)), M.bind_ok]
    have hf := frequencies_foldl (focalValues isNoData wt f r i j)
    set m := (focalValues isNoData wt f r i j).foldl (fun (s : AMap α Nat) x => s.put x ((s.get x).getD 0 + 1)) []
    by_cases he : m.isEmpty = true
    · exact ⟨mark, by simp only [he, if_true]; rfl, fun _ => rfl,
        fun h => absurd ((frequencies_isEmpty hf).mp he) h⟩
    · refine ⟨((sortedMap m).foldl pick (zero, 0)).1, by simp only [he]; rfl, fun h => ?_, fun h => majority_ok hf zero h⟩
      exact absurd ((frequencies_isEmpty hf).mpr h) he
  · intro d0 h0 d1 h1 s
    rw [hk.get_eq d0 d1 h0 h1, windowGet_ok f r i j h0 h1]
    simp only [M.bind_ok]
    cases isNoData (at_ f r i j (d0, d1)) <;> by_cases h : wt d0 d1 = 0 <;> simp [h] <;> rfl

theorem focalDiversity_ok [LinearOrder α] (mark : Nat) (f : Int → Int → α) (i j : Nat) :
    focalDiversity isNoData k mark (windowAt f r i j) =
      .ok (if focalValues isNoData wt f r i j = [] then mark else (focalValues isNoData wt f r i j).toFinset.card) := by
  unfold focalDiversity
  rw [hk.size_eq, cellLoop_ok (g := fun d (s : List α) => if isNoData (at_ f r i j d) = false ∧ wt d.1 d.2 ≠ 0
      then s ++ [at_ f r i j d] else s)]
  · have : ∀ (l s : List α), l.foldl (fun s x => s ++ [x]) s = s ++ l := by
      intro l
      induction l with
      | nil => intro s; simp
      | cons a l ih => intro s; rw [List.foldl_cons, ih]; simp
    rw [foldl_focalValues isNoData wt f r i j (fun (s : List α) x => s ++ [x]), this, M.bind_ok, List.nil_append,
      diversity_ok]
    cases focalValues isNoData wt f r i j <;> simp <;> rfl
  · intro d0 h0 d1 h1 s
    rw [hk.get_eq d0 d1 h0 h1, windowGet_ok f r i j h0 h1]
    simp only [M.bind_ok]
    cases isNoData (at_ f r i j (d0, d1)) <;> by_cases h : wt d0 d1 = 0 <;> simp [h] <;> rfl

/-- The values of the valid cells, other than the focal one, which have a weight. -/
def neighbourValues [DecidableEq W] [Zero W] (isNoData : α → Bool) (wt : Nat → Nat → W) (f : Int → Int → α)
    (r i j : Nat) : List α :=
  ((offsets r).filter fun d => d ≠ (r, r) ∧ wt d.1 d.2 ≠ 0 ∧ isNoData (at_ f r i j d) = false).map (at_ f r i j)

theorem focalHighPass_ok [Ring α] (mark : α) (f : Int → Int → α) (i j : Nat) :
    focalHighPass isNoData k mark (windowAt f r i j) =
      .ok (if neighbourValues isNoData wt f r i j = [] then mark
        else 2 * f i j * ((neighbourValues isNoData wt f r i j).length : α) -
          (neighbourValues isNoData wt f r i j).sum) := by
  unfold focalHighPass
  rw [hk.size_eq, cellLoop_ok (g := fun d (s : α × α × Nat) => if d = (r, r) then (at_ f r i j d, s.2)
      else if isNoData (at_ f r i j d) = false ∧ wt d.1 d.2 ≠ 0 then (s.1, s.2.1 + at_ f r i j d, s.2.2 + 1) else s)]
  · have hc : at_ f r i j (r, r) = f i j := by
      unfold at_
      simp only [show (i : Int) - r + r = i by omega, show (j : Int) - r + r = j by omega]
    have key : ∀ (l : List (Nat × Nat)) (s : α × α × Nat),
        l.foldl (fun (s : α × α × Nat) d => if d = (r, r) then (at_ f r i j d, s.2)
          else if isNoData (at_ f r i j d) = false ∧ wt d.1 d.2 ≠ 0 then (s.1, s.2.1 + at_ f r i j d, s.2.2 + 1) else s) s =
        (if (r, r) ∈ l then f i j else s.1,
          s.2.1 + ((l.filter fun d => d ≠ (r, r) ∧ wt d.1 d.2 ≠ 0 ∧ isNoData (at_ f r i j d) = false).map (at_ f r i j)).sum,
          s.2.2 + ((l.filter fun d => d ≠ (r, r) ∧ wt d.1 d.2 ≠ 0 ∧ isNoData (at_ f r i j d) = false).map (at_ f r i j)).length) := by
      intro l
      induction l with
      | nil => intro s; simp
      | cons d l ih =>
        intro s
        rw [List.foldl_cons, ih]
        by_cases h1 : d = (r, r)
        · subst h1
          simp [hc]
        · have h1' : (r, r) ≠ d := fun h => h1 h.symm
          by_cases h2 : isNoData (at_ f r i j d) = false ∧ wt d.1 d.2 ≠ 0
          · rw [if_neg h1, if_pos h2, List.filter_cons_of_pos (by simp [h1, h2])]
            simp only [List.mem_cons, h1', false_or]
            simp only [List.map_cons, List.sum_cons, List.length_cons]
            rw [add_assoc]
            congr 2
            omega
          · rw [if_neg h1, if_neg h2, List.filter_cons_of_neg (by
              rw [decide_eq_true_eq]; exact fun h => h2 ⟨h.2.2, h.2.1⟩)]
            simp only [List.mem_cons, h1', false_or]
    rw [key, M.bind_ok]
    simp only [mem_offsets, show r < 2 * r + 1 by omega, and_self, if_true, zero_add]
    show (if (neighbourValues isNoData wt f r i j).length = 0 then (pure mark : M α)
        else pure (((2 : Nat) : α) * f i j * ((neighbourValues isNoData wt f r i j).length : α) -
          (neighbourValues isNoData wt f r i j).sum)) = _
    rw [Nat.cast_ofNat]
    cases neighbourValues isNoData wt f r i j <;> simp <;> rfl
  · intro d0 h0 d1 h1 s
    rw [hk.get_eq d0 d1 h0 h1, windowGet_ok f r i j h0 h1, hk.radius_eq]
    simp only [M.bind_ok, Prod.mk.injEq]
    by_cases hc : d0 = r ∧ d1 = r
    · simp only [hc, and_self, if_true]; rfl
    · simp only [hc, if_false]
      cases isNoData (at_ f r i j (d0, d1)) <;> by_cases h : wt d0 d1 = 0 <;> simp [h] <;> rfl

end

/-- The weighted values of the valid cells. -/
def weightedValues [Mul α] (isNoData : α → Bool) (wt : Nat → Nat → α) (f : Int → Int → α) (r i j : Nat) : List α :=
  ((offsets r).filter fun d => isNoData (at_ f r i j d) = false).map fun d => wt d.1 d.2 * at_ f r i j d

theorem convolve_ok [AddCommMonoid α] [Mul α] {isNoData : α → Bool} {k : Kernel α} {wt : Nat → Nat → α} {r : Nat}
    (hk : IsKernel k r wt) (mark : α) (f : Int → Int → α) (i j : Nat) :
    convolve isNoData k mark (windowAt f r i j) =
      .ok (if weightedValues isNoData wt f r i j = [] then mark else (weightedValues isNoData wt f r i j).sum) := by
  unfold convolve
  rw [hk.size_eq, cellLoop_ok (g := fun d (s : α × Bool) => if isNoData (at_ f r i j d) = false
      then (s.1 + wt d.1 d.2 * at_ f r i j d, true) else s)]
  · have : (offsets r).foldl (fun (s : α × Bool) d => if isNoData (at_ f r i j d) = false
        then (s.1 + wt d.1 d.2 * at_ f r i j d, true) else s) (0, false) =
        (weightedValues isNoData wt f r i j).foldl (fun (s : α × Bool) x => (s.1 + x, true)) (0, false) := by
      unfold weightedValues
      rw [List.foldl_map, List.foldl_filter]
      simp only [decide_eq_true_eq]
    rw [this, foldl_add_sum, M.bind_ok]
    cases weightedValues isNoData wt f r i j <;> simp <;> rfl
  · intro d0 h0 d1 h1 s
    rw [hk.get_eq d0 d1 h0 h1, windowGet_ok f r i j h0 h1]
    simp only [M.bind_ok]
    cases isNoData (at_ f r i j (d0, d1)) <;> simp <;> rfl

/-! #### The operations on partitioned arrays -/

section
variable [DecidableEq W] [Zero W] {isNoData : α → Bool} {k : Kernel W} {wt : Nat → Nat → W} {r : Nat}
  (hk : IsKernel k r wt) (h : Halo α) (garbage : Nat → α) {x : PArr α} {v : Arr α} (hx : Represents x v)
  (hl : LargeEnough x.grid (2 * r + 1)) {order : List Nat} (ho : IsOrder (x.grid.n0 * x.grid.n1) order)

/-- The values that contribute to the result of a cell of an array. -/
abbrev vals (isNoData : α → Bool) (wt : Nat → Nat → W) (r : Nat) (h : Halo α) (x : PArr α) (v : Arr α) (i j : Nat) : List α :=
  focalValues isNoData wt (extended h x.grid.a0 x.grid.a1 v) r i j

include hk hx hl ho

theorem focal_sum_spec [AddCommMonoid α] (mark : α) :
    ∃ out, focal1 h garbage garbage k.radius (focalSum isNoData k mark) order x = .ok out ∧ out.grid = x.grid ∧
      Represents out fun i j =>
        if vals isNoData wt r h x v i j = [] then mark else (vals isNoData wt r h x v i j).sum := by
  rw [hk.radius_eq]
  exact focal1_spec h garbage garbage r _ hx hl _ (fun i j _ _ => focalSum_ok hk mark _ i j) ho

theorem focal_mean_spec [AddCommMonoid α] (div : α → Nat → α) (mark : α) :
    ∃ out, focal1 h garbage garbage k.radius (focalMean isNoData k div mark) order x = .ok out ∧ out.grid = x.grid ∧
      Represents out fun i j =>
        if vals isNoData wt r h x v i j = [] then mark
        else div (vals isNoData wt r h x v i j).sum (vals isNoData wt r h x v i j).length := by
  rw [hk.radius_eq]
  exact focal1_spec h garbage garbage r _ hx hl _ (fun i j _ _ => focalMean_ok hk div mark _ i j) ho

theorem focal_minimum_spec [LinearOrder α] (zero mark : α) :
    ∃ out w, focal1 h garbage garbage k.radius (focalMinimum isNoData k zero mark) order x = .ok out ∧
      out.grid = x.grid ∧ Represents out w ∧ ∀ i j,
        (vals isNoData wt r h x v i j = [] → w i j = mark) ∧
        (vals isNoData wt r h x v i j ≠ [] → w i j ∈ vals isNoData wt r h x v i j ∧
          ∀ z ∈ vals isNoData wt r h x v i j, w i j ≤ z) := by
  rw [hk.radius_eq]
  have hw := fun i j => focalMinimum_ok (isNoData := isNoData) hk zero mark (extended h x.grid.a0 x.grid.a1 v) i j
  choose w hw using hw
  obtain ⟨out, h1, h2, h3⟩ := focal1_spec h garbage garbage r _ hx hl w (fun i j _ _ => (hw i j).1) ho
  exact ⟨out, w, h1, h2, h3, fun i j => (hw i j).2⟩

theorem focal_maximum_spec [LinearOrder α] (zero mark : α) :
    ∃ out w, focal1 h garbage garbage k.radius (focalMaximum isNoData k zero mark) order x = .ok out ∧
      out.grid = x.grid ∧ Represents out w ∧ ∀ i j,
        (vals isNoData wt r h x v i j = [] → w i j = mark) ∧
        (vals isNoData wt r h x v i j ≠ [] → w i j ∈ vals isNoData wt r h x v i j ∧
          ∀ z ∈ vals isNoData wt r h x v i j, z ≤ w i j) := by
  rw [hk.radius_eq]
  have hw := fun i j => focalMaximum_ok (isNoData := isNoData) hk zero mark (extended h x.grid.a0 x.grid.a1 v) i j
  choose w hw using hw
  obtain ⟨out, h1, h2, h3⟩ := focal1_spec h garbage garbage r _ hx hl w (fun i j _ _ => (hw i j).1) ho
  exact ⟨out, w, h1, h2, h3, fun i j => (hw i j).2⟩

theorem focal_majority_spec [LinearOrder α] (zero mark : α) :
    ∃ out w, focal1 h garbage garbage k.radius (focalMajority isNoData k zero mark) order x = .ok out ∧
      out.grid = x.grid ∧ Represents out w ∧ ∀ i j,
        (vals isNoData wt r h x v i j = [] → w i j = mark) ∧
        (vals isNoData wt r h x v i j ≠ [] → IsMajority (vals isNoData wt r h x v i j) (w i j)) := by
  rw [hk.radius_eq]
  have hw := fun i j => focalMajority_ok (isNoData := isNoData) hk zero mark (extended h x.grid.a0 x.grid.a1 v) i j
  choose w hw using hw
  obtain ⟨out, h1, h2, h3⟩ := focal1_spec h garbage garbage r _ hx hl w (fun i j _ _ => (hw i j).1) ho
  exact ⟨out, w, h1, h2, h3, fun i j => (hw i j).2⟩

theorem focal_diversity_spec [LinearOrder α] (garbage' : Nat → Nat) (mark : Nat) :
    ∃ out, focal1 h garbage garbage' k.radius (focalDiversity isNoData k mark) order x = .ok out ∧ out.grid = x.grid ∧
      Represents out fun i j =>
        if vals isNoData wt r h x v i j = [] then mark else (vals isNoData wt r h x v i j).toFinset.card := by
  rw [hk.radius_eq]
  exact focal1_spec h garbage garbage' r _ hx hl _ (fun i j _ _ => focalDiversity_ok hk mark _ i j) ho

/-- focal_high_pass. The value of the focal cell is used whether or not it is valid: for no-data represented by NaN the
result is NaN, for other representations of no-data it is a number. -/
theorem focal_high_pass_spec [Ring α] (mark : α) :
    ∃ out, focal1 h garbage garbage k.radius (focalHighPass isNoData k mark) order x = .ok out ∧ out.grid = x.grid ∧
      Represents out fun i j =>
        let nbs := neighbourValues isNoData wt (extended h x.grid.a0 x.grid.a1 v) r i j
        if nbs = [] then mark else 2 * v i j * (nbs.length : α) - nbs.sum := by
  rw [hk.radius_eq]
  refine focal1_spec h garbage garbage r _ hx hl _ (fun i j hi hj => ?_) ho
  rw [focalHighPass_ok hk mark _ i j]
  have : extended h x.grid.a0 x.grid.a1 v i j = v i j := by
    unfold extended
    rw [if_neg (by omega), if_pos (by omega), if_neg (by omega), if_pos (by omega)]
    rfl
  rw [this]

end

theorem convolve_spec [AddCommMonoid α] [Mul α] {isNoData : α → Bool} {k : Kernel α} {wt : Nat → Nat → α} {r : Nat}
    (hk : IsKernel k r wt) (h : Halo α) (garbage : Nat → α) {x : PArr α} {v : Arr α} (hx : Represents x v)
    (hl : LargeEnough x.grid (2 * r + 1)) {order : List Nat} (ho : IsOrder (x.grid.n0 * x.grid.n1) order) (mark : α) :
    ∃ out, focal1 h garbage garbage k.radius (convolve isNoData k mark) order x = .ok out ∧ out.grid = x.grid ∧
      Represents out fun i j =>
        let ws := weightedValues isNoData wt (extended h x.grid.a0 x.grid.a1 v) r i j
        if ws = [] then mark else ws.sum := by
  rw [hk.radius_eq]
  exact focal1_spec h garbage garbage r _ hx hl _ (fun i j _ _ => convolve_ok hk mark _ i j) ho

/-- The mean is between the minimum and the maximum. -/
theorem mean_between [Field α] [LinearOrder α] [IsStrictOrderedRing α] (l : List α) (hl : l ≠ []) {lo hi : α}
    (h1 : ∀ z ∈ l, lo ≤ z) (h2 : ∀ z ∈ l, z ≤ hi) : lo ≤ l.sum / (l.length : α) ∧ l.sum / (l.length : α) ≤ hi := by
  have hpos : (0 : α) < (l.length : α) := by
    have := List.length_pos_iff.mpr hl
    exact_mod_cast this
  constructor
  · rw [le_div_iff₀ hpos, mul_comm, ← nsmul_eq_mul]
    exact List.card_nsmul_le_sum l lo h1
  · rw [div_le_iff₀ hpos, mul_comm, ← nsmul_eq_mul]
    exact List.sum_le_card_nsmul l hi h2

/-- For each cell: focal_minimum ≤ focal_mean ≤ focal_maximum, in exact arithmetic. -/
theorem focal_min_mean_max [Field α] [LinearOrder α] [IsStrictOrderedRing α] [DecidableEq W] [Zero W]
    {isNoData : α → Bool} {k : Kernel W} {wt : Nat → Nat → W} {r : Nat}
    (hk : IsKernel k r wt) (h : Halo α) (garbage : Nat → α) {x : PArr α} {v : Arr α} (hx : Represents x v)
    (hl : LargeEnough x.grid (2 * r + 1)) {order : List Nat} (ho : IsOrder (x.grid.n0 * x.grid.n1) order)
    (zero mark : α) :
    ∃ lo mean hi wlo wmean whi,
      focal1 h garbage garbage k.radius (focalMinimum isNoData k zero mark) order x = .ok lo ∧ Represents lo wlo ∧
      focal1 h garbage garbage k.radius (focalMean isNoData k (fun s n => s / (n : α)) mark) order x = .ok mean ∧
      Represents mean wmean ∧
      focal1 h garbage garbage k.radius (focalMaximum isNoData k zero mark) order x = .ok hi ∧ Represents hi whi ∧
      ∀ i j, i < x.grid.a0 → j < x.grid.a1 → wlo i j ≤ wmean i j ∧ wmean i j ≤ whi i j := by
  obtain ⟨lo, wlo, h1, _, h2, h3⟩ := focal_minimum_spec (isNoData := isNoData) hk h garbage hx hl ho zero mark
  obtain ⟨hi, whi, h4, _, h5, h6⟩ := focal_maximum_spec (isNoData := isNoData) hk h garbage hx hl ho zero mark
  obtain ⟨mean, h7, _, h8⟩ := focal_mean_spec (isNoData := isNoData) hk h garbage hx hl ho (fun s n => s / (n : α)) mark
  refine ⟨lo, mean, hi, wlo, _, whi, h1, h2, h7, h8, h4, h5, fun i j _ _ => ?_⟩
  by_cases he : vals isNoData wt r h x v i j = []
  · rw [(h3 i j).1 he, (h6 i j).1 he]
    simp only [he, if_true]
    exact ⟨le_refl _, le_refl _⟩
  · simp only [he, if_false]
    exact mean_between _ he ((h3 i j).2 he).2 ((h6 i j).2 he).2

/-! #### Examples -/

/-- An array of 3 × 6 cells in two partitions, with no-data in one cell (999), and a box kernel with radius 1. -/
example : (focal1 (⟨999, 999, 999, 999, 999, 999, 999, 999⟩ : Halo Nat) (fun _ => 7) (fun _ => 7) 1
      (focalSum (fun y => y == 999) (boxKernel 1 (1 : Nat)) 999) [1, 0]
      ⟨⟨3, 6, 3, 3⟩, [[0, 1, 2, 10, 11, 999, 20, 21, 22], [3, 4, 5, 13, 14, 15, 23, 24, 25]]⟩).map (fun y => y.parts) =
    .ok [[22, 24, 30, 63, 87, 96, 62, 84, 90], [36, 54, 38, 105, 126, 87, 96, 114, 78]] := by
  rfl

/-- The values that are found in a window, and the majority of those. -/
example : focalValues (fun y : Nat => y == 999) (fun _ _ => 1)
    (extended ⟨999, 999, 999, 999, 999, 999, 999, 999⟩ 2 2 fun i j => if i = j then 5 else 3 + i) 1 0 0 = [5, 3, 4, 5] ∧
    IsMajority [5, 3, 4, 5] 5 ∧ IsMajority [5, 3, 3, 5, 8] 3 := by
  refine ⟨by decide, by unfold IsMajority; decide, by unfold IsMajority; decide⟩

end Lue.FocalStats

import Verif.Scalability.Runs
import Mathlib.Analysis.SpecialFunctions.Pow.Real
import Mathlib.Algebra.Order.BigOperators.Group.List
import Mathlib.Tactic.NormNum

/-!
# Scalability experiments: ranges of shapes

Models `range_of_shapes`, `source/quality_assurance/scalability/command/scalability/experiment/shape.py:107-162` (`S` below).
Simplification: real numbers instead of floating point numbers.
-/
namespace Lue.Scalability

/-- `method` -/
inductive Method where
  | linear | exponential
  deriving DecidableEq, Repr

/-- The loop for method "linear", with a bound on the number of iterations: `S:137-147` -/
def linearSizes : Nat → Nat → Nat → Nat → Nat → List Nat → Except Err (List Nat)
  | 0, _, _, _, _, _ => .error .diverged
  | fuel + 1, first, multiplier, maxNr, i, sizes =>
    if first + i * (multiplier - 1) * first ≤ maxNr then
      linearSizes fuel first multiplier maxNr (i + 1) (sizes ++ [first + i * (multiplier - 1) * first])
    else .ok sizes

/-- The loop for method "exponential", idem: `S:149-153`. `last` is `sizes[-1]`. -/
def exponentialSizes : Nat → Nat → Nat → Nat → List Nat → Except Err (List Nat)
  | 0, _, _, _, _ => .error .diverged
  | fuel + 1, multiplier, maxNr, last, sizes =>
    if multiplier * last ≤ maxNr then exponentialSizes fuel multiplier maxNr (multiplier * last) (sizes ++ [multiplier * last])
    else .ok sizes

/-- Numbers of elements of the shapes: `S:131-153` -/
def rangeOfSizes (method : Method) (first multiplier maxNr : Nat) : Except Err (List Nat) := do
  require (1 < multiplier)
  match method with
  | .linear => linearSizes (maxNr + 2) first multiplier maxNr 1 [first]
  | .exponential => exponentialSizes (maxNr + 2) multiplier maxNr first [first]

/-- The largest extent -/
def maxExtent (shape : List Nat) : Nat := shape.foldl max 0

/-- `shape(nr_elements, normalized_shape)`: `S:118-129, 155-156` -/
noncomputable def shapeOf (minShape : List Nat) (size : Nat) : List Nat :=
  minShape.map fun (e : Nat) => ⌊(size : ℝ) ^ (1 / (minShape.length : ℝ)) * ((e : ℝ) / maxExtent minShape)⌋₊

/-- `range_of_shapes`: `S:107-162` -/
noncomputable def rangeOfShapes (minShape : List Nat) (method : Method) (multiplier maxNr : Nat) :
    Except Err (List (List Nat)) := do
  let sizes ← rangeOfSizes method (nrElements minShape) multiplier maxNr
  .ok (sizes.map (shapeOf minShape))

/-! ### Sizes -/

/-- The numbers of elements asked for. -/
def WantedSize (method : Method) (first multiplier maxNr n : Nat) : Prop :=
  n = first ∨ (n ≤ maxNr ∧ ∃ i, match method with
    | .linear => n = first + i * ((multiplier - 1) * first)
    | .exponential => n = first * multiplier ^ i)

theorem linearSizes_spec {first m maxNr : Nat} (hm : 1 < m) (h0 : 0 < first) :
    ∀ fuel i sizes, maxNr < fuel + i →
      ∃ k, linearSizes (fuel + 1) first m maxNr i sizes =
          .ok (sizes ++ (List.range k).map fun x => first + (i + x) * (m - 1) * first) ∧
        (∀ x, x < k → first + (i + x) * (m - 1) * first ≤ maxNr) ∧ maxNr < first + (i + k) * (m - 1) * first
  | fuel, i, sizes, hf => by
    unfold linearSizes
    by_cases hc : first + i * (m - 1) * first ≤ maxNr
    · rw [if_pos hc]
      have hpos : 1 ≤ (m - 1) * first := Nat.mul_pos (by omega) h0
      have hi : i ≤ i * (m - 1) * first := by
        rw [Nat.mul_assoc]
        exact Nat.le_mul_of_pos_right _ hpos
      cases fuel with
      | zero => omega
      | succ fuel =>
        obtain ⟨k, h1, h2, h3⟩ := linearSizes_spec (maxNr := maxNr) hm h0 fuel (i + 1) (sizes ++ [first + i * (m - 1) * first]) (by omega)
        refine ⟨k + 1, ?_, ?_, ?_⟩
        · rw [h1, List.append_assoc]
          congr 2
          rw [List.range_succ_eq_map, List.map_cons, List.map_map, List.singleton_append]
          congr 1
          apply List.map_congr_left
          intro x _
          show first + (i + 1 + x) * (m - 1) * first = first + (i + (x + 1)) * (m - 1) * first
          rw [show i + 1 + x = i + (x + 1) by omega]
        · intro x hx
          cases x with
          | zero => exact hc
          | succ x =>
            have := h2 x (by omega)
            rwa [show i + 1 + x = i + (x + 1) by omega] at this
        · rwa [show i + 1 + k = i + (k + 1) by omega] at h3
    · rw [if_neg hc]
      exact ⟨0, by simp, fun x hx => by omega, by simpa using hc⟩

theorem exponentialSizes_spec {m maxNr : Nat} (hm : 1 < m) :
    ∀ fuel last sizes, 0 < last → maxNr < fuel + last →
      ∃ k, exponentialSizes (fuel + 1) m maxNr last sizes =
          .ok (sizes ++ (List.range k).map fun x => last * m ^ (x + 1)) ∧
        (∀ x, x < k → last * m ^ (x + 1) ≤ maxNr) ∧ maxNr < last * m ^ (k + 1)
  | fuel, last, sizes, h0, hf => by
    unfold exponentialSizes
    have h2 : last * 2 ≤ last * m := Nat.mul_le_mul_left _ hm
    by_cases hc : m * last ≤ maxNr
    · rw [if_pos hc]
      have hc' : last * m ≤ maxNr := by rw [Nat.mul_comm]; exact hc
      cases fuel with
      | zero => omega
      | succ fuel =>
        obtain ⟨k, h1, h2, h3⟩ := exponentialSizes_spec (maxNr := maxNr) hm fuel (m * last) (sizes ++ [m * last])
          (by rw [Nat.mul_comm]; omega) (by rw [Nat.mul_comm]; omega)
        have e : ∀ x, m * last * m ^ (x + 1) = last * m ^ (x + 1 + 1) := fun x => by ring
        refine ⟨k + 1, ?_, ?_, ?_⟩
        · rw [h1, List.append_assoc]
          congr 2
          rw [List.range_succ_eq_map, List.map_cons, List.map_map, List.singleton_append]
          congr 1
          · ring
          · apply List.map_congr_left
            intro x _
            exact e x
        · intro x hx
          cases x with
          | zero => rw [Nat.zero_add, Nat.pow_one]; exact hc'
          | succ x => rw [← e]; exact h2 x (by omega)
        · rw [← e]; exact h3
    · rw [if_neg hc]
      refine ⟨0, by simp, fun x hx => by omega, ?_⟩
      rw [Nat.zero_add, Nat.pow_one, Nat.mul_comm]
      omega

/-- C63: a range of shapes has the numbers of elements asked for, in increasing order: the first one is the number of
elements in the smallest shape, and none of the other ones is larger than the maximum. -/
theorem sizes_range (method : Method) {first m maxNr : Nat} (hm : 1 < m) (h0 : 0 < first) :
    ∃ sizes, rangeOfSizes method first m maxNr = .ok sizes ∧ sizes.head? = some first ∧ sizes.Pairwise (· < ·) ∧
      ∀ n, n ∈ sizes ↔ WantedSize method first m maxNr n := by
  unfold rangeOfSizes WantedSize
  rw [require_pos hm]
  cases method with
  | linear =>
    obtain ⟨k, h1, h2, h3⟩ := linearSizes_spec (maxNr := maxNr) hm h0 (maxNr + 1) 1 [first] (by omega)
    refine ⟨_, h1, rfl, ?_, ?_⟩
    · have hpos : 1 ≤ (m - 1) * first := Nat.mul_pos (by omega) h0
      rw [List.singleton_append, List.pairwise_cons]
      constructor
      · intro n hn
        obtain ⟨x, _, rfl⟩ := List.mem_map.mp hn
        have : 0 < (1 + x) * (m - 1) * first := by
          rw [Nat.mul_assoc]
          exact Nat.mul_pos (by omega) hpos
        omega
      · rw [List.pairwise_map]
        refine List.pairwise_lt_range.imp ?_
        intro x y hxy
        have : (1 + x) * ((m - 1) * first) < (1 + y) * ((m - 1) * first) := Nat.mul_lt_mul_of_pos_right (by omega) hpos
        rw [Nat.mul_assoc, Nat.mul_assoc]
        omega
    · intro n
      rw [List.singleton_append, List.mem_cons]
      constructor
      · rintro (rfl | hn)
        · exact Or.inl rfl
        · obtain ⟨x, hx, rfl⟩ := List.mem_map.mp hn
          exact Or.inr ⟨h2 x (List.mem_range.mp hx), 1 + x, by rw [Nat.mul_assoc]⟩
      · rintro (rfl | ⟨hle, i, hi⟩)
        · exact Or.inl rfl
        · dsimp only at hi
          cases i with
          | zero => left; omega
          | succ i =>
            right
            refine List.mem_map.mpr ⟨i, List.mem_range.mpr ?_, ?_⟩
            · by_contra hc
              have : (1 + k) * ((m - 1) * first) ≤ (i + 1) * ((m - 1) * first) := Nat.mul_le_mul_right _ (by omega)
              rw [Nat.mul_assoc] at h3
              omega
            · rw [hi, Nat.mul_assoc, Nat.add_comm 1 i]
  | exponential =>
    obtain ⟨k, h1, h2, h3⟩ := exponentialSizes_spec (maxNr := maxNr) hm (maxNr + 1) first [first] h0 (by omega)
    refine ⟨_, h1, rfl, ?_, ?_⟩
    · rw [List.singleton_append, List.pairwise_cons]
      constructor
      · intro n hn
        obtain ⟨x, _, rfl⟩ := List.mem_map.mp hn
        have : 1 < m ^ (x + 1) := Nat.one_lt_pow (by omega) hm
        exact lt_mul_of_one_lt_right h0 this
      · rw [List.pairwise_map]
        refine List.pairwise_lt_range.imp ?_
        intro x y hxy
        exact Nat.mul_lt_mul_of_pos_left (Nat.pow_lt_pow_right hm (by omega)) h0
    · intro n
      rw [List.singleton_append, List.mem_cons]
      constructor
      · rintro (rfl | hn)
        · exact Or.inl rfl
        · obtain ⟨x, hx, rfl⟩ := List.mem_map.mp hn
          exact Or.inr ⟨h2 x (List.mem_range.mp hx), x + 1, rfl⟩
      · rintro (rfl | ⟨hle, i, hi⟩)
        · exact Or.inl rfl
        · dsimp only at hi
          cases i with
          | zero => left; rw [hi]; simp
          | succ i =>
            right
            refine List.mem_map.mpr ⟨i, List.mem_range.mpr ?_, hi.symm⟩
            by_contra hc
            have : m ^ (k + 1) ≤ m ^ (i + 1) := Nat.pow_le_pow_right (by omega) (by omega)
            have := Nat.mul_le_mul_left first this
            omega

/-! ### Shapes -/

theorem nrElements_prod (l : List Nat) : nrElements l = l.prod := by
  unfold nrElements
  have : ∀ (l : List Nat) (a : Nat), l.foldl (· * ·) a = a * l.prod := by
    intro l
    induction l with
    | nil => intro a; simp
    | cons x l ih =>
      intro a
      rw [List.foldl_cons, ih, List.prod_cons, Nat.mul_assoc]
  rw [this, Nat.one_mul]

theorem foldl_max_le (l : List Nat) : ∀ a, a ≤ l.foldl max a ∧ ∀ x ∈ l, x ≤ l.foldl max a := by
  induction l with
  | nil => exact fun a => ⟨Nat.le_refl _, fun x hx => by cases hx⟩
  | cons y l ih =>
    intro a
    obtain ⟨h1, h2⟩ := ih (max a y)
    refine ⟨Nat.le_trans (Nat.le_max_left _ _) h1, ?_⟩
    intro x hx
    rcases List.mem_cons.mp hx with rfl | hx
    · exact Nat.le_trans (Nat.le_max_right _ _) h1
    · exact h2 x hx

theorem le_maxExtent {l : List Nat} {x : Nat} (h : x ∈ l) : x ≤ maxExtent l := (foldl_max_le l 0).2 x h

theorem prod_floor_le (g : ℝ) (hg : 0 ≤ g) (M : Nat) :
    ∀ l : List Nat, (∀ x ∈ l, x ≤ M) → (((l.map fun (e : Nat) => ⌊g * ((e : ℝ) / M)⌋₊).prod : Nat) : ℝ) ≤ g ^ l.length
  | [], _ => by simp
  | e :: l, h => by
    rw [List.map_cons, List.prod_cons, Nat.cast_mul, List.length_cons, pow_succ, mul_comm (g ^ l.length)]
    have he : (e : ℝ) / M ≤ 1 := by
      have : (e : ℝ) ≤ M := by exact_mod_cast h e List.mem_cons_self
      exact div_le_one_of_le₀ this (Nat.cast_nonneg _)
    have h0 : 0 ≤ g * ((e : ℝ) / M) := mul_nonneg hg (div_nonneg (Nat.cast_nonneg _) (Nat.cast_nonneg _))
    have h1 : ((⌊g * ((e : ℝ) / M)⌋₊ : Nat) : ℝ) ≤ g :=
      le_trans (Nat.floor_le h0) (by nlinarith)
    have h2 := prod_floor_le g hg M l fun x hx => h x (List.mem_cons_of_mem _ hx)
    exact mul_le_mul h1 h2 (Nat.cast_nonneg _) hg

/-- C63: none of the shapes has more elements than asked for. -/
theorem shape_size_le (minShape : List Nat) (h : minShape ≠ []) (size : Nat) :
    nrElements (shapeOf minShape size) ≤ size := by
  have hr : (minShape.length : ℝ) ≠ 0 := by
    have := List.length_pos_of_ne_nil h
    exact_mod_cast this.ne'
  rw [nrElements_prod]
  unfold shapeOf
  have h1 := prod_floor_le ((size : ℝ) ^ (1 / (minShape.length : ℝ))) (Real.rpow_nonneg (Nat.cast_nonneg _) _)
    (maxExtent minShape) minShape fun x hx => le_maxExtent hx
  rw [← Real.rpow_natCast, ← Real.rpow_mul (Nat.cast_nonneg _), one_div_mul_cancel hr, Real.rpow_one] at h1
  exact_mod_cast h1

/-- C63: if all extents of the smallest shape are the same, then this shape is the first one. -/
theorem first_shape_square (e r : Nat) (hr : 0 < r) (he : 0 < e) :
    shapeOf (List.replicate r e) (nrElements (List.replicate r e)) = List.replicate r e := by
  have hm : maxExtent (List.replicate r e) = e := by
    unfold maxExtent
    obtain ⟨r, rfl⟩ : ∃ k, r = k + 1 := ⟨r - 1, by omega⟩
    have : ∀ k, (List.replicate k e).foldl max e = e := by
      intro k
      induction k with
      | zero => rfl
      | succ k ih => rw [List.replicate_succ, List.foldl_cons, Nat.max_self, ih]
    rw [List.replicate_succ, List.foldl_cons, Nat.zero_max, this]
  unfold shapeOf
  rw [hm, List.map_replicate, nrElements_prod, List.prod_replicate, List.length_replicate]
  congr 1
  have hr' : (r : ℝ) ≠ 0 := by exact_mod_cast hr.ne'
  have he' : (e : ℝ) ≠ 0 := by exact_mod_cast he.ne'
  rw [Nat.cast_pow, ← Real.rpow_natCast, ← Real.rpow_mul (Nat.cast_nonneg _), mul_one_div_cancel hr', Real.rpow_one,
    div_self he', mul_one, Nat.floor_natCast]

/-- C63, finding: otherwise, the first shape is not the smallest shape passed in, contrary to what is documented
(`S:108-109`). The number of elements asked for is that of the smallest shape, but the shape is smaller. -/
theorem first_shape_other : shapeOf [10, 20] (nrElements [10, 20]) = [7, 14] := by
  have hn : nrElements [10, 20] = 200 := rfl
  have hm : maxExtent [10, 20] = 20 := rfl
  have hs : (200 : ℝ) ^ (1 / ((2 : Nat) : ℝ)) = Real.sqrt 200 := by
    rw [Real.sqrt_eq_rpow]
    norm_num
  have hlo : (14 : ℝ) ≤ Real.sqrt 200 := by
    apply Real.le_sqrt_of_sq_le
    norm_num
  have hhi : Real.sqrt 200 < 15 := by
    rw [Real.sqrt_lt' (by norm_num)]
    norm_num
  unfold shapeOf
  rw [hn, hm]
  show [⌊((200 : Nat) : ℝ) ^ (1 / ((2 : Nat) : ℝ)) * (((10 : Nat) : ℝ) / ((20 : Nat) : ℝ))⌋₊,
    ⌊((200 : Nat) : ℝ) ^ (1 / ((2 : Nat) : ℝ)) * (((20 : Nat) : ℝ) / ((20 : Nat) : ℝ))⌋₊] = [7, 14]
  have e1 : ⌊((200 : Nat) : ℝ) ^ (1 / ((2 : Nat) : ℝ)) * (((10 : Nat) : ℝ) / ((20 : Nat) : ℝ))⌋₊ = 7 := by
    rw [show ((200 : Nat) : ℝ) = 200 by norm_num, hs, Nat.floor_eq_iff (by positivity)]
    push_cast
    constructor <;> linarith
  have e2 : ⌊((200 : Nat) : ℝ) ^ (1 / ((2 : Nat) : ℝ)) * (((20 : Nat) : ℝ) / ((20 : Nat) : ℝ))⌋₊ = 14 := by
    rw [show ((200 : Nat) : ℝ) = 200 by norm_num, hs, Nat.floor_eq_iff (by positivity)]
    push_cast
    constructor <;> linarith
  rw [e1, e2]

example : rangeOfSizes .exponential 200 2 1000 = .ok [200, 400, 800] := by decide +kernel

example : rangeOfSizes .linear 200 2 1000 = .ok [200, 400, 600, 800, 1000] := by decide +kernel

end Lue.Scalability

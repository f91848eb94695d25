import Verif.Terrain.Model
import Verif.FocalStats.Properties
import Verif.LocalOp.Properties
import Mathlib.Tactic.FieldSimp
import Mathlib.Tactic.Linarith
import Mathlib.Tactic.Positivity
import Mathlib.Tactic.IntervalCases
import Mathlib.Tactic.FinCases
import Mathlib.Tactic.NormNum

/-!
C39: gradients, slope and aspect, for all arrays, partitionings and orders of completion.
-/
namespace Lue.Terrain

open Lue.Focal Lue.FocalStats Lue.LocalOp

/-! ### Specification -/

/-- The elevation of a cell of an array of `a0` × `a1` cells. There is none outside of the array. -/
def cellAt (a0 a1 : Nat) (z : Arr Fl) (i j : Int) : Fl :=
  if 0 ≤ i ∧ i < a0 ∧ 0 ≤ j ∧ j < a1 then z i.toNat j.toNat else .nan

/-- The difference between the elevations to the east and to the west of a cell (Horn, 1981), eight times the distance between
cells. The columns are numbered from west to east. Elevations which are missing are zero. -/
noncomputable def hornX (a0 a1 : Nat) (z : Arr Fl) (i j : Nat) : ℝ :=
  let g := fun (di dj : Int) => (cellAt a0 a1 z (i + di) (j + dj)).get
  (g (-1) 1 + 2 * g 0 1 + g 1 1) - (g (-1) (-1) + 2 * g 0 (-1) + g 1 (-1))

/-- Same, for the elevations to the south and to the north. The rows are numbered from north to south. -/
noncomputable def hornY (a0 a1 : Nat) (z : Arr Fl) (i j : Nat) : ℝ :=
  let g := fun (di dj : Int) => (cellAt a0 a1 z (i + di) (j + dj)).get
  (g 1 (-1) + 2 * g 1 0 + g 1 1) - (g (-1) (-1) + 2 * g (-1) 0 + g (-1) 1)

/-- There is no elevation for the cell itself, nor for any of the surrounding cells. -/
def NoneKnown (a0 a1 : Nat) (z : Arr Fl) (i j : Nat) : Prop :=
  ∀ di dj : Int, -1 ≤ di → di ≤ 1 → -1 ≤ dj → dj ≤ 1 → cellAt a0 a1 z (i + di) (j + dj) = .nan

/-- All elevations are known, and the cell is not at the border of the array. -/
def AllKnown (a0 a1 : Nat) (z : Arr Fl) (i j : Nat) : Prop :=
  ∀ di dj : Int, -1 ≤ di → di ≤ 1 → -1 ≤ dj → dj ≤ 1 → cellAt a0 a1 z (i + di) (j + dj) ≠ .nan

/-- The cell size is not a number, or zero. -/
def BadCellSize (cs : Fl) : Prop := cs = .nan ∨ cs = .num 0

open Classical in
/-- What must be computed: no-data if the cell size is bad or nothing is known, otherwise something depending on the gradients. -/
noncomputable def perCell (a0 a1 : Nat) (z : Arr Fl) (cs : Fl) (f : ℝ → ℝ → ℝ) (i j : Nat) : Fl :=
  if BadCellSize cs ∨ NoneKnown a0 a1 z i j then .nan
  else .num (f (hornX a0 a1 z i j / (8 * cs.get)) (hornY a0 a1 z i j / (8 * cs.get)))

/-! ### Floating point numbers -/

noncomputable section

theorem num_add (x y : ℝ) : Fl.num x + Fl.num y = Fl.num (x + y) := rfl
theorem num_mul (x y : ℝ) : Fl.num x * Fl.num y = Fl.num (x * y) := rfl
theorem zero_eq : (0 : Fl) = .num 0 := rfl

instance : AddCommMonoid Fl where
  add_assoc := by
    intro a b c
    cases a <;> cases b <;> cases c <;> first | rfl | (simp only [num_add, add_assoc])
  zero_add := by intro a; cases a with | nan => rfl | num x => simp only [zero_eq, num_add, zero_add]
  add_zero := by intro a; cases a with | nan => rfl | num x => simp only [zero_eq, num_add, add_zero]
  add_comm := by
    intro a b
    cases a <;> cases b <;> first | rfl | (simp only [num_add, add_comm])
  nsmul := nsmulRec

theorem isNaN_iff (x : Fl) : isNaN x = true ↔ x = .nan := by cases x <;> simp [isNaN]

theorem sum_weighted {ι : Type} (w : ι → ℝ) (val : ι → Fl) (l : List ι) :
    ((l.filter fun d => isNaN (val d) = false).map fun d => Fl.num (w d) * val d).sum =
      .num ((l.map fun d => w d * (val d).get).sum) := by
  induction l with
  | nil => rfl
  | cons d l ih =>
    rw [List.filter_cons]
    cases hv : val d with
    | nan =>
      rw [if_neg (by simp [isNaN]), ih, List.map_cons, List.sum_cons, hv]
      simp [Fl.get]
    | num x =>
      rw [if_pos (by simp [isNaN]), List.map_cons, List.sum_cons, ih, hv, num_mul, num_add, List.map_cons, List.sum_cons, hv]
      rfl

/-! ### Gradients -/

theorem extended_nan (a0 a1 : Nat) (z : Arr Fl) (i j : Int) : extended nanHalo a0 a1 z i j = cellAt a0 a1 z i j := by
  unfold extended cellAt nanHalo
  split_ifs <;> first | rfl | (exfalso; omega)

/-- The weights of a kernel -/
def weightOf (k : Kernel Fl) (i j : Nat) : ℝ := ((k.data[i * 3 + j]?).getD .nan).get

theorem isKernel_dzDx : IsKernel dzDxKernel 1 (fun i j => .num (weightOf dzDxKernel i j)) where
  extent_eq := rfl
  get_eq := by
    intro i j hi hj
    interval_cases i <;> interval_cases j <;> rfl

theorem isKernel_dzDy : IsKernel dzDyKernel 1 (fun i j => .num (weightOf dzDyKernel i j)) where
  extent_eq := rfl
  get_eq := by
    intro i j hi hj
    interval_cases i <;> interval_cases j <;> rfl

theorem offsets_one : offsets 1 = [(0, 0), (0, 1), (0, 2), (1, 0), (1, 1), (1, 2), (2, 0), (2, 1), (2, 2)] := by decide

theorem noneKnown_iff (a0 a1 : Nat) (z : Arr Fl) (w : Nat → Nat → Fl) (i j : Nat) :
    weightedValues isNaN w (extended nanHalo a0 a1 z) 1 i j = [] ↔ NoneKnown a0 a1 z i j := by
  unfold weightedValues NoneKnown
  rw [List.map_eq_nil_iff, List.filter_eq_nil_iff]
  constructor
  · intro h di dj h1 h2 h3 h4
    have := h ((di + 1).toNat, (dj + 1).toNat) (by
      rw [offsets_one]
      have e1 : di = -1 ∨ di = 0 ∨ di = 1 := by omega
      have e2 : dj = -1 ∨ dj = 0 ∨ dj = 1 := by omega
      rcases e1 with rfl | rfl | rfl <;> rcases e2 with rfl | rfl | rfl <;> decide)
    simp only [at_, extended_nan, decide_eq_true_eq, Bool.not_eq_false, isNaN_iff] at this
    rw [← this]
    congr 1 <;> omega
  · intro h d hd
    simp only [at_, extended_nan, decide_eq_true_eq, Bool.not_eq_false, isNaN_iff]
    have hd' : d.1 < 3 ∧ d.2 < 3 := by
      rw [offsets_one] at hd
      fin_cases hd <;> decide
    have := h ((d.1 : Int) - 1) ((d.2 : Int) - 1) (by omega) (by omega) (by omega) (by omega)
    rw [← this]
    congr 1 <;> push_cast <;> omega

theorem horn_sum (a0 a1 : Nat) (z : Arr Fl) (k : Kernel Fl) (i j : Nat) :
    (weightedValues isNaN (fun i j => .num (weightOf k i j)) (extended nanHalo a0 a1 z) 1 i j).sum =
      .num (∑ d0 ∈ Finset.range 3, ∑ d1 ∈ Finset.range 3,
        weightOf k d0 d1 * (cellAt a0 a1 z ((i : Int) + ((d0 : Int) - 1)) ((j : Int) + ((d1 : Int) - 1))).get) := by
  unfold weightedValues
  have := sum_weighted (fun d : Nat × Nat => weightOf k d.1 d.2) (fun d => at_ (extended nanHalo a0 a1 z) 1 i j d) (offsets 1)
  rw [this, offsets_one]
  congr 1
  simp only [Finset.sum_range_succ, Finset.sum_range_zero, List.map_cons, List.map_nil, List.sum_cons, List.sum_nil, at_,
    extended_nan]
  have e : ∀ (a b : Nat), (i : Int) - ((1 : Nat) : Int) + ((a : Nat) : Int) = (i : Int) + ((a : Int) - 1) := by
    intro a b; push_cast; omega
  have e' : ∀ (a b : Nat), (j : Int) - ((1 : Nat) : Int) + ((a : Nat) : Int) = (j : Int) + ((a : Int) - 1) := by
    intro a b; push_cast; omega
  simp only [e _ 0, e' _ 0]
  ring

theorem hornX_eq (a0 a1 : Nat) (z : Arr Fl) (i j : Nat) :
    (weightedValues isNaN (fun i j => .num (weightOf dzDxKernel i j)) (extended nanHalo a0 a1 z) 1 i j).sum =
      .num (hornX a0 a1 z i j) := by
  rw [horn_sum]
  congr 1
  have w00 : weightOf dzDxKernel 0 0 = -1 := rfl
  have w01 : weightOf dzDxKernel 0 1 = 0 := rfl
  have w02 : weightOf dzDxKernel 0 2 = 1 := rfl
  have w10 : weightOf dzDxKernel 1 0 = -2 := rfl
  have w11 : weightOf dzDxKernel 1 1 = 0 := rfl
  have w12 : weightOf dzDxKernel 1 2 = 2 := rfl
  have w20 : weightOf dzDxKernel 2 0 = -1 := rfl
  have w21 : weightOf dzDxKernel 2 1 = 0 := rfl
  have w22 : weightOf dzDxKernel 2 2 = 1 := rfl
  simp only [Finset.sum_range_succ, Finset.sum_range_zero, w00, w01, w02, w10, w11, w12, w20, w21, w22, hornX]
  norm_num
  ring

theorem hornY_eq (a0 a1 : Nat) (z : Arr Fl) (i j : Nat) :
    (weightedValues isNaN (fun i j => .num (weightOf dzDyKernel i j)) (extended nanHalo a0 a1 z) 1 i j).sum =
      .num (hornY a0 a1 z i j) := by
  rw [horn_sum]
  congr 1
  have w00 : weightOf dzDyKernel 0 0 = -1 := rfl
  have w01 : weightOf dzDyKernel 0 1 = -2 := rfl
  have w02 : weightOf dzDyKernel 0 2 = -1 := rfl
  have w10 : weightOf dzDyKernel 1 0 = 0 := rfl
  have w11 : weightOf dzDyKernel 1 1 = 0 := rfl
  have w12 : weightOf dzDyKernel 1 2 = 0 := rfl
  have w20 : weightOf dzDyKernel 2 0 = 1 := rfl
  have w21 : weightOf dzDyKernel 2 1 = 2 := rfl
  have w22 : weightOf dzDyKernel 2 2 = 1 := rfl
  simp only [Finset.sum_range_succ, Finset.sum_range_zero, w00, w01, w02, w10, w11, w12, w20, w21, w22, hornY]
  norm_num
  ring

/-- Dividing by eight times the cell size -/
theorem divide_spec (x cs : Fl) :
    (binarySpec dividePolicies (Fl.op (· / ·)) x (.num 8 * cs)).getD .nan =
      match x, cs with
      | .num x, .num c => if c = 0 then .nan else .num (x / (8 * c))
      | _, _ => .nan := by
  cases x with
  | nan => cases cs <;> simp [binarySpec, valid, dividePolicies, isNaN]
  | num x =>
    cases cs with
    | nan =>
      have : Fl.num 8 * Fl.nan = Fl.nan := rfl
      simp [binarySpec, valid, dividePolicies, isNaN, this]
    | num c =>
      rw [num_mul]
      by_cases hc : c = 0
      · subst hc
        simp [binarySpec, valid, dividePolicies, isNaN, guard, failure]
      · have h8 : Fl.num (8 * c) ≠ Fl.num 0 := by
          intro h
          injection h with h
          rcases mul_eq_zero.1 h with h | h
          · norm_num at h
          · exact hc h
        simp [binarySpec, valid, dividePolicies, isNaN, guard, failure, h8, hc, Fl.op]

theorem perCell_eq (a0 a1 : Nat) (z : Arr Fl) (cs : Fl) (i j : Nat) (h : ℝ) (w : Nat → Nat → Fl)
    (hs : (weightedValues isNaN w (extended nanHalo a0 a1 z) 1 i j).sum = .num h) :
    (binarySpec dividePolicies (Fl.op (· / ·))
      (if weightedValues isNaN w (extended nanHalo a0 a1 z) 1 i j = [] then .nan
        else (weightedValues isNaN w (extended nanHalo a0 a1 z) 1 i j).sum) (.num 8 * cs)).getD .nan =
    open Classical in if BadCellSize cs ∨ NoneKnown a0 a1 z i j then .nan else .num (h / (8 * cs.get)) := by
  classical
  rw [divide_spec]
  by_cases hn : NoneKnown a0 a1 z i j
  · rw [if_pos ((noneKnown_iff a0 a1 z w i j).2 hn), if_pos (Or.inr hn)]
  · rw [if_neg (fun h => hn ((noneKnown_iff a0 a1 z w i j).1 h)), hs]
    cases cs with
    | nan =>
      have hb : BadCellSize Fl.nan := Or.inl rfl
      rw [if_pos (Or.inl hb)]
    | num c =>
      by_cases hc : c = 0
      · subst hc
        have hb : BadCellSize (Fl.num 0) := Or.inr rfl
        rw [if_pos (Or.inl hb)]
        simp
      · rw [if_neg]
        · simp only [hc, if_false, Fl.get]
        · rintro ((h | h) | h)
          · exact absurd h (by simp)
          · injection h with h; exact hc h
          · exact hn h

/-- C39: gradients -/
theorem gradients_spec {x : PArr Fl} {z : Arr Fl} (hx : Represents x z) (hl : LargeEnough x.grid 3) (cs : Fl)
    {e1 e2 e3 e4 : Exec} (h1 : IsOrder (x.grid.n0 * x.grid.n1) e1.order) (h2 : IsOrder (x.grid.n0 * x.grid.n1) e2.order)
    (h3 : IsOrder (x.grid.n0 * x.grid.n1) e3.order) (h4 : IsOrder (x.grid.n0 * x.grid.n1) e4.order) :
    ∃ dx dy, gradients e1 e2 e3 e4 x cs = .ok (dx, dy) ∧ dx.grid = x.grid ∧ dy.grid = x.grid ∧
      Represents dx (perCell x.grid.a0 x.grid.a1 z cs fun gx _ => gx) ∧
      Represents dy (perCell x.grid.a0 x.grid.a1 z cs fun _ gy => gy) := by
  obtain ⟨y1, a1, b1, c1⟩ := convolve_spec isKernel_dzDx nanHalo e1.garbage hx hl h1 .nan (isNoData := isNaN)
  obtain ⟨y2, a2, b2, c2⟩ := binaryAS_spec dividePolicies (Fl.op (· / ·)) e2.garbage c1 (.num 8 * cs)
    (order := e2.order) (by rw [b1]; exact h2)
  obtain ⟨y3, a3, b3, c3⟩ := convolve_spec isKernel_dzDy nanHalo e3.garbage hx hl h3 .nan (isNoData := isNaN)
  obtain ⟨y4, a4, b4, c4⟩ := binaryAS_spec dividePolicies (Fl.op (· / ·)) e4.garbage c3 (.num 8 * cs)
    (order := e4.order) (by rw [b3]; exact h4)
  refine ⟨y2, y4, ?_, b2.trans b1, b4.trans b3, ?_, ?_⟩
  · unfold gradients
    rw [a1, M.bind_ok, a2, M.bind_ok, a3, M.bind_ok, a4, M.bind_ok]
    rfl
  · convert c2 using 1
    funext i j
    exact (perCell_eq x.grid.a0 x.grid.a1 z cs i j _ _ (hornX_eq x.grid.a0 x.grid.a1 z i j)).symm
  · convert c4 using 1
    funext i j
    exact (perCell_eq x.grid.a0 x.grid.a1 z cs i j _ _ (hornY_eq x.grid.a0 x.grid.a1 z i j)).symm

/-! ### Slope -/

theorem pow_spec (x : Fl) : (binarySpec powPolicies (Fl.op (· ^ ·)) x (.num 2)).getD .nan =
    match x with
    | .nan => .nan
    | .num x => .num (x ^ 2) := by
  cases x with
  | nan => simp [binarySpec, valid, powPolicies, isNaN]
  | num x => simp [binarySpec, valid, powPolicies, isNaN, guard, Fl.op]

theorem add_spec (x y : Fl) : (binarySpec addPolicies (Fl.op (· + ·)) x y).getD .nan = x + y := by
  cases x <;> cases y <;> simp [binarySpec, valid, addPolicies, isNaN, guard, Fl.op] <;> rfl

theorem sqrt_spec (x : Fl) (hx : 0 ≤ x.get) : (unarySpec sqrtPolicies Fl.sqrt x).getD .nan = x.sqrt := by
  cases x with
  | nan => simp [unarySpec, valid, sqrtPolicies, isNaN, Fl.sqrt]
  | num x => simp [unarySpec, valid, sqrtPolicies, isNaN, guard, failure, hx]

/-- C39: slope. In each cell it is the length of the gradient. It is no-data if and only if the cell size is not valid, or if
nothing is known about the elevation of the cell and of the surrounding cells. -/
theorem slope_spec {x : PArr Fl} {z : Arr Fl} (hx : Represents x z) (hl : LargeEnough x.grid 3) (cs : Fl)
    {e : Fin 8 → Exec} (he : ∀ k, IsOrder (x.grid.n0 * x.grid.n1) (e k).order) :
    ∃ r, slope e x cs = .ok r ∧ r.grid = x.grid ∧
      Represents r (perCell x.grid.a0 x.grid.a1 z cs fun gx gy => Real.sqrt (gx ^ 2 + gy ^ 2)) := by
  obtain ⟨dx, dy, a0, b0, b0', c0, c0'⟩ := gradients_spec hx hl cs (he 0) (he 1) (he 2) (he 3)
  obtain ⟨y1, a1, b1, c1⟩ := binaryAS_spec powPolicies (Fl.op (· ^ ·)) (e 4).garbage c0 (.num 2)
    (order := (e 4).order) (by rw [b0]; exact he 4)
  obtain ⟨y2, a2, b2, c2⟩ := binaryAS_spec powPolicies (Fl.op (· ^ ·)) (e 5).garbage c0' (.num 2)
    (order := (e 5).order) (by rw [b0']; exact he 5)
  obtain ⟨y3, a3, b3, c3⟩ := binary_spec addPolicies (Fl.op (· + ·)) (e 6).garbage c1 c2
    ((b2.trans b0').trans (b1.trans b0).symm) (order := (e 6).order) (by rw [b1, b0]; exact he 6)
  obtain ⟨y4, a4, b4, c4⟩ := unary_spec sqrtPolicies Fl.sqrt (e 7).garbage c3
    (order := (e 7).order) (by rw [b3, b1, b0]; exact he 7)
  refine ⟨y4, ?_, (b4.trans b3).trans (b1.trans b0), ?_⟩
  · unfold slope slopeOfGradients
    rw [a0, M.bind_ok]
    simp only
    rw [a1, M.bind_ok, a2, M.bind_ok, a3, M.bind_ok, a4]
  · convert c4 using 1
    funext i j
    have e1 : powPolicies.mark = Fl.nan := rfl
    have e2 : addPolicies.mark = Fl.nan := rfl
    have e3 : sqrtPolicies.mark = Fl.nan := rfl
    rw [e1, e2, e3, pow_spec, pow_spec, add_spec]
    unfold perCell
    split_ifs with hb
    · rw [sqrt_spec]
      · rfl
      · exact le_refl _
    · simp only [num_add]
      rw [sqrt_spec]
      · rfl
      · exact add_nonneg (sq_nonneg _) (sq_nonneg _)

/-- C39: the slope and the gradients of an inclined plane are exact, for cells which are not at the border of the array. -/
theorem plane_gradients {a0 a1 : Nat} {z : Arr Fl} {i j : Nat} (cs a b c : ℝ) (hcs : cs ≠ 0)
    (hi : 0 < i ∧ i + 1 < a0) (hj : 0 < j ∧ j + 1 < a1)
    (hz : ∀ k l, z k l = .num (a + b * (cs * l) + c * (cs * k))) (f : ℝ → ℝ → ℝ) :
    perCell a0 a1 z (.num cs) f i j = .num (f b c) := by
  have hcell : ∀ di dj : Int, -1 ≤ di → di ≤ 1 → -1 ≤ dj → dj ≤ 1 →
      cellAt a0 a1 z (i + di) (j + dj) = .num (a + b * (cs * ((j : ℝ) + dj)) + c * (cs * ((i : ℝ) + di))) := by
    intro di dj h1 h2 h3 h4
    unfold cellAt
    rw [if_pos ⟨by omega, by omega, by omega, by omega⟩, hz]
    have e1 : (((i : Int) + di).toNat : ℝ) = (i : ℝ) + di := by
      have : ((((i : Int) + di).toNat : Int) : ℝ) = (((i : Int) + di : Int) : ℝ) := by
        rw [Int.toNat_of_nonneg (by omega)]
      push_cast at this
      exact_mod_cast this
    have e2 : (((j : Int) + dj).toNat : ℝ) = (j : ℝ) + dj := by
      have : ((((j : Int) + dj).toNat : Int) : ℝ) = (((j : Int) + dj : Int) : ℝ) := by
        rw [Int.toNat_of_nonneg (by omega)]
      push_cast at this
      exact_mod_cast this
    rw [e1, e2]
  unfold perCell
  rw [if_neg]
  · congr 2
    · unfold hornX
      simp only
      rw [hcell _ _ (by omega) (by omega) (by omega) (by omega), hcell _ _ (by omega) (by omega) (by omega) (by omega),
        hcell _ _ (by omega) (by omega) (by omega) (by omega), hcell _ _ (by omega) (by omega) (by omega) (by omega),
        hcell _ _ (by omega) (by omega) (by omega) (by omega), hcell _ _ (by omega) (by omega) (by omega) (by omega)]
      simp only [Fl.get]
      push_cast
      field_simp
      ring
    · unfold hornY
      simp only
      rw [hcell _ _ (by omega) (by omega) (by omega) (by omega), hcell _ _ (by omega) (by omega) (by omega) (by omega),
        hcell _ _ (by omega) (by omega) (by omega) (by omega), hcell _ _ (by omega) (by omega) (by omega) (by omega),
        hcell _ _ (by omega) (by omega) (by omega) (by omega), hcell _ _ (by omega) (by omega) (by omega) (by omega)]
      simp only [Fl.get]
      push_cast
      field_simp
      ring
  · rintro ((h | h) | h)
    · exact absurd h (by simp)
    · injection h with h; exact hcs h
    · have := h 0 0 (by omega) (by omega) (by omega) (by omega)
      rw [hcell 0 0 (by omega) (by omega) (by omega) (by omega)] at this
      exact absurd this (by simp)

/-- C39, not correct: at the western border the slope of a flat surface is not zero, but depends on the elevation. -/
theorem slope_border {a0 a1 : Nat} {z : Arr Fl} {i : Nat} (cs h : ℝ) (hcs : cs ≠ 0) (hi : 0 < i ∧ i + 1 < a0) (ha : 1 < a1)
    (hz : ∀ k l, z k l = .num h) :
    perCell a0 a1 z (.num cs) (fun gx gy => Real.sqrt (gx ^ 2 + gy ^ 2)) i 0 = .num |h / (2 * cs)| := by
  have hin : ∀ di dj : Int, -1 ≤ di → di ≤ 1 → 0 ≤ dj → dj ≤ 1 → cellAt a0 a1 z (i + di) ((0 : Nat) + dj) = .num h := by
    intro di dj h1 h2 h3 h4
    unfold cellAt
    rw [if_pos ⟨by omega, by omega, by push_cast; omega, by push_cast; omega⟩, hz]
  have hout : ∀ di : Int, cellAt a0 a1 z (i + di) ((0 : Nat) + (-1)) = .nan := by
    intro di
    unfold cellAt
    rw [if_neg (by rintro ⟨_, _, h, _⟩; push_cast at h)]
  unfold perCell
  rw [if_neg]
  · congr 1
    have ex : hornX a0 a1 z i 0 = 4 * h := by
      unfold hornX
      simp only
      rw [hin (-1) 1 (by omega) (by omega) (by omega) (by omega), hin 0 1 (by omega) (by omega) (by omega) (by omega),
        hin 1 1 (by omega) (by omega) (by omega) (by omega), hout (-1), hout 0, hout 1]
      simp only [Fl.get]
      ring
    have ey : hornY a0 a1 z i 0 = 0 := by
      unfold hornY
      simp only
      rw [hin 1 0 (by omega) (by omega) (by omega) (by omega), hin 1 1 (by omega) (by omega) (by omega) (by omega),
        hin (-1) 0 (by omega) (by omega) (by omega) (by omega), hin (-1) 1 (by omega) (by omega) (by omega) (by omega), hout (-1), hout 1]
      simp only [Fl.get]
      ring
    rw [ex, ey]
    have : (4 * h / (8 * (Fl.num cs).get)) ^ 2 + (0 / (8 * (Fl.num cs).get)) ^ 2 = (h / (2 * cs)) ^ 2 := by
      simp only [Fl.get]
      field_simp
      ring
    simp only at this ⊢
    rw [this, Real.sqrt_sq_eq_abs]
  · rintro ((h | h) | h)
    · exact absurd h (by simp)
    · injection h with h; exact hcs h
    · have := h 0 0 (by omega) (by omega) (by omega) (by omega)
      rw [hin 0 0 (by omega) (by omega) (by omega) (by omega)] at this
      exact absurd this (by simp)

/-! ### Aspect -/

/-- C39: aspect. In each cell it is an angle which depends on the gradients, or no-data. -/
theorem aspect_spec {x : PArr Fl} {z : Arr Fl} (hx : Represents x z) (hl : LargeEnough x.grid 3)
    {e : Fin 5 → Exec} (he : ∀ k, IsOrder (x.grid.n0 * x.grid.n1) (e k).order) :
    ∃ r, aspect e x = .ok r ∧ r.grid = x.grid ∧
      Represents r (perCell x.grid.a0 x.grid.a1 z (.num 1) aspectAngle) := by
  obtain ⟨dx, dy, a0, b0, b0', c0, c0'⟩ := gradients_spec hx hl (.num 1) (he 0) (he 1) (he 2) (he 3)
  obtain ⟨y3, a3, b3, c3⟩ := binary_spec aspectPolicies (Fl.op aspectAngle) (e 4).garbage c0 c0'
    (b0'.trans b0.symm) (order := (e 4).order) (by rw [b0]; exact he 4)
  refine ⟨y3, ?_, b3.trans b0, ?_⟩
  · unfold aspect
    rw [a0, M.bind_ok]
    exact a3
  · convert c3 using 1
    funext i j
    unfold perCell
    split_ifs with hb
    · rfl
    · rfl

/-- C39: aspect is an angle between 0 and 2 pi. -/
theorem aspectAngle_range (gx gy : ℝ) : 0 ≤ aspectAngle gx gy ∧ aspectAngle gx gy < 2 * Real.pi := by
  have hp := Real.pi_pos
  have h1 := Real.arctan_lt_pi_div_two (gx / gy)
  have h2 := Real.neg_pi_div_two_lt_arctan (gx / gy)
  unfold aspectAngle
  split_ifs <;> constructor <;> linarith

/-- The direction (to the east, to the south) of an angle, in radians, clockwise from the north -/
def direction (θ : ℝ) : ℝ × ℝ := (Real.sin θ, -Real.cos θ)

/-- C39: if the surface only changes in one direction, the angle is that of the gradient: the direction in which the elevation
increases. -/
theorem aspectAngle_axis (g : ℝ) (hg : 0 < g) :
    direction (aspectAngle g 0) = (1, 0) ∧ direction (aspectAngle (-g) 0) = (-1, 0) ∧
    direction (aspectAngle 0 g) = (0, 1) ∧ direction (aspectAngle 0 (-g)) = (0, -1) := by
  have hn : ¬ g < 0 := not_lt.2 hg.le
  refine ⟨?_, ?_, ?_, ?_⟩
  · simp [direction, aspectAngle, hg.ne', hn, hg]
  · have e : Real.pi + Real.pi / 2 = Real.pi / 2 + Real.pi := add_comm _ _
    simp [direction, aspectAngle, hg.ne', hg, e, Real.sin_add_pi, Real.cos_add_pi]
  · simp [direction, aspectAngle, hn, hg]
  · simp [direction, aspectAngle, hg]

/-- C39: what is computed if both gradients are not zero: the components of the direction of the gradient are swapped. -/
theorem aspectAngle_swapped (gx gy : ℝ) (hx : gx ≠ 0) (hy : gy ≠ 0) :
    direction (aspectAngle gx gy) =
      (SignType.sign gx * |gy| / Real.sqrt (gx ^ 2 + gy ^ 2), SignType.sign gy * |gx| / Real.sqrt (gx ^ 2 + gy ^ 2)) := by
  have hs : Real.sqrt (1 + (gx / gy) ^ 2) = Real.sqrt (gx ^ 2 + gy ^ 2) / |gy| := by
    have : 1 + (gx / gy) ^ 2 = (gx ^ 2 + gy ^ 2) / gy ^ 2 := by field_simp; ring
    rw [this, Real.sqrt_div (by positivity), Real.sqrt_sq_eq_abs]
  have hpos : 0 < Real.sqrt (gx ^ 2 + gy ^ 2) := Real.sqrt_pos.2 (by positivity)
  have hay : 0 < |gy| := abs_pos.2 hy
  have hsin : Real.sin (Real.arctan (gx / gy)) = gx / gy * |gy| / Real.sqrt (gx ^ 2 + gy ^ 2) := by
    rw [Real.sin_arctan, hs]
    field_simp
  have hcos : Real.cos (Real.arctan (gx / gy)) = |gy| / Real.sqrt (gx ^ 2 + gy ^ 2) := by
    rw [Real.cos_arctan, hs]
    field_simp
  have e : ∀ t : ℝ, t + (Real.pi + Real.pi / 2) = (t + Real.pi / 2) + Real.pi := fun t => by ring
  rcases lt_or_gt_of_ne hx with hx' | hx' <;> rcases lt_or_gt_of_ne hy with hy' | hy'
  · simp only [direction, aspectAngle, hx, hy, if_false, hx', if_true, e, Real.sin_add_pi, Real.cos_add_pi,
      Real.sin_add_pi_div_two, Real.cos_add_pi_div_two, hsin, hcos, sign_neg hx', sign_neg hy', abs_of_neg hx', abs_of_neg hy']
    norm_num
    constructor <;> field_simp
  · simp only [direction, aspectAngle, hx, hy, if_false, hx', if_true, e, Real.sin_add_pi, Real.cos_add_pi,
      Real.sin_add_pi_div_two, Real.cos_add_pi_div_two, hsin, hcos, sign_neg hx', sign_pos hy', abs_of_neg hx', abs_of_pos hy']
    norm_num
    constructor <;> field_simp
  · simp only [direction, aspectAngle, hx, hy, if_false, not_lt.2 hx'.le, Real.sin_add_pi_div_two, Real.cos_add_pi_div_two, hsin, hcos,
      sign_pos hx', sign_neg hy', abs_of_pos hx', abs_of_neg hy']
    norm_num
    field_simp
  · simp only [direction, aspectAngle, hx, hy, if_false, not_lt.2 hx'.le, Real.sin_add_pi_div_two, Real.cos_add_pi_div_two, hsin, hcos,
      sign_pos hx', sign_pos hy', abs_of_pos hx', abs_of_pos hy']
    norm_num
    field_simp

/-- C39, not correct: the angle computed is that of the gradient only if the surface changes in one direction, or equally in both
directions. -/
theorem aspectAngle_correct_iff (gx gy : ℝ) (hx : gx ≠ 0) (hy : gy ≠ 0) :
    direction (aspectAngle gx gy) = (gx / Real.sqrt (gx ^ 2 + gy ^ 2), gy / Real.sqrt (gx ^ 2 + gy ^ 2)) ↔ |gx| = |gy| := by
  have hpos : 0 < Real.sqrt (gx ^ 2 + gy ^ 2) := Real.sqrt_pos.2 (by positivity)
  rw [aspectAngle_swapped gx gy hx hy, Prod.mk.injEq, div_left_inj' hpos.ne', div_left_inj' hpos.ne']
  constructor
  · rintro ⟨h1, _⟩
    have := congrArg abs h1
    rw [abs_mul, abs_abs] at this
    rcases lt_or_gt_of_ne hx with hx' | hx'
    · rw [sign_neg hx'] at this; norm_num at this; exact this.symm
    · rw [sign_pos hx'] at this; norm_num at this; exact this.symm
  · intro h
    rw [h]
    refine ⟨?_, sign_mul_abs gy⟩
    rw [← h]
    exact sign_mul_abs gx

/-- C39, not correct: no angle computed is that of the direction in which the surface goes down, which is what aspect is, not even
if the surface only changes in one direction: an inclined plane going up to the east has an aspect to the east. -/
theorem aspect_plane_east {a0 a1 : Nat} {z : Arr Fl} {i j : Nat} (a b : ℝ) (hb : 0 < b)
    (hi : 0 < i ∧ i + 1 < a0) (hj : 0 < j ∧ j + 1 < a1) (hz : ∀ k l, z k l = .num (a + b * l)) :
    perCell a0 a1 z (.num 1) aspectAngle i j = .num (Real.pi / 2) := by
  rw [plane_gradients 1 a b 0 one_ne_zero hi hj (fun k l => by rw [hz]; congr 1; ring)]
  congr 1
  simp [aspectAngle, hb.ne', not_lt.2 hb.le, hb]

/-- An array of 7 × 6 cells in 2 × 2 partitions meets the hypotheses: a plane which goes up to the east by 3 m per cell, and up to
the south by 4 m per cell, with cells of 10 m. The slope of cell (3, 3), which is next to the border of a partition, is 0.5. -/
example : ∃ (x : PArr Fl) (r : PArr Fl) (v : Arr Fl), slope (fun _ => ⟨[3, 1, 0, 2], fun _ => .num 77⟩) x (.num 10) = .ok r ∧
    x.grid = ⟨7, 6, 3, 3⟩ ∧ Represents r v ∧ v 3 3 = .num (1 / 2) := by
  have hg : (⟨7, 6, 3, 3⟩ : Grid).Ok := ⟨by decide, by decide, by decide, by decide⟩
  obtain ⟨r, h1, h2, h3⟩ := slope_spec
    (store_represents hg fun i j => Fl.num (100 + 3 / 10 * (10 * (j : ℝ)) + 4 / 10 * (10 * (i : ℝ))))
    (largeEnough hg _ ⟨by decide, by decide⟩) (.num 10) (e := fun _ => ⟨[3, 1, 0, 2], fun _ => .num 77⟩)
    (fun _ => by show List.Perm [3, 1, 0, 2] (List.range 4); decide)
  refine ⟨_, r, _, h1, rfl, h3, ?_⟩
  show perCell 7 6 _ _ _ 3 3 = _
  rw [plane_gradients 10 100 (3 / 10) (4 / 10) (by norm_num) (by decide) (by decide) (fun _ _ => rfl)]
  congr 1
  have : (3 / 10 : ℝ) ^ 2 + (4 / 10) ^ 2 = (1 / 2) ^ 2 := by norm_num
  show Real.sqrt ((3 / 10 : ℝ) ^ 2 + (4 / 10) ^ 2) = _
  rw [this, Real.sqrt_sq (by norm_num)]

end

end Lue.Terrain

import Verif.NoData.Spec
import Verif.FocalStats.Properties
import Verif.Streams.Properties
import Verif.Resample.Properties
import Verif.Random.Uses
import Verif.FocalRounding.Results

/-! C80: which cells of the results of operations contain no-data. -/
namespace Lue.NoData

open Lue.Focal Lue.FocalStats Lue.Routing

variable {α W : Type}

section
variable [DecidableEq W] [Zero W] {isNoData : α → Bool} {k : Kernel W} {wt : Nat → Nat → W} {r : Nat} {mark : α}

/-- The weights of the kernel tell which cells are used. -/
abbrev used (wt : Nat → Nat → W) : Nat → Nat → Prop := fun a b => wt a b ≠ 0

theorem vals_ne_nil (hm : isNoData mark = true) (x : PArr α) (v : Arr α) (i j : Nat) :
    vals isNoData wt r (noDataHalo mark) x v i j ≠ [] ↔
      SeesValid isNoData (used wt) r x.grid.a0 x.grid.a1 v i j := by
  constructor
  · intro h
    obtain ⟨y, hy⟩ := List.exists_mem_of_ne_nil _ h
    obtain ⟨i', j', h1, h2, h3, h4, h5, h6, h7, h8, h9⟩ := (mem_focalValues_noData mark hm _ _ v i j y).1 hy
    exact ⟨i', j', h1, h2, ⟨h3, h4⟩, ⟨h5, h6⟩, h7, h9 ▸ h8⟩
  · rintro ⟨i', j', h1, h2, ⟨h3, h4⟩, ⟨h5, h6⟩, h7, h8⟩ h
    have := (mem_focalValues_noData (wt := wt) mark hm x.grid.a0 x.grid.a1 v i j (v i' j')).2
      ⟨i', j', h1, h2, h3, h4, h5, h6, h7, h8, rfl⟩
    rw [show focalValues isNoData wt (extended ⟨mark, mark, mark, mark, mark, mark, mark, mark⟩ x.grid.a0 x.grid.a1 v) r i j
      = [] from h] at this
    cases this

theorem valid_of_mem {f : Int → Int → α} {i j : Nat} {y : α} (h : y ∈ focalValues isNoData wt f r i j) :
    isNoData y = false := by
  obtain ⟨d, hd, rfl⟩ := List.mem_map.1 h
  have := (List.mem_filter.1 hd).2
  rw [decide_eq_true_eq] at this
  exact this.2

variable (hm : isNoData mark = true) (hk : IsKernel k r wt) (garbage : Nat → α) {x : PArr α} {v : Arr α} (hx : Represents x v)
  (hl : LargeEnough x.grid (2 * r + 1)) {order : List Nat} (ho : IsOrder (x.grid.n0 * x.grid.n1) order)
include hm hk hx hl ho

/-- C80: `focal_minimum` -/
theorem focalMinimum_documented [LinearOrder α] (zero : α) :
    ∃ out u, focal1 (noDataHalo mark) garbage garbage k.radius (focalMinimum isNoData k zero mark) order x = .ok out ∧
      out.grid = x.grid ∧ Represents out u ∧ AsDocumented isNoData isNoData (used wt) r x.grid.a0 x.grid.a1 v u := by
  obtain ⟨out, u, h1, h2, h3, h4⟩ := focal_minimum_spec (isNoData := isNoData) hk (noDataHalo mark) garbage hx hl ho zero mark
  refine ⟨out, u, h1, h2, h3, fun i j _ _ => ?_⟩
  rw [← vals_ne_nil hm]
  by_cases h : vals isNoData wt r (noDataHalo mark) x v i j = []
  · simp [(h4 i j).1 h, hm, h]
  · simp [valid_of_mem ((h4 i j).2 h).1, h]

/-- C80: `focal_maximum` -/
theorem focalMaximum_documented [LinearOrder α] (zero : α) :
    ∃ out u, focal1 (noDataHalo mark) garbage garbage k.radius (focalMaximum isNoData k zero mark) order x = .ok out ∧
      out.grid = x.grid ∧ Represents out u ∧ AsDocumented isNoData isNoData (used wt) r x.grid.a0 x.grid.a1 v u := by
  obtain ⟨out, u, h1, h2, h3, h4⟩ := focal_maximum_spec (isNoData := isNoData) hk (noDataHalo mark) garbage hx hl ho zero mark
  refine ⟨out, u, h1, h2, h3, fun i j _ _ => ?_⟩
  rw [← vals_ne_nil hm]
  by_cases h : vals isNoData wt r (noDataHalo mark) x v i j = []
  · simp [(h4 i j).1 h, hm, h]
  · simp [valid_of_mem ((h4 i j).2 h).1, h]

/-- C80: `focal_majority` -/
theorem focalMajority_documented [LinearOrder α] (zero : α) :
    ∃ out u, focal1 (noDataHalo mark) garbage garbage k.radius (focalMajority isNoData k zero mark) order x = .ok out ∧
      out.grid = x.grid ∧ Represents out u ∧ AsDocumented isNoData isNoData (used wt) r x.grid.a0 x.grid.a1 v u := by
  obtain ⟨out, u, h1, h2, h3, h4⟩ := focal_majority_spec (isNoData := isNoData) hk (noDataHalo mark) garbage hx hl ho zero mark
  refine ⟨out, u, h1, h2, h3, fun i j _ _ => ?_⟩
  rw [← vals_ne_nil hm]
  by_cases h : vals isNoData wt r (noDataHalo mark) x v i j = []
  · simp [(h4 i j).1 h, hm, h]
  · simp [valid_of_mem ((h4 i j).2 h).1, h]

/-- C80: `focal_diversity`. The number of cells in the window must be less than the number which marks no-data. -/
theorem focalDiversity_documented [LinearOrder α] (garbage' : Nat → Nat) {mark' : Nat} (h' : (2 * r + 1) * (2 * r + 1) < mark') :
    ∃ out u, focal1 (noDataHalo mark) garbage garbage' k.radius (focalDiversity isNoData k mark') order x = .ok out ∧
      out.grid = x.grid ∧ Represents out u ∧
      AsDocumented isNoData (fun c => decide (c = mark')) (used wt) r x.grid.a0 x.grid.a1 v u := by
  obtain ⟨out, h1, h2, h3⟩ := focal_diversity_spec (isNoData := isNoData) hk (noDataHalo mark) garbage hx hl ho garbage' mark'
  refine ⟨out, _, h1, h2, h3, fun i j _ _ => ?_⟩
  rw [← vals_ne_nil hm]
  by_cases h : vals isNoData wt r (noDataHalo mark) x v i j = []
  · simp [h]
  · rw [if_neg h]
    have hle : (vals isNoData wt r (noDataHalo mark) x v i j).toFinset.card ≤ (2 * r + 1) * (2 * r + 1) := by
      refine (List.toFinset_card_le _).trans ?_
      have ho : (offsets r).length = (2 * r + 1) * (2 * r + 1) := by simp [offsets]
      rw [← ho]
      unfold vals focalValues
      rw [List.length_map]
      exact List.length_filter_le _ _
    simp [h]
    omega

/-- C80: `focal_sum`, if sums of valid values are valid values. -/
theorem focalSum_documented [AddCommMonoid α]
    (hs : ∀ l : List α, l ≠ [] → (∀ y ∈ l, isNoData y = false ∧ ∃ i j, y = v i j) → isNoData l.sum = false) :
    ∃ out u, focal1 (noDataHalo mark) garbage garbage k.radius (focalSum isNoData k mark) order x = .ok out ∧
      out.grid = x.grid ∧ Represents out u ∧ AsDocumented isNoData isNoData (used wt) r x.grid.a0 x.grid.a1 v u := by
  obtain ⟨out, h1, h2, h3⟩ := focal_sum_spec (isNoData := isNoData) hk (noDataHalo mark) garbage hx hl ho mark
  refine ⟨out, _, h1, h2, h3, fun i j _ _ => ?_⟩
  rw [← vals_ne_nil hm]
  by_cases h : vals isNoData wt r (noDataHalo mark) x v i j = []
  · simp [h, hm]
  · rw [if_neg h]
    refine ⟨fun _ => h, fun _ => hs _ h fun y hy => ⟨valid_of_mem hy, ?_⟩⟩
    obtain ⟨i', j', _, _, _, _, _, _, _, _, e⟩ := (mem_focalValues_noData mark hm _ _ v i j y).1 hy
    exact ⟨i', j', e⟩

end

section
variable [DecidableEq W] [Zero W] {k : Kernel W} {wt : Nat → Nat → W} {r : Nat} (hk : IsKernel k r wt)
include hk

/-- C80: `focal_sum`, for whole numbers which are not negative, if no-data is marked by a negative number. -/
theorem focalSum_documented_nonneg {mark : Int} (hm : mark < 0) (garbage : Nat → Int) {x : PArr Int} {v : Arr Int}
    (hx : Represents x v) (hv : ∀ i j, v i j = mark ∨ 0 ≤ v i j) (hl : LargeEnough x.grid (2 * r + 1)) {order : List Nat}
    (ho : IsOrder (x.grid.n0 * x.grid.n1) order) :
    ∃ out u, focal1 (noDataHalo mark) garbage garbage k.radius (focalSum (fun y => decide (y = mark)) k mark) order x =
        .ok out ∧ out.grid = x.grid ∧ Represents out u ∧
      AsDocumented (fun y => decide (y = mark)) (fun y => decide (y = mark)) (used wt) r x.grid.a0 x.grid.a1 v u := by
  refine focalSum_documented (isNoData := fun y => decide (y = mark)) (by simp) hk garbage hx hl ho fun l _ hy => ?_
  have h0 : 0 ≤ l.sum := List.sum_nonneg fun y h => by
    obtain ⟨h1, i, j, rfl⟩ := hy y h
    rcases hv i j with h | h
    · simp [h] at h1
    · exact h
  simp
  omega

end

/-! ### Floating point numbers -/

section
open FloatOps FocalRounding Rounding MassBalance
variable {L : Lib} {u η : ℝ}

theorem filterMap_ne_nil {v : Arr Fl} {l : List (Nat × Nat)}
    (hv : ∀ c ∈ l, Element L (v c.1 c.2)) : l.filterMap (fun c => number (v c.1 c.2)) ≠ [] ↔
      ∃ c ∈ l, isNaN (v c.1 c.2) = false := by
  rw [Ne, List.filterMap_eq_nil_iff]
  push_neg
  refine exists_congr fun c => and_congr_right fun hc => ?_
  rcases hv c hc with h | ⟨y, h, _⟩
  · simp [h, number_nan, isNaN]
  · simp [h, number_fin, isNaN]

section
variable [DecidableEq W] [Zero W] {wt : Nat → Nat → W} {r : Nat}

theorem windowNumbers_ne_nil {g : Grid} {v : Arr Fl} (hv : ∀ i j, i < g.a0 → j < g.a1 → Element L (v i j)) (i j : Nat) :
    windowNumbers g v wt r i j ≠ [] ↔ SeesValid isNaN (used wt) r g.a0 g.a1 v i j := by
  unfold windowNumbers
  rw [filterMap_ne_nil (L := L)]
  · simp only [windowCells, List.mem_filter, decide_eq_true_eq, mem_cellIdxs, Prod.exists]
    constructor
    · rintro ⟨a, b, ⟨⟨⟨h1, h2⟩, h3, h4, h5, h6⟩, h7⟩, h8⟩
      exact ⟨a, b, h1, h2, ⟨h3, h4⟩, ⟨h5, h6⟩, h7, h8⟩
    · rintro ⟨a, b, h1, h2, ⟨h3, h4⟩, ⟨h5, h6⟩, h7, h8⟩
      exact ⟨a, b, ⟨⟨⟨h1, h2⟩, h3, h4, h5, h6⟩, h7⟩, h8⟩
  · intro c hc
    simp only [windowCells, List.mem_filter, mem_cellIdxs] at hc
    exact hv _ _ hc.1.1.1 hc.1.1.2

variable {k : Kernel W} (hk : IsKernel k r wt) (garbage : Nat → Fl) {x : PArr Fl} {v : Arr Fl} (hx : Represents x v)
  (hv : ∀ i j, i < x.grid.a0 → j < x.grid.a1 → Element L (v i j)) (hl : LargeEnough x.grid (2 * r + 1))
  {order : List Nat} (ho : IsOrder (x.grid.n0 * x.grid.n1) order)
include hk hx hv hl ho

/-- C80: `focal_sum`, for floating point numbers, unless sums become too large -/
theorem focalSum_documented_float (hA : Accurate L u η) (hf : ∀ i j, i < x.grid.a0 → j < x.grid.a1 →
      windowNumbers x.grid v wt r i j ≠ [] → Rounding.Fits L u (windowNumbers x.grid v wt r i j)) :
    ∃ out w, FocalRounding.focalSum L k garbage order x = .ok out ∧ out.grid = x.grid ∧ Represents out w ∧
      AsDocumented isNaN isNaN (used wt) r x.grid.a0 x.grid.a1 v w := by
  obtain ⟨out, w, h1, h2, h3, h4⟩ := focal_sum_correct hk garbage hx hv hl ho hA
  refine ⟨out, w, h1, h2, h3, fun i j hi hj => ?_⟩
  rw [← windowNumbers_ne_nil hv]
  by_cases h : windowNumbers x.grid v wt r i j = []
  · simp [(h4 i j hi hj).1 h, isNaN, h]
  · obtain ⟨y, hy, _⟩ := ((h4 i j hi hj).2 h).1 (hf i j hi hj h)
    simp [hy, isNaN, h]

/-- C80: `focal_mean`, unless sums become too large -/
theorem focalMean_documented (hA : Accurate L u η) (hf : ∀ i j, i < x.grid.a0 → j < x.grid.a1 →
      windowNumbers x.grid v wt r i j ≠ [] → Rounding.Fits L u (windowNumbers x.grid v wt r i j) ∧
        L.Rep ((windowNumbers x.grid v wt r i j).length : ℝ)) :
    ∃ out w, FocalRounding.focalMean L k garbage order x = .ok out ∧ out.grid = x.grid ∧ Represents out w ∧
      AsDocumented isNaN isNaN (used wt) r x.grid.a0 x.grid.a1 v w := by
  obtain ⟨out, w, h1, h2, h3, h4⟩ := focal_mean_correct hk garbage hx hv hl ho hA
  refine ⟨out, w, h1, h2, h3, fun i j hi hj => ?_⟩
  rw [← windowNumbers_ne_nil hv]
  by_cases h : windowNumbers x.grid v wt r i j = []
  · simp [(h4 i j hi hj).1 h, isNaN, h]
  · obtain ⟨y, hy, _⟩ := (h4 i j hi hj).2 h (hf i j hi hj h).1 (hf i j hi hj h).2
    simp [hy, isNaN, h]

/-- C80 (finding): `focal_high_pass` does not handle no-data as documented. The result is valid if and only if the cell
itself is valid and, besides, some other cell in the neighbourhood is. -/
theorem focalHighPass_undocumented (hA : AccurateSplit L u η) (h2 : L.Rep 2) (hf : ∀ i j, i < x.grid.a0 → j < x.grid.a1 →
      ∀ y, v i j = .fin y → neighbourNumbers x.grid v wt r i j ≠ [] →
        FitsHighPass L u η y (neighbourNumbers x.grid v wt r i j) ∧ L.Rep ((neighbourNumbers x.grid v wt r i j).length : ℝ)) :
    ∃ out w, FocalRounding.focalHighPass L k garbage order x = .ok out ∧ out.grid = x.grid ∧ Represents out w ∧
      ∀ i j, i < x.grid.a0 → j < x.grid.a1 → (isNaN (w i j) = false ↔ isNaN (v i j) = false ∧
        SeesValid isNaN (fun a b => wt a b ≠ 0 ∧ (a, b) ≠ (r, r)) r x.grid.a0 x.grid.a1 v i j) := by
  obtain ⟨out, w, h1, h3, h4, h5⟩ := focal_high_pass_correct hk garbage hx hv hl ho hA h2
  refine ⟨out, w, h1, h3, h4, fun i j hi hj => ?_⟩
  have hn : neighbourNumbers x.grid v wt r i j ≠ [] ↔
      SeesValid isNaN (fun a b => wt a b ≠ 0 ∧ (a, b) ≠ (r, r)) r x.grid.a0 x.grid.a1 v i j := by
    unfold neighbourNumbers
    rw [filterMap_ne_nil (L := L)]
    · simp only [windowCells, List.mem_filter, decide_eq_true_eq, mem_cellIdxs, Prod.exists]
      constructor
      · rintro ⟨a, b, ⟨⟨⟨h1, h2⟩, h3, h4, h5, h6⟩, h9, h7⟩, h8⟩
        refine ⟨a, b, h1, h2, ⟨h3, h4⟩, ⟨h5, h6⟩, ⟨h7, fun e => h9 ?_⟩, h8⟩
        rw [Prod.mk.injEq] at e ⊢
        omega
      · rintro ⟨a, b, h1, h2, ⟨h3, h4⟩, ⟨h5, h6⟩, ⟨h7, h9⟩, h8⟩
        refine ⟨a, b, ⟨⟨⟨h1, h2⟩, h3, h4, h5, h6⟩, fun e => h9 ?_, h7⟩, h8⟩
        rw [Prod.mk.injEq] at e ⊢
        omega
    · intro c hc
      simp only [windowCells, List.mem_filter, mem_cellIdxs] at hc
      exact hv _ _ hc.1.1.1 hc.1.1.2
  rw [← hn]
  rcases hv i j hi hj with h | ⟨y, h, _⟩
  · simp [(h5 i j hi hj).1 (.inr h), h, isNaN]
  · by_cases he : neighbourNumbers x.grid v wt r i j = []
    · simp [(h5 i j hi hj).1 (.inl he), he, isNaN]
    · obtain ⟨z, hz, _⟩ := (h5 i j hi hj).2 he y h (hf i j hi hj y h he).1 (hf i j hi hj y h he).2
      simp [hz, h, he, isNaN]

end

/-- C80: `convolve`, unless sums become too large. All cells within reach of the kernel are used, including those whose
weight is zero. -/
theorem convolve_documented (hA : AccurateSplit L u η) {k : Kernel Fl} {wt : Nat → Nat → ℝ} {r : Nat}
    (hk : IsKernel k r fun a b => .fin (wt a b)) (hw : ∀ a b, a < 2 * r + 1 → b < 2 * r + 1 → L.Rep (wt a b))
    (garbage : Nat → Fl) {x : PArr Fl} {v : Arr Fl} (hx : Represents x v)
    (hv : ∀ i j, i < x.grid.a0 → j < x.grid.a1 → Element L (v i j)) (hl : LargeEnough x.grid (2 * r + 1))
    {order : List Nat} (ho : IsOrder (x.grid.n0 * x.grid.n1) order) (hf : ∀ i j, i < x.grid.a0 → j < x.grid.a1 →
      weightedNumbers x.grid v wt r i j ≠ [] → FitsProducts L u η (weightedNumbers x.grid v wt r i j)) :
    ∃ out w, FocalRounding.convolve L k garbage order x = .ok out ∧ out.grid = x.grid ∧ Represents out w ∧
      AsDocumented isNaN isNaN (fun _ _ => True) r x.grid.a0 x.grid.a1 v w := by
  obtain ⟨out, w, h1, h2, h3, h4⟩ := convolve_correct hA hk hw garbage hx hv hl ho
  refine ⟨out, w, h1, h2, h3, fun i j hi hj => ?_⟩
  have hn : weightedNumbers x.grid v wt r i j ≠ [] ↔
      SeesValid isNaN (fun _ _ => True) r x.grid.a0 x.grid.a1 v i j := by
    have : weightedNumbers x.grid v wt r i j ≠ [] ↔
        (windowCells x.grid r i j).filterMap (fun c => number (v c.1 c.2)) ≠ [] := by
      unfold weightedNumbers
      simp [List.filterMap_eq_nil_iff]
    rw [this, filterMap_ne_nil (L := L)]
    · simp only [windowCells, List.mem_filter, decide_eq_true_eq, mem_cellIdxs, Prod.exists]
      constructor
      · rintro ⟨a, b, ⟨⟨h1, h2⟩, h3, h4, h5, h6⟩, h8⟩
        exact ⟨a, b, h1, h2, ⟨h3, h4⟩, ⟨h5, h6⟩, trivial, h8⟩
      · rintro ⟨a, b, h1, h2, ⟨h3, h4⟩, ⟨h5, h6⟩, _, h8⟩
        exact ⟨a, b, ⟨⟨h1, h2⟩, h3, h4, h5, h6⟩, h8⟩
    · intro c hc
      simp only [windowCells, List.mem_filter, mem_cellIdxs] at hc
      exact hv _ _ hc.1.1 hc.1.2
  rw [← hn]
  by_cases h : weightedNumbers x.grid v wt r i j = []
  · simp [(h4 i j hi hj).1 h, isNaN, h]
  · obtain ⟨y, hy, _⟩ := (h4 i j hi hj).2 h (hf i j hi hj h)
    simp [hy, isNaN, h]

end

/-! ### Other operations -/

/-- C80: `d8_flow_direction` -/
theorem d8_documented [AddCommGroup α] [LinearOrder α] [IsOrderedAddMonoid α] (isNoData : α → Bool) {mark : Nat}
    (hm : mark ∉ [1, 2, 3, 4, 5, 6, 7, 8, 9]) (h : Halo α) (garbage : Nat → α) (garbage' : Nat → Nat)
    {x : PArr α} {v : Arr α} (hx : Represents x v) (hl : LargeEnough x.grid 3) {order : List Nat}
    (ho : IsOrder (x.grid.n0 * x.grid.n1) order) :
    ∃ out fd, d8FlowDirection isNoData mark h garbage garbage' order x = .ok out ∧ out.grid = x.grid ∧
      Represents out fd ∧ CellByCell isNoData (fun d => decide (d = mark)) x.grid.a0 x.grid.a1 v fd := by
  obtain ⟨out, fd, h1, h2, h3, h4⟩ := d8FlowDirection_spec isNoData mark h garbage garbage' hx hl ho
  refine ⟨out, fd, h1, h2, h3, fun i j hi hj => ?_⟩
  obtain ⟨h5, h6⟩ := h4 i j hi hj
  rw [decide_eq_true_eq]
  refine ⟨fun e => ?_, h5⟩
  cases hb : isNoData (v i j) with
  | true => rfl
  | false =>
    rcases h6 hb with ⟨hs, _⟩ | ⟨before, after, y, hp, _⟩
    · rw [← e, hs] at hm
      exact absurd (by decide) hm
    · have : fd i j ∈ precedence := by rw [hp]; simp
      rw [e] at this
      simp [precedence] at this
      simp only [List.mem_cons, List.not_mem_nil, or_false] at hm
      omega

open Streams in
/-- C80: `upstream`. No-data in the material is transported downstream, to the next cell, and results in no-data in the
cell itself. -/
theorem upstream_documented {K : Type} [AddCommMonoid K] (isNoData : Nat → Bool) (garbage : Nat → Nat)
    (garbage' garbage'' : Nat → Option K) {x : PArr Nat} {y : PArr (Option K)} {fd : Arr Nat} {m : Arr (Option K)}
    (hx : Represents x fd) (hy : Represents y m) (hxy : y.grid = x.grid) (hl : LargeEnough x.grid 3) {order : List Nat}
    (ho : IsOrder (x.grid.n0 * x.grid.n1) order) :
    ∃ out w, upstream isNoData garbage garbage' garbage'' order x y = .ok out ∧ out.grid = x.grid ∧ Represents out w ∧
      ∀ i j, i < x.grid.a0 → j < x.grid.a1 → (w i j = none ↔ isNoData (fd i j) = true ∨ m i j = none ∨
        ∃ c, Drains x.grid.a0 x.grid.a1 fd c (i, j) ∧ m c.1 c.2 = none) := by
  obtain ⟨out, h1, h2, h3⟩ := upstream_spec isNoData garbage garbage' garbage'' hx hy hxy hl ho
  refine ⟨out, _, h1, h2, h3, fun i j _ _ => ?_⟩
  unfold upstreamValue Accu.total
  by_cases h : isNoData (fd i j) = true ∨ m i j = none
  · simp only [h, if_true, true_iff]
    tauto
  · rw [if_neg h]
    have hmem : (∃ u ∈ Accu.inflowing x.grid.a0 x.grid.a1 fd (i, j), m u.1 u.2 = none) ↔
        ∃ c, Drains x.grid.a0 x.grid.a1 fd c (i, j) ∧ m c.1 c.2 = none :=
      exists_congr fun c => and_congr_left fun _ => Accu.mem_inflowing
    rw [← hmem]
    push_neg at h
    by_cases he : ∃ u ∈ Accu.inflowing x.grid.a0 x.grid.a1 fd (i, j), m u.1 u.2 = none
    · simp [he]
    · rw [if_neg he]
      simp only [reduceCtorEq, false_iff, not_or]
      exact ⟨h.1, h.2, he⟩

open Streams in
/-- C80: `downstream`. No-data in the material is transported upstream, to the next cells, and results in no-data in the
cell itself. -/
theorem downstream_documented {K : Type} [Zero K] (isNoData : Nat → Bool) (garbage : Nat → Nat)
    (garbage' garbage'' : Nat → Option K) {x : PArr Nat} {y : PArr (Option K)} {fd : Arr Nat} {m : Arr (Option K)}
    (hx : Represents x fd) (hy : Represents y m) (hxy : y.grid = x.grid) (hl : LargeEnough x.grid 3) {order : List Nat}
    (ho : IsOrder (x.grid.n0 * x.grid.n1) order) :
    ∃ out w, downstream isNoData garbage garbage' garbage'' order x y = .ok out ∧ out.grid = x.grid ∧ Represents out w ∧
      ∀ i j, i < x.grid.a0 → j < x.grid.a1 → (w i j = none ↔ isNoData (fd i j) = true ∨ m i j = none ∨
        ∃ c, Drains x.grid.a0 x.grid.a1 fd (i, j) c ∧ m c.1 c.2 = none) := by
  obtain ⟨out, w, h1, h2, h3, h4⟩ := downstream_spec isNoData garbage garbage' garbage'' hx hy hxy hl ho
  refine ⟨out, w, h1, h2, h3, fun i j hi hj => ?_⟩
  have hd := h4 i j hi hj
  by_cases h : isNoData (fd i j) = true ∨ m i j = none
  · have := hd.noData h
    simp only [this, true_iff]
    tauto
  · push_neg at h
    have hf : isNoData (fd i j) = false := by simpa using h.1
    by_cases hc : ∃ c, Drains x.grid.a0 x.grid.a1 fd (i, j) c
    · obtain ⟨c, hc⟩ := hc
      rw [hd.drains c hf h.2 hc]
      constructor
      · exact fun e => .inr (.inr ⟨c, hc, e⟩)
      · rintro (e | e | ⟨c', hc', e⟩)
        · exact absurd e h.1
        · exact absurd e h.2
        · rwa [hc.unique hc']
    · have hne : w i j ≠ none := by
        by_cases hmv : move (fd i j) = none
        · rw [hd.sink hf hmv]
          exact h.2
        · rw [hd.leaves hf h.2 hmv fun c' h' => hc ⟨c', h'⟩]
          simp
      simp only [hne, false_iff, not_or]
      exact ⟨h.1, h.2, fun ⟨c, h', _⟩ => hc ⟨c, h'⟩⟩

/-- C80: `downscale`, for the partitionings for which the right cells are copied -/
theorem downscale_documented (isNoData : α → Bool) {mark : α} (hm : isNoData mark = true) (garbage : Nat → α) {x : PArr α}
    {v : Arr α} (hx : Represents x v) {c : Nat} (hc : 2 ≤ c) (h0 : Resample.Good x.grid.a0 x.grid.p0 c)
    (h1 : Resample.Good x.grid.a1 x.grid.p1 c) {order : List Nat}
    (ho : IsOrder ((Resample.targetGrid x.grid c).n0 * (Resample.targetGrid x.grid c).n1) order) :
    ∃ r u, Resample.downscale isNoData mark garbage order x c = .ok r ∧ Represents r u ∧
      ∀ i j, i < c * x.grid.a0 → j < c * x.grid.a1 → (isNoData (u i j) = true ↔ isNoData (v (i / c) (j / c)) = true) := by
  obtain ⟨r, u, h2, _, _, h3, h4⟩ := Resample.downscale_spec isNoData mark garbage hx hc h0 h1 ho
  refine ⟨r, u, h2, h3, fun i j hi hj => ?_⟩
  rw [h4 i j hi hj]
  split <;> rename_i h <;> simp [h, hm]

open LocalOp in
/-- C80: `open_simplex_noise`, given that noise is a number -/
theorem noise_documented {ε : Type} (isNoData : ε → Bool) {mark : ε} (hm : isNoData mark = true) (noise : ε → ε → ε)
    (hn : ∀ a b, isNoData a = false → isNoData b = false → isNoData (noise a b) = false) (garbage : Nat → ε)
    {x y : PArr ε} {v w : Arr ε} (hx : Represents x v) (hy : Represents y w) (hg : y.grid = x.grid) {order : List Nat}
    (ho : IsOrder (x.grid.n0 * x.grid.n1) order) :
    ∃ r u, Random.noiseArray ⟨isNoData, isNoData, fun _ _ => true, fun _ _ _ => true, mark⟩ noise garbage order x y = .ok r ∧
      r.grid = x.grid ∧ Represents r u ∧ ∀ i j, i < x.grid.a0 → j < x.grid.a1 →
        (isNoData (u i j) = true ↔ isNoData (v i j) = true ∨ isNoData (w i j) = true) := by
  obtain ⟨r, u, h1, h2, h3, h4⟩ := Random.noiseArray_spec
    ⟨isNoData, isNoData, fun _ _ => true, fun _ _ _ => true, mark⟩ noise garbage hx hy hg ho
  refine ⟨r, u, h1, h2, h3, fun i j hi hj => ?_⟩
  rw [h4 i j hi hj]
  split
  · rename_i h; simp only [h, hm]
  · rename_i h
    push_neg at h
    have e1 : isNoData (v i j) = false := Bool.eq_false_iff.2 h.1
    have e2 : isNoData (w i j) = false := Bool.eq_false_iff.2 h.2
    simp [e1, e2, hn _ _ e1 e2]

end Lue.NoData

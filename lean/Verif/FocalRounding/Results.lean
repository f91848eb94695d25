import Verif.FocalRounding.Theorems

/-! C78: focal operations on arrays of floating point numbers. -/
namespace Lue.FocalRounding

open Lue.FloatOps Lue.Focal Lue.FocalStats Lue.Rounding Lue.MassBalance

variable {L : Lib} {u η : ℝ}

/-! ### Results, in terms of the values in windows -/

section
variable {W : Type} [DecidableEq W] [Zero W] {k : Kernel W} {wt : Nat → Nat → W} {r : Nat} (hk : IsKernel k r wt)
  (garbage : Nat → Fl) {x : PArr Fl} {v : Arr Fl} (hx : Represents x v) (hl : LargeEnough x.grid (2 * r + 1))
  {order : List Nat} (ho : IsOrder (x.grid.n0 * x.grid.n1) order)

/-- The value computed by `focal_sum` -/
noncomputable def sumAt (L : Lib) (wt : Nat → Nat → W) (r : Nat) (f : Int → Int → Fl) (i j : Nat) : Fl :=
  if focalValues isNaN wt f r i j = [] then .nan else (focalValues isNaN wt f r i j).foldl (FloatOps.add L) (.fin 0)

/-- The value computed by `focal_mean` -/
noncomputable def meanAt (L : Lib) (wt : Nat → Nat → W) (r : Nat) (f : Int → Int → Fl) (i j : Nat) : Fl :=
  if focalValues isNaN wt f r i j = [] then .nan
  else divide L ((focalValues isNaN wt f r i j).foldl (FloatOps.add L) (.fin 0)) (focalValues isNaN wt f r i j).length

/-- The value computed by `focal_high_pass` -/
noncomputable def highPassAt (L : Lib) (wt : Nat → Nat → W) (r : Nat) (f : Int → Int → Fl) (i j : Nat) : Fl :=
  if neighbourValues isNaN wt f r i j = [] then .nan
  else sub L (mul L (mul L (.fin ((2 : ℕ) : ℝ)) (f i j)) (.fin ((neighbourValues isNaN wt f r i j).length : ℝ)))
    ((neighbourValues isNaN wt f r i j).foldl (FloatOps.add L) (.fin 0))

/-- The value computed by `convolve` -/
noncomputable def convolveAt (L : Lib) (wt : Nat → Nat → Fl) (r : Nat) (f : Int → Int → Fl) (i j : Nat) : Fl :=
  if @weightedValues Fl ⟨mul L⟩ isNaN wt f r i j = [] then .nan
  else (@weightedValues Fl ⟨mul L⟩ isNaN wt f r i j).foldl (FloatOps.add L) (.fin 0)

include hk hx hl ho

theorem focalSum_eq : ∃ out, focalSum L k garbage order x = .ok out ∧ out.grid = x.grid ∧
    Represents out (sumAt L wt r (field x.grid v)) := by
  unfold focalSum
  rw [hk.radius_eq]
  exact focal1_spec nanHalo garbage garbage r _ hx hl _
    (fun i j _ _ => @focalSum_fold Fl W _ _ isNaN k wt r hk ⟨add L⟩ ⟨.fin 0⟩ .nan _ i j) ho

theorem focalMean_eq : ∃ out, focalMean L k garbage order x = .ok out ∧ out.grid = x.grid ∧
    Represents out (meanAt L wt r (field x.grid v)) := by
  unfold focalMean
  rw [hk.radius_eq]
  exact focal1_spec nanHalo garbage garbage r _ hx hl _
    (fun i j _ _ => @focalMean_fold Fl W _ _ isNaN k wt r hk ⟨add L⟩ ⟨.fin 0⟩ (divide L) .nan _ i j) ho

theorem focalHighPass_eq : ∃ out, focalHighPass L k garbage order x = .ok out ∧ out.grid = x.grid ∧
    Represents out (highPassAt L wt r (field x.grid v)) := by
  unfold focalHighPass
  rw [hk.radius_eq]
  exact focal1_spec nanHalo garbage garbage r _ hx hl _
    (fun i j _ _ => @focalHighPass_fold Fl W _ _ isNaN k wt r hk ⟨add L⟩ ⟨sub L⟩ ⟨mul L⟩ ⟨.fin 0⟩ ⟨fun n => .fin (n : ℝ)⟩
      .nan _ i j) ho

end

theorem convolve_eq {k : Kernel Fl} {wt : Nat → Nat → Fl} {r : Nat} (hk : IsKernel k r wt)
    (garbage : Nat → Fl) {x : PArr Fl} {v : Arr Fl} (hx : Represents x v) (hl : LargeEnough x.grid (2 * r + 1))
    {order : List Nat} (ho : IsOrder (x.grid.n0 * x.grid.n1) order) :
    ∃ out, convolve L k garbage order x = .ok out ∧ out.grid = x.grid ∧
      Represents out (convolveAt L wt r (field x.grid v)) := by
  unfold convolve
  rw [hk.radius_eq]
  exact focal1_spec nanHalo garbage garbage r _ hx hl _
    (fun i j _ _ => @convolve_fold Fl ⟨add L⟩ ⟨mul L⟩ ⟨.fin 0⟩ isNaN k wt r hk .nan _ i j) ho

/-! ### C78 -/

section
variable {W : Type} [DecidableEq W] [Zero W] {k : Kernel W} {wt : Nat → Nat → W} {r : Nat} (hk : IsKernel k r wt)
  (garbage : Nat → Fl) {x : PArr Fl} {v : Arr Fl} (hx : Represents x v)
  (hv : ∀ i j, i < x.grid.a0 → j < x.grid.a1 → Element L (v i j)) (hl : LargeEnough x.grid (2 * r + 1))
  {order : List Nat} (ho : IsOrder (x.grid.n0 * x.grid.n1) order)
include hk hx hv hl ho

/-- C78: the result of `focal_sum` is the sum of the numbers around a cell, apart from rounding; it is exact if no sum of
some of them is rounded; it is no-data if there are no numbers. -/
theorem focal_sum_correct (hA : Accurate L u η) : ∃ out w, focalSum L k garbage order x = .ok out ∧ out.grid = x.grid ∧
    Represents out w ∧ ∀ i j, i < x.grid.a0 → j < x.grid.a1 →
      (windowNumbers x.grid v wt r i j = [] → w i j = .nan) ∧
      (windowNumbers x.grid v wt r i j ≠ [] →
        (Rounding.Fits L u (windowNumbers x.grid v wt r i j) → IsSum u (windowNumbers x.grid v wt r i j) (w i j)) ∧
        (ExactlyAdded L (windowNumbers x.grid v wt r i j) → w i j = .fin (windowNumbers x.grid v wt r i j).sum)) := by
  obtain ⟨out, h1, h2, h3⟩ := focalSum_eq (L := L) hk garbage hx hl ho
  refine ⟨out, _, h1, h2, h3, fun i j _ _ => ?_⟩
  obtain ⟨e1, e2, e3⟩ := focalValues_numbers (wt := wt) (r := r) hv i j
  unfold sumAt
  constructor
  · intro he
    rw [he] at e3
    rw [if_pos (List.eq_nil_of_length_eq_zero e3)]
  · intro hne
    have hne' : focalValues isNaN wt (field x.grid v) r i j ≠ [] := fun he => by
      rw [he] at e3
      exact hne (List.eq_nil_of_length_eq_zero e3.symm)
    rw [if_neg hne']
    have ha := (fold_added hA e1 hne').perm e2
    exact ⟨fun hf => ha.isSum hA hf, fun hf => ha.exact hA hf⟩

/-- C78: the result of `focal_mean` is the mean of the numbers around a cell, apart from rounding; it is no-data if there
are none. -/
theorem focal_mean_correct (hA : Accurate L u η) : ∃ out w, focalMean L k garbage order x = .ok out ∧ out.grid = x.grid ∧
    Represents out w ∧ ∀ i j, i < x.grid.a0 → j < x.grid.a1 →
      (windowNumbers x.grid v wt r i j = [] → w i j = .nan) ∧
      (windowNumbers x.grid v wt r i j ≠ [] → Rounding.Fits L u (windowNumbers x.grid v wt r i j) →
        L.Rep ((windowNumbers x.grid v wt r i j).length : ℝ) → IsMean u η (windowNumbers x.grid v wt r i j) (w i j)) := by
  obtain ⟨out, h1, h2, h3⟩ := focalMean_eq (L := L) hk garbage hx hl ho
  refine ⟨out, _, h1, h2, h3, fun i j _ _ => ?_⟩
  obtain ⟨e1, e2, e3⟩ := focalValues_numbers (wt := wt) (r := r) hv i j
  unfold meanAt
  constructor
  · intro he
    rw [he] at e3
    rw [if_pos (List.eq_nil_of_length_eq_zero e3)]
  · intro hne hf hn
    have hne' : focalValues isNaN wt (field x.grid v) r i j ≠ [] := fun he => by
      rw [he] at e3
      exact hne (List.eq_nil_of_length_eq_zero e3.symm)
    rw [if_neg hne', e3]
    exact ((fold_added hA e1 hne').perm e2).isMean hA hf hn

/-- C78: the result of `focal_high_pass` is twice the number in the cell times the number of neighbours, minus the sum of
the neighbours, apart from rounding; it is no-data if there are no neighbours, or if the cell is no-data. -/
theorem focal_high_pass_correct (hA : AccurateSplit L u η) (h2 : L.Rep 2) :
    ∃ out w, focalHighPass L k garbage order x = .ok out ∧ out.grid = x.grid ∧
    Represents out w ∧ ∀ i j, i < x.grid.a0 → j < x.grid.a1 →
      (neighbourNumbers x.grid v wt r i j = [] ∨ v i j = .nan → w i j = .nan) ∧
      (neighbourNumbers x.grid v wt r i j ≠ [] → ∀ y, v i j = .fin y →
        FitsHighPass L u η y (neighbourNumbers x.grid v wt r i j) →
        L.Rep ((neighbourNumbers x.grid v wt r i j).length : ℝ) →
        IsHighPass u η y (neighbourNumbers x.grid v wt r i j) (w i j)) := by
  obtain ⟨out, h3, h4, h5⟩ := focalHighPass_eq (L := L) hk garbage hx hl ho
  refine ⟨out, _, h3, h4, h5, fun i j hi hj => ?_⟩
  obtain ⟨e1, e2, e3⟩ := neighbourValues_numbers (wt := wt) (r := r) hv i j
  have hc : field x.grid v (i : Int) (j : Int) = v i j := by
    unfold field extended
    rw [if_neg (by omega), if_pos (by omega), if_neg (by omega), if_pos (by omega)]
    rfl
  unfold highPassAt
  rw [hc]
  constructor
  · rintro (he | he)
    · rw [he] at e3
      rw [if_pos (List.eq_nil_of_length_eq_zero e3)]
    · split
      · rfl
      · rw [he]
        rfl
  · intro hne y hy hf hn
    have hne' : neighbourValues isNaN wt (field x.grid v) r i j ≠ [] := fun he => by
      rw [he] at e3
      exact hne (List.eq_nil_of_length_eq_zero e3.symm)
    have hrep : L.Rep y := by
      rcases hv i j hi hj with h | ⟨z, h, hz⟩
      · rw [hy] at h; cases h
      · rw [hy] at h
        obtain rfl := Fl.fin.inj h
        exact hz
    rw [if_neg hne', e3, hy]
    exact highPass hA hrep h2 hn ((fold_added hA.toAccurate e1 hne').perm e2) hf

end

/-- The weighted values are the products of numbers. -/
theorem weightedValues_products {wt : Nat → Nat → ℝ} {r : Nat} {g : Grid} {v : Arr Fl}
    (hv : ∀ i j, i < g.a0 → j < g.a1 → Element L (v i j))
    (hw : ∀ a b, a < 2 * r + 1 → b < 2 * r + 1 → L.Rep (wt a b)) (i j : Nat) :
    ∃ l : List (ℝ × ℝ), @weightedValues Fl ⟨mul L⟩ isNaN (fun a b => .fin (wt a b)) (field g v) r i j =
        l.map (fun p => mul L (.fin p.1) (.fin p.2)) ∧ (∀ p ∈ l, L.Rep p.1 ∧ L.Rep p.2) ∧
      (l.map fun p => p.1 * p.2).Perm (weightedNumbers g v wt r i j) := by
  have h := filterMap_window g v r i j (fun _ => true) (fun _ => true) (fun c y => weight wt r i j c * y)
    (fun d y => wt d.1 d.2 * y) fun d hd => ⟨rfl, by funext y; rw [weight_cellAt wt hd]⟩
  simp only [if_true] at h
  have e : (windowCells g r i j).filter (fun _ => true) = windowCells g r i j := by simp
  rw [e] at h
  refine ⟨(offsets r).filterMap fun d => (number (at_ (field g v) r i j d)).map fun y => (wt d.1 d.2, y), ?_, ?_, ?_⟩
  · unfold weightedValues
    rw [List.map_filterMap]
    generalize offsets r = ds
    induction ds with
    | nil => rfl
    | cons d ds ih =>
      rcases at_element (r := r) hv i j d with h1 | ⟨y, h1, _⟩
      · rw [List.filter_cons_of_neg (by rw [h1]; simp [isNaN]), ih, List.filterMap_cons_none (by rw [h1]; rfl)]
      · rw [List.filter_cons_of_pos (by rw [h1]; simp [isNaN]), List.map_cons, ih,
          List.filterMap_cons_some (b := mul L (.fin (wt d.1 d.2)) (.fin y)) (by rw [h1]; rfl), h1]
        rfl
  · intro p hp
    obtain ⟨d, hd, hp⟩ := List.mem_filterMap.1 hp
    obtain ⟨y, hy, rfl⟩ := Option.map_eq_some_iff.1 hp
    rw [mem_offsets] at hd
    refine ⟨hw _ _ hd.1 hd.2, ?_⟩
    rcases at_element (r := r) hv i j d with h1 | ⟨z, h1, hz⟩
    · rw [h1] at hy; cases hy
    · rw [h1] at hy
      obtain rfl := Option.some.inj hy
      exact hz
  · refine (List.Perm.of_eq ?_).trans h
    rw [List.map_filterMap]
    refine List.filterMap_congr fun d _ => ?_
    rw [Option.map_map]
    rfl

/-- C78: the result of `convolve` is the sum of the weighted numbers around a cell, apart from rounding; it is no-data if
there are no numbers. -/
theorem convolve_correct (hA : AccurateSplit L u η) {k : Kernel Fl} {wt : Nat → Nat → ℝ} {r : Nat}
    (hk : IsKernel k r fun a b => .fin (wt a b)) (hw : ∀ a b, a < 2 * r + 1 → b < 2 * r + 1 → L.Rep (wt a b))
    (garbage : Nat → Fl) {x : PArr Fl} {v : Arr Fl} (hx : Represents x v)
    (hv : ∀ i j, i < x.grid.a0 → j < x.grid.a1 → Element L (v i j)) (hl : LargeEnough x.grid (2 * r + 1))
    {order : List Nat} (ho : IsOrder (x.grid.n0 * x.grid.n1) order) :
    ∃ out w, convolve L k garbage order x = .ok out ∧ out.grid = x.grid ∧ Represents out w ∧
      ∀ i j, i < x.grid.a0 → j < x.grid.a1 →
        (weightedNumbers x.grid v wt r i j = [] → w i j = .nan) ∧
        (weightedNumbers x.grid v wt r i j ≠ [] → FitsProducts L u η (weightedNumbers x.grid v wt r i j) →
          IsSumOfProducts u η (weightedNumbers x.grid v wt r i j) (w i j)) := by
  obtain ⟨out, h1, h2, h3⟩ := convolve_eq (L := L) hk garbage hx hl ho
  refine ⟨out, _, h1, h2, h3, fun i j _ _ => ?_⟩
  obtain ⟨l, e1, e2, e3⟩ := weightedValues_products (L := L) hv hw i j
  unfold convolveAt
  rw [e1]
  have hlen : l.length = (weightedNumbers x.grid v wt r i j).length := by rw [← e3.length_eq, List.length_map]
  constructor
  · intro he
    rw [he] at hlen
    obtain rfl := List.eq_nil_of_length_eq_zero hlen
    rfl
  · intro hne hf
    have hl' : l ≠ [] := by
      rintro rfl
      exact hne (List.eq_nil_of_length_eq_zero hlen.symm)
    rw [if_neg (by simpa using hl')]
    have hm := magnitude_perm e3
    have := sum_products hA hl' e2 (by
      unfold FitsProducts at hf ⊢
      rwa [e3.length_eq, hm])
    unfold IsSumOfProducts at this ⊢
    rwa [e3.length_eq, hm, e3.sum_eq] at this

/-- C78: the results are the same, to the last bit, for all partitionings and orders in which tasks complete. -/
theorem focal_reproducible {W : Type} [DecidableEq W] [Zero W] {k : Kernel W} {wt : Nat → Nat → W} {r : Nat}
    (hk : IsKernel k r wt) {k' : Kernel Fl} {wt' : Nat → Nat → Fl} (hk' : IsKernel k' r wt') (garbage garbage' : Nat → Fl)
    {x x' : PArr Fl} {v : Arr Fl} (hx : Represents x v) (hx' : Represents x' v) (h0 : x.grid.a0 = x'.grid.a0)
    (h1 : x.grid.a1 = x'.grid.a1) (hl : LargeEnough x.grid (2 * r + 1)) (hl' : LargeEnough x'.grid (2 * r + 1))
    {order order' : List Nat} (ho : IsOrder (x.grid.n0 * x.grid.n1) order)
    (ho' : IsOrder (x'.grid.n0 * x'.grid.n1) order') :
    ∀ op ∈ [focalSum L k, focalMean L k, focalHighPass L k, convolve L k'],
      ∃ out out' w, op garbage order x = .ok out ∧ op garbage' order' x' = .ok out' ∧ Represents out w ∧ Represents out' w := by
  have hf : field x.grid v = field x'.grid v := by unfold field; rw [h0, h1]
  intro op hop
  simp only [List.mem_cons, List.not_mem_nil, or_false] at hop
  rcases hop with rfl | rfl | rfl | rfl
  · obtain ⟨o, a1, _, a2⟩ := focalSum_eq (L := L) hk garbage hx hl ho
    obtain ⟨o', b1, _, b2⟩ := focalSum_eq (L := L) hk garbage' hx' hl' ho'
    exact ⟨o, o', _, a1, b1, a2, by rw [hf]; exact b2⟩
  · obtain ⟨o, a1, _, a2⟩ := focalMean_eq (L := L) hk garbage hx hl ho
    obtain ⟨o', b1, _, b2⟩ := focalMean_eq (L := L) hk garbage' hx' hl' ho'
    exact ⟨o, o', _, a1, b1, a2, by rw [hf]; exact b2⟩
  · obtain ⟨o, a1, _, a2⟩ := focalHighPass_eq (L := L) hk garbage hx hl ho
    obtain ⟨o', b1, _, b2⟩ := focalHighPass_eq (L := L) hk garbage' hx' hl' ho'
    exact ⟨o, o', _, a1, b1, a2, by rw [hf]; exact b2⟩
  · obtain ⟨o, a1, _, a2⟩ := convolve_eq (L := L) hk' garbage hx hl ho
    obtain ⟨o', b1, _, b2⟩ := convolve_eq (L := L) hk' garbage' hx' hl' ho'
    exact ⟨o, o', _, a1, b1, a2, by rw [hf]; exact b2⟩

end Lue.FocalRounding

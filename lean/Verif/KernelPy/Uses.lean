import Verif.KernelPy.Properties

/-!
# Focal operations given a NumPy array, and expanding values (C65)
-/
namespace Lue.KernelPy

open Lue.FocalStats Lue.Focal

variable {α γ W : Type}

/-! ### Overloads -/

/-- C65: which calls are accepted, and the element type of the result. -/
theorem resolve_iff (op : FocalOp) (array kernel result : PyOps.Ty) :
    resolve op array kernel = .ok result ↔
      ((op = .convolve ∨ op = .highPass ∨ op = .mean) → array.floating = true) ∧
      ((op = .diversity ∨ op = .majority) → array.integral = true) ∧
      (op = .convolve → kernel = array) ∧ (op ≠ .convolve → kernel = .uint8) ∧
      (op = .diversity → result = .uint64) ∧ (op ≠ .diversity → result = array) := by
  unfold resolve
  cases op <;> simp [available, kernelType, resultType] <;> grind

/-! ### Operations -/

section
variable [Zero W] {a : Strided W} {r : Nat} {w : Nat → Nat → W} (hw : a.Is2 (2 * r + 1) (2 * r + 1) w)
  (hs : a.strides = [((2 * r + 1 : Nat) : Int), 1])

include hw hs in
/-- C65: an operation given a NumPy array is the operation given a kernel with the weights of the array. -/
theorem focalPy_eq (op : Kernel W → List α → M γ) (h : Halo α) (garbage : Nat → α) (garbage' : Nat → γ) (order : List Nat) (x : PArr α) :
    ∃ k, IsKernel k r w ∧ focalPy op h garbage garbage' order x a = focal1 h garbage garbage' k.radius (op k) order x := by
  obtain ⟨k, h1, h2⟩ := kernel_contiguous hw hs
  exact ⟨k, h2, by rw [focalPy, h1, M.bind_ok]⟩

variable [DecidableEq W] {isNoData : α → Bool} (h : Halo α) (garbage : Nat → α) {x : PArr α} {v : Arr α} (hx : Represents x v)
  (hl : LargeEnough x.grid (2 * r + 1)) {order : List Nat} (ho : IsOrder (x.grid.n0 * x.grid.n1) order)

include hw hs hx hl ho

/-- C65: `focal_sum(array, kernel)` -/
theorem focalSumPy_spec [AddCommMonoid α] (mark : α) :
    ∃ out, focalPy (fun k => focalSum isNoData k mark) h garbage garbage order x a = .ok out ∧ out.grid = x.grid ∧
      Represents out fun i j => if vals isNoData w r h x v i j = [] then mark else (vals isNoData w r h x v i j).sum := by
  obtain ⟨k, h1, h2⟩ := focalPy_eq hw hs (fun k => focalSum isNoData k mark) h garbage garbage order x
  rw [h2]
  exact focal_sum_spec h1 h garbage hx hl ho mark

/-- C65: `focal_mean(array, kernel)` -/
theorem focalMeanPy_spec [AddCommMonoid α] (div : α → Nat → α) (mark : α) :
    ∃ out, focalPy (fun k => focalMean isNoData k div mark) h garbage garbage order x a = .ok out ∧ out.grid = x.grid ∧
      Represents out fun i j => if vals isNoData w r h x v i j = [] then mark
        else div (vals isNoData w r h x v i j).sum (vals isNoData w r h x v i j).length := by
  obtain ⟨k, h1, h2⟩ := focalPy_eq hw hs (fun k => focalMean isNoData k div mark) h garbage garbage order x
  rw [h2]
  exact focal_mean_spec h1 h garbage hx hl ho div mark

/-- C65: `focal_minimum(array, kernel)` -/
theorem focalMinimumPy_spec [LinearOrder α] (zero mark : α) :
    ∃ out u, focalPy (fun k => focalMinimum isNoData k zero mark) h garbage garbage order x a = .ok out ∧
      out.grid = x.grid ∧ Represents out u ∧ ∀ i j,
        (vals isNoData w r h x v i j = [] → u i j = mark) ∧
        (vals isNoData w r h x v i j ≠ [] → u i j ∈ vals isNoData w r h x v i j ∧ ∀ z ∈ vals isNoData w r h x v i j, u i j ≤ z) := by
  obtain ⟨k, h1, h2⟩ := focalPy_eq hw hs (fun k => focalMinimum isNoData k zero mark) h garbage garbage order x
  rw [h2]
  exact focal_minimum_spec h1 h garbage hx hl ho zero mark

/-- C65: `focal_maximum(array, kernel)` -/
theorem focalMaximumPy_spec [LinearOrder α] (zero mark : α) :
    ∃ out u, focalPy (fun k => focalMaximum isNoData k zero mark) h garbage garbage order x a = .ok out ∧
      out.grid = x.grid ∧ Represents out u ∧ ∀ i j,
        (vals isNoData w r h x v i j = [] → u i j = mark) ∧
        (vals isNoData w r h x v i j ≠ [] → u i j ∈ vals isNoData w r h x v i j ∧ ∀ z ∈ vals isNoData w r h x v i j, z ≤ u i j) := by
  obtain ⟨k, h1, h2⟩ := focalPy_eq hw hs (fun k => focalMaximum isNoData k zero mark) h garbage garbage order x
  rw [h2]
  exact focal_maximum_spec h1 h garbage hx hl ho zero mark

/-- C65: `focal_majority(array, kernel)` -/
theorem focalMajorityPy_spec [LinearOrder α] (zero mark : α) :
    ∃ out u, focalPy (fun k => focalMajority isNoData k zero mark) h garbage garbage order x a = .ok out ∧
      out.grid = x.grid ∧ Represents out u ∧ ∀ i j,
        (vals isNoData w r h x v i j = [] → u i j = mark) ∧
        (vals isNoData w r h x v i j ≠ [] → IsMajority (vals isNoData w r h x v i j) (u i j)) := by
  obtain ⟨k, h1, h2⟩ := focalPy_eq hw hs (fun k => focalMajority isNoData k zero mark) h garbage garbage order x
  rw [h2]
  exact focal_majority_spec h1 h garbage hx hl ho zero mark

/-- C65: `focal_diversity(array, kernel)` -/
theorem focalDiversityPy_spec [LinearOrder α] (garbage' : Nat → Nat) (mark : Nat) :
    ∃ out, focalPy (fun k => focalDiversity isNoData k mark) h garbage garbage' order x a = .ok out ∧ out.grid = x.grid ∧
      Represents out fun i j => if vals isNoData w r h x v i j = [] then mark else (vals isNoData w r h x v i j).toFinset.card := by
  obtain ⟨k, h1, h2⟩ := focalPy_eq hw hs (fun k => focalDiversity isNoData k mark) h garbage garbage' order x
  rw [h2]
  exact focal_diversity_spec h1 h garbage hx hl ho garbage' mark

/-- C65: `focal_high_pass(array, kernel)` -/
theorem focalHighPassPy_spec [Ring α] (mark : α) :
    ∃ out, focalPy (fun k => focalHighPass isNoData k mark) h garbage garbage order x a = .ok out ∧ out.grid = x.grid ∧
      Represents out fun i j =>
        let nbs := neighbourValues isNoData w (extended h x.grid.a0 x.grid.a1 v) r i j
        if nbs = [] then mark else 2 * v i j * (nbs.length : α) - nbs.sum := by
  obtain ⟨k, h1, h2⟩ := focalPy_eq hw hs (fun k => focalHighPass isNoData k mark) h garbage garbage order x
  rw [h2]
  exact focal_high_pass_spec h1 h garbage hx hl ho mark

end

/-- C65: `convolve(array, kernel)` -/
theorem convolvePy_spec [AddCommMonoid α] [Mul α] {isNoData : α → Bool} {a : Strided α} {r : Nat} {w : Nat → Nat → α}
    (hw : a.Is2 (2 * r + 1) (2 * r + 1) w) (hs : a.strides = [((2 * r + 1 : Nat) : Int), 1]) (h : Halo α) (garbage : Nat → α) {x : PArr α}
    {v : Arr α} (hx : Represents x v) (hl : LargeEnough x.grid (2 * r + 1)) {order : List Nat}
    (ho : IsOrder (x.grid.n0 * x.grid.n1) order) (mark : α) :
    ∃ out, focalPy (fun k => convolve isNoData k mark) h garbage garbage order x a = .ok out ∧ out.grid = x.grid ∧
      Represents out fun i j =>
        let ws := weightedValues isNoData w (extended h x.grid.a0 x.grid.a1 v) r i j
        if ws = [] then mark else ws.sum := by
  obtain ⟨k, h1, h2⟩ := focalPy_eq hw hs (fun k => convolve isNoData k mark) h garbage garbage order x
  rw [h2]
  exact convolve_spec h1 h garbage hx hl ho mark

/-! ### Kernels with an even extent -/

/-- Operations can not tell the kernels apart. -/
structure Same (k k' : Kernel W) : Prop where
  radius_eq : k.radius = k'.radius
  get_eq : ∀ i j, i < k.size → j < k.size → k.get i j = k'.get i j

theorem Same.size_eq {k k' : Kernel W} (h : Same k k') : k'.size = k.size := by
  unfold Kernel.size; rw [h.radius_eq]

theorem forLoop_congr {σ : Type} {n : Nat} {f g : Nat → σ → M σ} (h : ∀ i < n, ∀ s, f i s = g i s) (s : σ) :
    forLoop n f s = forLoop n g s := by
  induction n with
  | zero => rfl
  | succ n ih =>
    have h1 : ∀ f : Nat → σ → M σ, forLoop (n + 1) f s = forLoop n f s >>= f n := by intro f; simp [forLoop, List.range_succ]
    rw [h1, h1, ih fun i hi => h i (by omega)]
    congr 1
    funext t
    exact h n (by omega) t

theorem cellLoop_congr {σ : Type} {n : Nat} {f g : Nat → Nat → σ → M σ} (h : ∀ i < n, ∀ j < n, ∀ s, f i j s = g i j s) (s : σ) :
    cellLoop n f s = cellLoop n g s :=
  forLoop_congr (fun i hi s => forLoop_congr (fun j hj s => h i hi j hj s) s) s

/-- The operations -/
theorem Same.operations [DecidableEq W] [Zero W] {k k' : Kernel W} (h : Same k k') (isNoData : α → Bool) (window : List α) :
    (∀ [AddCommMonoid α] (mark : α), focalSum isNoData k mark window = focalSum isNoData k' mark window) ∧
    (∀ [AddCommMonoid α] (div : α → Nat → α) (mark : α), focalMean isNoData k div mark window = focalMean isNoData k' div mark window) ∧
    (∀ [LinearOrder α] (zero mark : α), focalMinimum isNoData k zero mark window = focalMinimum isNoData k' zero mark window) ∧
    (∀ [LinearOrder α] (zero mark : α), focalMaximum isNoData k zero mark window = focalMaximum isNoData k' zero mark window) ∧
    (∀ [LinearOrder α] (zero mark : α), focalMajority isNoData k zero mark window = focalMajority isNoData k' zero mark window) ∧
    (∀ [LinearOrder α] (mark : Nat), focalDiversity isNoData k mark window = focalDiversity isNoData k' mark window) ∧
    (∀ [Ring α] (mark : α), focalHighPass isNoData k mark window = focalHighPass isNoData k' mark window) := by
  refine ⟨?_, ?_, ?_, ?_, ?_, ?_, ?_⟩
  all_goals intros
  all_goals
    first
    | unfold focalSum | unfold focalMean | unfold focalMinimum | unfold focalMaximum | unfold focalMajority
    | unfold focalDiversity | unfold focalHighPass
  all_goals
    rw [h.size_eq]
    congr 1
    refine cellLoop_congr (fun i hi j hj s => ?_) _
    rw [h.get_eq i j hi hj]
    try rw [h.radius_eq]

theorem Same.convolve [AddCommMonoid α] [Mul α] {k k' : Kernel α} (h : Same k k') (isNoData : α → Bool) (mark : α) (window : List α) :
    convolve isNoData k mark window = convolve isNoData k' mark window := by
  unfold FocalStats.convolve
  rw [h.size_eq]
  congr 1
  refine cellLoop_congr (fun i hi j hj s => ?_) _
  rw [h.get_eq i j hi hj]

/-- C65: kernels with an even extent are accepted (in a release build). The last row and the last column are silently ignored. -/
theorem even_kernel [Zero W] {a a' : Strided W} {r : Nat} {w : Nat → Nat → W} (hw : a.Is2 (2 * r + 2) (2 * r + 2) w)
    (hs : a.strides = [((2 * r + 2 : Nat) : Int), 1]) (hw' : a'.Is2 (2 * r + 1) (2 * r + 1) w)
    (hs' : a'.strides = [((2 * r + 1 : Nat) : Int), 1]) (op : Kernel W → List α → M γ) (hop : ∀ k k', Same k k' → op k = op k')
    (h : Halo α) (garbage : Nat → α) (garbage' : Nat → γ) (order : List Nat) (x : PArr α) :
    focalPy op h garbage garbage' order x a = focalPy op h garbage garbage' order x a' := by
  obtain ⟨k, h1, h2, h3⟩ := arrayToKernel_square hw.shape_eq (v := fun e => w (e / (2 * r + 2)) (e % (2 * r + 2))) (by
    intro e he
    have := contiguous_mem hw hs (i := e / (2 * r + 2)) (j := e % (2 * r + 2)) (Nat.div_lt_of_lt_mul he) (Nat.mod_lt _ (by omega))
    rwa [Nat.mul_comm, Nat.div_add_mod] at this)
  obtain ⟨k', h4, h5⟩ := kernel_contiguous hw' hs'
  have hr : k.radius = r := by unfold Kernel.radius; omega
  have hsame : Same k k' := by
    refine ⟨by rw [hr, h5.radius_eq], fun i j hi hj => ?_⟩
    rw [Kernel.size, hr] at hi hj
    rw [h3 i j (by omega) (by omega), h5.get_eq i j hi hj]
    simp only [idx_div (show j < 2 * r + 2 by omega), idx_mod (show j < 2 * r + 2 by omega)]
  rw [focalPy, focalPy, h1, h4, M.bind_ok, M.bind_ok, hop k k' hsame, hsame.radius_eq]

/-- C65: a kernel without elements is accepted (in a release build), and memory outside of the kernel is read. -/
theorem empty_kernel [DecidableEq W] [Zero W] (a : Strided W) (ha : a.shape = [0, 0]) (isNoData : α → Bool) [AddCommMonoid α] (mark : α)
    (window : List α) :
    ∃ k, arrayToKernel a = .ok k ∧ k.radius = 0 ∧ focalSum isNoData k mark window = .error .outOfBounds := by
  obtain ⟨k, h1, h2, _⟩ := arrayToKernel_square ha (v := fun _ => 0) (by intro i hi; omega)
  have hr : k.radius = 0 := by unfold Kernel.radius; rw [h2]
  refine ⟨k, h1, hr, ?_⟩
  unfold focalSum
  rw [Kernel.size, hr]
  have : k.get 0 0 = .error .outOfBounds := by unfold Kernel.get; rw [h2, if_neg (by omega)]
  show (do
    let y ← cellLoop 1 _ _
    _) = _
  simp only [cellLoop, forLoop, List.range_one, List.foldlM_cons, List.foldlM_nil, this]
  rfl

end Lue.KernelPy

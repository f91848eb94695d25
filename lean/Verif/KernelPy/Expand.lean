import Verif.KernelPy.Uses

/-!
# Expanding values given NumPy arrays, and examples (C65)
-/
namespace Lue.KernelPy

open Lue.FocalStats Lue.Focal Lue.DataModel

variable {α W : Type}

theorem mapM_range_ok {n : Nat} {f : Nat → M W} {v : Nat → W} (h : ∀ i < n, f i = .ok (v i)) :
    (List.range n).mapM f = .ok ((List.range n).map v) := by
  have key : ∀ l : List Nat, (∀ i ∈ l, i < n) → l.mapM f = .ok (l.map v) := by
    intro l hl
    induction l with
    | nil => rfl
    | cons a l ih =>
      rw [List.mapM_cons, h a (hl a (by simp)), M.bind_ok, ih fun i hi => hl i (by simp [hi])]
      rfl
  exact key _ fun i hi => List.mem_range.mp hi

/-- C65: `value.expand(ids, shapes)`, given arrays which are stored row by row: object arrays with the ids and shapes passed in. -/
theorem expandPy_spec (fill : α) (h : Handle) (g : DataModel.Group (Dataset α)) {ids shapes : Strided Nat} {n : Nat} {id : Nat → Nat}
    {extent : Nat → Nat → Nat} (hi : ids.Is1 n id) (hs : shapes.Is2 n 2 extent) (hi1 : ids.strides = [1]) (hs1 : shapes.strides = [2, 1]) :
    expandPy fill h g 2 ids shapes =
      DifferentShape.expand fill h g ((List.range n).map id) ((List.range n).map fun o => [extent o 0, extent o 1]) := by
  unfold expandPy
  rw [hi.shape_eq, hs.shape_eq]
  dsimp only
  rw [if_neg (by simp), if_neg (by simp)]
  rw [mapM_range_ok (v := id) (by
    intro o ho
    apply rd_ok
    obtain ⟨p, h1, h2⟩ := hi.at_ o ho
    rw [hi1] at h1
    simp only [List.zip_cons_cons, List.zip_nil_right, List.map_cons, List.map_nil, List.sum_cons, List.sum_nil] at h1
    have : p = ids.offset + o := by omega
    rwa [this] at h2)]
  dsimp only
  unfold DifferentShape.expandFlat DifferentShape.flatShapes
  rw [List.length_map, List.length_range, mapM_range_ok (v := fun o => [extent o 0, extent o 1]) (by
    intro o ho
    have hm : ∀ j < 2, rd (shapes.mem.drop shapes.offset) (o * 2 + j) = .ok (extent o j) := by
      intro j hj
      apply rd_ok
      rw [List.getElem?_drop]
      exact contiguous_mem hs hs1 ho hj
    have := hm 0 (by omega)
    rw [Nat.add_zero] at this
    rw [this, M.bind_ok, hm 1 (by omega)]
    rfl)]

/-- C65: in all other cases an exception is thrown, and nothing changes. -/
theorem expandPy_refused (fill : α) (h : Handle) (g : DataModel.Group (Dataset α)) (rank : Nat) (ids shapes : Strided Nat)
    (hn : ¬ ∃ n, ids.shape = [n] ∧ shapes.shape = [n, rank]) : expandPy fill h g rank ids shapes = (.error .thrown, h, g) := by
  unfold expandPy
  split
  · next n m k h1 h2 =>
    by_cases h3 : k = rank
    · rw [if_neg (by simpa using h3), if_pos]
      intro h4
      exact hn ⟨n, h1, by rw [h2, h3, h4]⟩
    · rw [if_pos h3]
  · rfl

/-- C65: the ids used are those of neighbouring elements in memory, instead of the ids of the elements of the array. -/
theorem expandPy_strided (fill : α) (h : Handle) (g : DataModel.Group (Dataset α)) {ids shapes : Strided Nat} {n : Nat} {id : Nat → Nat}
    {extent : Nat → Nat → Nat} (hm : ∀ o < n, ids.mem[ids.offset + o]? = some (id o)) (hi : ids.shape = [n]) (hs : shapes.Is2 n 2 extent)
    (hs1 : shapes.strides = [2, 1]) :
    expandPy fill h g 2 ids shapes =
      DifferentShape.expand fill h g ((List.range n).map id) ((List.range n).map fun o => [extent o 0, extent o 1]) := by
  refine expandPy_spec (ids := ⟨ids.mem, ids.offset, ids.shape, [1]⟩) fill h g ⟨hi, fun i hi => ?_⟩ hs rfl hs1
  refine ⟨ids.offset + i, ?_, hm i hi⟩
  simp

/-! ### Examples -/

/-- `numpy.array([[1, 2, 3], [4, 5, 6], [7, 8, 9]])` -/
def exampleKernel : Strided Nat := ⟨[1, 2, 3, 4, 5, 6, 7, 8, 9], 0, [3, 3], [3, 1]⟩

theorem exampleKernel_is : exampleKernel.Is2 3 3 fun i j => 3 * i + j + 1 := by
  refine ⟨rfl, fun i j hi hj => ⟨3 * i + j, ?_, ?_⟩⟩
  · simp [exampleKernel]; ring
  · have h1 : i = 0 ∨ i = 1 ∨ i = 2 := by omega
    have h2 : j = 0 ∨ j = 1 ∨ j = 2 := by omega
    rcases h1 with rfl | rfl | rfl <;> rcases h2 with rfl | rfl | rfl <;> rfl

example : ∃ k, arrayToKernel exampleKernel = .ok k ∧ IsKernel k 1 fun i j => 3 * i + j + 1 := kernel_contiguous exampleKernel_is rfl

/-- `exampleKernel.T`, a view: transposing the kernel does not have any effect. -/
theorem transposed_kernel : (⟨exampleKernel.mem, 0, [3, 3], [1, 3]⟩ : Strided Nat).Is2 3 3 (fun i j => 3 * j + i + 1) ∧
    arrayToKernel ⟨exampleKernel.mem, 0, [3, 3], [1, 3]⟩ = arrayToKernel exampleKernel := by
  refine ⟨⟨rfl, fun i j hi hj => ?_⟩, rfl⟩
  obtain ⟨p, h1, h2⟩ := exampleKernel_is.at_ j i hj hi
  refine ⟨p, ?_, h2⟩
  rw [h1]
  simp [exampleKernel]; ring

/-- `exampleKernel[::-1]`, a view: memory after the end of the array is read. -/
theorem flipped_kernel : (⟨exampleKernel.mem, 6, [3, 3], [-3, 1]⟩ : Strided Nat).Is2 3 3 (fun i j => 3 * (2 - i) + j + 1) ∧
    arrayToKernel (⟨exampleKernel.mem, 6, [3, 3], [-3, 1]⟩ : Strided Nat) = .error .outOfBounds := by
  refine ⟨⟨rfl, fun i j hi hj => ?_⟩, rfl⟩
  obtain ⟨p, h1, h2⟩ := exampleKernel_is.at_ (2 - i) j (by omega) hj
  refine ⟨p, ?_, h2⟩
  rw [h1]
  simp [exampleKernel]
  omega

/-- `ids[::2]`, with `ids = numpy.array([5, 6, 7, 8])`: object arrays are created for ids 5 and 6, instead of for 5 and 7. -/
theorem expand_everyOther (h : Handle) (g : DataModel.Group (Dataset Nat)) :
    (⟨[5, 6, 7, 8], 0, [2], [2]⟩ : Strided Nat).Is1 2 (fun i => 5 + 2 * i) ∧
    expandPy 0 h g 2 ⟨[5, 6, 7, 8], 0, [2], [2]⟩ ⟨[10, 20, 30, 40], 0, [2, 2], [2, 1]⟩ =
      DifferentShape.expand 0 h g [5, 6] [[10, 20], [30, 40]] := by
  refine ⟨⟨rfl, fun i hi => ?_⟩, rfl⟩
  have h1 : i = 0 ∨ i = 1 := by omega
  rcases h1 with rfl | rfl
  · exact ⟨0, rfl, rfl⟩
  · exact ⟨2, rfl, rfl⟩

/-- Calls which are accepted, and calls which are not. A kernel of Booleans is refused. -/
example : resolve .sum .float32 .uint8 = .ok .float32 ∧ resolve .diversity .int32 .uint8 = .ok .uint64 ∧
    resolve .convolve .float64 .float64 = .ok .float64 ∧ resolve .convolve .float64 .uint8 = .error .thrown ∧
    resolve .mean .int32 .uint8 = .error .thrown ∧ resolve .majority .float32 .uint8 = .error .thrown ∧
    resolve .sum .float32 .float32 = .error .thrown := by decide

end Lue.KernelPy

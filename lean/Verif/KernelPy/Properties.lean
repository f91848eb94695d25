import Verif.KernelPy.Spec

/-!
# Properties of kernels passed as NumPy arrays (C65)
-/
namespace Lue.KernelPy

open Lue.FocalStats Lue.Focal

variable {W : Type}

theorem forLoop_each {σ : Type} {body : Nat → σ → M σ} {n : Nat} {s0 s : σ} (h : forLoop n body s0 = .ok s) {k : Nat} (hk : k < n) :
    ∃ a b, body k a = .ok b := by
  induction n generalizing s with
  | zero => omega
  | succ n ih =>
    have hs : forLoop (n + 1) body s0 = forLoop n body s0 >>= body n := by simp [forLoop, List.range_succ]
    rw [hs] at h
    cases h1 : forLoop n body s0 with
    | error e => rw [h1] at h; cases h
    | ok t =>
      rw [h1, M.bind_ok] at h
      by_cases h2 : k = n
      · subst h2; exact ⟨t, s, h⟩
      · exact ih h1 (by omega)

/-! ### Kernels -/

theorem isHypercube_two (n m : Nat) : isHypercube [n, m] = decide (n = m) := by
  by_cases h : n = m
  · subst h; simp [isHypercube]
  · have : ¬ (m = n) := fun e => h e.symm
    simp [isHypercube, List.count_cons, h, this]

theorem arrayToKernel_square [Zero W] {a : Strided W} {n : Nat} (hs : a.shape = [n, n]) {v : Nat → W}
    (hv : ∀ i < n * n, a.mem[a.offset + i]? = some (v i)) :
    ∃ k, arrayToKernel a = .ok k ∧ k.extent = n ∧ ∀ i j, i < n → j < n → k.get i j = .ok (v (i * n + j)) := by
  obtain ⟨d, h1, h2, h3, _⟩ := Numpy.copyN_ok (source := a.mem) (destination := List.replicate (n * n) (0 : W)) (to_ := 0) (n := n * n)
    (from_ := a.offset) hv (by simp)
  refine ⟨⟨n, d⟩, ?_, rfl, fun i j hi hj => ?_⟩
  · have hsz : a.size = n * n := by simp [Strided.size, hs]
    unfold arrayToKernel
    rw [hs]
    dsimp only
    rw [isHypercube_two, hsz, h1]
    simp
    rfl
  · unfold Kernel.get
    rw [if_pos ⟨hi, hj⟩]
    apply rd_ok
    have := h3 (i * n + j) (idx_lt hi hj)
    rwa [Nat.zero_add] at this

/-- The values in memory, starting at the first element -/
theorem contiguous_mem {a : Strided W} {n m : Nat} {w : Nat → Nat → W} (h : a.Is2 n m w) (hs : a.strides = [(m : Int), 1]) {i j : Nat}
    (hi : i < n) (hj : j < m) : a.mem[a.offset + (i * m + j)]? = some (w i j) := by
  obtain ⟨p, h1, h2⟩ := h.at_ i j hi hj
  rw [hs] at h1
  simp only [List.zip_cons_cons, List.zip_nil_right, List.map_cons, List.map_nil, List.sum_cons, List.sum_nil] at h1
  have : p = a.offset + (i * m + j) := by
    have : ((a.offset + (i * m + j) : Nat) : Int) = (p : Int) := by rw [h1]; push_cast; ring
    omega
  rwa [this] at h2

/-- C65: a kernel stored row by row has the weights of the array. -/
theorem kernel_contiguous [Zero W] {a : Strided W} {r : Nat} {w : Nat → Nat → W} (h : a.Is2 (2 * r + 1) (2 * r + 1) w)
    (hs : a.strides = [((2 * r + 1 : Nat) : Int), 1]) : ∃ k, arrayToKernel a = .ok k ∧ IsKernel k r w := by
  have hn : 0 < 2 * r + 1 := by omega
  obtain ⟨k, h1, h2, h3⟩ := arrayToKernel_square h.shape_eq (v := fun e => w (e / (2 * r + 1)) (e % (2 * r + 1))) (by
    intro e he
    have := contiguous_mem h hs (i := e / (2 * r + 1)) (j := e % (2 * r + 1)) (Nat.div_lt_of_lt_mul he) (Nat.mod_lt _ hn)
    rwa [Nat.mul_comm, Nat.div_add_mod] at this)
  refine ⟨k, h1, h2, fun i j hi hj => ?_⟩
  rw [h3 i j hi hj]
  simp only [idx_div hj, idx_mod hj]

/-- C65: a kernel stored column by column, is transposed. -/
theorem kernel_fortran [Zero W] {a : Strided W} {r : Nat} {w : Nat → Nat → W} (h : a.Is2 (2 * r + 1) (2 * r + 1) w)
    (hs : a.strides = [1, ((2 * r + 1 : Nat) : Int)]) : ∃ k, arrayToKernel a = .ok k ∧ IsKernel k r (fun i j => w j i) := by
  have : (⟨a.mem, a.offset, a.shape, [((2 * r + 1 : Nat) : Int), 1]⟩ : Strided W).Is2 (2 * r + 1) (2 * r + 1) (fun i j => w j i) := by
    refine ⟨h.shape_eq, fun i j hi hj => ?_⟩
    obtain ⟨p, h1, h2⟩ := h.at_ j i hj hi
    refine ⟨p, ?_, h2⟩
    rw [h1, hs]
    simp only [List.zip_cons_cons, List.zip_nil_right, List.map_cons, List.map_nil, List.sum_cons, List.sum_nil]
    ring
  obtain ⟨k, h1, h2⟩ := kernel_contiguous this rfl
  exact ⟨k, h1, h2⟩

/-- C65: arrays with another rank, and arrays which are not square, are refused. -/
theorem kernel_refused [Zero W] (a : Strided W) (h : ¬ ∃ n, a.shape = [n, n]) : arrayToKernel a = .error .thrown := by
  unfold arrayToKernel
  split
  · next n m hs =>
    rw [isHypercube_two]
    have : n ≠ m := fun e => h ⟨n, by rw [hs, e]⟩
    simp [this]
  · rfl

/-- C65: the weights of the kernel are those of the array, whatever is in memory, if and only if the array is stored row by row. -/
theorem kernel_iff [Zero W] [Nontrivial W] (n : Nat) (hn : 2 ≤ n) (offset : Nat) (s0 s1 : Int) (size : Nat) :
    (∀ mem : List W, mem.length = size → ∃ k, arrayToKernel ⟨mem, offset, [n, n], [s0, s1]⟩ = .ok k ∧ k.extent = n ∧
      ∀ i j, i < n → j < n → ∃ x, (⟨mem, offset, [n, n], [s0, s1]⟩ : Strided W).At [i, j] x ∧ k.get i j = .ok x) ↔
    s0 = n ∧ s1 = 1 ∧ offset + n * n ≤ size := by
  constructor
  · intro H
    have hn2 : n < n * n := by nlinarith
    -- All elements are read
    have hsz : offset + n * n ≤ size := by
      by_contra hc
      obtain ⟨k, h1, _⟩ := H (List.replicate size 0) (by simp)
      unfold arrayToKernel at h1
      dsimp only at h1
      rw [isHypercube_two] at h1
      simp only [decide_true, Bool.not_true, Bool.false_eq_true, if_false] at h1
      rw [Numpy.copyN, Strided.size] at h1
      simp only [List.prod_cons, List.prod_nil, mul_one] at h1
      cases hl : forLoop (n * n) (fun i (d : List W) => do
          let x ← rd (List.replicate size (0 : W)) (offset + i)
          wr d (0 + i) x) (List.replicate (n * n) 0) with
      | error e => rw [hl] at h1; cases h1
      | ok t =>
        obtain ⟨d, d', h3⟩ := forLoop_each hl (k := n * n - 1) (by omega)
        have : rd (List.replicate size (0 : W)) (offset + (n * n - 1)) = .error .outOfBounds := by
          rw [rd, List.getElem?_eq_none (by simp; omega)]
        rw [this] at h3
        cases h3
    obtain ⟨one, hone⟩ := exists_ne (0 : W)
    -- A single one in memory
    have key : ∀ i j, i < n → j < n → (offset : Int) + (i * s0 + (j * s1 + 0)) = offset + (i * n + j : Nat) := by
      intro i j hi hj
      obtain ⟨k, h1, h2, h3⟩ := H ((List.replicate size 0).set (offset + (i * n + j)) one) (by simp)
      obtain ⟨k', h4, h5, h6⟩ := arrayToKernel_square (a := ⟨(List.replicate size 0).set (offset + (i * n + j)) one, offset, [n, n], [s0, s1]⟩) (n := n)
        rfl (v := fun e => if e = i * n + j then one else 0) (by
          intro e he
          show ((List.replicate size 0).set (offset + (i * n + j)) one)[offset + e]? = _
          rw [List.getElem?_set]
          have : offset + e < size := by omega
          by_cases h : e = i * n + j
          · subst h; simp [this]
          · rw [if_neg (by omega)]; simp [h, this])
      rw [h1] at h4
      obtain rfl := Except.ok.inj h4
      obtain ⟨x, ⟨p, h7, h8⟩, h9⟩ := h3 i j hi hj
      rw [h6 i j hi hj] at h9
      simp only [if_true] at h9
      obtain rfl := Except.ok.inj h9
      have hp : p = offset + (i * n + j) := by
        by_contra hc
        dsimp only at h8
        rw [List.getElem?_set_ne (by omega), List.getElem?_replicate] at h8
        split at h8
        · exact hone (Option.some.inj h8).symm
        · cases h8
      simp only [List.zip_cons_cons, List.zip_nil_right, List.map_cons, List.map_nil, List.sum_cons, List.sum_nil] at h7
      rw [← h7, hp]; push_cast; ring
    refine ⟨?_, ?_, hsz⟩
    · have := key 1 0 (by omega) (by omega); push_cast at this; linarith
    · have := key 0 1 (by omega) (by omega); push_cast at this; linarith
  · rintro ⟨rfl, rfl, hsz⟩ mem hm
    obtain ⟨k, h1, h2, h3⟩ := arrayToKernel_square (a := ⟨mem, offset, [n, n], [(n : Int), 1]⟩) (n := n) rfl
      (v := fun e => mem.getD (offset + e) 0) (by
        intro e he
        show mem[offset + e]? = _
        rw [List.getD_eq_getElem?_getD, List.getElem?_eq_getElem (by omega)]; rfl)
    refine ⟨k, h1, h2, fun i j hi hj => ⟨_, ?_, h3 i j hi hj⟩⟩
    have := idx_lt hi hj
    refine ⟨offset + (i * n + j), ?_, ?_⟩
    · simp only [List.zip_cons_cons, List.zip_nil_right, List.map_cons, List.map_nil, List.sum_cons, List.sum_nil]
      push_cast; ring
    · show mem[offset + (i * n + j)]? = _
      rw [List.getD_eq_getElem?_getD, List.getElem?_eq_getElem (by omega)]; rfl

end Lue.KernelPy

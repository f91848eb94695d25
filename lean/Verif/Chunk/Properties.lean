import Verif.Chunk.Model
import Mathlib.Algebra.Order.Floor.Semifield

/-!
# C37: the shape of chunks
-/
namespace Lue.Chunk

open Lue.Index

theorem sizeOfShape_eq (v : List Nat) (s : Nat) : sizeOfShape v s = s * nrElements v := foldl_mul_init v s

/-! ### Values which fit in a chunk -/

/-- A value which fits in a chunk: a chunk contains a number of values as a whole, at most 1 MiB and more than half of
that. -/
theorem chunk_small {order : List (Nat × Nat)} {v : List Nat} {s : Nat} (h0 : 0 < sizeOfShape v s)
    (h : sizeOfShape v s ≤ upperLimit) :
    ∃ n, chunkShape order v s = some (n :: v) ∧ 0 < n ∧ sizeOfShape (n :: v) s ≤ upperLimit ∧
      upperLimit < 2 * sizeOfShape (n :: v) s := by
  have hr : (0 : ℝ) < sizeOfShape v s := by exact_mod_cast h0
  have h1 : (1 : ℝ) ≤ (upperLimit : ℝ) / sizeOfShape v s := by
    rw [le_div_iff₀ hr, one_mul]; exact_mod_cast h
  have hfl : ⌊(upperLimit : ℝ) / sizeOfShape v s⌋₊ = upperLimit / sizeOfShape v s := by
    rw [Nat.floor_div_natCast, Nat.floor_natCast]
  refine ⟨upperLimit / sizeOfShape v s, ?_, ?_, ?_, ?_⟩
  · simp only [chunkShape]
    rw [if_neg (by omega), if_pos h1, hfl]
  · exact Nat.div_pos h h0
  · rw [sizeOfShape_eq, nrElements_cons, show s * (upperLimit / sizeOfShape v s * nrElements v) =
      upperLimit / sizeOfShape v s * (s * nrElements v) by ring, ← sizeOfShape_eq]
    exact Nat.div_mul_le_self _ _
  · rw [sizeOfShape_eq (_ :: v), nrElements_cons, show s * (upperLimit / sizeOfShape v s * nrElements v) =
      upperLimit / sizeOfShape v s * (s * nrElements v) by ring, ← sizeOfShape_eq]
    have h3 := Nat.div_add_mod upperLimit (sizeOfShape v s)
    have h4 := Nat.mod_lt upperLimit h0
    have h5 : 1 ≤ upperLimit / sizeOfShape v s := Nat.div_pos h h0
    have h6 : sizeOfShape v s * 1 ≤ sizeOfShape v s * (upperLimit / sizeOfShape v s) := Nat.mul_le_mul_left _ h5
    rw [Nat.mul_comm (upperLimit / sizeOfShape v s)]
    omega

/-! ### Values which do not fit in a chunk -/

/-- The size of the dimensions of a square chunk, in elements, according to the code. -/
noncomputable def initial (rank s : Nat) : ℝ := (upperLimit : ℝ) ^ ((1 : ℝ) / (rank : ℝ)) / s

theorem chunkShape_large {order : List (Nat × Nat)} {v : List Nat} {s : Nat} (h : upperLimit < sizeOfShape v s) :
    chunkShape order v s = visit (some (initial v.length s)) order ((List.replicate (v.length + 1) 0).set 0 1) := by
  have h0 : sizeOfShape v s ≠ 0 := by omega
  have hr : (0 : ℝ) < sizeOfShape v s := by exact_mod_cast Nat.pos_of_ne_zero h0
  have h1 : ¬ (1 : ℝ) ≤ (upperLimit : ℝ) / sizeOfShape v s := by
    rw [le_div_iff₀ hr, one_mul]; push Not; exact_mod_cast h
  simp only [chunkShape, initial]
  rw [if_neg h0, if_neg h1, mul_div_cancel₀ _ hr.ne']

theorem initial_pow {rank s : Nat} (hr : 0 < rank) (hs : 0 < s) : initial rank s ^ rank * (s : ℝ) ^ rank = upperLimit := by
  unfold initial
  rw [← mul_pow, div_mul_cancel₀ _ (by exact_mod_cast hs.ne'), one_div]
  exact Real.rpow_inv_natCast_pow (Nat.cast_nonneg _) hr.ne'

theorem initial_pos {rank s : Nat} (hs : 0 < s) : 0 < initial rank s :=
  div_pos (Real.rpow_pos_of_pos (by simp [upperLimit]) _) (by exact_mod_cast hs)

theorem one_le_initial {rank s : Nat} (hr : 0 < rank) (hs : 0 < s) (h : s ^ rank ≤ upperLimit) : 1 ≤ initial rank s := by
  by_contra hc
  push Not at hc
  have h1 := initial_pow hr hs
  have h2 : initial rank s ^ rank < 1 := pow_lt_one₀ (initial_pos hs).le hc hr.ne'
  have h3 : (0 : ℝ) < (s : ℝ) ^ rank := pow_pos (by exact_mod_cast hs) _
  have h4 : ((s ^ rank : Nat) : ℝ) ≤ upperLimit := by exact_mod_cast h
  push_cast at h4
  have : initial rank s ^ rank * (s : ℝ) ^ rank < 1 * (s : ℝ) ^ rank := mul_lt_mul_of_pos_right h2 h3
  rw [h1, one_mul] at this
  exact absurd this (by linarith)

theorem initial_lt_one {rank s : Nat} (hr : 0 < rank) (hs : 0 < s) (h : upperLimit < s ^ rank) : initial rank s < 1 := by
  by_contra hc
  push Not at hc
  have h1 := initial_pow hr hs
  have h2 : 1 ≤ initial rank s ^ rank := one_le_pow₀ hc
  have h3 : (0 : ℝ) < (s : ℝ) ^ rank := pow_pos (by exact_mod_cast hs) _
  have h4 : (upperLimit : ℝ) < ((s ^ rank : Nat) : ℝ) := by exact_mod_cast h
  push_cast at h4
  have : 1 * (s : ℝ) ^ rank ≤ initial rank s ^ rank * (s : ℝ) ^ rank := mul_le_mul_of_nonneg_right h2 h3.le
  rw [h1, one_mul] at this
  exact absurd this (by linarith)

theorem next_ge {c : ℝ} {e : Nat} (hc : 1 ≤ c) (he : 0 < e) :
    0 < min ⌊c⌋₊ e ∧ c ≤ c * (c / (min ⌊c⌋₊ e : Nat)) := by
  have h1 : 1 ≤ ⌊c⌋₊ := Nat.le_floor (by exact_mod_cast hc)
  have h2 : 0 < min ⌊c⌋₊ e := by omega
  refine ⟨h2, ?_⟩
  have h3 : ((min ⌊c⌋₊ e : Nat) : ℝ) ≤ c :=
    (Nat.cast_le.mpr (Nat.min_le_left _ _)).trans (Nat.floor_le (by linarith))
  have h4 : (0 : ℝ) < ((min ⌊c⌋₊ e : Nat) : ℝ) := by exact_mod_cast h2
  have h5 : 1 ≤ c / ((min ⌊c⌋₊ e : Nat) : ℝ) := by rw [le_div_iff₀ h4]; linarith
  nlinarith

/-- Visiting the dimensions: each dimension of the chunk gets a size of at least one, and at most the extent. -/
theorem visit_ok (order : List (Nat × Nat)) : ∀ (c : ℝ) (result : List Nat), 1 ≤ c → (∀ e ∈ order, 0 < e.1) →
    (order.map (·.2)).Nodup → (∀ e ∈ order, e.2 + 1 < result.length) →
    ∃ r, visit (some c) order result = some r ∧ r.length = result.length ∧
      (∀ e ∈ order, ∃ d, r[e.2 + 1]? = some d ∧ 1 ≤ d ∧ d ≤ e.1) ∧
      ∀ i, (∀ e ∈ order, i ≠ e.2 + 1) → r[i]? = result[i]? := by
  induction order with
  | nil => intro c result _ _ _ _; exact ⟨result, rfl, rfl, by simp, fun _ _ => rfl⟩
  | cons e order ih =>
    intro c result hc hpos hn hb
    obtain ⟨extent, index⟩ := e
    obtain ⟨hd, hnext⟩ := next_ge hc (hpos (extent, index) (by simp))
    simp only [visit]
    rw [if_neg hd.ne']
    simp only [List.map_cons, List.nodup_cons, List.mem_map, not_exists, not_and] at hn
    obtain ⟨r, h1, h2, h3, h4⟩ := ih _ (result.set (index + 1) (min ⌊c⌋₊ extent)) (hc.trans hnext)
      (fun e he => hpos e (by simp [he])) hn.2 (fun e he => by simpa using hb e (by simp [he]))
    refine ⟨r, h1, by simpa using h2, ?_, ?_⟩
    · intro e he
      rcases List.mem_cons.mp he with rfl | he
      · refine ⟨min ⌊c⌋₊ extent, ?_, hd, Nat.min_le_right _ _⟩
        simp only
        rw [h4 _ (fun e' he' hc' => hn.1 e' he' (by omega)), List.getElem?_set_self (hb (extent, index) (by simp))]
      · exact h3 e he
    · intro i hi
      rw [h4 i (fun e he => hi e (by simp [he])), List.getElem?_set_ne (fun hc' => hi (extent, index) (by simp) hc'.symm)]

theorem zipIdx_mem {v : List Nat} {e : Nat × Nat} : e ∈ v.zipIdx ↔ v[e.2]? = some e.1 := by
  rw [List.mem_zipIdx_iff_getElem?]

/-- A value which does not fit in a chunk, with elements which are not too large: the chunk is part of a value, is not
empty and is not larger than the value in any dimension. -/
theorem chunk_large {order : List (Nat × Nat)} {v : List Nat} {s : Nat} (h : upperLimit < sizeOfShape v s)
    (ho : IsOrder v order) (hv : 0 < v.length) (hs : s ^ v.length ≤ upperLimit) :
    ∃ ds, chunkShape order v s = some (1 :: ds) ∧ List.Forall₂ (fun d e => 1 ≤ d ∧ d ≤ e) ds v := by
  have hpos : 0 < s * nrElements v := by rw [← sizeOfShape_eq]; omega
  have hs0 : 0 < s := Nat.pos_of_mul_pos_right hpos
  have hne : 0 < nrElements v := Nat.pos_of_mul_pos_left hpos
  have hall : ∀ x ∈ v, 0 < x := by
    clear h ho hv hs hpos
    induction v with
    | nil => simp
    | cons a v ih =>
      rw [nrElements_cons] at hne
      intro x hx
      rcases List.mem_cons.mp hx with rfl | hx
      · exact Nat.pos_of_mul_pos_right hne
      · exact ih (Nat.pos_of_mul_pos_left hne) x hx
  rw [chunkShape_large h]
  obtain ⟨r, h1, h2, h3, h4⟩ := visit_ok order (initial v.length s) ((List.replicate (v.length + 1) 0).set 0 1)
    (one_le_initial hv hs0 hs)
    (fun e he => hall _ (List.mem_of_getElem? (zipIdx_mem.mp (ho.1.mem_iff.mp he))))
    ((ho.1.map (·.2)).nodup_iff.mpr (by rw [List.zipIdx_map_snd]; exact List.nodup_range'))
    (fun e he => by
      obtain ⟨hlt, _⟩ := List.getElem?_eq_some_iff.mp (zipIdx_mem.mp (ho.1.mem_iff.mp he))
      simpa using hlt)
  have hl : r.length = v.length + 1 := by simpa using h2
  have h0 : r[0]? = some 1 := by
    rw [h4 0 (fun e _ => by omega), List.getElem?_set_self (by simp)]
  obtain ⟨a, ds, rfl⟩ : ∃ a ds, r = a :: ds := by
    cases r with
    | nil => simp at hl
    | cons a ds => exact ⟨a, ds, rfl⟩
  simp only [List.getElem?_cons_zero, Option.some.injEq] at h0
  subst h0
  refine ⟨ds, h1, List.forall₂_iff_get.mpr ⟨by simpa using hl, fun i hi hi' => ?_⟩⟩
  obtain ⟨d, hd1, hd2⟩ := h3 (v[i], i) (ho.1.mem_iff.mpr (zipIdx_mem.mpr (List.getElem?_eq_getElem hi')))
  simp only [List.getElem?_cons_succ] at hd1
  rw [List.getElem?_eq_getElem hi] at hd1
  simp only [Option.some.injEq] at hd1
  simp only [List.get_eq_getElem, hd1]
  exact hd2

/-- Chunks which are part of an array with rank 1 fit in 1 MiB. -/
theorem chunk_rank1 {order : List (Nat × Nat)} {n s : Nat} (h : upperLimit < sizeOfShape [n] s) (ho : IsOrder [n] order)
    (hs : 0 < s) : chunkShape order [n] s = some [1, upperLimit / s] ∧ sizeOfShape [1, upperLimit / s] s ≤ upperLimit := by
  have ho' : order = [(n, 0)] := by simpa [List.zipIdx] using ho.1
  rw [chunkShape_large h, ho']
  have hi : initial 1 s = (upperLimit : ℝ) / s := by simp [initial]
  have hfl : ⌊initial 1 s⌋₊ = upperLimit / s := by rw [hi, Nat.floor_div_natCast, Nat.floor_natCast]
  have hle : upperLimit / s ≤ n := by
    rw [sizeOfShape_eq] at h
    simp [nrElements_cons] at h
    have := Nat.div_mul_le_self upperLimit s
    by_contra hc
    have : s * n ≤ upperLimit / s * s := by rw [Nat.mul_comm]; exact Nat.mul_le_mul_right _ (by omega)
    omega
  constructor
  · simp [visit, hfl, Nat.min_eq_left hle]
  · rw [sizeOfShape_eq]; simp only [nrElements_cons, nrElements_nil, Nat.one_mul, Nat.mul_one]
    exact Nat.mul_div_le _ _

theorem visit_rank2 {c : ℝ} (hc : 1 ≤ c) {e0 e1 i0 i1 : Nat} (he0 : 0 < e0) {r : List Nat} :
    ∃ d0 d1 : Nat, visit (some c) [(e0, i0), (e1, i1)] r = some ((r.set (i0 + 1) d0).set (i1 + 1) d1) ∧
      (d0 : ℝ) * d1 ≤ c ^ 2 := by
  obtain ⟨hd, _⟩ := next_ge (e := e0) hc he0
  simp only [visit]
  rw [if_neg hd.ne']
  simp only [visit]
  have h1 : (0 : ℝ) < ((min ⌊c⌋₊ e0 : Nat) : ℝ) := by exact_mod_cast hd
  have h2 : ((min ⌊c * (c / ((min ⌊c⌋₊ e0 : Nat) : ℝ))⌋₊ e1 : Nat) : ℝ) ≤ c * (c / ((min ⌊c⌋₊ e0 : Nat) : ℝ)) :=
    (Nat.cast_le.mpr (Nat.min_le_left _ _)).trans (Nat.floor_le (by positivity))
  refine ⟨_, _, rfl, ?_⟩
  calc _ ≤ ((min ⌊c⌋₊ e0 : Nat) : ℝ) * (c * (c / ((min ⌊c⌋₊ e0 : Nat) : ℝ))) := mul_le_mul_of_nonneg_left h2 h1.le
    _ = c ^ 2 := by field_simp

/-- Chunks which are part of an array with rank 2 fit in 1 MiB: a chunk with elements of `s` bytes takes at most
`1 MiB / s` bytes. -/
theorem chunk_rank2 {order : List (Nat × Nat)} {n0 n1 s : Nat} (h : upperLimit < sizeOfShape [n0, n1] s)
    (ho : IsOrder [n0, n1] order) (hs : s ^ 2 ≤ upperLimit) :
    ∃ d0 d1, chunkShape order [n0, n1] s = some [1, d0, d1] ∧ s * sizeOfShape [1, d0, d1] s ≤ upperLimit := by
  have hp : 0 < s * nrElements [n0, n1] := by rw [← sizeOfShape_eq]; omega
  have hs0 : 0 < s := Nat.pos_of_mul_pos_right hp
  have hne : 0 < n0 * n1 := by
    have := Nat.pos_of_mul_pos_left hp
    simpa [nrElements_cons] using this
  rw [chunkShape_large h]
  have hone := one_le_initial (rank := 2) (by decide) hs0 hs
  have hpow := initial_pow (rank := 2) (by decide) hs0
  have hl : [n0, n1].length = 2 := rfl
  rw [hl]
  have fin : ∀ d0 d1 : Nat, (d0 : ℝ) * d1 ≤ initial 2 s ^ 2 → s * sizeOfShape [1, d0, d1] s ≤ upperLimit := by
    intro d0 d1 hd
    have : ((s * sizeOfShape [1, d0, d1] s : Nat) : ℝ) ≤ upperLimit := by
      rw [← hpow, sizeOfShape_eq]
      simp only [nrElements_cons, nrElements_nil]
      push_cast
      have h0 : (0 : ℝ) ≤ (s : ℝ) ^ 2 := by positivity
      nlinarith
    exact_mod_cast this
  have ho' : order = [(n0, 0), (n1, 1)] ∨ order = [(n1, 1), (n0, 0)] := by
    have hlen := ho.1.length_eq
    have hz : [n0, n1].zipIdx = [(n0, 0), (n1, 1)] := rfl
    rw [hz] at hlen
    have hmem : ∀ e, e ∈ order ↔ e = (n0, 0) ∨ e = (n1, 1) := fun e => by rw [ho.1.mem_iff, hz]; simp
    match order, hlen with
    | [a, b], _ =>
      have ha := (hmem a).mp (by simp)
      have hb := (hmem b).mp (by simp)
      have h0 := (hmem (n0, 0)).mpr (.inl rfl)
      have h1 := (hmem (n1, 1)).mpr (.inr rfl)
      rcases ha with rfl | rfl <;> rcases hb with rfl | rfl <;> simp_all
  rcases ho' with rfl | rfl
  · obtain ⟨d0, d1, h1, h2⟩ := visit_rank2 hone (e0 := n0) (e1 := n1) (i0 := 0) (i1 := 1) (Nat.pos_of_mul_pos_right hne)
      (r := (List.replicate (2 + 1) 0).set 0 1)
    exact ⟨d0, d1, by rw [h1]; rfl, fin d0 d1 h2⟩
  · obtain ⟨d0, d1, h1, h2⟩ := visit_rank2 hone (e0 := n1) (e1 := n0) (i0 := 1) (i1 := 0) (Nat.pos_of_mul_pos_left hne)
      (r := (List.replicate (2 + 1) 0).set 0 1)
    exact ⟨d1, d0, by rw [h1]; rfl, fin d1 d0 (by rw [mul_comm]; exact h2)⟩

/-! ### What is not guaranteed -/

/-- A value without elements: the behaviour is undefined. -/
theorem chunk_empty_undefined {order : List (Nat × Nat)} {v : List Nat} {s : Nat} (h : 0 ∈ v) : chunkShape order v s = none := by
  have h0 : nrElements v = 0 := by
    induction v with
    | nil => simp at h
    | cons a v ih =>
      rw [nrElements_cons]
      rcases List.mem_cons.mp h with rfl | h
      · simp
      · rw [ih h]; simp
  simp [chunkShape, sizeOfShape_eq, h0]

/-- A value which does not fit in a chunk, with too many dimensions given the size of the elements: the behaviour is
undefined. -/
theorem chunk_undefined {order : List (Nat × Nat)} {v : List Nat} {s : Nat} (h : upperLimit < sizeOfShape v s)
    (ho : IsOrder v order) (hv : 2 ≤ v.length) (hs : upperLimit < s ^ v.length) : chunkShape order v s = none := by
  have hp : 0 < s * nrElements v := by rw [← sizeOfShape_eq]; omega
  have hs0 : 0 < s := Nat.pos_of_mul_pos_right hp
  rw [chunkShape_large h]
  have hlt := initial_lt_one (show 0 < v.length by omega) hs0 hs
  have hf : ⌊initial v.length s⌋₊ = 0 := Nat.floor_eq_zero.mpr hlt
  have hlen : order.length = v.length := by simpa using ho.1.length_eq
  match order, hlen with
  | [], hl => simp at hl; omega
  | [a], hl => simp at hl; omega
  | a :: b :: l, _ => simp [visit, hf]

/-- An array of 8-byte elements with seven dimensions and 10 elements in each of them. -/
example {order : List (Nat × Nat)} (ho : IsOrder (List.replicate 7 10) order) :
    chunkShape order (List.replicate 7 10) 8 = none :=
  chunk_undefined (by decide) ho (by decide) (by decide)

theorem initial_4 (s : Nat) : initial 4 s = 32 / s := by
  unfold initial
  congr 1
  rw [show (upperLimit : ℝ) = (32 : ℝ) ^ (4 : ℕ) by norm_num [upperLimit]]
  rw [show ((1 : ℝ) / ((4 : ℕ) : ℝ)) = (((4 : ℕ) : ℝ))⁻¹ by simp]
  exact Real.pow_rpow_inv_natCast (by norm_num) (by norm_num)

/-- Arrays with shape `1 × 1 × n × n` of 4-byte elements, e.g. a time series of length 1: chunks of 64 MiB instead of at most 1 MiB. -/
theorem chunk_too_large {n : Nat} (hn : 4096 ≤ n) :
    chunkShape [(1, 0), (1, 1), (n, 2), (n, 3)] [1, 1, n, n] 4 = some [1, 1, 1, 4096, 4096] ∧
    IsOrder [1, 1, n, n] [(1, 0), (1, 1), (n, 2), (n, 3)] ∧
    sizeOfShape [1, 1, 1, 4096, 4096] 4 = 64 * upperLimit := by
  have h : upperLimit < sizeOfShape [1, 1, n, n] 4 := by
    simp only [sizeOfShape, List.foldl_cons, List.foldl_nil, upperLimit]
    have : 4096 * 4096 ≤ n * n := Nat.mul_le_mul hn hn
    nlinarith
  refine ⟨?_, ⟨by simp [List.zipIdx], by simp; omega⟩, by decide⟩
  rw [chunkShape_large h]
  simp only [List.length_cons, List.length_nil]
  rw [initial_4]
  have e0 : ((32 : ℝ) / (4 : ℕ)) = (8 : ℕ) := by norm_num
  rw [e0]
  simp only [visit, Nat.floor_natCast]
  have m1 : min 8 1 = 1 := by decide
  simp only [m1]
  have e1 : ((8 : ℕ) : ℝ) * (((8 : ℕ) : ℝ) / ((1 : ℕ) : ℝ)) = (64 : ℕ) := by norm_num
  rw [e1]
  have e2 : ((64 : ℕ) : ℝ) * (((64 : ℕ) : ℝ) / ((1 : ℕ) : ℝ)) = (4096 : ℕ) := by norm_num
  have m2 : min 64 1 = 1 := by decide
  simp only [if_neg (show ¬ (1 = 0) by decide), visit, Nat.floor_natCast, m2]
  rw [e2]
  have m3 : min 4096 n = 4096 := by omega
  have e3 : ((4096 : ℕ) : ℝ) * (((4096 : ℕ) : ℝ) / ((4096 : ℕ) : ℝ)) = (4096 : ℕ) := by norm_num
  simp only [visit, Nat.floor_natCast, m3, if_neg (show ¬ (4096 = 0) by decide)]
  rw [e3]
  simp only [visit, Nat.floor_natCast, m3]
  rfl

/-- Arrays with shape `n × n × n × n` of 8-byte elements: chunks of 2 KiB, less than the lower limit of 10 KiB. -/
theorem chunk_too_small {n : Nat} (hn : 20 ≤ n) :
    chunkShape [(n, 0), (n, 1), (n, 2), (n, 3)] [n, n, n, n] 8 = some [1, 4, 4, 4, 4] ∧
    IsOrder [n, n, n, n] [(n, 0), (n, 1), (n, 2), (n, 3)] ∧
    sizeOfShape [1, 4, 4, 4, 4] 8 < lowerLimit := by
  have h : upperLimit < sizeOfShape [n, n, n, n] 8 := by
    simp only [sizeOfShape, List.foldl_cons, List.foldl_nil, upperLimit]
    have h2 : 20 * 20 ≤ n * n := Nat.mul_le_mul hn hn
    have h4 : (20 * 20) * (20 * 20) ≤ (n * n) * (n * n) := Nat.mul_le_mul h2 h2
    nlinarith
  refine ⟨?_, ⟨by simp [List.zipIdx], by simp⟩, by decide⟩
  rw [chunkShape_large h]
  simp only [List.length_cons, List.length_nil]
  rw [initial_4]
  have e0 : ((32 : ℝ) / (8 : ℕ)) = (4 : ℕ) := by norm_num
  rw [e0]
  have m : min 4 n = 4 := by omega
  have e : ((4 : ℕ) : ℝ) * (((4 : ℕ) : ℝ) / ((4 : ℕ) : ℝ)) = (4 : ℕ) := by norm_num
  simp only [visit, Nat.floor_natCast, m, if_neg (show ¬ (4 = 0) by decide), e]
  rfl

/-- A raster of 1000 x 3000 8-byte elements -/
example : ∃ ds, chunkShape [(1000, 0), (3000, 1)] [1000, 3000] 8 = some (1 :: ds) ∧
    List.Forall₂ (fun d e => 1 ≤ d ∧ d ≤ e) ds [1000, 3000] :=
  chunk_large (by decide) ⟨List.Perm.refl _, by decide⟩ (by decide) (by decide)

/-- Points -/
example : ∃ n, chunkShape [] [2] 8 = some [n, 2] ∧ 0 < n ∧ sizeOfShape [n, 2] 8 ≤ upperLimit ∧
    upperLimit < 2 * sizeOfShape [n, 2] 8 := chunk_small (by decide) (by decide)

end Lue.Chunk

import Verif.Resample.Model

/-!
Downscaling along one dimension.
-/
namespace Lue.Resample

open Decomposition

/-- The source cell used for cell `l` of target partition `t` by the implementation. -/
def implSource (a p c t l : Nat) : Nat :=
  let q := Dim.extent a p 0
  targetToSource t c (a / p) * p + (sourceAreaOffset (t * q) c q (Dim.extent (c * a) q t) + (t * q % c + l) / c)

/-- The extents for which the implementation is right, along one dimension. -/
def Good (a p c : Nat) : Prop := a / p = 1 ∨ c * (a % p) < p ∨ (p < c * (a % p) ∧ c * (a % p) < 2 * p)

theorem add_div_split (x l c : Nat) (hc : 0 < c) : (x + l) / c = x / c + (x % c + l) / c := by
  conv_lhs => rw [← Nat.div_add_mod x c, Nat.add_assoc, Nat.add_comm, Nat.add_mul_div_left _ _ hc]
  rw [Nat.add_comm]

variable {a p c t l : Nat}

theorem extent_zero_one (h1 : a / p = 1) : Dim.extent a p 0 = a := by
  unfold Dim.extent; rw [h1]; simp

theorem extent_zero_many (h1 : 1 < a / p) : Dim.extent a p 0 = p := by
  unfold Dim.extent; rw [if_neg (by omega)]

theorem nrTarget_many (hp : 0 < p) : c * a / p = c * (a / p) + c * (a % p) / p := by
  have : c * a = c * (a % p) + c * (a / p) * p := by
    conv_lhs => rw [← Nat.div_add_mod a p]
    ring
  rw [this, Nat.add_mul_div_right _ _ hp, Nat.add_comm]

/-- Target partition in the part covered by the regular extents of the source partitions. -/
theorem offset_regular (hp : 0 < p) (hc : 0 < c) (ht : t < c * (a / p)) :
    targetToSource t c (a / p) = t / c ∧ t * p / c = t / c * p + t * p / c % p := by
  have h1 : t / c < a / p := Nat.div_lt_of_lt_mul ht
  constructor
  · unfold targetToSource; omega
  · have e : t * p = (t % c) * p + c * (t / c * p) := by
      conv_lhs => rw [← Nat.div_add_mod t c]
      ring
    have e2 : t * p / c = t % c * p / c + t / c * p := by
      rw [e, Nat.add_mul_div_left _ _ hc]
    have h2 : t % c * p / c < p := by
      apply Nat.div_lt_of_lt_mul
      exact Nat.mul_lt_mul_of_pos_right (Nat.mod_lt _ hc) hp
    rw [e2, Nat.add_mul_mod_self_right, Nat.mod_eq_of_lt h2, Nat.add_comm]

/-- All reads are inside the source partition, and for good extents the source cell is the one enclosing the target
cell. -/
theorem implSource_spec (hp : 0 < p) (hpa : p ≤ a) (hc : 2 ≤ c)
    (ht : t < c * a / Dim.extent a p 0) (hl : l < Dim.extent (c * a) (Dim.extent a p 0) t) :
    targetToSource t c (a / p) < a / p ∧
    sourceAreaOffset (t * Dim.extent a p 0) c (Dim.extent a p 0) (Dim.extent (c * a) (Dim.extent a p 0) t) +
      (t * Dim.extent a p 0 % c + l) / c < Dim.extent a p (targetToSource t c (a / p)) ∧
    (Good a p c → implSource a p c t l = (t * Dim.extent a p 0 + l) / c) := by
  have hn := Dim.nr_pos hp hpa
  have ha : 0 < a := by omega
  have hc0 : 0 < c := by omega
  have hq : 0 < Dim.extent a p 0 := Dim.extent_pos hp 0
  have hk : targetToSource t c (a / p) < a / p := by unfold targetToSource; omega
  have hle : Dim.extent a p 0 ≤ c * a := by
    have h := Dim.offset_add_extent_le hp hpa hn
    have : a ≤ c * a := Nat.le_mul_of_pos_left _ hc0
    omega
  -- the enclosing source cell is inside the array
  have hin : (t * Dim.extent a p 0 + l) / c < a := by
    apply Nat.div_lt_of_lt_mul
    exact Dim.decompose_lt hq hle ht hl
  rw [add_div_split _ _ _ hc0] at hin
  have hnn := Nat.zero_le ((t * Dim.extent a p 0 % c + l) / c)
  refine ⟨hk, ?_⟩
  unfold implSource
  simp only
  rw [add_div_split (t * Dim.extent a p 0) l c hc0]
  rcases Nat.lt_or_ge 1 (a / p) with h1 | h1
  · -- multiple partitions
    rw [extent_zero_many h1] at *
    rw [nrTarget_many hp] at ht
    have har : a = a / p * p + a % p := by rw [Nat.mul_comm]; exact (Nat.div_add_mod a p).symm
    have hr := Nat.mod_lt a hp
    have hca : c * a = c * (a / p) * p + c * (a % p) := by
      conv_lhs => rw [har]
      ring
    have hdr : c * (a % p) / p * p ≤ c * (a % p) := Nat.div_mul_le_self _ _
    rcases Nat.lt_or_ge t (c * (a / p)) with h2 | h2
    · -- regular
      obtain ⟨e1, e2⟩ := offset_regular hp hc0 h2
      have hoff : sourceAreaOffset (t * p) c p (Dim.extent (c * a) p t) = t * p / c % p := by
        unfold sourceAreaOffset
        simp only
        rw [if_neg]
        rintro ⟨h3, h4⟩
        have hext : t = c * a / p - 1 := by
          unfold Dim.extent at h3; by_contra h; rw [if_neg h] at h3; exact h3 rfl
        rw [nrTarget_many hp] at hext
        have hz := Nat.zero_le (c * (a % p) / p)
        have h5 : c * (a % p) / p = 0 := by omega
        have h6 : t + 1 = c * (a / p) := by omega
        -- the extent is not p: there is a remainder
        have h7 : 0 < a % p := by
          by_contra h0
          have h0 : a % p = 0 := by omega
          apply h3
          unfold Dim.extent
          rw [nrTarget_many hp, h0]
          simp only [Nat.mul_zero, Nat.zero_div, Nat.add_zero]
          rw [if_pos (by omega), hca, h0]
          simp
        have h8 : 2 ≤ p := by omega
        -- t * p / c = n p - something smaller than p
        have h9 : t * p + p = c * (a / p * p) := by
          calc t * p + p = (t + 1) * p := by ring
            _ = c * (a / p * p) := by rw [h6]; ring
        have h10 : (a / p * p - p) * c < t * p := by
          have : (a / p * p - p) * c + c * p = c * (a / p * p) := by
            rw [Nat.mul_comm, ← Nat.mul_add]
            congr 1
            have : p ≤ a / p * p := Nat.le_mul_of_pos_left _ hn
            omega
          have : p < c * p := by nlinarith
          omega
        have h11 : a / p * p - p + 1 ≤ t * p / c := by
          rw [Nat.le_div_iff_mul_le hc0, Nat.add_mul]
          have e3 : (a / p * p - p) * c + c * p = c * (a / p * p) := by
            rw [Nat.mul_comm, ← Nat.mul_add]
            congr 1
            have : p ≤ a / p * p := Nat.le_mul_of_pos_left _ hn
            omega
          have : c + p ≤ c * p := by nlinarith
          omega
        rw [e2, h4] at h11
        have h12 : t / c + 1 ≤ a / p := by omega
        have h13 : (t / c + 1) * p ≤ a / p * p := Nat.mul_le_mul_right _ h12
        rw [Nat.add_mul] at h13
        omega
      rw [hoff, e1]
      have hkk : t / c < a / p := by rw [← e1]; exact hk
      constructor
      · have hend := Dim.offset_add_extent hp hpa hkk
        split at hend
        · omega
        · rename_i hlast
          have hnl : t ≠ c * a / p - 1 := by
            rw [nrTarget_many hp]
            intro h
            have hz := Nat.zero_le (c * (a % p) / p)
            have h3 : t + 1 ≤ (t / c + 1) * c := by
              have := Nat.lt_div_mul_add (a := t) hc0
              rw [Nat.add_mul]; omega
            have h4 : (t / c + 1 + 1) * c ≤ c * (a / p) := by
              rw [Nat.mul_comm]; exact Nat.mul_le_mul_left _ (by omega)
            have : (t / c + 1 + 1) * c = (t / c + 1) * c + c := by ring
            omega
          have hlp : l < p := by
            unfold Dim.extent at hl; rwa [if_neg hnl] at hl
          have h5 : (t * p + l) / c < (t / c + 1) * p := by
            apply Nat.div_lt_of_lt_mul
            have h3 : t + 1 ≤ (t / c + 1) * c := by
              have := Nat.lt_div_mul_add (a := t) hc0
              rw [Nat.add_mul]; omega
            calc t * p + l < (t + 1) * p := by rw [Nat.add_mul]; omega
              _ ≤ (t / c + 1) * c * p := Nat.mul_le_mul_right _ h3
              _ = c * ((t / c + 1) * p) := by ring
          rw [add_div_split _ _ _ hc0] at h5
          rw [← hend] at h5
          omega
      · intro _; omega
    · -- past the regular extents
      have hkn : targetToSource t c (a / p) = a / p - 1 := by
        have : a / p ≤ t / c := by
          rw [Nat.le_div_iff_mul_le hc0, Nat.mul_comm]; exact h2
        unfold targetToSource; omega
      have hge : a / p * p ≤ t * p / c := by
        rw [Nat.le_div_iff_mul_le hc0]
        calc a / p * p * c = c * (a / p) * p := by ring
          _ ≤ t * p := Nat.mul_le_mul_right _ h2
      have hlt : t * p / c < a := by omega
      have hmod : t * p / c % p = t * p / c - a / p * p := by
        have : t * p / c = (t * p / c - a / p * p) + a / p * p := by omega
        conv_lhs => rw [this]
        rw [Nat.add_mul_mod_self_right, Nat.mod_eq_of_lt (by omega)]
      have hend := Dim.offset_add_extent hp hpa (k := a / p - 1) (by omega)
      rw [if_pos rfl] at hend
      have hnp : (a / p - 1) * p + p = a / p * p := by
        calc (a / p - 1) * p + p = (a / p - 1 + 1) * p := by ring
          _ = a / p * p := by congr 1; omega
      rw [hkn]
      unfold sourceAreaOffset
      simp only
      rw [hmod]
      constructor
      · split <;> omega
      · intro hgood
        rcases hgood with h | h | ⟨h, h'⟩
        · omega
        · rw [Nat.div_eq_of_lt h] at ht; omega
        · have h3 : c * (a % p) / p = 1 := by
            apply Nat.div_eq_of_lt_le <;> omega
          rw [h3] at ht
          have h4 : t = c * (a / p) := by omega
          have h5 : t * p / c = a / p * p := by
            rw [h4, Nat.mul_assoc, Nat.mul_div_cancel_left _ hc0]
          have h6 : Dim.extent (c * a) p t ≠ p := by
            unfold Dim.extent
            rw [nrTarget_many hp, h3, if_pos (by omega), hca]
            rw [Nat.add_mul]
            omega
          rw [if_pos ⟨h6, by omega⟩]
          omega
  · -- a single partition
    have h1 : a / p = 1 := by omega
    rw [extent_zero_one h1] at *
    have e0 : targetToSource t c (a / p) = 0 := by omega
    rw [Nat.mul_div_cancel _ ha] at ht
    have hext : Dim.extent (c * a) a t = a := by
      unfold Dim.extent
      rw [Nat.mul_div_cancel _ ha]
      split <;> omega
    rw [e0, hext, extent_zero_one h1]
    unfold sourceAreaOffset
    simp only
    rw [if_neg (by simp), Nat.mod_eq_of_lt (by omega)]
    exact ⟨hin, by intro _; omega⟩

/-- For other extents the first cell of the first target partition past the regular extents is assigned from the wrong
source cell. -/
theorem implSource_bad (hp : 0 < p) (hpa : p ≤ a) (hc : 2 ≤ c) (h : ¬ Good a p c) :
    c * (a / p) < c * a / Dim.extent a p 0 ∧ Dim.extent a p 0 = p ∧ 1 < a / p ∧
    implSource a p c (c * (a / p)) 0 = (a / p - 1) * p := by
  unfold Good at h
  simp only [not_or, not_and_or] at h
  obtain ⟨h0, h1, h2⟩ := h
  have hn := Dim.nr_pos hp hpa
  have hc0 : 0 < c := by omega
  have hm : 1 < a / p := by omega
  have hq := extent_zero_many hm
  have h3 : 1 ≤ c * (a % p) / p := by rw [Nat.le_div_iff_mul_le hp]; omega
  refine ⟨?_, hq, hm, ?_⟩
  · rw [hq, nrTarget_many hp]; omega
  · unfold implSource
    simp only [hq]
    have e1 : targetToSource (c * (a / p)) c (a / p) = a / p - 1 := by
      unfold targetToSource
      rw [Nat.mul_div_cancel_left _ hc0]; omega
    have e2 : c * (a / p) * p / c = a / p * p := by rw [Nat.mul_assoc, Nat.mul_div_cancel_left _ hc0]
    have e3 : c * (a / p) * p % c = 0 := by rw [Nat.mul_assoc]; exact Nat.mul_mod_right _ _
    have e4 : Dim.extent (c * a) p (c * (a / p)) = p := by
      unfold Dim.extent
      rw [nrTarget_many hp]
      split
      · have h4 : c * (a % p) / p = 1 := by omega
        have h5 : c * (a % p) < 2 * p := by
          have := Nat.lt_div_mul_add (a := c * (a % p)) hp
          rw [h4] at this; omega
        have h6 : c * (a % p) = p := by omega
        have hca : c * a = c * (a / p) * p + c * (a % p) := by
          conv_lhs => rw [← Nat.div_add_mod a p]
          ring
        rw [h4, hca, h6, Nat.add_mul]; omega
      · rfl
    rw [e1, e3, e4]
    unfold sourceAreaOffset
    simp [e2]

end Lue.Resample

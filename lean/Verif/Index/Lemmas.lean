import Mathlib.Data.List.Forall2
import Verif.Index.Model

namespace Lue.Index

theorem foldl_mul_init (l : List Nat) (a : Nat) :
    l.foldl (· * ·) a = a * l.foldl (· * ·) 1 := by
  induction l generalizing a with
  | nil => simp
  | cons x xs ih =>
    simp only [List.foldl_cons]
    rw [ih (a * x), ih (1 * x)]
    simp [Nat.mul_assoc]

theorem nrElements_cons (x : Nat) (xs : List Nat) :
    nrElements (x :: xs) = x * nrElements xs := by
  simp only [nrElements, List.foldl_cons]
  rw [foldl_mul_init]; simp

@[simp] theorem nrElements_nil : nrElements [] = 1 := rfl

theorem trailingProduct_zero (x : Nat) (xs : List Nat) :
    trailingProduct (x :: xs) 0 = nrElements xs := rfl

theorem trailingProduct_succ (x : Nat) (xs : List Nat) (d : Nat) :
    trailingProduct (x :: xs) (d + 1) = trailingProduct xs d := rfl

theorem linearIdxToIdxs_cons (k x : Nat) (xs : List Nat) :
    linearIdxToIdxs k (x :: xs) = (k / nrElements xs % x) :: linearIdxToIdxs k xs := by
  simp only [linearIdxToIdxs, List.length_cons]
  rw [List.range_succ_eq_map]
  simp [trailingProduct_zero, trailingProduct_succ, Function.comp_def]

theorem foldl_add_init (l : List Nat) (f : Nat → Nat) (a : Nat) :
    l.foldl (fun i d => i + f d) a = a + l.foldl (fun i d => i + f d) 0 := by
  induction l generalizing a with
  | nil => simp
  | cons x xs ih =>
    simp only [List.foldl_cons]
    rw [ih (a + f x), ih (0 + f x)]
    omega

theorem idxsToLinearIdx_cons (i : Nat) (is : List Nat) (x : Nat) (xs : List Nat) :
    idxsToLinearIdx (i :: is) (x :: xs) = i * nrElements xs + idxsToLinearIdx is xs := by
  simp only [idxsToLinearIdx, List.length_cons]
  rw [List.range_succ_eq_map]
  simp only [List.foldl_cons, List.foldl_map, trailingProduct_zero, trailingProduct_succ,
    List.getD_cons_zero, List.getD_cons_succ]
  rw [foldl_add_init]
  omega

@[simp] theorem idxsToLinearIdx_nil (is : List Nat) : idxsToLinearIdx is [] = 0 := rfl
@[simp] theorem linearIdxToIdxs_nil (k : Nat) : linearIdxToIdxs k [] = [] := rfl

/-- Only the remainder modulo the number of elements matters. -/
theorem linearIdxToIdxs_add_mul (k q : Nat) (xs : List Nat) :
    linearIdxToIdxs (k + nrElements xs * q) xs = linearIdxToIdxs k xs := by
  induction xs generalizing q with
  | nil => rfl
  | cons x xs ih =>
    rw [linearIdxToIdxs_cons, linearIdxToIdxs_cons, nrElements_cons]
    by_cases h : nrElements xs = 0
    · simp [h]
    · have h' : 0 < nrElements xs := Nat.pos_of_ne_zero h
      congr 1
      · rw [show x * nrElements xs * q = nrElements xs * (x * q) by
          rw [Nat.mul_comm x, Nat.mul_assoc]]
        rw [Nat.add_mul_div_left _ _ h']
        rw [Nat.add_mul_mod_self_left]
      · rw [show x * nrElements xs * q = nrElements xs * (x * q) by
          rw [Nat.mul_comm x, Nat.mul_assoc]]
        exact ih _

theorem roundtrip_linear (xs : List Nat) : ∀ k, k < nrElements xs →
    idxsToLinearIdx (linearIdxToIdxs k xs) xs = k := by
  induction xs with
  | nil => intro k h; simp at h; simp [h]
  | cons x xs ih =>
    intro k h
    rw [nrElements_cons] at h
    rw [linearIdxToIdxs_cons, idxsToLinearIdx_cons]
    have hpos : 0 < nrElements xs := by
      rcases Nat.eq_zero_or_pos (nrElements xs) with h0 | h0
      · simp [h0] at h
      · exact h0
    have hq : k / nrElements xs < x := (Nat.div_lt_iff_lt_mul hpos).2 h
    rw [Nat.mod_eq_of_lt hq]
    have hk : k = k % nrElements xs + nrElements xs * (k / nrElements xs) :=
      (Nat.mod_add_div k (nrElements xs)).symm
    have : linearIdxToIdxs k xs = linearIdxToIdxs (k % nrElements xs) xs := by
      conv => lhs; rw [hk]
      exact linearIdxToIdxs_add_mul _ _ _
    rw [this, ih _ (Nat.mod_lt _ hpos)]
    have := Nat.div_add_mod k (nrElements xs)
    rw [Nat.mul_comm]; exact this

theorem linear_lt (is xs : List Nat) (h : List.Forall₂ (· < ·) is xs) :
    idxsToLinearIdx is xs < nrElements xs := by
  induction h with
  | nil => simp
  | @cons i x is xs hix _ ih =>
    rw [idxsToLinearIdx_cons, nrElements_cons]
    calc i * nrElements xs + idxsToLinearIdx is xs < i * nrElements xs + nrElements xs := by omega
      _ = (i + 1) * nrElements xs := by rw [Nat.add_mul]; simp
      _ ≤ x * nrElements xs := Nat.mul_le_mul_right _ hix

theorem roundtrip_idxs (is xs : List Nat) (h : List.Forall₂ (· < ·) is xs) :
    linearIdxToIdxs (idxsToLinearIdx is xs) xs = is := by
  induction h with
  | nil => rfl
  | @cons i x is xs hix hs ih =>
    have hlt := linear_lt is xs hs
    have hpos : 0 < nrElements xs := by omega
    rw [idxsToLinearIdx_cons, linearIdxToIdxs_cons]
    rw [show i * nrElements xs + idxsToLinearIdx is xs
      = idxsToLinearIdx is xs + nrElements xs * i by rw [Nat.mul_comm]; omega]
    rw [linearIdxToIdxs_add_mul, ih, Nat.add_mul_div_left _ _ hpos, Nat.div_eq_of_lt hlt]
    simp [Nat.mod_eq_of_lt hix]

theorem idxs_valid (xs : List Nat) (h : ∀ x ∈ xs, 0 < x) (k : Nat) :
    List.Forall₂ (· < ·) (linearIdxToIdxs k xs) xs := by
  induction xs with
  | nil => exact .nil
  | cons x xs ih =>
    rw [linearIdxToIdxs_cons]
    exact .cons (Nat.mod_lt _ (h x (by simp))) (ih fun y hy => h y (by simp [hy]))

theorem toShapeIndex_eq (xs : List Nat) : ∀ k, k < nrElements xs →
    linearToShapeIndex xs k = linearIdxToIdxs k xs := by
  induction xs with
  | nil => intro k _; rfl
  | cons x xs ih =>
    intro k h
    rw [nrElements_cons] at h
    have hpos : 0 < nrElements xs := by
      rcases Nat.eq_zero_or_pos (nrElements xs) with h0 | h0
      · simp [h0] at h
      · exact h0
    have hq : k / nrElements xs < x := (Nat.div_lt_iff_lt_mul hpos).2 h
    rw [linearIdxToIdxs_cons, Nat.mod_eq_of_lt hq]
    show k / nrElements xs :: linearToShapeIndex xs (k - k / nrElements xs * nrElements xs) = _
    have hk : k - k / nrElements xs * nrElements xs = k % nrElements xs := by
      have := Nat.div_add_mod k (nrElements xs)
      rw [Nat.mul_comm] at this; omega
    rw [hk, ih _ (Nat.mod_lt _ hpos)]
    congr 1
    conv => rhs; rw [← Nat.mod_add_div k (nrElements xs)]
    exact (linearIdxToIdxs_add_mul _ _ _).symm

theorem linear_strictMono (xs : List Nat) : ∀ as bs : List Nat,
    List.Forall₂ (· < ·) as xs → List.Forall₂ (· < ·) bs xs → List.Lex (· < ·) as bs →
    idxsToLinearIdx as xs < idxsToLinearIdx bs xs := by
  induction xs with
  | nil => intro as bs ha hb h; cases ha; cases hb; cases h
  | cons x xs ih =>
    intro as bs ha hb h
    cases ha with
    | @cons a _ as _ hax has =>
    cases hb with
    | @cons b _ bs _ hbx hbs =>
    rw [idxsToLinearIdx_cons, idxsToLinearIdx_cons]
    have hl := linear_lt as xs has
    cases h with
    | cons h => have := ih as bs has hbs h; omega
    | rel h =>
      have : (a + 1) * nrElements xs ≤ b * nrElements xs := Nat.mul_le_mul_right _ h
      rw [Nat.add_mul] at this; omega

end Lue.Index

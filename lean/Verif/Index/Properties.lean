import Verif.Index.Lemmas

/-!
# C02: linear indices and per-dimension indices are inverse

Specification vocabulary: a cell `idxs` lies within `shape` when it has the same rank and every index is smaller than
the extent of its dimension (`InShape`). Row-major order is the lexicographic order on indices.
-/
namespace Lue.Index

/-- Specification: the indices lie within the shape. -/
abbrev InShape (idxs shape : List Nat) : Prop := List.Forall₂ (· < ·) idxs shape

/-- C02: linear → indices → linear is the identity, for every rank and shape. -/
theorem linear_roundtrip (shape : List Nat) (k : Nat) (h : k < shape.prod) :
    InShape (linearIdxToIdxs k shape) shape ∧
    idxsToLinearIdx (linearIdxToIdxs k shape) shape = k := by
  have e : nrElements shape = shape.prod := by
    clear h
    induction shape with
    | nil => rfl
    | cons x xs ih => rw [nrElements_cons, ih]; simp
  refine ⟨idxs_valid shape ?_ k, roundtrip_linear shape k (e ▸ h)⟩
  clear e
  induction shape generalizing k with
  | nil => simp
  | cons x xs ih =>
    intro y hy
    simp at h hy
    have hx : 0 < x := by rcases Nat.eq_zero_or_pos x with h0 | h0; · simp [h0] at h
                          · exact h0
    have hp : 0 < xs.prod := by
      rcases Nat.eq_zero_or_pos xs.prod with h0 | h0
      · simp [h0] at h
      · exact h0
    rcases hy with rfl | hy
    · exact hx
    · exact ih 0 hp y hy

example : (23 : Nat) < [2, 3, 4].prod ∧ linearIdxToIdxs 23 [2, 3, 4] = [1, 2, 3] := by decide

/-- C02: indices → linear → indices is the identity and the linear index is in bounds. -/
theorem idxs_roundtrip (shape idxs : List Nat) (h : InShape idxs shape) :
    idxsToLinearIdx idxs shape < shape.prod ∧
    linearIdxToIdxs (idxsToLinearIdx idxs shape) shape = idxs := by
  have e : nrElements shape = shape.prod := by
    clear h
    induction shape with
    | nil => rfl
    | cons x xs ih => rw [nrElements_cons, ih]; simp
  exact ⟨e ▸ linear_lt idxs shape h, roundtrip_idxs idxs shape h⟩

example : InShape [1, 0, 3] [2, 3, 4] := by
  refine .cons (by decide) (.cons (by decide) (.cons (by decide) .nil))

/-- C02: the linear index enumerates the cells in row-major (lexicographic) order. -/
theorem linear_rowMajor (shape as bs : List Nat) (ha : InShape as shape) (hb : InShape bs shape)
    (h : List.Lex (· < ·) as bs) : idxsToLinearIdx as shape < idxsToLinearIdx bs shape :=
  linear_strictMono shape as bs ha hb h

example : List.Lex (· < ·) [0, 2, 3] [1, 0, 0] ∧
    idxsToLinearIdx [0, 2, 3] [2, 3, 4] = 11 ∧ idxsToLinearIdx [1, 0, 0] [2, 3, 4] = 12 :=
  ⟨.rel (by decide), by decide, by decide⟩

/-- C02: the two implementations of linear → indices in the code base agree. -/
theorem linearToShapeIndex_eq (shape : List Nat) (k : Nat) (h : k < shape.prod) :
    linearToShapeIndex shape k = linearIdxToIdxs k shape := by
  have e : nrElements shape = shape.prod := by
    clear h
    induction shape with
    | nil => rfl
    | cons x xs ih => rw [nrElements_cons, ih]; simp
  exact toShapeIndex_eq shape k (e ▸ h)

example : linearToShapeIndex [2, 3, 4] 23 = [1, 2, 3] := by decide

end Lue.Index

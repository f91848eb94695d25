import Verif.Visitor.Lemmas

/-!
# C03: visiting the cells of a hyperslab
-/
namespace Lue.Visitor

/-- Specification: `cell` lies in the hyperslab `[b, e)`. -/
def InHyperslab (b e cell : List Nat) : Prop :=
  List.Forall₂ (· ≤ ·) b cell ∧ List.Forall₂ (· < ·) cell e

/-- C03: for every rank ≥ 1, begin and end indices: the visitor is called for precisely the cells of the
hyperslab, in strictly increasing lexicographic (row-major) order, hence exactly once for each of them. -/
theorem visitArray_exactly_once_rowMajor (b e : List Nat) (h0 : b ≠ []) (h : b.length = e.length) :
    (∀ cell, cell ∈ visitArray b e ↔ InHyperslab b e cell) ∧
    (visitArray b e).Pairwise (List.Lex (· < ·)) := by
  rw [visitArray_eq b e h h0]
  exact ⟨fun x => mem_cells b e x h, cells_sorted _ _⟩

/-- C03, corollary: no cell is visited twice. -/
theorem visitArray_nodup (b e : List Nat) (h0 : b ≠ []) (h : b.length = e.length) :
    (visitArray b e).Nodup :=
  (visitArray_exactly_once_rowMajor b e h0 h).2.imp fun hl e => by
    subst e
    exact List.lex_irrefl (fun x => Nat.lt_irrefl x) _ hl

example : visitArray [1, 0, 2] [3, 2, 4] =
    [[1, 0, 2], [1, 0, 3], [1, 1, 2], [1, 1, 3], [2, 0, 2], [2, 0, 3], [2, 1, 2], [2, 1, 3]] := by decide

end Lue.Visitor

import Verif.Decomposition.Properties

/-!
Two-dimensional partitioned arrays: shared vocabulary for the models of the operations.

A partitioned array (`source/framework/partitioned_array`) is a grid of partitions, each holding the elements of a
rectangular part of the array. The grid is the one created by `partition_shapes`, see `Verif.Decomposition`;
`Grid.shapes_eq` connects the definitions below to it.
-/
namespace Lue

open Lue.Decomposition

/-- A 2D array of `a0` × `a1` cells, decomposed with a requested partition shape of `p0` × `p1`. -/
structure Grid where
  a0 : Nat
  a1 : Nat
  p0 : Nat
  p1 : Nat

namespace Grid

/-- The requests for which `partition_shapes` does not throw (C01 `partitionShapes_succeeds_iff`). -/
structure Ok (g : Grid) : Prop where
  pos0 : 0 < g.p0
  pos1 : 0 < g.p1
  le0 : g.p0 ≤ g.a0
  le1 : g.p1 ≤ g.a1

variable (g : Grid)

/-- Number of partitions along the first dimension. -/
def n0 : Nat := g.a0 / g.p0
/-- Number of partitions along the second dimension. -/
def n1 : Nat := g.a1 / g.p1
/-- Number of rows of the partitions in row `k` of partitions. -/
def rows (k : Nat) : Nat := Dim.extent g.a0 g.p0 k
/-- Number of columns of the partitions in column `k` of partitions. -/
def cols (k : Nat) : Nat := Dim.extent g.a1 g.p1 k

/-- The partition shapes are those computed by the model of `partition_shapes`. -/
theorem shapes_eq (h : g.Ok) : ∃ shapes, partitionShapes [g.a0, g.a1] [g.p0, g.p1] = .ok ([g.n0, g.n1], shapes) ∧
    ∀ k0 k1, k0 < g.n0 → k1 < g.n1 →
      shapes [k0, k1] = [g.rows k0, g.cols k1] ∧
      offsetInArray shapes [k0, k1] = [k0 * g.p0, k1 * g.p1] := by
  obtain ⟨s, hs, hsp⟩ := partitionShapes_ok [g.a0, g.a1] [g.p0, g.p1] rfl (by simp)
    (by simp [h.pos0, h.pos1]) (.cons h.le0 (.cons h.le1 .nil))
  refine ⟨s, hs, fun k0 k1 h0 h1 => ⟨?_, ?_⟩⟩
  · rw [hsp _ (.cons h0 (.cons h1 .nil))]; rfl
  · have hin : Lue.Index.InShape [k0, k1] [g.n0, g.n1] := .cons h0 (.cons h1 .nil)
    rw [offsetInArray, hsp _ (zeros_inShape _ _ hin)]
    exact partitionOffset_extents [g.a0, g.a1] [g.p0, g.p1] [k0, k1] hin

end Grid

/-- Contents of the partitions: (row of partitions, column of partitions, row in partition, column in partition). -/
abbrev Parts (α : Type) := Nat → Nat → Nat → Nat → α

/-- Contents of an array: (row, column). -/
abbrev Arr (α : Type) := Nat → Nat → α

/-- The whole array, given its partitions: look up each cell in the partition which contains it. -/
def assemble {α : Type} (g : Grid) (parts : Parts α) : Arr α := fun i j =>
  let k0 := Dim.locate g.a0 g.p0 i
  let k1 := Dim.locate g.a1 g.p1 j
  parts k0 k1 (i - k0 * g.p0) (j - k1 * g.p1)

/-- The partitions of a whole array. -/
def split {α : Type} (g : Grid) (a : Arr α) : Parts α := fun k0 k1 l0 l1 => a (k0 * g.p0 + l0) (k1 * g.p1 + l1)

/-- Cell (i, j) of the array is cell (l0, l1) of partition (k0, k1). -/
structure IsCell (g : Grid) (i j k0 k1 l0 l1 : Nat) : Prop where
  k0_lt : k0 < g.n0
  k1_lt : k1 < g.n1
  l0_lt : l0 < g.rows k0
  l1_lt : l1 < g.cols k1
  i_eq : i = k0 * g.p0 + l0
  j_eq : j = k1 * g.p1 + l1

theorem IsCell.assemble {α : Type} {g : Grid} (hg : g.Ok) {i j k0 k1 l0 l1 : Nat} (h : IsCell g i j k0 k1 l0 l1)
    (parts : Parts α) : Lue.assemble g parts i j = parts k0 k1 l0 l1 := by
  have e0 : Dim.locate g.a0 g.p0 i = k0 := by
    rw [h.i_eq]; exact Dim.locate_unique hg.pos0 hg.le0 h.k0_lt h.l0_lt
  have e1 : Dim.locate g.a1 g.p1 j = k1 := by
    rw [h.j_eq]; exact Dim.locate_unique hg.pos1 hg.le1 h.k1_lt h.l1_lt
  simp only [Lue.assemble, e0, e1]
  rw [h.i_eq, h.j_eq]
  simp

theorem IsCell.lt {g : Grid} (hg : g.Ok) {i j k0 k1 l0 l1 : Nat} (h : IsCell g i j k0 k1 l0 l1) :
    i < g.a0 ∧ j < g.a1 := by
  rw [h.i_eq, h.j_eq]
  exact ⟨Dim.decompose_lt hg.pos0 hg.le0 h.k0_lt h.l0_lt, Dim.decompose_lt hg.pos1 hg.le1 h.k1_lt h.l1_lt⟩

/-- Every cell of the array is a cell of a partition. -/
theorem exists_isCell {g : Grid} (hg : g.Ok) {i j : Nat} (hi : i < g.a0) (hj : j < g.a1) :
    ∃ k0 k1 l0 l1, IsCell g i j k0 k1 l0 l1 := by
  refine ⟨Dim.locate g.a0 g.p0 i, Dim.locate g.a1 g.p1 j, i - Dim.locate g.a0 g.p0 i * g.p0,
    j - Dim.locate g.a1 g.p1 j * g.p1, Dim.locate_lt hg.pos0 hg.le0 i, Dim.locate_lt hg.pos1 hg.le1 j, ?_, ?_, ?_, ?_⟩
  · have := Dim.lt_locate_end hg.pos0 hg.le0 hi
    have := @Dim.locate_mul_le g.a0 g.p0 i
    unfold Grid.rows; omega
  · have := Dim.lt_locate_end hg.pos1 hg.le1 hj
    have := @Dim.locate_mul_le g.a1 g.p1 j
    unfold Grid.cols; omega
  · have := @Dim.locate_mul_le g.a0 g.p0 i
    omega
  · have := @Dim.locate_mul_le g.a1 g.p1 j
    omega

theorem assemble_split {α : Type} {g : Grid} (a : Arr α) (i j : Nat) : assemble g (split g a) i j = a i j := by
  simp only [assemble, split]
  have := @Dim.locate_mul_le g.a0 g.p0 i
  have := @Dim.locate_mul_le g.a1 g.p1 j
  congr 1 <;> omega

end Lue

import Verif.Partitioned.Basic
import Verif.FromBuffer.Model

/-!
# C06: a partitioned array created from a buffer holds that buffer
-/
namespace Lue.FromBuffer

open Lue.Decomposition

theorem mapM_some {α β : Type} (f : α → Option β) (g : α → β) : ∀ l : List α, (∀ x ∈ l, f x = some (g x)) →
    l.mapM f = some (l.map g)
  | [], _ => rfl
  | x :: xs, h => by
    rw [List.mapM_cons, h x (by simp), mapM_some f g xs fun y hy => h y (by simp [hy])]
    rfl

theorem copyRows_spec {α : Type} [DecidableEq α] (buffer : List α) (stride cols : Nat) (nd : Option α) (mark : α) :
    ∀ (rows source : Nat), (∀ l0 l1, l0 < rows → l1 < cols → source + l0 * stride + l1 < buffer.length) →
    ∃ data, copyRows buffer stride cols nd mark rows source = some data ∧ data.length = rows ∧
      ∀ l0, l0 < rows → ∃ row, data[l0]? = some row ∧ row.length = cols ∧
        ∀ l1, l1 < cols → row[l1]? = (buffer[source + l0 * stride + l1]?).map (markNoData nd mark) := by
  intro rows
  induction rows with
  | zero => intro source _; exact ⟨[], rfl, rfl, fun l0 h => absurd h (by omega)⟩
  | succ rows ih =>
    intro source hb
    obtain ⟨rest, h1, h2, h3⟩ := ih (source + stride) (by
      intro l0 l1 h0 h1
      have := hb (l0 + 1) l1 (by omega) h1
      rw [Nat.add_mul] at this; omega)
    by_cases hc : cols = 0
    · subst hc
      refine ⟨[] :: rest, by simp [copyRows, readN, h1], by simp [h2], ?_⟩
      intro l0 hl0
      cases l0 with
      | zero => exact ⟨[], by simp, rfl, fun l1 h => absurd h (by omega)⟩
      | succ l0 =>
        obtain ⟨row, r1, r2, _⟩ := h3 l0 (by omega)
        exact ⟨row, by simpa using r1, r2, fun l1 h => absurd h (by omega)⟩
    have hne : Nonempty α := by
      have := hb 0 0 (by omega) (by omega)
      exact ⟨buffer[source + 0 * stride + 0]⟩
    obtain ⟨d⟩ := hne
    have hread : readN buffer source cols = some ((List.range cols).map fun i => buffer.getD (source + i) d) := by
      unfold readN
      apply mapM_some
      intro i hi
      have := hb 0 i (by omega) (List.mem_range.1 hi)
      simp only [Nat.zero_mul, Nat.add_zero] at this
      rw [List.getElem?_eq_getElem this, List.getD_eq_getElem _ _ this]
    refine ⟨((List.range cols).map fun i => buffer.getD (source + i) d).map (markNoData nd mark) :: rest,
      by simp [copyRows, hread, h1], by simp [h2], ?_⟩
    intro l0 hl0
    cases l0 with
    | zero =>
      refine ⟨_, by simp; rfl, by simp, ?_⟩
      intro l1 hl1
      have := hb 0 l1 (by omega) hl1
      simp only [Nat.zero_mul, Nat.add_zero] at this
      simp [List.getElem?_range hl1, List.getElem?_eq_getElem this]
    | succ l0 =>
      obtain ⟨row, r1, r2, r3⟩ := h3 l0 (by omega)
      refine ⟨row, by simpa using r1, r2, fun l1 hl1 => ?_⟩
      rw [r3 l1 hl1]
      congr 2
      rw [Nat.add_mul]; omega

/-- C06: for every buffer with as many elements as the array has cells, and every partition of every decomposition
created by `partition_shapes`: no element outside of the buffer is read, the partition has the shape of the partition,
and cell (i, j) of the array, wherever it ends up, contains element `i * nr_cols + j` of the buffer (with
occurrences of the no-data value replaced by the no-data marker). -/
theorem instantiate_spec {α : Type} [DecidableEq α] (g : Grid) (hg : g.Ok) (buffer : List α)
    (hb : buffer.length = g.a0 * g.a1) (nd : Option α) (mark : α) (grid : List Nat) (shapes : List Nat → List Nat)
    (hs : partitionShapes [g.a0, g.a1] [g.p0, g.p1] = .ok (grid, shapes))
    (k0 k1 : Nat) (h0 : k0 < g.n0) (h1 : k1 < g.n1) :
    ∃ o0 o1 rows cols data, offsetInArray shapes [k0, k1] = [o0, o1] ∧ shapes [k0, k1] = [rows, cols] ∧
      instantiate buffer g.a1 o0 o1 rows cols nd mark = some data ∧
      data.length = rows ∧ (∀ row ∈ data, row.length = cols) ∧
      ∀ i j l0 l1, IsCell g i j k0 k1 l0 l1 →
        (data[l0]?.bind fun row => row[l1]?) = (buffer[i * g.a1 + j]?).map (markNoData nd mark) ∧
        i * g.a1 + j < buffer.length := by
  obtain ⟨shapes', hs', hsp⟩ := g.shapes_eq hg
  rw [hs] at hs'
  simp only [Except.ok.injEq, Prod.mk.injEq] at hs'
  obtain ⟨rfl, rfl⟩ := hs'
  obtain ⟨e1, e2⟩ := hsp k0 k1 h0 h1
  have hbound : ∀ l0 l1, l0 < g.rows k0 → l1 < g.cols k1 →
      k0 * g.p0 * g.a1 + k1 * g.p1 + l0 * g.a1 + l1 < buffer.length := by
    intro l0 l1 hl0 hl1
    have hi := Dim.decompose_lt hg.pos0 hg.le0 h0 hl0
    have hj := Dim.decompose_lt hg.pos1 hg.le1 h1 hl1
    rw [hb]
    calc k0 * g.p0 * g.a1 + k1 * g.p1 + l0 * g.a1 + l1
        = (k0 * g.p0 + l0) * g.a1 + (k1 * g.p1 + l1) := by ring
      _ < (k0 * g.p0 + l0) * g.a1 + g.a1 := by omega
      _ = (k0 * g.p0 + l0 + 1) * g.a1 := by ring
      _ ≤ g.a0 * g.a1 := Nat.mul_le_mul_right _ hi
  obtain ⟨data, d1, d2, d3⟩ := copyRows_spec buffer g.a1 (g.cols k1) nd mark (g.rows k0)
    (k0 * g.p0 * g.a1 + k1 * g.p1) hbound
  refine ⟨_, _, _, _, data, e2, e1, d1, d2, ?_, ?_⟩
  · intro row hrow
    obtain ⟨l0, hl0, rfl⟩ := List.getElem_of_mem hrow
    obtain ⟨row', r1, r2, _⟩ := d3 l0 (by omega)
    rw [List.getElem?_eq_getElem hl0] at r1
    simp only [Option.some.injEq] at r1
    rw [r1, r2]
  · intro i j l0 l1 hc
    obtain ⟨row, r1, _, r3⟩ := d3 l0 hc.l0_lt
    have e : k0 * g.p0 * g.a1 + k1 * g.p1 + l0 * g.a1 + l1 = i * g.a1 + j := by
      rw [hc.i_eq, hc.j_eq]; ring
    have hlt := hbound l0 l1 hc.l0_lt hc.l1_lt
    rw [e] at hlt
    rw [r1, Option.bind_some, r3 l1 hc.l1_lt, e]
    exact ⟨rfl, hlt⟩

/-- A 3 × 5 buffer in partitions of 2 × 2: the (enlarged) second partition has offset (0, 2) and shape 3 × 3. -/
example : instantiate [0, 1, 2, 3, 4, 10, 11, 12, 13, 14, 20, 21, 22, 23, 24] 5 0 2 3 3 (some 12) (99 : Nat) =
    some [[2, 3, 4], [99, 13, 14], [22, 23, 24]] := by decide

example : (⟨3, 5, 2, 2⟩ : Grid).Ok := ⟨by decide, by decide, by decide, by decide⟩

end Lue.FromBuffer

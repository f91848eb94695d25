import Verif.CellIndex.Model
import Verif.Partitioned.Loops

namespace Lue.CellIndex

open Decomposition

variable {α : Type}

theorem cellIndexPartition_ok (isNoData isZero : α → Bool) (mark : Nat) (garbage : Nat → Nat) (s0 s1 : Nat)
    (data : List α) (hl : data.length = s0 * s1) (d k e : Nat) (hd : d = 0 ∨ d = 1) :
    ∃ r, cellIndexPartition isNoData isZero mark garbage s0 s1 data d k e =
        .ok (r, if d = 0 then s1 else s0) ∧ r.length = s0 * s1 ∧
      ∀ l0 l1 x, l0 < s0 → l1 < s1 → data[l0 * s1 + l1]? = some x →
        r[l0 * s1 + l1]? = some (if isNoData x || isZero x then mark else k * e + if d = 0 then l0 else l1) := by
  rcases hd with rfl | rfl
  · obtain ⟨out, h1, h2, h3⟩ := forLoop2_write (n0 := s0) (n1 := s1)
      (fun l0 l1 => match data[l0 * s1 + l1]? with
        | some x => if isNoData x || isZero x then mark else k * e + l0
        | none => 0)
      (fun idx0 _idx1 (s : List Nat × Nat) => do
        let x ← rd data s.2
        if isNoData x || isZero x then
          return (← wr s.1 s.2 mark, s.2 + 1)
        else if !isZero x then
          return (← wr s.1 s.2 (k * e + idx0), s.2 + 1)
        else
          return (s.1, s.2 + 1)) (by
        intro i0 h0 i1 h1 out ho
        have hlt := idx_lt h0 h1
        have hx : data[i0 * s1 + i1]? = some (data[i0 * s1 + i1]'(by omega)) := by simp
        simp only [rd_ok hx, M.bind_ok, hx, wr_ok _ (show i0 * s1 + i1 < out.length by omega)]
        by_cases ha : isNoData (data[i0 * s1 + i1]'(by omega)) <;> by_cases hb : isZero (data[i0 * s1 + i1]'(by omega)) <;>
          simp [ha, hb] <;> rfl) (uninitialised data.length garbage) (by simp [uninitialised, hl])
    refine ⟨out, ?_, h2, ?_⟩
    · simp only [cellIndexPartition, if_true]
      rw [h1]; rfl
    · intro l0 l1 x hl0 hl1 hx
      rw [h3 l0 l1 hl0 hl1, hx]; simp
  · obtain ⟨out, h1, h2, h3⟩ := forLoop2_write (n0 := s0) (n1 := s1)
      (fun l0 l1 => match data[l0 * s1 + l1]? with
        | some x => if isNoData x || isZero x then mark else k * e + l1
        | none => 0)
      (fun _idx0 idx1 (s : List Nat × Nat) => do
        let x ← rd data s.2
        if isNoData x || isZero x then
          return (← wr s.1 s.2 mark, s.2 + 1)
        else
          return (← wr s.1 s.2 (k * e + idx1), s.2 + 1)) (by
        intro i0 h0 i1 h1 out ho
        have hlt := idx_lt h0 h1
        have hx : data[i0 * s1 + i1]? = some (data[i0 * s1 + i1]'(by omega)) := by simp
        simp only [rd_ok hx, M.bind_ok, hx, wr_ok _ (show i0 * s1 + i1 < out.length by omega)]
        by_cases ha : isNoData (data[i0 * s1 + i1]'(by omega)) <;> by_cases hb : isZero (data[i0 * s1 + i1]'(by omega)) <;>
          simp [ha, hb] <;> rfl) (uninitialised data.length garbage) (by simp [uninitialised, hl])
    refine ⟨out, ?_, h2, ?_⟩
    · simp only [cellIndexPartition]
      rw [if_neg (by omega), if_pos trivial, h1]; rfl
    · intro l0 l1 x hl0 hl1 hx
      rw [h3 l0 l1 hl0 hl1, hx]; simp

/-- The index assigned by the implementation: the partitions are assumed to start at multiples of the extent of the
first partition along the *other* dimension. -/
def implIdx (g : Grid) (d i j : Nat) : Nat :=
  if d = 0 then Dim.locate g.a0 g.p0 i * g.cols 0 + (i - Dim.locate g.a0 g.p0 i * g.p0)
  else Dim.locate g.a1 g.p1 j * g.rows 0 + (j - Dim.locate g.a1 g.p1 j * g.p1)

/-- What cell_index computes, for all arrays, partitionings, and completion orders. -/
theorem cellIndex_impl (isNoData isZero : α → Bool) (mark : Nat) (garbage : Nat → Nat) {x : PArr α} {v : Arr α}
    (hx : Represents x v) {order : List Nat} (ho : IsOrder (x.grid.n0 * x.grid.n1) order) {d : Nat}
    (hd : d = 0 ∨ d = 1) :
    ∃ r, cellIndex isNoData isZero mark garbage order x d = .ok r ∧ r.grid = x.grid ∧
      Represents r (fun i j => if isNoData (v i j) || isZero (v i j) then mark else implIdx x.grid d i j) := by
  have hg := hx.ok
  have hn0 : 0 < x.grid.n0 := Dim.nr_pos hg.pos0 hg.le0
  have hn1 : 0 < x.grid.n1 := Dim.nr_pos hg.pos1 hg.le1
  obtain ⟨p, hp, hpl, _⟩ := hx.part hn0 hn1
  rw [Nat.zero_mul, Nat.zero_add] at hp
  obtain ⟨f, hf, _⟩ := cellIndexPartition_ok isNoData isZero mark garbage (x.grid.rows 0) (x.grid.cols 0) p hpl d 0 0 hd
  obtain ⟨parts, h1, h2⟩ := runTasks_represents (g := x.grid) hg ho (task := fun k => do
    let k0 := k / x.grid.n1
    let k1 := k % x.grid.n1
    let partitionIdx := if d = 0 then k0 else k1
    let extent := if partitionIdx = 0 then 0 else (if d = 0 then x.grid.cols 0 else x.grid.rows 0)
    let r ← cellIndexPartition isNoData isZero mark garbage (x.grid.rows k0) (x.grid.cols k1) (← rd x.parts k) d
      partitionIdx extent
    return r.1) (w := fun i j => if isNoData (v i j) || isZero (v i j) then mark else implIdx x.grid d i j) (by
      intro k0 k1 h0 h1
      obtain ⟨p, hp, hpl, hv⟩ := hx.part h0 h1
      obtain ⟨r, hr, hrl, hre⟩ := cellIndexPartition_ok isNoData isZero mark garbage (x.grid.rows k0) (x.grid.cols k1)
        p hpl d (if d = 0 then k0 else k1)
        (if (if d = 0 then k0 else k1) = 0 then 0 else (if d = 0 then x.grid.cols 0 else x.grid.rows 0)) hd
      refine ⟨r, ?_, hrl, ?_⟩
      · simp only [rd_ok hp, M.bind_ok, idx_div h1, idx_mod h1, hr]
        rfl
      · intro l0 l1 hl0 hl1
        rw [hre l0 l1 _ hl0 hl1 (hv l0 l1 hl0 hl1)]
        congr 1
        have e0 := Dim.locate_unique hg.pos0 hg.le0 h0 hl0
        have e1 := Dim.locate_unique hg.pos1 hg.le1 h1 hl1
        simp only [implIdx, e0, e1, Nat.add_sub_cancel_left]
        rcases hd with rfl | rfl
        · simp only [if_true]
          by_cases hk : k0 = 0
          · simp [hk]
          · simp [hk]
        · simp only [one_ne_zero, if_false]
          by_cases hk : k1 = 0
          · simp [hk]
          · simp [hk])
  refine ⟨⟨x.grid, parts⟩, ?_, rfl, h2⟩
  simp only [cellIndex, rd_ok hp, M.bind_ok, hf]
  rw [h1]; rfl

/-- The partitionings for which the implementation is right: along the dimension there is a single partition, or
the first partition is square. -/
def Fits (g : Grid) (d : Nat) : Prop :=
  if d = 0 then g.n0 = 1 ∨ g.cols 0 = g.p0 else g.n1 = 1 ∨ g.rows 0 = g.p1

theorem implIdx_eq {g : Grid} (hg : g.Ok) {d : Nat} (h : Fits g d) (i j : Nat) :
    implIdx g d i j = if d = 0 then i else j := by
  unfold implIdx
  unfold Fits at h
  have h0 := @Dim.locate_mul_le g.a0 g.p0 i
  have h1 := @Dim.locate_mul_le g.a1 g.p1 j
  split
  · rename_i hd
    simp only [hd, if_true] at h
    rcases h with h | h
    · have := Dim.locate_lt hg.pos0 hg.le0 i
      have e : Dim.locate g.a0 g.p0 i = 0 := by unfold Grid.n0 at h; omega
      simp [e]
    · rw [h]; omega
  · rename_i hd
    simp only [hd, if_false] at h
    rcases h with h | h
    · have := Dim.locate_lt hg.pos1 hg.le1 j
      have e : Dim.locate g.a1 g.p1 j = 0 := by unfold Grid.n1 at h; omega
      simp [e]
    · rw [h]; omega

/-- C12, the positive part: when there is a single partition along the dimension or the first partition is square,
cells with a valid, true condition get their index along the dimension; other cells are marked as no-data. -/
theorem cellIndex_spec (isNoData isZero : α → Bool) (mark : Nat) (garbage : Nat → Nat) {x : PArr α} {v : Arr α}
    (hx : Represents x v) {order : List Nat} (ho : IsOrder (x.grid.n0 * x.grid.n1) order) {d : Nat}
    (hd : d = 0 ∨ d = 1) (hf : Fits x.grid d) :
    ∃ r, cellIndex isNoData isZero mark garbage order x d = .ok r ∧ r.grid = x.grid ∧
      Represents r (fun i j => if isNoData (v i j) || isZero (v i j) then mark else if d = 0 then i else j) := by
  obtain ⟨r, h1, h2, h3⟩ := cellIndex_impl isNoData isZero mark garbage hx ho hd
  refine ⟨r, h1, h2, ?_⟩
  simp only [implIdx_eq hx.ok hf] at h3
  exact h3

/-- C12, the negative part: for all other partitionings, an array with only true cells gets a wrong index in the first
cell of the second partition along the dimension. -/
theorem cellIndex_wrong (isNoData isZero : α → Bool) (mark : Nat) (garbage : Nat → Nat) {x : PArr α} {v : Arr α}
    (hx : Represents x v) {order : List Nat} (ho : IsOrder (x.grid.n0 * x.grid.n1) order) {d : Nat}
    (hd : d = 0 ∨ d = 1) (hf : ¬ Fits x.grid d) (hv : ∀ i j, isNoData (v i j) = false ∧ isZero (v i j) = false) :
    ∃ r u i j, cellIndex isNoData isZero mark garbage order x d = .ok r ∧ Represents r u ∧ i < x.grid.a0 ∧
      j < x.grid.a1 ∧ u i j ≠ if d = 0 then i else j := by
  obtain ⟨r, h1, h2, h3⟩ := cellIndex_impl isNoData isZero mark garbage hx ho hd
  have hg := hx.ok
  have hn0 : 0 < x.grid.n0 := Dim.nr_pos hg.pos0 hg.le0
  have hn1 : 0 < x.grid.n1 := Dim.nr_pos hg.pos1 hg.le1
  have hp0 := hg.pos0; have hp1 := hg.pos1; have hl0 := hg.le0; have hl1 := hg.le1
  rcases hd with rfl | rfl
  · simp only [Fits, if_true, not_or] at hf
    have h1n : 1 < x.grid.n0 := by omega
    have e : Dim.locate x.grid.a0 x.grid.p0 x.grid.p0 = 1 := by
      have := Dim.locate_unique hg.pos0 hg.le0 h1n (Dim.extent_pos hg.pos0 1)
      simpa using this
    have hlt : x.grid.p0 < x.grid.a0 := by
      have := Dim.decompose_lt hg.pos0 hg.le0 h1n (Dim.extent_pos hg.pos0 1)
      omega
    refine ⟨r, _, x.grid.p0, 0, h1, h3, hlt, by omega, ?_⟩
    simp only [hv, Bool.or_self, Bool.false_eq_true, if_false, implIdx, if_true, e]
    omega
  · simp only [Fits, one_ne_zero, if_false, not_or] at hf
    have h1n : 1 < x.grid.n1 := by omega
    have e : Dim.locate x.grid.a1 x.grid.p1 x.grid.p1 = 1 := by
      have := Dim.locate_unique hg.pos1 hg.le1 h1n (Dim.extent_pos hg.pos1 1)
      simpa using this
    have hlt : x.grid.p1 < x.grid.a1 := by
      have := Dim.decompose_lt hg.pos1 hg.le1 h1n (Dim.extent_pos hg.pos1 1)
      omega
    refine ⟨r, _, 0, x.grid.p1, h1, h3, by omega, hlt, ?_⟩
    simp only [hv, Bool.or_self, Bool.false_eq_true, if_false, implIdx, one_ne_zero, e]
    omega

/-- Hypotheses of the positive theorem are met by an array of 4 × 4 cells in partitions of 2 × 2 cells. -/
example : ∃ (x : PArr Nat), Represents x (fun i j => if i = j then 1 else 0) ∧ Fits x.grid 0 ∧ Fits x.grid 1 ∧
    IsOrder (x.grid.n0 * x.grid.n1) [3, 1, 0, 2] ∧
    cellIndex (· == 9) (· == 0) 99 (fun _ => 0) [3, 1, 0, 2] x 0 =
      .ok ⟨x.grid, [[0, 99, 99, 1], [99, 99, 99, 99], [99, 99, 99, 99], [2, 99, 99, 3]]⟩ :=
  ⟨store ⟨4, 4, 2, 2⟩ _, store_represents ⟨by decide, by decide, by decide, by decide⟩ _, by unfold Fits; decide,
    by unfold Fits; decide, by unfold IsOrder; decide, rfl⟩

/-- And those of the negative one by an array of 4 × 2 cells in partitions of 2 × 1 cells: the rows get indices
0, 1, 1, 2. -/
example : ∃ (x : PArr Nat), Represents x (fun _ _ => 1) ∧ ¬ Fits x.grid 0 ∧
    IsOrder (x.grid.n0 * x.grid.n1) [3, 1, 0, 2] ∧
    cellIndex (· == 9) (· == 0) 99 (fun _ => 0) [3, 1, 0, 2] x 0 =
      .ok ⟨x.grid, [[0, 1], [0, 1], [1, 2], [1, 2]]⟩ :=
  ⟨store ⟨4, 2, 2, 1⟩ _, store_represents ⟨by decide, by decide, by decide, by decide⟩ _, by
    unfold Fits; decide, by unfold IsOrder; decide, rfl⟩

end Lue.CellIndex

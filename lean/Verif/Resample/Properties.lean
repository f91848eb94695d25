import Verif.Resample.Dim
import Verif.Partitioned.Loops
import Verif.LocalOp.Properties

namespace Lue.Resample

open Decomposition

variable {α : Type}

/-- A block of cells is assigned, other cells keep their value. -/
theorem copyBlock_ok (value : α) (n0 n1 t0 t1 c0 c1 : Nat) (h0 : t0 + c0 ≤ n0) (h1 : t1 + c1 ≤ n1) (out : List α)
    (hl : out.length = n0 * n1) :
    ∃ out', copyBlock value n1 t0 t1 c0 c1 out = .ok out' ∧ out'.length = n0 * n1 ∧
      ∀ i j, i < n0 → j < n1 → out'[i * n1 + j]? =
        if (t0 ≤ i ∧ i < t0 + c0) ∧ t1 ≤ j ∧ j < t1 + c1 then some value else out[i * n1 + j]? := by
  have hij : ∀ {i j i' j' : Nat}, j < n1 → j' < n1 → i * n1 + j = i' * n1 + j' → i = i' ∧ j = j' := by
    intro i j i' j' hj hj' h
    exact ⟨by rw [← idx_div hj (k0 := i), h, idx_div hj'], by rw [← idx_mod hj (k0 := i), h, idx_mod hj']⟩
  obtain ⟨out', h, h2, h3⟩ := forLoop_inv (n := c0)
    (body := fun idx0 out => forLoop c1 (fun idx1 out => wr out ((t0 + idx0) * n1 + (t1 + idx1)) value) out)
    (fun k (s : List α) => s.length = n0 * n1 ∧ ∀ i j, i < n0 → j < n1 → s[i * n1 + j]? =
        if (t0 ≤ i ∧ i < t0 + k) ∧ t1 ≤ j ∧ j < t1 + c1 then some value else out[i * n1 + j]?) (by
      rintro k hk s ⟨hs, hv⟩
      obtain ⟨s', h, h2, h3⟩ := forLoop_inv (n := c1)
        (body := fun idx1 out => wr out ((t0 + k) * n1 + (t1 + idx1)) value)
        (fun k1 (s : List α) => s.length = n0 * n1 ∧ ∀ i j, i < n0 → j < n1 → s[i * n1 + j]? =
          if ((t0 ≤ i ∧ i < t0 + k) ∧ t1 ≤ j ∧ j < t1 + c1) ∨ (i = t0 + k ∧ t1 ≤ j ∧ j < t1 + k1) then some value
          else out[i * n1 + j]?) (by
          rintro k1 hk1 s ⟨hs, hv⟩
          have hlt := idx_lt (show t0 + k < n0 by omega) (show t1 + k1 < n1 by omega)
          refine ⟨_, wr_ok _ (by omega), by simp [hs], ?_⟩
          intro i j hi hj
          by_cases he : (t0 + k) * n1 + (t1 + k1) = i * n1 + j
          · obtain ⟨e0, e1⟩ := hij (show t1 + k1 < n1 by omega) hj he
            rw [← he, List.getElem?_set_self (by omega), if_pos (.inr ⟨by omega, by omega, by omega⟩)]
          · rw [List.getElem?_set_ne he, hv i j hi hj]
            have hne : ¬ (i = t0 + k ∧ j = t1 + k1) := by rintro ⟨rfl, rfl⟩; exact he rfl
            apply if_congr _ rfl rfl
            omega) s ⟨hs, by
              intro i j hi hj
              rw [hv i j hi hj]
              apply if_congr _ rfl rfl
              omega⟩
      refine ⟨s', h, h2, ?_⟩
      intro i j hi hj
      rw [h3 i j hi hj]
      apply if_congr _ rfl rfl
      omega) out ⟨hl, by
        intro i j hi hj
        rw [if_neg (by omega)]⟩
  exact ⟨out', h, h2, h3⟩

/-- Filling a target partition: cell (i, j) is assigned from the source cell it is in, counting from the source area
offset and the cells remaining from the first source cell. -/
theorem assignPartition_ok (isNoData : α → Bool) (mark : α) (garbage : Nat → α) (source : List α)
    (s0 s1 o0 o1 c t0 t1 n0 n1 : Nat) (hc : 0 < c) (hl : source.length = s0 * s1)
    (h0 : ∀ i < n0, o0 + (t0 % c + i) / c < s0) (h1 : ∀ j < n1, o1 + (t1 % c + j) / c < s1) :
    ∃ r, assignPartition isNoData mark garbage source s1 o0 o1 c t0 t1 n0 n1 = .ok r ∧ r.length = n0 * n1 ∧
      ∀ i j x, i < n0 → j < n1 → source[(o0 + (t0 % c + i) / c) * s1 + (o1 + (t1 % c + j) / c)]? = some x →
        r[i * n1 + j]? = some (if isNoData x then mark else x) := by
  have hdiv : ∀ {m x : Nat}, m * c ≤ x → x < (m + 1) * c → x / c = m := by
    intro m x h h'
    exact Nat.div_eq_of_lt_le h h'
  have hm0 := Nat.mod_lt t0 hc
  have hm1 := Nat.mod_lt t1 hc
  -- cells with a correct value
  let good (out : List α) (i j : Nat) : Prop :=
    ∀ x, source[(o0 + (t0 % c + i) / c) * s1 + (o1 + (t1 % c + j) / c)]? = some x →
      out[i * n1 + j]? = some (if isNoData x then mark else x)
  obtain ⟨s, h2, h3, h4⟩ := whileLoop_ok (σ := Nat × Nat × Nat × List α)
    (fun s => ∃ m, s.1 = o0 + m ∧ s.2.1 ≤ n0 ∧ s.2.2.2.length = n0 * n1 ∧
      (s.2.1 < n0 → s.2.2.1 + (t0 % c + s.2.1) = (m + 1) * c ∧ 0 < s.2.2.1 ∧ s.2.2.1 ≤ c) ∧
      ∀ i j, i < s.2.1 → j < n1 → good s.2.2.2 i j)
    (fun s => n0 - s.2.1) (cond := fun s => decide (s.2.1 < n0))
    (body := fun s => do
      let (sourceIdx0, targetIdx0, nrCopies0, out) := s
      let nrCopies0 := min nrCopies0 (n0 - targetIdx0)
      let s1 ← whileLoop (n1 + 1) (fun s : Nat × Nat × Nat × List α => decide (s.2.1 < n1))
        (fun s : Nat × Nat × Nat × List α => do
          let (sourceIdx1, targetIdx1, nrCopies1, out) := s
          let nrCopies1 := min nrCopies1 (n1 - targetIdx1)
          let x ← rd source (sourceIdx0 * s1 + sourceIdx1)
          let out ← copyBlock (if isNoData x then mark else x) n1 targetIdx0 targetIdx1 nrCopies0 nrCopies1 out
          return (sourceIdx1 + 1, targetIdx1 + nrCopies1, c, out))
        (o1, 0, c - t1 % c, out)
      return (sourceIdx0 + 1, targetIdx0 + nrCopies0, c, s1.2.2.2)) (by
      rintro ⟨si, ti, nc, out⟩ ⟨m, e1, e2, e3, e4, e5⟩ hcond
      simp only [decide_eq_true_eq] at hcond e1 e2 e3 e4 e5 ⊢
      obtain ⟨e6, e7, e8⟩ := e4 hcond
      have hmc : (m + 1) * c = m * c + c := by ring
      obtain ⟨s', f1, f2, f3⟩ := whileLoop_ok (σ := Nat × Nat × Nat × List α)
        (fun s => ∃ m1, s.1 = o1 + m1 ∧ s.2.1 ≤ n1 ∧ s.2.2.2.length = n0 * n1 ∧
          (s.2.1 < n1 → s.2.2.1 + (t1 % c + s.2.1) = (m1 + 1) * c ∧ 0 < s.2.2.1 ∧ s.2.2.1 ≤ c) ∧
          (∀ i j, i < ti → j < n1 → good s.2.2.2 i j) ∧
          ∀ i j, ti ≤ i → i < ti + min nc (n0 - ti) → j < s.2.1 → good s.2.2.2 i j)
        (fun s => n1 - s.2.1) (cond := fun s => decide (s.2.1 < n1))
        (body := fun s => do
          let (sourceIdx1, targetIdx1, nrCopies1, out) := s
          let nrCopies1 := min nrCopies1 (n1 - targetIdx1)
          let x ← rd source (si * s1 + sourceIdx1)
          let out ← copyBlock (if isNoData x then mark else x) n1 ti targetIdx1 (min nc (n0 - ti)) nrCopies1 out
          return (sourceIdx1 + 1, targetIdx1 + nrCopies1, c, out)) (by
          rintro ⟨sj, tj, nc1, out1⟩ ⟨m1, g1, g2, g3, g4, g5, g6⟩ hcond1
          simp only [decide_eq_true_eq] at hcond1 g1 g2 g3 g4 g5 g6 ⊢
          obtain ⟨g7, g8, g9⟩ := g4 hcond1
          have hmc1 : (m1 + 1) * c = m1 * c + c := by ring
          have hrow : ∀ i, ti ≤ i → i < ti + min nc (n0 - ti) → (t0 % c + i) / c = m := by
            intro i hi hi'
            apply hdiv <;> omega
          have hcol : ∀ j, tj ≤ j → j < tj + min nc1 (n1 - tj) → (t1 % c + j) / c = m1 := by
            intro j hj hj'
            apply hdiv <;> omega
          have b0 := h0 ti hcond
          have b1 := h1 tj hcond1
          rw [hrow ti (Nat.le_refl _) (by omega)] at b0
          rw [hcol tj (Nat.le_refl _) (by omega)] at b1
          have hlt := idx_lt b0 b1
          have hx : source[(o0 + m) * s1 + (o1 + m1)]? = some (source[(o0 + m) * s1 + (o1 + m1)]'(by omega)) := by simp
          obtain ⟨out2, k1, k2, k3⟩ := copyBlock_ok
            (if isNoData (source[(o0 + m) * s1 + (o1 + m1)]'(by omega)) then mark
              else (source[(o0 + m) * s1 + (o1 + m1)]'(by omega))) n0 n1 ti tj (min nc (n0 - ti)) (min nc1 (n1 - tj))
            (by omega) (by omega) out1 g3
          refine ⟨(sj + 1, tj + min nc1 (n1 - tj), c, out2), ?_, ⟨m1 + 1, by simp only; omega, by simp only; omega, k2, ?_, ?_, ?_⟩, ?_⟩
          · rw [e1, g1, rd_ok hx]
            simp only [M.bind_ok, k1]; rfl
          · intro hlt'
            simp only at hlt' ⊢
            have : min nc1 (n1 - tj) = nc1 := by omega
            rw [this]
            have : (m1 + 1 + 1) * c = (m1 + 1) * c + c := by ring
            omega
          · intro i j hi hj x hxx
            simp only
            rw [k3 i j (by omega) hj, if_neg (by omega)]
            exact g5 i j hi hj x hxx
          · intro i j hi hi' hj x hxx
            simp only at hj ⊢
            rw [k3 i j (by omega) (by omega)]
            by_cases hb : tj ≤ j
            · rw [if_pos (by omega)]
              rw [hrow i hi hi', hcol j hb hj, hx] at hxx
              injection hxx with hxx
              rw [hxx]
            · rw [if_neg (by omega)]
              exact g6 i j hi hi' (by omega) x hxx
          · simp only; omega)
        (n1 + 1) (o1, 0, c - t1 % c, out) ⟨0, by simp, by simp, e3, by intro _; simp only; omega, by
          exact e5, by intro i j _ _ h; simp at h⟩ (by simp)
      obtain ⟨m1, g1, g2, g3, g4, g5, g6⟩ := f2
      simp only [decide_eq_false_iff_not, not_lt] at f3
      have hn1 : s'.2.1 = n1 := by omega
      refine ⟨(si + 1, ti + min nc (n0 - ti), c, s'.2.2.2), ?_, ⟨m + 1, by simp only; omega, by simp only; omega, g3, ?_, ?_⟩, ?_⟩
      · rw [f1]; rfl
      · intro hlt'
        simp only at hlt' ⊢
        have : min nc (n0 - ti) = nc := by omega
        rw [this]
        have : (m + 1 + 1) * c = (m + 1) * c + c := by ring
        omega
      · intro i j hi hj
        simp only at hi ⊢
        by_cases hb : i < ti
        · exact g5 i j hb hj
        · exact g6 i j (by omega) hi (by omega)
      · simp only; omega)
    (n0 + 1) (o0, 0, c - t0 % c, uninitialised (n0 * n1) garbage)
    ⟨0, by simp, by simp, by simp [uninitialised], by intro _; simp only; omega, by intro i j h; simp at h⟩ (by simp)
  obtain ⟨m, g1, g2, g3, g4, g5⟩ := h3
  simp only [decide_eq_false_iff_not, not_lt] at h4
  refine ⟨s.2.2.2, ?_, g3, ?_⟩
  · unfold assignPartition
    simp only
    rw [h2]; rfl
  · intro i j x hi hj hx
    exact g5 i j (by omega) hj x hx

/-- The source cells used by the implementation. -/
def implSource0 (g : Grid) (c i : Nat) : Nat :=
  implSource g.a0 g.p0 c (Dim.locate (c * g.a0) (g.rows 0) i)
    (i - Dim.locate (c * g.a0) (g.rows 0) i * g.rows 0)

def implSource1 (g : Grid) (c j : Nat) : Nat :=
  implSource g.a1 g.p1 c (Dim.locate (c * g.a1) (g.cols 0) j)
    (j - Dim.locate (c * g.a1) (g.cols 0) j * g.cols 0)

theorem targetGrid_ok {g : Grid} (hg : g.Ok) {c : Nat} (hc : 0 < c) : (targetGrid g c).Ok := by
  have h0 := Dim.offset_add_extent_le hg.pos0 hg.le0 (Dim.nr_pos hg.pos0 hg.le0)
  have h1 := Dim.offset_add_extent_le hg.pos1 hg.le1 (Dim.nr_pos hg.pos1 hg.le1)
  have h2 : g.a0 ≤ c * g.a0 := Nat.le_mul_of_pos_left _ hc
  have h3 : g.a1 ≤ c * g.a1 := Nat.le_mul_of_pos_left _ hc
  exact ⟨Dim.extent_pos hg.pos0 0, Dim.extent_pos hg.pos1 0,
    by simp only [targetGrid, Grid.rows]; omega, by simp only [targetGrid, Grid.cols]; omega⟩

/-- What downscale computes, for all arrays, partitionings, counts of at least two, and completion orders. -/
theorem downscale_impl (isNoData : α → Bool) (mark : α) (garbage : Nat → α) {x : PArr α} {v : Arr α}
    (hx : Represents x v) {c : Nat} (hc : 2 ≤ c) {order : List Nat}
    (ho : IsOrder ((targetGrid x.grid c).n0 * (targetGrid x.grid c).n1) order) :
    ∃ r, downscale isNoData mark garbage order x c = .ok r ∧ r.grid = targetGrid x.grid c ∧
      Represents r (fun i j =>
        let s := v (implSource0 x.grid c i) (implSource1 x.grid c j)
        if isNoData s then mark else s) := by
  have hg := hx.ok
  have htg := targetGrid_ok hg (show 0 < c by omega)
  obtain ⟨parts, h1, h2⟩ := runTasks_represents (g := targetGrid x.grid c) htg ho (task := fun k => do
    let k0 := k / (targetGrid x.grid c).n1
    let k1 := k % (targetGrid x.grid c).n1
    let s0 := targetToSource k0 c x.grid.n0
    let s1 := targetToSource k1 c x.grid.n1
    let source ← rd x.parts (s0 * x.grid.n1 + s1)
    let offset0 := k0 * (targetGrid x.grid c).p0
    let offset1 := k1 * (targetGrid x.grid c).p1
    assignPartition isNoData mark garbage source (x.grid.cols s1)
      (sourceAreaOffset offset0 c (targetGrid x.grid c).p0 ((targetGrid x.grid c).rows k0))
      (sourceAreaOffset offset1 c (targetGrid x.grid c).p1 ((targetGrid x.grid c).cols k1))
      c offset0 offset1 ((targetGrid x.grid c).rows k0) ((targetGrid x.grid c).cols k1))
    (w := fun i j =>
      let s := v (implSource0 x.grid c i) (implSource1 x.grid c j)
      if isNoData s then mark else s) (by
      intro k0 k1 hk0 hk1
      have hs0 : ∀ l < (targetGrid x.grid c).rows k0, _ := fun l hl =>
        implSource_spec (t := k0) (l := l) hg.pos0 hg.le0 hc hk0 hl
      have hs1 : ∀ l < (targetGrid x.grid c).cols k1, _ := fun l hl =>
        implSource_spec (t := k1) (l := l) hg.pos1 hg.le1 hc hk1 hl
      obtain ⟨p, hp, hpl, hpv⟩ := hx.part (hs0 0 (Dim.extent_pos htg.pos0 _)).1 (hs1 0 (Dim.extent_pos htg.pos1 _)).1
      obtain ⟨r, hr, hrl, hre⟩ := assignPartition_ok isNoData mark garbage p
        (x.grid.rows (targetToSource k0 c x.grid.n0)) (x.grid.cols (targetToSource k1 c x.grid.n1))
        (sourceAreaOffset (k0 * (targetGrid x.grid c).p0) c (targetGrid x.grid c).p0 ((targetGrid x.grid c).rows k0))
        (sourceAreaOffset (k1 * (targetGrid x.grid c).p1) c (targetGrid x.grid c).p1 ((targetGrid x.grid c).cols k1))
        c (k0 * (targetGrid x.grid c).p0) (k1 * (targetGrid x.grid c).p1)
        ((targetGrid x.grid c).rows k0) ((targetGrid x.grid c).cols k1) (by omega) hpl
        (fun i hi => (hs0 i hi).2.1) (fun j hj => (hs1 j hj).2.1)
      refine ⟨r, ?_, hrl, ?_⟩
      · simp only [idx_div hk1, idx_mod hk1]
        have hp' : x.parts[targetToSource k0 c x.grid.n0 * x.grid.n1 + targetToSource k1 c x.grid.n1]? = some p := hp
        rw [rd_ok hp', M.bind_ok, hr]
      · intro l0 l1 hl0 hl1
        rw [hre l0 l1 _ hl0 hl1 (hpv _ _ (hs0 l0 hl0).2.1 (hs1 l1 hl1).2.1)]
        have e0 : implSource0 x.grid c (k0 * (targetGrid x.grid c).p0 + l0) = implSource x.grid.a0 x.grid.p0 c k0 l0 := by
          have := Dim.locate_unique htg.pos0 htg.le0 hk0 hl0
          unfold implSource0
          have h : Dim.locate (c * x.grid.a0) (x.grid.rows 0) (k0 * (targetGrid x.grid c).p0 + l0) = k0 := this
          rw [h]
          congr 1
          exact Nat.add_sub_cancel_left _ _
        have e1 : implSource1 x.grid c (k1 * (targetGrid x.grid c).p1 + l1) = implSource x.grid.a1 x.grid.p1 c k1 l1 := by
          have := Dim.locate_unique htg.pos1 htg.le1 hk1 hl1
          unfold implSource1
          have h : Dim.locate (c * x.grid.a1) (x.grid.cols 0) (k1 * (targetGrid x.grid c).p1 + l1) = k1 := this
          rw [h]
          congr 1
          exact Nat.add_sub_cancel_left _ _
        simp only [e0, e1]
        rfl)
  refine ⟨⟨targetGrid x.grid c, parts⟩, ?_, rfl, h2⟩
  unfold downscale
  rw [if_neg (by omega), if_neg (by omega)]
  simp only
  rw [h1]; rfl

/-- C13: downscaling assigns to each target cell the value of the source cell enclosing it (no-data cells are marked),
when in each dimension there is a single partition, or the cells added to the last partition, after downscaling, do not
make up more than two partitions (see `Good`). -/
theorem downscale_spec (isNoData : α → Bool) (mark : α) (garbage : Nat → α) {x : PArr α} {v : Arr α}
    (hx : Represents x v) {c : Nat} (hc : 2 ≤ c) (h0 : Good x.grid.a0 x.grid.p0 c) (h1 : Good x.grid.a1 x.grid.p1 c)
    {order : List Nat} (ho : IsOrder ((targetGrid x.grid c).n0 * (targetGrid x.grid c).n1) order) :
    ∃ r u, downscale isNoData mark garbage order x c = .ok r ∧ r.grid.a0 = c * x.grid.a0 ∧ r.grid.a1 = c * x.grid.a1 ∧
      Represents r u ∧ ∀ i j, i < c * x.grid.a0 → j < c * x.grid.a1 →
        u i j = if isNoData (v (i / c) (j / c)) then mark else v (i / c) (j / c) := by
  obtain ⟨r, h2, h3, h4⟩ := downscale_impl isNoData mark garbage hx hc ho
  have hg := hx.ok
  have htg := targetGrid_ok hg (show 0 < c by omega)
  refine ⟨r, _, h2, by rw [h3]; rfl, by rw [h3]; rfl, h4, ?_⟩
  intro i j hi hj
  obtain ⟨k0, k1, l0, l1, hcell⟩ := exists_isCell htg (i := i) (j := j) hi hj
  have e0 : implSource0 x.grid c i = i / c := by
    have := Dim.locate_unique htg.pos0 htg.le0 hcell.k0_lt hcell.l0_lt
    rw [← hcell.i_eq] at this
    have h : Dim.locate (c * x.grid.a0) (x.grid.rows 0) i = k0 := this
    have hi' : i = k0 * x.grid.rows 0 + l0 := hcell.i_eq
    unfold implSource0
    rw [h, hi', Nat.add_sub_cancel_left]
    exact (implSource_spec hg.pos0 hg.le0 hc hcell.k0_lt hcell.l0_lt).2.2 h0
  have e1 : implSource1 x.grid c j = j / c := by
    have := Dim.locate_unique htg.pos1 htg.le1 hcell.k1_lt hcell.l1_lt
    rw [← hcell.j_eq] at this
    have h : Dim.locate (c * x.grid.a1) (x.grid.cols 0) j = k1 := this
    have hj' : j = k1 * x.grid.cols 0 + l1 := hcell.j_eq
    unfold implSource1
    rw [h, hj', Nat.add_sub_cancel_left]
    exact (implSource_spec hg.pos1 hg.le1 hc hcell.k1_lt hcell.l1_lt).2.2 h1
  simp only [e0, e1]

/-- For all other partitionings of the rows, a target cell gets the value of the wrong source cell: the first cell in the
last row of source partitions, instead of the first cell past the regular extent of these. The situation for the columns
is the same: the code treats the dimensions alike. -/
theorem downscale_wrong (isNoData : α → Bool) (mark : α) (garbage : Nat → α) {x : PArr α} {v : Arr α}
    (hx : Represents x v) {c : Nat} (hc : 2 ≤ c) (h0 : ¬ Good x.grid.a0 x.grid.p0 c)
    {order : List Nat} (ho : IsOrder ((targetGrid x.grid c).n0 * (targetGrid x.grid c).n1) order)
    (hv : ∀ i j, isNoData (v i j) = false) (hinj : ∀ i i' j j', v i j = v i' j' → i = i') :
    ∃ r u i j, downscale isNoData mark garbage order x c = .ok r ∧ Represents r u ∧ i < c * x.grid.a0 ∧
      j < c * x.grid.a1 ∧ u i j ≠ v (i / c) (j / c) := by
  obtain ⟨r, h2, h3, h4⟩ := downscale_impl isNoData mark garbage hx hc ho
  have hg := hx.ok
  have htg := targetGrid_ok hg (show 0 < c by omega)
  obtain ⟨b1, b2, b3, b4⟩ := implSource_bad hg.pos0 hg.le0 hc h0
  have hl := Dim.locate_unique htg.pos0 htg.le0 (k := c * (x.grid.a0 / x.grid.p0)) (l := 0) b1 (Dim.extent_pos htg.pos0 _)
  have hlt := Dim.decompose_lt htg.pos0 htg.le0 (k := c * (x.grid.a0 / x.grid.p0)) (l := 0) b1 (Dim.extent_pos htg.pos0 _)
  have hp : (targetGrid x.grid c).p0 = x.grid.p0 := b2
  rw [hp] at hl hlt
  refine ⟨r, _, c * (x.grid.a0 / x.grid.p0) * x.grid.p0, 0, h2, h4, hlt, ?_, ?_⟩
  · have := hg.pos1; have := hg.le1
    exact Nat.mul_pos (by omega) (by omega)
  · simp only [hv, Bool.false_eq_true, if_false]
    intro he
    have := hinj _ _ _ _ he
    have e0 : implSource0 x.grid c (c * (x.grid.a0 / x.grid.p0) * x.grid.p0) = (x.grid.a0 / x.grid.p0 - 1) * x.grid.p0 := by
      unfold implSource0
      have hr : x.grid.rows 0 = x.grid.p0 := b2
      have hl' : Dim.locate (c * x.grid.a0) (x.grid.rows 0) (c * (x.grid.a0 / x.grid.p0) * x.grid.p0) =
          c * (x.grid.a0 / x.grid.p0) := by rw [hr]; exact hl
      rw [hl', hr, Nat.sub_self]
      exact b4
    rw [e0, Nat.mul_assoc, Nat.mul_div_cancel_left _ (by omega)] at this
    have hpos := hg.pos0
    have := Nat.eq_of_mul_eq_mul_right hpos this
    omega

/-- A count of zero is refused. -/
theorem downscale_zero (isNoData : α → Bool) (mark : α) (garbage : Nat → α) (order : List Nat) (x : PArr α) :
    downscale isNoData mark garbage order x 0 = .error .thrown := rfl

/-- A count of one copies the array. -/
theorem downscale_one (isNoData : α → Bool) (mark : α) (garbage : Nat → α) {x : PArr α} {v : Arr α}
    (hx : Represents x v) {order : List Nat} (ho : IsOrder (x.grid.n0 * x.grid.n1) order) :
    ∃ r, downscale isNoData mark garbage order x 1 = .ok r ∧ r.grid = x.grid ∧
      Represents r (fun i j => if isNoData (v i j) then mark else v i j) := by
  obtain ⟨r, h1, h2, h3⟩ := LocalOp.array1_spec (op := copyPartition isNoData mark garbage)
    (f := fun x => if isNoData x then mark else x) (by
      refine LocalOp.elementWise_of_loop1 _ _ _ garbage (fun p => rfl) ?_
      intro p i x out hx ho
      have hi : i < out.length := by have := (List.getElem?_eq_some_iff.mp hx).1; omega
      simp only [rd_ok hx, M.bind_ok]
      by_cases h : isNoData x <;> simp [h, wr_ok, hi]) hx ho
  refine ⟨r, ?_, h2, h3⟩
  unfold downscale
  rw [if_neg (by omega), if_pos rfl, h1]

/-- Seven cells in partitions of three, the last one has four cells. Factor three: `3 < 3 * 1 < 6` does not hold, but
factor two is fine. -/
example : Good 7 3 2 ∧ ¬ Good 7 3 3 ∧ ∃ (x : PArr Nat), Represents x (fun _ j => j) ∧
    downscale (· == 99) 99 (fun _ => 0) [3, 1, 0, 2, 4, 5, 6, 7] x 2 =
      .ok ⟨⟨2, 14, 1, 3⟩, [[0, 0, 1], [1, 2, 2], [3, 3, 4], [4, 5, 5, 6, 6], [0, 0, 1], [1, 2, 2], [3, 3, 4], [4, 5, 5, 6, 6]]⟩ :=
  ⟨by unfold Good; decide, by unfold Good; decide,
    store ⟨1, 7, 1, 3⟩ _, store_represents ⟨by decide, by decide, by decide, by decide⟩ _, rfl⟩

/-- The wrong cells: the last target cells should be 6. -/
example : ∃ (x : PArr Nat), Represents x (fun _ j => j) ∧
    downscale (· == 99) 99 (fun _ => 0) (List.range 21) x 3 =
      .ok ⟨⟨3, 21, 1, 3⟩, (List.replicate 3 [[0, 0, 0], [1, 1, 1], [2, 2, 2], [3, 3, 3], [4, 4, 4], [5, 5, 5], [3, 3, 3]]).flatten⟩ :=
  ⟨store ⟨1, 7, 1, 3⟩ _, store_represents ⟨by decide, by decide, by decide, by decide⟩ _, rfl⟩

end Lue.Resample

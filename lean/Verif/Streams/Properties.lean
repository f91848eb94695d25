import Verif.Streams.Model
import Verif.Accu.Upstream
import Verif.LocalOp.Properties
import Verif.InflowCount.Properties
import Mathlib.Algebra.BigOperators.Ring.Finset
import Mathlib.Algebra.BigOperators.Group.Finset.Sigma
import Mathlib.Analysis.Real.Sqrt

/-!
C22: `upstream`, `downstream` and `downstream_distance`.
-/
namespace Lue.Streams

open Lue.Focal Lue.FocalStats Lue.Routing

variable {K : Type}

/-! ### upstream -/

theorem gather_ok [AddCommMonoid K] {fdw : List Nat} {mw : List (Option K)} {F : Nat → Nat → Nat}
    {V : Nat → Nat → Option K} :
    ∀ (l : List (Nat × Nat × Nat)) (s : K),
      (∀ e ∈ l, windowGet 3 fdw e.1 e.2.1 = .ok (F e.1 e.2.1) ∧ windowGet 3 mw e.1 e.2.1 = .ok (V e.1 e.2.1)) →
      ((∃ e ∈ l, F e.1 e.2.1 = e.2.2 ∧ V e.1 e.2.1 = none) → gather fdw mw l s = .ok none) ∧
      ((∀ e ∈ l, F e.1 e.2.1 = e.2.2 → V e.1 e.2.1 ≠ none) → gather fdw mw l s =
        .ok (some (s + ((l.filter fun e => F e.1 e.2.1 = e.2.2).map fun e => (V e.1 e.2.1).getD 0).sum)))
  | [], s, _ => ⟨by simp, by simp [gather]⟩
  | (i, j, d) :: t, s, h => by
    have hh := h (i, j, d) (by simp)
    simp only at hh
    have ih := fun s => gather_ok t s fun e he => h e (List.mem_cons_of_mem _ he)
    unfold gather
    rw [hh.1, M.bind_ok]
    by_cases hd : F i j = d
    · rw [if_pos hd, hh.2, M.bind_ok]
      cases hv : V i j with
      | none =>
        refine ⟨fun _ => rfl, fun hn => absurd hv (hn (i, j, d) (by simp) hd)⟩
      | some a =>
        simp only
        refine ⟨fun ⟨e, he, h1, h2⟩ => (ih _).1 ?_, fun hn => ?_⟩
        · rcases List.mem_cons.1 he with rfl | he
          · rw [hv] at h2; cases h2
          · exact ⟨e, he, h1, h2⟩
        · rw [(ih _).2 fun e he => hn e (List.mem_cons_of_mem _ he)]
          rw [List.filter_cons_of_pos (by simpa using hd), List.map_cons, List.sum_cons]
          simp only [hv, Option.getD_some, add_assoc]
    · rw [if_neg hd]
      refine ⟨fun ⟨e, he, h1, h2⟩ => (ih _).1 ?_, fun hn => ?_⟩
      · rcases List.mem_cons.1 he with rfl | he
        · exact absurd h1 hd
        · exact ⟨e, he, h1, h2⟩
      · rw [(ih _).2 fun e he => hn e (List.mem_cons_of_mem _ he)]
        rw [List.filter_cons_of_neg (by simpa using hd)]

/-- The location, in the array, of a cell in the window. -/
def toCell (i j : Nat) (e : Nat × Nat × Nat) : Cell := (((i : Int) - 1 + e.1).toNat, ((j : Int) - 1 + e.2.1).toNat)

/-- The values in the window. -/
theorem window3 {α : Type} (f : Int → Int → α) (i j : Nat) {a b : Nat} (ha : a < 3) (hb : b < 3) :
    windowGet 3 (windowAt f 1 i j) a b = .ok (f ((i : Int) - 1 + a) ((j : Int) - 1 + b)) :=
  windowGet_ok f 1 i j (d0 := a) (d1 := b) (by omega) (by omega)

theorem neighbours_lt {e : Nat × Nat × Nat} (he : e ∈ neighbours) : e.1 < 3 ∧ e.2.1 < 3 := by
  revert e; decide

/-- The halo does not drain into the array: a neighbour whose flow direction points to the focal cell is in the array. -/
theorem neighbours_in {a0 a1 : Nat} {fd : Arr Nat} {i j : Nat} (hi : i < a0) (hj : j < a1) {e : Nat × Nat × Nat}
    (he : e ∈ neighbours)
    (h : extended flowDirectionHalo a0 a1 fd ((i : Int) - 1 + e.1) ((j : Int) - 1 + e.2.1) = e.2.2) :
    0 ≤ (i : Int) - 1 + e.1 ∧ (i : Int) - 1 + e.1 < a0 ∧ 0 ≤ (j : Int) - 1 + e.2.1 ∧ (j : Int) - 1 + e.2.1 < a1 := by
  unfold extended at h
  simp only [neighbours, List.mem_cons, List.not_mem_nil, or_false] at he
  rcases he with rfl | rfl | rfl | rfl | rfl | rfl | rfl | rfl <;>
    simp only [flowDirectionHalo, northWest, north, northEast, west, east, southWest, south, southEast] at h ⊢ <;>
    split_ifs at h <;> omega

theorem extended_at {α : Type} (h : Halo α) {a0 a1 : Nat} (v : Arr α) {x y : Int} (hx : 0 ≤ x) (hx' : x < a0) (hy : 0 ≤ y)
    (hy' : y < a1) : extended h a0 a1 v x y = v x.toNat y.toNat := by
  unfold extended
  rw [if_neg (by omega), if_pos hx', if_neg (by omega), if_pos hy']

theorem extended_cell {α : Type} (h : Halo α) {a0 a1 : Nat} (v : Arr α) {i j : Nat} (hi : i < a0) (hj : j < a1) :
    extended h a0 a1 v i j = v i j := extended_at h v (by omega) (by omega) (by omega) (by omega)

/-- The directions of the neighbours. -/
theorem neighbours_move {e : Nat × Nat × Nat} (he : e ∈ neighbours) :
    move e.2.2 = some (1 - (e.1 : Int), 1 - (e.2.1 : Int)) := by
  revert e; decide

/-- Each direction is that of a neighbour. -/
theorem move_neighbour {code : Nat} {d : Int × Int} (h : move code = some d) :
    ∃ e ∈ neighbours, e.2.2 = code ∧ d = (1 - (e.1 : Int), 1 - (e.2.1 : Int)) := by
  unfold move at h
  split at h <;> simp only [Option.some.injEq, reduceCtorEq] at h <;> subst h <;> decide

/-- The neighbours whose material is added: the cells which drain into the focal cell. -/
theorem mem_hits {a0 a1 : Nat} {fd : Arr Nat} {i j : Nat} (hi : i < a0) (hj : j < a1) (u : Cell) :
    Drains a0 a1 fd u (i, j) ↔ ∃ e ∈ neighbours,
      extended flowDirectionHalo a0 a1 fd ((i : Int) - 1 + e.1) ((j : Int) - 1 + e.2.1) = e.2.2 ∧ toCell i j e = u := by
  constructor
  · rintro ⟨h1, h2, -, -, d, hd, e1, e2⟩
    obtain ⟨e, he, hc, hde⟩ := move_neighbour hd
    subst hde
    simp only at e1 e2
    refine ⟨e, he, ?_, ?_⟩
    · rw [extended_at _ _ (by omega) (by omega) (by omega) (by omega), hc]
      congr 1 <;> omega
    · exact Prod.ext (by simp only [toCell]; omega) (by simp only [toCell]; omega)
  · rintro ⟨e, he, h, rfl⟩
    obtain ⟨p1, p2, p3, p4⟩ := neighbours_in hi hj he h
    rw [extended_at _ _ p1 p2 p3 p4] at h
    refine ⟨by simp only [toCell]; omega, by simp only [toCell]; omega, hi, hj, (1 - (e.1 : Int), 1 - (e.2.1 : Int)), ?_, ?_, ?_⟩
    · simp only [toCell, h]
      exact neighbours_move he
    · simp only [toCell]; omega
    · simp only [toCell]; omega

theorem toCell_inj {a0 a1 : Nat} {fd : Arr Nat} {i j : Nat} (hi : i < a0) (hj : j < a1) :
    (((neighbours.filter fun e => extended flowDirectionHalo a0 a1 fd ((i : Int) - 1 + e.1) ((j : Int) - 1 + e.2.1) = e.2.2)).map
      (toCell i j)).Nodup := by
  refine List.Nodup.map_on ?_ (List.Nodup.filter _ (by decide))
  intro e he e' he' h
  simp only [List.mem_filter, decide_eq_true_eq] at he he'
  obtain ⟨p1, p2, p3, p4⟩ := neighbours_in hi hj he.1 he.2
  obtain ⟨q1, q2, q3, q4⟩ := neighbours_in hi hj he'.1 he'.2
  simp only [toCell, Prod.mk.injEq] at h
  have hpos : e.1 = e'.1 ∧ e.2.1 = e'.2.1 := by omega
  have hcode : ∀ e ∈ neighbours, ∀ e' ∈ neighbours, e.1 = e'.1 ∧ e.2.1 = e'.2.1 → e = e' := by decide
  exact hcode e he.1 e' he'.1 hpos

open Classical in
theorem upstreamFunctor_ok [AddCommMonoid K] (isNoData : Nat → Bool) {a0 a1 : Nat} (fd : Arr Nat) (m : Arr (Option K))
    {i j : Nat} (hi : i < a0) (hj : j < a1) :
    upstreamFunctor isNoData (windowAt (extended flowDirectionHalo a0 a1 fd) 1 i j)
      (windowAt (extended materialHalo a0 a1 m) 1 i j) = .ok (upstreamValue isNoData a0 a1 fd m (i, j)) := by
  unfold upstreamFunctor
  rw [window3 _ _ _ (by omega) (by omega), M.bind_ok, window3 _ _ _ (by omega) (by omega), M.bind_ok]
  have hc : (i : Int) - 1 + ((1 : Nat) : Int) = i := by omega
  have hc' : (j : Int) - 1 + ((1 : Nat) : Int) = j := by omega
  rw [hc, hc', extended_cell _ _ hi hj, extended_cell _ _ hi hj]
  unfold upstreamValue
  by_cases hn : isNoData (fd i j) = true ∨ m i j = none
  · rw [if_pos hn, if_pos (by simpa [Option.isNone_iff_eq_none] using hn)]
  · rw [if_neg hn, if_neg (by simpa [Option.isNone_iff_eq_none] using hn)]
    have hg := gather_ok (K := K) (fdw := windowAt (extended flowDirectionHalo a0 a1 fd) 1 i j)
      (mw := windowAt (extended materialHalo a0 a1 m) 1 i j)
      (F := fun a b => extended flowDirectionHalo a0 a1 fd ((i : Int) - 1 + a) ((j : Int) - 1 + b))
      (V := fun a b => extended materialHalo a0 a1 m ((i : Int) - 1 + a) ((j : Int) - 1 + b)) neighbours 0
      fun e he => ⟨window3 _ _ _ (neighbours_lt he).1 (neighbours_lt he).2, window3 _ _ _ (neighbours_lt he).1 (neighbours_lt he).2⟩
    -- the material of a neighbour which drains into the cell
    have hval : ∀ e ∈ neighbours,
        extended flowDirectionHalo a0 a1 fd ((i : Int) - 1 + e.1) ((j : Int) - 1 + e.2.1) = e.2.2 →
        extended materialHalo a0 a1 m ((i : Int) - 1 + e.1) ((j : Int) - 1 + e.2.1) =
          m (toCell i j e).1 (toCell i j e).2 := fun e he h => by
      obtain ⟨p1, p2, p3, p4⟩ := neighbours_in hi hj he h
      exact extended_at _ _ p1 p2 p3 p4
    unfold Accu.total
    by_cases hx : ∃ u ∈ Accu.inflowing a0 a1 fd (i, j), m u.1 u.2 = none
    · rw [if_pos hx]
      obtain ⟨u, hu, hm⟩ := hx
      obtain ⟨e, he, h, rfl⟩ := (mem_hits hi hj u).1 (Accu.mem_inflowing.1 hu)
      exact hg.1 ⟨e, he, h, by rw [hval e he h, hm]⟩
    · rw [if_neg hx, hg.2 fun e he h hm => hx ⟨toCell i j e, Accu.mem_inflowing.2 ((mem_hits hi hj _).2 ⟨e, he, h, rfl⟩),
        by rw [← hval e he h, hm]⟩, zero_add]
      have hset : Accu.inflowing a0 a1 fd (i, j) =
          ((neighbours.filter fun e =>
            extended flowDirectionHalo a0 a1 fd ((i : Int) - 1 + e.1) ((j : Int) - 1 + e.2.1) = e.2.2).map
              (toCell i j)).toFinset := by
        ext u
        rw [Accu.mem_inflowing, mem_hits hi hj u]
        simp only [List.mem_toFinset, List.mem_map, List.mem_filter, decide_eq_true_eq, and_assoc]
      rw [hset, List.sum_toFinset _ (toCell_inj hi hj), List.map_map]
      congr 3
      apply List.map_congr_left
      intro e he
      simp only [List.mem_filter, decide_eq_true_eq] at he
      simp only [Function.comp, hval e he.1 he.2]

/-- **C22**: the result of `upstream` is, in each cell, the sum of the materials of the cells which drain into it. -/
theorem upstream_spec [AddCommMonoid K] (isNoData : Nat → Bool) (garbage : Nat → Nat) (garbage' garbage'' : Nat → Option K)
    {x : PArr Nat} {y : PArr (Option K)} {fd : Arr Nat} {m : Arr (Option K)} (hx : Represents x fd) (hy : Represents y m)
    (hxy : y.grid = x.grid) (hl : LargeEnough x.grid 3) {order : List Nat}
    (ho : IsOrder (x.grid.n0 * x.grid.n1) order) :
    ∃ out, upstream isNoData garbage garbage' garbage'' order x y = .ok out ∧ out.grid = x.grid ∧
      Represents out fun i j => upstreamValue isNoData x.grid.a0 x.grid.a1 fd m (i, j) :=
  focal2_spec flowDirectionHalo materialHalo garbage garbage' garbage'' 1 (upstreamFunctor isNoData) hx hy hxy hl _
    (fun _ _ hi hj => upstreamFunctor_ok isNoData fd m hi hj) ho

/-! ### downstream -/

/-- What the functor computes. -/
def downstreamAt [Zero K] (isNoData : Nat → Bool) (a0 a1 : Nat) (fd : Arr Nat) (m : Arr (Option K)) (i j : Nat) : Option K :=
  if isNoData (fd i j) || (m i j).isNone then none
  else match move (fd i j) with
    | none => m i j
    | some d => extended materialHalo a0 a1 m (i + d.1) (j + d.2)

theorem grab_eq {mw : List (Option K)} {a b : Nat} {v : Option K} (h : windowGet 3 mw a b = .ok v) : grab mw a b = .ok v := by
  unfold grab
  rw [h, M.bind_ok]
  cases v <;> rfl

theorem downstreamFunctor_ok [Zero K] (isNoData : Nat → Bool) {a0 a1 : Nat} (fd : Arr Nat) (m : Arr (Option K))
    {i j : Nat} (hi : i < a0) (hj : j < a1) :
    downstreamFunctor isNoData (windowAt (extended flowDirectionHalo a0 a1 fd) 1 i j)
      (windowAt (extended materialHalo a0 a1 m) 1 i j) = .ok (downstreamAt isNoData a0 a1 fd m i j) := by
  have hc : (i : Int) - 1 + ((1 : Nat) : Int) = i := by omega
  have hc' : (j : Int) - 1 + ((1 : Nat) : Int) = j := by omega
  have hw : windowGet 3 (windowAt (extended materialHalo a0 a1 m) 1 i j) 1 1 = .ok (m i j) := by
    rw [window3 _ _ _ (by omega) (by omega), hc, hc', extended_cell _ _ hi hj]
  have hg : ∀ (a b : Nat) (d : Int × Int), a < 3 → b < 3 → d = ((a : Int) - 1, (b : Int) - 1) →
      grab (windowAt (extended materialHalo a0 a1 m) 1 i j) a b =
        .ok (extended materialHalo a0 a1 m (i + d.1) (j + d.2)) := by
    rintro a b d ha hb rfl
    apply grab_eq
    rw [window3 _ _ _ ha hb]
    congr 2 <;> simp only <;> omega
  unfold downstreamFunctor downstreamAt
  rw [window3 _ _ _ (by omega) (by omega), M.bind_ok, hw, M.bind_ok, hc, hc', extended_cell _ _ hi hj]
  by_cases hn : (isNoData (fd i j) || (m i j).isNone) = true
  · rw [if_pos hn, if_pos hn]
  rw [if_neg hn, if_neg hn]
  generalize fd i j = d
  simp only [northWest, north, northEast, west, east, southWest, south, southEast]
  by_cases h7 : d = 7
  · subst h7; exact hg 0 0 _ (by omega) (by omega) rfl
  by_cases h8 : d = 8
  · subst h8; exact hg 0 1 _ (by omega) (by omega) rfl
  by_cases h9 : d = 9
  · subst h9; exact hg 0 2 _ (by omega) (by omega) rfl
  by_cases h4 : d = 4
  · subst h4; exact hg 1 0 _ (by omega) (by omega) rfl
  by_cases h6 : d = 6
  · subst h6; exact hg 1 2 _ (by omega) (by omega) rfl
  by_cases h1 : d = 1
  · subst h1; exact hg 2 0 _ (by omega) (by omega) rfl
  by_cases h2 : d = 2
  · subst h2; exact hg 2 1 _ (by omega) (by omega) rfl
  by_cases h3 : d = 3
  · subst h3; exact hg 2 2 _ (by omega) (by omega) rfl
  have hm : move d = none := by unfold move; split <;> first | rfl | contradiction
  simp only [h7, h8, h9, h4, h6, h1, h2, h3, if_false, hm]

theorem downstreamAt_isDownstreamValue [Zero K] (isNoData : Nat → Bool) {a0 a1 : Nat} (fd : Arr Nat) (m : Arr (Option K))
    {i j : Nat} (hi : i < a0) (hj : j < a1) :
    IsDownstreamValue isNoData a0 a1 fd m (i, j) (downstreamAt isNoData a0 a1 fd m i j) := by
  unfold downstreamAt
  constructor
  · intro h
    rw [if_pos (by simpa [Option.isNone_iff_eq_none] using h)]
  · rintro c' h1 h2 ⟨-, -, hb1, hb2, d, hd, e1, e2⟩
    rw [if_neg (by simpa [Option.isNone_iff_eq_none, h1] using h2)]
    simp only at hd e1 e2 ⊢
    rw [hd]
    simp only
    rw [← e1, ← e2, extended_cell _ _ hb1 hb2]
  · intro h1 h2
    simp only at h1 h2 ⊢
    rw [h2, h1]
    cases m i j <;> rfl
  · intro h1 h2 h3 h4
    rw [if_neg (by simpa [Option.isNone_iff_eq_none, h1] using h2)]
    obtain ⟨d, hd⟩ := Option.ne_none_iff_exists'.1 h3
    simp only at hd ⊢
    rw [hd]
    simp only
    have hout : ¬ (0 ≤ (i : Int) + d.1 ∧ (i : Int) + d.1 < a0 ∧ 0 ≤ (j : Int) + d.2 ∧ (j : Int) + d.2 < a1) := by
      rintro ⟨p1, p2, p3, p4⟩
      refine h4 (((i : Int) + d.1).toNat, ((j : Int) + d.2).toNat) ⟨hi, hj, ?_, ?_, d, hd, ?_, ?_⟩ <;> simp only <;> omega
    unfold extended
    simp only [materialHalo]
    split_ifs <;> first | rfl | omega

/-- **C22**: the result of `downstream` is, in each cell, the material of the cell it drains into. -/
theorem downstream_spec [Zero K] (isNoData : Nat → Bool) (garbage : Nat → Nat) (garbage' garbage'' : Nat → Option K)
    {x : PArr Nat} {y : PArr (Option K)} {fd : Arr Nat} {m : Arr (Option K)} (hx : Represents x fd) (hy : Represents y m)
    (hxy : y.grid = x.grid) (hl : LargeEnough x.grid 3) {order : List Nat}
    (ho : IsOrder (x.grid.n0 * x.grid.n1) order) :
    ∃ out w, downstream isNoData garbage garbage' garbage'' order x y = .ok out ∧ out.grid = x.grid ∧ Represents out w ∧
      ∀ i j, i < x.grid.a0 → j < x.grid.a1 →
        IsDownstreamValue isNoData x.grid.a0 x.grid.a1 fd m (i, j) (w i j) := by
  obtain ⟨out, h1, h2, h3⟩ := focal2_spec flowDirectionHalo materialHalo garbage garbage' garbage'' 1
    (downstreamFunctor isNoData) hx hy hxy hl _ (fun _ _ hi hj => downstreamFunctor_ok isNoData fd m hi hj) ho
  exact ⟨out, _, h1, h2, h3, fun i j hi hj => downstreamAt_isDownstreamValue isNoData fd m hi hj⟩

/-! ### Duality -/

theorem represents_congr {α : Type} {x : PArr α} {v w : Arr α} (hv : Represents x v)
    (h : ∀ i j, i < x.grid.a0 → j < x.grid.a1 → v i j = w i j) : Represents x w where
  ok := hv.ok
  nr_parts := hv.nr_parts
  part_size := hv.part_size
  elem i j k0 k1 l0 l1 hc := by
    rw [hv.elem i j k0 k1 l0 l1 hc, h i j (hc.lt hv.ok).1 (hc.lt hv.ok).2]

theorem mem_draining {a0 a1 : Nat} {fd : Arr Nat} {c : Cell} : c ∈ draining a0 a1 fd ↔ ∃ c', Drains a0 a1 fd c c' := by
  simp only [draining, Finset.mem_filter, Accu.mem_allCells]
  exact ⟨fun h => h.2, fun ⟨c', h⟩ => ⟨⟨h.1, h.2.1⟩, c', h⟩⟩

/-- Summing over the cells which drain into a cell, for all cells, is summing over all cells with a downstream cell. -/
theorem sum_inflowing [AddCommMonoid K] {a0 a1 : Nat} {fd : Arr Nat} (f : Cell → Cell → K) (g : Cell → K)
    (h : ∀ u c, Drains a0 a1 fd u c → f u c = g u) :
    ∑ c ∈ Accu.allCells a0 a1, ∑ u ∈ Accu.inflowing a0 a1 fd c, f u c = ∑ u ∈ draining a0 a1 fd, g u := by
  classical
  have e : ∀ c ∈ Accu.allCells a0 a1, ∑ u ∈ Accu.inflowing a0 a1 fd c, f u c = ∑ u ∈ Accu.inflowing a0 a1 fd c, g u :=
    fun c _ => Finset.sum_congr rfl fun u hu => h u c (Accu.mem_inflowing.1 hu)
  rw [Finset.sum_congr rfl e, ← Finset.sum_biUnion]
  · congr 1
    ext u
    rw [Finset.mem_biUnion, mem_draining]
    constructor
    · rintro ⟨c, _, hu⟩; exact ⟨c, Accu.mem_inflowing.1 hu⟩
    · rintro ⟨c, hu⟩; exact ⟨c, Accu.mem_allCells.2 ⟨hu.2.2.1, hu.2.2.2.1⟩, Accu.mem_inflowing.2 hu⟩
  · intro c _ c' _ hne
    rw [Function.onFun, Finset.disjoint_left]
    intro u hu hu'
    exact hne (Drains.unique (Accu.mem_inflowing.1 hu) (Accu.mem_inflowing.1 hu'))

/-- **C22**: no material is lost or created: if all cells are valid, then the sum of the result of `upstream` is the sum of
the materials of the cells which drain to another cell. -/
theorem upstream_total [AddCommMonoid K] (isNoData : Nat → Bool) (garbage : Nat → Nat) (garbage' garbage'' : Nat → Option K)
    {x : PArr Nat} {y : PArr (Option K)} {fd : Arr Nat} {m : Arr K} (hx : Represents x fd)
    (hy : Represents y fun i j => some (m i j)) (hxy : y.grid = x.grid) (hl : LargeEnough x.grid 3)
    (hfd : ∀ i j, i < x.grid.a0 → j < x.grid.a1 → isNoData (fd i j) = false) {order : List Nat} (ho : IsOrder (x.grid.n0 * x.grid.n1) order) :
    ∃ (out : PArr (Option K)) (up : Arr K), upstream isNoData garbage garbage' garbage'' order x y = .ok out ∧
      Represents out (fun i j => some (up i j)) ∧
      ∑ c ∈ Accu.allCells x.grid.a0 x.grid.a1, up c.1 c.2 = ∑ c ∈ draining x.grid.a0 x.grid.a1 fd, m c.1 c.2 := by
  classical
  obtain ⟨out, h1, h2, h3⟩ := upstream_spec isNoData garbage garbage' garbage'' hx hy hxy hl ho
  refine ⟨out, fun i j => ∑ u ∈ Accu.inflowing x.grid.a0 x.grid.a1 fd (i, j), m u.1 u.2, h1, ?_,
    sum_inflowing _ _ fun _ _ _ => rfl⟩
  refine represents_congr h3 fun i j hi hj => ?_
  rw [h2] at hi hj
  simp [upstreamValue, hfd _ _ hi hj, Accu.total]

/-- **C22**: `upstream` and `downstream` are adjoint: moving material downstream and weighing it there is the same as moving
the weights upstream. -/
theorem upstream_downstream_adjoint [CommSemiring K] (isNoData : Nat → Bool) (garbage : Nat → Nat)
    (garbage' garbage'' : Nat → Option K) {x : PArr Nat} {y z : PArr (Option K)} {fd : Arr Nat} {m n : Arr K}
    (hx : Represents x fd) (hy : Represents y fun i j => some (m i j)) (hz : Represents z fun i j => some (n i j))
    (hxy : y.grid = x.grid) (hxz : z.grid = x.grid) (hl : LargeEnough x.grid 3)
    (hfd : ∀ i j, i < x.grid.a0 → j < x.grid.a1 → isNoData (fd i j) = false) {order order' : List Nat} (ho : IsOrder (x.grid.n0 * x.grid.n1) order)
    (ho' : IsOrder (x.grid.n0 * x.grid.n1) order') :
    ∃ (out out' : PArr (Option K)) (up down : Arr K), upstream isNoData garbage garbage' garbage'' order x y = .ok out ∧
      downstream isNoData garbage garbage' garbage'' order' x z = .ok out' ∧
      Represents out (fun i j => some (up i j)) ∧ Represents out' (fun i j => some (down i j)) ∧
      ∑ c ∈ Accu.allCells x.grid.a0 x.grid.a1, up c.1 c.2 * n c.1 c.2 =
        ∑ c ∈ draining x.grid.a0 x.grid.a1 fd, m c.1 c.2 * down c.1 c.2 := by
  classical
  obtain ⟨out, h1, h2, h3⟩ := upstream_spec isNoData garbage garbage' garbage'' hx hy hxy hl ho
  obtain ⟨out', h1', h2', h3'⟩ := focal2_spec flowDirectionHalo materialHalo garbage garbage' garbage'' 1
    (downstreamFunctor isNoData) hx hz hxz hl _ (fun _ _ hi hj => downstreamFunctor_ok isNoData fd _ hi hj) ho'
  have hsome : ∀ i j, ∃ v, i < x.grid.a0 → j < x.grid.a1 → downstreamAt isNoData x.grid.a0 x.grid.a1 fd (fun i j => some (n i j)) i j = some v := by
    intro i j
    by_cases hin : i < x.grid.a0 ∧ j < x.grid.a1
    · unfold downstreamAt
      simp only [hfd i j hin.1 hin.2, Option.isNone_some, Bool.or_self, Bool.false_eq_true, if_false]
      cases move (fd i j) with
      | none => exact ⟨_, fun _ _ => rfl⟩
      | some d =>
        simp only [extended, materialHalo]
        split_ifs <;> exact ⟨_, fun _ _ => rfl⟩
    · exact ⟨0, fun h1 h2 => absurd ⟨h1, h2⟩ hin⟩
  choose down hdown using hsome
  refine ⟨out, out', fun i j => ∑ u ∈ Accu.inflowing x.grid.a0 x.grid.a1 fd (i, j), m u.1 u.2, down, h1, h1', ?_, ?_, ?_⟩
  · refine represents_congr h3 fun i j hi hj => ?_
    rw [h2] at hi hj
    simp [upstreamValue, hfd _ _ hi hj, Accu.total]
  · refine represents_congr h3' fun i j hi hj => ?_
    rw [h2'] at hi hj
    exact hdown i j hi hj
  · simp only [Finset.sum_mul]
    refine sum_inflowing (fun u c => m u.1 u.2 * n c.1 c.2) _ fun u c h => ?_
    have hd := (downstreamAt_isDownstreamValue isNoData fd (fun i j => some (n i j)) h.1 h.2.1).drains c (hfd _ _ h.1 h.2.1)
      (by simp) h
    rw [hdown _ _ h.1 h.2.1, Option.some.injEq] at hd
    rw [hd]

/-! ### downstream_distance -/

/-- **C22**: the result of `downstream_distance` is, in each cell, the distance between the centre of the cell and the one of
the cell it drains into, and 0 in a sink. -/
theorem downstreamDistance_spec (isNoData : Nat → Bool) (mark cellSize : ℝ) (garbage : Nat → ℝ) {x : PArr Nat} {fd : Arr Nat}
    (hx : Represents x fd) {order : List Nat} (ho : IsOrder (x.grid.n0 * x.grid.n1) order) :
    ∃ out w, downstreamDistance isNoData mark cellSize (Real.sqrt 2 * cellSize) garbage order x = .ok out ∧
      out.grid = x.grid ∧ Represents out w ∧
      ∀ i j, w i j = if isNoData (fd i j) then mark else
        match move (fd i j) with
        | some d => Real.sqrt ((d.1 : ℝ) ^ 2 + (d.2 : ℝ) ^ 2) * cellSize
        | none => 0 := by
  obtain ⟨out, h1, h2, h3⟩ := LocalOp.unary_spec (γ := ℝ) { indp := isNoData
                                                            dp := fun _ => true
                                                            rp := fun _ _ => true
                                                            mark := mark } (distanceFunctor cellSize (Real.sqrt 2 * cellSize)) garbage hx ho
  refine ⟨out, _, h1, h2, h3, fun i j => ?_⟩
  simp only [LocalOp.unarySpec, LocalOp.valid]
  by_cases hn : isNoData (fd i j) = true
  · simp [hn]
  · simp only [hn]
    generalize fd i j = d
    unfold distanceFunctor
    split
    · contradiction
    simp only [guard, if_true, Option.pure_def, Option.bind_eq_bind, Option.bind_some, Option.getD_some, northWest, north,
      northEast, west, east, southWest, south, southEast]
    cases hm : move d with
    | none =>
      unfold move at hm
      split at hm <;> simp_all
    | some e =>
      unfold move at hm
      split at hm <;> simp only [Option.some.injEq, reduceCtorEq] at hm <;> subst hm <;> norm_num

/-! ### Examples -/

/-- A network: all cells drain to the second cell of the second row, except for the last column, which drains out of the
array. -/
def example3 : Arr Nat := fun i j => ([[3, 2, 1, 6], [6, 5, 4, 6], [9, 8, 7, 6]].getD i []).getD j 0

/-- The hypotheses of the theorems are satisfied by a network. -/
example : Represents (store ⟨3, 4, 3, 4⟩ example3) example3 ∧ LargeEnough ⟨3, 4, 3, 4⟩ 3 ∧ IsOrder (1 * 1) [0] ∧
    ∀ i j, (· == 0) (example3 i j) = false ∨ ¬ (i < 3 ∧ j < 4) :=
  ⟨store_represents ⟨by decide, by decide, by decide, by decide⟩ _, largeEnough ⟨by decide, by decide, by decide, by decide⟩
    3 (by decide), by unfold IsOrder; decide, by
      intro i j
      by_cases h : i < 3 ∧ j < 4
      · obtain ⟨h1, h2⟩ := h
        interval_cases i <;> interval_cases j <;> decide
      · exact .inr h⟩

example : (upstream (K := Nat) (· == 0) (fun _ => 0) (fun _ => none) (fun _ => none) [0] (store ⟨3, 4, 3, 4⟩ example3)
    (store ⟨3, 4, 3, 4⟩ fun i j => some (i * 4 + j))).map PArr.parts =
      .ok [[some 0, some 0, some 0, some 0, some 0, some 40, some 0, some 0, some 0, some 0, some 0, some 0]] := by decide

example : (downstream (K := Nat) (· == 0) (fun _ => 0) (fun _ => none) (fun _ => none) [0] (store ⟨3, 4, 3, 4⟩ example3)
    (store ⟨3, 4, 3, 4⟩ fun i j => some (i * 4 + j))).map PArr.parts =
      .ok [[some 5, some 5, some 5, some 0, some 5, some 5, some 5, some 0, some 5, some 5, some 5, some 0]] := by decide

end Lue.Streams

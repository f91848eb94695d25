import Verif.KinematicWave.Cell
import Verif.Accu.Split

/-!
C38: routing a kinematic wave, for all flow direction networks, partitionings and schedules.
-/
namespace Lue.KinematicWave

open Lue.Routing Lue.InflowCount Lue.Router Lue.Accu Relation

variable {solve : Solver} {tiny largest : ℝ} {within : ℝ → ℝ → ℝ → Bool} {isNoData : Nat → Bool} {fd : PArr Nat} {v : Arr Nat}
variable {a : Args} {x : ArgValues}

/-- The values of the arguments in a cell -/
def ArgValues.at (x : ArgValues) (c : Cell) : Values :=
  ⟨x.current c.1 c.2, x.inflow c.1 c.2, x.alpha c.1 c.2, x.beta c.1 c.2, x.dt c.1 c.2, x.length c.1 c.2⟩

theorem setup (hfd : FlowDirections isNoData fd v) (ha : a.AreValues fd.grid x) :
    Setup (cells solve tiny largest within a) isNoData
      (fun c s => enterCell solve tiny largest within (x.at c) s) fd.grid v where
  ok := hfd.represents.ok
  two0 := hfd.two0
  two1 := hfd.two1
  valid := hfd.valid
  leave := fun _ _ => rfl
  enter := fun k0 k1 c s h0 h1 hc => by
    simp only [cells, Args.toValues]
    rw [toValue_ok ha.current h0 h1 hc, M.bind_ok, toValue_ok ha.inflow h0 h1 hc, M.bind_ok, toValue_ok ha.alpha h0 h1 hc,
      M.bind_ok, toValue_ok ha.beta h0 h1 hc, M.bind_ok, toValue_ok ha.dt h0 h1 hc, M.bind_ok,
      toValue_ok ha.length h0 h1 hc, M.bind_ok]
    rfl

theorem wt_enterInter (o i : Option ℝ) : wt (enterInter o i) = wt i + wt o := by
  cases i <;> cases o <;> simp [enterInter, wt]

theorem acc_eq (val : Cell → Option ℝ) (us : List Cell) :
    wt (us.foldl (fun s u => enterInter (val u) s) (some 0)) = (us.map fun u => wt (val u)).sum := by
  have key : ∀ s : Option ℝ, wt (us.foldl (fun s u => enterInter (val u) s) s) = wt s + (us.map fun u => wt (val u)).sum := by
    induction us with
    | nil => intro s; simp
    | cons a us ih =>
      intro s
      rw [List.foldl_cons, ih, wt_enterInter, List.map_cons, List.sum_cons, add_assoc]
  have h0 : wt (some (0 : ℝ)) = 0 := rfl
  have := key (some 0)
  rw [h0, zero_add] at this
  exact this

/-- What entering a cell does to the cell -/
theorem enterCell_eq (c : Cell) (o : ℝ) (hnd : isNoData (v c.1 c.2) = false) :
    (Lacking isNoData within v x c → enterCell solve tiny largest within (x.at c) (some o) = none) ∧
    (¬ Lacking isNoData within v x c →
      enterCell solve tiny largest within (x.at c) (some o) = some (newDischarge solve tiny largest (x.waveAt c o))) := by
  unfold Lacking enterCell Values.wave ArgValues.waveAt ArgValues.at
  rw [hnd]
  simp only
  cases x.current c.1 c.2 with
  | none => simp
  | some c1 =>
    cases x.inflow c.1 c.2 with
    | none => simp
    | some c2 =>
      cases x.alpha c.1 c.2 with
      | none => simp
      | some c3 =>
        cases x.beta c.1 c.2 with
        | none => simp
        | some c4 =>
          cases x.dt c.1 c.2 with
          | none => simp
          | some c5 =>
            cases x.length c.1 c.2 with
            | none => simp
            | some c6 => cases hw : within c1 c2 c6 <;> simp [hw]

open Classical in
theorem equation {w : Arr (Option ℝ)} {c : Cell}
    (h : IsSolutionAt (net (cells solve tiny largest within a) isNoData
      (fun c s => enterCell solve tiny largest within (x.at c) s) fd.grid.a0 fd.grid.a1 v) (fun c => w c.1 c.2) c) :
    w c.1 c.2 = if Lacking isNoData within v x c ∨ ∃ u ∈ inflowing fd.grid.a0 fd.grid.a1 v c, w u.1 u.2 = none then none
      else some (newDischarge solve tiny largest
        (x.waveAt c (∑ u ∈ inflowing fd.grid.a0 fd.grid.a1 v c, (w u.1 u.2).getD 0))) := by
  obtain ⟨us, hn, hm, hv⟩ := h
  have hset : inflowing fd.grid.a0 fd.grid.a1 v c = us.toFinset := by
    ext u; rw [mem_inflowing, List.mem_toFinset, hm]; rfl
  have hacc : ((net (cells solve tiny largest within a) isNoData
      (fun c s => enterCell solve tiny largest within (x.at c) s) fd.grid.a0 fd.grid.a1 v).acc
      (fun c => w c.1 c.2) us) = total (inflowing fd.grid.a0 fd.grid.a1 v c) fun u => w u.1 u.2 := by
    apply wt_inj
    rw [wt_total, hset, List.sum_toFinset _ hn, ← acc_eq]
    rfl
  rw [hacc] at hv
  simp only [net, cells] at hv
  rw [hv]
  cases hnd : isNoData (v c.1 c.2)
  · simp only [Bool.false_eq_true, if_false]
    unfold total
    by_cases hex : ∃ u ∈ inflowing fd.grid.a0 fd.grid.a1 v c, w u.1 u.2 = none
    · rw [if_pos hex, if_pos (Or.inr hex)]
      rfl
    · rw [if_neg hex]
      by_cases hL : Lacking isNoData within v x c
      · rw [if_pos (Or.inl hL), (enterCell_eq c _ hnd).1 hL]
      · rw [if_neg (not_or.2 ⟨hL, hex⟩), (enterCell_eq c _ hnd).2 hL]
  · have hL : Lacking isNoData within v x c := Or.inl hnd
    rw [if_pos (Or.inl hL)]
    rfl

/-- C38: whatever the schedule, the result in a cell which is not on or downstream of a cycle is no-data if and only if some
value of some cell in its catchment is missing or out of domain. Otherwise it is the new discharge of the wave of the cell,
given the sum of the new discharges of the cells draining into it. -/
theorem kinematic_wave_correct (hfd : FlowDirections isNoData fd v) (ha : a.AreValues fd.grid x) {y : PArr (Option ℝ)}
    (hy : Yields solve tiny largest within isNoData fd a y) :
    ∃ w : Arr (Option ℝ), Represents y w ∧ y.grid = fd.grid ∧
      ∀ i j, i < fd.grid.a0 → j < fd.grid.a1 → ¬ OnCycle fd.grid.a0 fd.grid.a1 v (i, j) →
        (w i j = none ↔ ∃ u ∈ catchment fd.grid.a0 fd.grid.a1 v (i, j), Lacking isNoData within v x u) ∧
        ∀ q, w i j = some q → q = newDischarge solve tiny largest
          (x.waveAt (i, j) (∑ u ∈ inflowing fd.grid.a0 fd.grid.a1 v (i, j), (w u.1 u.2).getD 0)) := by
  classical
  obtain ⟨_, _, _, _, _, hy⟩ := hy
  obtain ⟨hg, w, hw, h1, _⟩ := routed_result hfd.represents (setup hfd ha) hy
  refine ⟨w, hw, hg, fun i j hi hj hc => ?_⟩
  have hnone : ∀ c : Cell, c ∈ allCells fd.grid.a0 fd.grid.a1 → Acc (Drains fd.grid.a0 fd.grid.a1 v) c →
      (w c.1 c.2 = none ↔ ∃ u ∈ catchment fd.grid.a0 fd.grid.a1 v c, Lacking isNoData within v x u) := by
    intro c hcell hacc
    induction hacc with
    | intro c hacc ih =>
      have hb := mem_allCells.1 hcell
      have heq := equation (h1 c.1 c.2 hb.1 hb.2 (acc_iff.1 (Acc.intro c hacc)))
      have hex : (∃ u ∈ catchment fd.grid.a0 fd.grid.a1 v c, Lacking isNoData within v x u) ↔
          (Lacking isNoData within v x c ∨ ∃ u ∈ inflowing fd.grid.a0 fd.grid.a1 v c, w u.1 u.2 = none) := by
        rw [catchment_eq hcell]
        simp only [Finset.mem_insert, Finset.mem_biUnion]
        constructor
        · rintro ⟨u, rfl | ⟨u', h2, h3⟩, h4⟩
          · exact Or.inl h4
          · have hD := mem_inflowing.1 h2
            exact Or.inr ⟨u', h2, (ih u' hD (mem_allCells.2 ⟨hD.1, hD.2.1⟩)).2 ⟨u, h3, h4⟩⟩
        · rintro (h2 | ⟨u, h2, h3⟩)
          · exact ⟨c, Or.inl rfl, h2⟩
          · have hD := mem_inflowing.1 h2
            obtain ⟨u', h4, h5⟩ := (ih u hD (mem_allCells.2 ⟨hD.1, hD.2.1⟩)).1 h3
            exact ⟨u', Or.inr ⟨u, h2, h4⟩, h5⟩
      rw [hex]
      split_ifs at heq with hif
      · simp only at heq hif
        rw [heq]; exact iff_of_true rfl hif
      · simp only at heq hif
        rw [heq]; exact iff_of_false (by simp) hif
  refine ⟨hnone (i, j) (mem_allCells.2 ⟨hi, hj⟩) (acc_iff.2 hc), fun q hq => ?_⟩
  have heq := equation (h1 i j hi hj hc)
  simp only at heq
  rw [hq] at heq
  split_ifs at heq
  exact Option.some.inj heq

/-- C38: the outcome does not depend on the schedule. -/
theorem kinematic_wave_unique (hfd : FlowDirections isNoData fd v) (ha : a.AreValues fd.grid x) {y y' : PArr (Option ℝ)}
    (hy : Yields solve tiny largest within isNoData fd a y) (hy' : Yields solve tiny largest within isNoData fd a y') :
    y = y' := by
  obtain ⟨_, _, _, _, _, hy⟩ := hy
  obtain ⟨_, _, _, _, _, hy'⟩ := hy'
  refine routed_unique hfd.represents (setup hfd ha) ?_ hy hy'
  intro x y s
  apply wt_inj
  show wt (enterInter x (enterInter y s)) = wt (enterInter y (enterInter x s))
  rw [wt_enterInter, wt_enterInter, wt_enterInter, wt_enterInter, add_right_comm]

/-- C38: there is an outcome if and only if no cycle crosses a border between partitions. -/
theorem kinematic_wave_yields_iff (hfd : FlowDirections isNoData fd v) (ha : a.AreValues fd.grid x) :
    (∃ y, Yields solve tiny largest within isNoData fd a y) ↔ ¬ CycleCrossesBorder fd v := by
  rw [← routed_iff hfd.represents (setup (solve := solve) (tiny := tiny) (largest := largest) (within := within) hfd ha)]
  exact ⟨fun ⟨y, _, _, _, _, _, hy⟩ => ⟨y, hy⟩, fun ⟨y, hy⟩ => ⟨y, ha.current.compatible, ha.inflow.compatible,
    ha.alpha.compatible, ha.beta.compatible, ha.length.compatible, hy⟩⟩

/-- C38: water is not lost or created. During a time step what leaves the catchment of a cell is what enters it by lateral
inflow, minus the increase of the water in the reaches of the cells in the catchment. Given an ideal solver, and discharges
which can be represented. -/
theorem kinematic_wave_water_balance (hs : Ideal solve) (ht : 0 < tiny) (hfd : FlowDirections isNoData fd v)
    (ha : a.AreValues fd.grid x) {y : PArr (Option ℝ)} (hy : Yields solve tiny largest within isNoData fd a y) :
    ∃ w : Arr (Option ℝ), Represents y w ∧ y.grid = fd.grid ∧
      ∀ i j, i < fd.grid.a0 → j < fd.grid.a1 → ¬ OnCycle fd.grid.a0 fd.grid.a1 v (i, j) → w i j ≠ none →
        ∀ dt : ℝ, (∀ u ∈ catchment fd.grid.a0 fd.grid.a1 v (i, j), x.PhysicalAt dt u) →
          (∀ u ∈ catchment fd.grid.a0 fd.grid.a1 v (i, j), ∀ r : ℝ, 0 ≤ r →
            Balance (x.waveAt u (∑ t ∈ inflowing fd.grid.a0 fd.grid.a1 v u, (w t.1 t.2).getD 0)) r → r ≤ largest) →
          (∀ u ∈ catchment fd.grid.a0 fd.grid.a1 v (i, j), w u.1 u.2 ≠ none ∧ 0 ≤ (w u.1 u.2).getD 0) ∧
          dt * (w i j).getD 0 + ∑ u ∈ catchment fd.grid.a0 fd.grid.a1 v (i, j), x.volume u ((w u.1 u.2).getD 0) =
            ∑ u ∈ catchment fd.grid.a0 fd.grid.a1 v (i, j), x.volume u ((x.current u.1 u.2).getD 0) +
            dt * ∑ u ∈ catchment fd.grid.a0 fd.grid.a1 v (i, j),
              (x.length u.1 u.2).getD 0 * (x.inflow u.1 u.2).getD 0 := by
  classical
  obtain ⟨w, hw, hg, h1⟩ := kinematic_wave_correct hfd ha hy
  refine ⟨w, hw, hg, fun i j hi hj hc hne dt hphys hmax => ?_⟩
  have hcell : (i, j) ∈ allCells fd.grid.a0 fd.grid.a1 := mem_allCells.2 ⟨hi, hj⟩
  -- The equation in each cell of the catchment
  have hcat : ∀ u ∈ catchment fd.grid.a0 fd.grid.a1 v (i, j), u ∈ allCells fd.grid.a0 fd.grid.a1 ∧
      Acc (Drains fd.grid.a0 fd.grid.a1 v) u := by
    intro u hu
    have hu' := (mem_catchment hcell).1 hu
    exact ⟨mem_allCells_of_upstream hcell hu', acc_upstream (acc_iff.2 hc) hu'⟩
  have hsome : ∀ u ∈ catchment fd.grid.a0 fd.grid.a1 v (i, j), w u.1 u.2 ≠ none := by
    intro u hu hn
    obtain ⟨b1, b2⟩ := hcat u hu
    have b1' := mem_allCells.1 b1
    obtain ⟨t, ht1, ht2⟩ := (h1 u.1 u.2 b1'.1 b1'.2 (acc_iff.1 b2)).1.1 hn
    exact hne ((h1 i j hi hj hc).1.2 ⟨t, (mem_catchment hcell).2
      (((mem_catchment b1).1 ht1).trans ((mem_catchment hcell).1 hu)), ht2⟩)
  have hin : ∀ u ∈ catchment fd.grid.a0 fd.grid.a1 v (i, j), ∀ u' ∈ inflowing fd.grid.a0 fd.grid.a1 v u,
      u' ∈ catchment fd.grid.a0 fd.grid.a1 v (i, j) := by
    intro u hu u' hu'
    exact (mem_catchment hcell).2 ((ReflTransGen.single (mem_inflowing.1 hu')).trans ((mem_catchment hcell).1 hu))
  have heq : ∀ u ∈ catchment fd.grid.a0 fd.grid.a1 v (i, j), (w u.1 u.2).getD 0 = newDischarge solve tiny largest
      (x.waveAt u (∑ t ∈ inflowing fd.grid.a0 fd.grid.a1 v u, (w t.1 t.2).getD 0)) := by
    intro u hu
    obtain ⟨b1, b2⟩ := hcat u hu
    have b1 := mem_allCells.1 b1
    cases hwu : w u.1 u.2 with
    | none => exact absurd hwu (hsome u hu)
    | some q => exact (h1 u.1 u.2 b1.1 b1.2 (acc_iff.1 b2)).2 q hwu
  have hbal : ∀ u ∈ catchment fd.grid.a0 fd.grid.a1 v (i, j), 0 ≤ (w u.1 u.2).getD 0 ∧
      Balance (x.waveAt u (∑ t ∈ inflowing fd.grid.a0 fd.grid.a1 v u, (w t.1 t.2).getD 0)) ((w u.1 u.2).getD 0) := by
    intro u hu
    have hacc := (hcat u hu).2
    induction hacc with
    | intro u hacc ih =>
      have hup : 0 ≤ ∑ t ∈ inflowing fd.grid.a0 fd.grid.a1 v u, (w t.1 t.2).getD 0 :=
        Finset.sum_nonneg fun t htt => (ih t (mem_inflowing.1 htt) (hin u hu t htt)).1
      obtain ⟨p1, p2, p3, p4, p5, p6, p7⟩ := hphys u hu
      have := newDischarge_balance hs ht (w := x.waveAt u (∑ t ∈ inflowing fd.grid.a0 fd.grid.a1 v u, (w t.1 t.2).getD 0))
        ⟨hup, p1, p3, p4, by simpa only [ArgValues.waveAt, p5, Option.getD_some] using p6, p7⟩ p2 (hmax u hu)
      rw [← heq u hu] at this
      exact this
  refine ⟨fun u hu => ⟨hsome u hu, (hbal u hu).1⟩, ?_⟩
  have hsum := sum_catchment (fd := v) (val := fun c => dt * (w c.1 c.2).getD 0)
    (e := fun u => x.volume u ((x.current u.1 u.2).getD 0) +
      dt * ((x.length u.1 u.2).getD 0 * (x.inflow u.1 u.2).getD 0) - x.volume u ((w u.1 u.2).getD 0)) hcell (acc_iff.2 hc) (by
      intro u hu
      have hb := (hbal u hu).2
      have hd := (hphys u hu).step
      simp only [Balance, ArgValues.waveAt, hd, Option.getD_some] at hb
      have hm := Finset.mul_sum (inflowing fd.grid.a0 fd.grid.a1 v u) (fun t : Cell => (w t.1 t.2).getD 0) dt
      simp only [ArgValues.volume]
      rw [← hm]
      linarith)
  rw [Finset.sum_sub_distrib, Finset.sum_add_distrib, ← Finset.mul_sum] at hsum
  linarith

/-- The hypotheses on the values can be met: all values are one. -/
theorem physicalAt_example (u : Cell) :
    ArgValues.PhysicalAt ⟨fun _ _ => some 1, fun _ _ => some 1, fun _ _ => some 1, fun _ _ => some 1, fun _ _ => some 1,
      fun _ _ => some 1⟩ 1 u := by
  constructor <;> norm_num

/-- C38: with the value policies of the library, cells with negative lateral inflow are out of domain: extraction of water,
supported by the code computing the discharge, results in no-data downstream. -/
theorem value_policies_no_extraction (hfd : FlowDirections isNoData fd v) (ha : a.AreValues fd.grid x) {y : PArr (Option ℝ)}
    (hy : Yields solve tiny largest valuePoliciesWithin isNoData fd a y) :
    ∃ w : Arr (Option ℝ), Represents y w ∧ y.grid = fd.grid ∧
      ∀ i j, i < fd.grid.a0 → j < fd.grid.a1 → ¬ OnCycle fd.grid.a0 fd.grid.a1 v (i, j) →
        ∀ u ∈ catchment fd.grid.a0 fd.grid.a1 v (i, j), (x.inflow u.1 u.2).getD 0 < 0 → w i j = none := by
  obtain ⟨w, hw, hg, h1⟩ := kinematic_wave_correct hfd ha hy
  refine ⟨w, hw, hg, fun i j hi hj hc u hu hneg => ?_⟩
  refine (h1 i j hi hj hc).1.2 ⟨u, hu, ?_⟩
  simp only [Lacking, valuePoliciesWithin, decide_eq_false_iff_not, not_and, not_lt]
  refine Or.inr (Or.inr (Or.inr (Or.inr (Or.inr (Or.inr (Or.inr fun _ h => ?_))))))
  exact absurd h (not_le.2 hneg)

end Lue.KinematicWave

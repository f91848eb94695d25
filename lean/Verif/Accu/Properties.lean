import Verif.Accu.Routed
import Mathlib.Algebra.Order.Monoid.Unbundled.WithTop
import Mathlib.Algebra.BigOperators.WithTop
import Mathlib.Algebra.Order.Field.Basic
import Mathlib.Algebra.Order.BigOperators.Group.Finset

/-!
C19, C20, C21: routing material, for all flow direction networks, partitionings and schedules.
-/
namespace Lue.Accu

open Lue.Routing Lue.InflowCount Lue.Router Relation

/-! ### Arguments -/

theorem toValue_ok {α : Type} {g : Grid} {values : Arr α} {a : Arg α} (h : a.IsValues g values) {k0 k1 : Nat}
    (h0 : k0 < g.n0) (h1 : k1 < g.n1) {c : Int × Int} (hc : InRange (g.rows k0) (g.cols k1) c) :
    a.toValue (k0 * g.n1 + k1) (lin (g.cols k1) c) = .ok (values (glob g k0 k1 c).1 (glob g k0 k1 c).2) := by
  cases a with
  | array x =>
    obtain ⟨rfl, hx⟩ := h
    obtain ⟨p, h2, h3⟩ := Represents.holds hx h0 h1
    simp only [Arg.toValue]
    rw [rd_ok h2, M.bind_ok, rd_ok (h3.2 c hc)]
  | scalar b =>
    have h : ∀ i j, values i j = b := h
    simp only [Arg.toValue]
    rw [h]

theorem Arg.IsValues.compatible {α : Type} {fd : PArr Nat} {values : Arr α} {a : Arg α} (h : a.IsValues fd.grid values) :
    a.verifyCompatible fd = .ok () := by
  cases a with
  | array x => exact verifyCompatible_same h.1.symm
  | scalar b => rfl

variable {K : Type} {isNoData : Nat → Bool} {fd : PArr Nat} {v : Arr Nat}

/-! ### accu -/

section
variable [AddCommMonoid K] {within : K → Bool} {inflow : Arg (Option K)} {f : Arr (Option K)}

theorem accu_setup (hfd : FlowDirections isNoData fd v) (hin : inflow.IsValues fd.grid f) :
    Setup (accuCells within inflow) isNoData (fun c s => accuEnterCell within (f c.1 c.2) s) fd.grid v where
  ok := hfd.represents.ok
  two0 := hfd.two0
  two1 := hfd.two1
  valid := hfd.valid
  leave := fun _ _ => rfl
  enter := fun k0 k1 c s h0 h1 hc => by
    simp only [accuCells]
    rw [toValue_ok hin h0 h1 hc, M.bind_ok]
    rfl

/-- Adding values which may be no-data: no-data is the top element. -/
def wt : Option K → WithTop K
  | none => ⊤
  | some a => (a : WithTop K)

omit [AddCommMonoid K] in
theorem wt_inj {a b : Option K} (h : wt a = wt b) : a = b := by
  cases a <;> cases b <;> simp_all [wt]

omit [AddCommMonoid K] in
theorem wt_top {a : Option K} : wt a = ⊤ ↔ a = none := by cases a <;> simp [wt]

theorem wt_total (us : Finset Cell) (w : Cell → Option K) : wt (total us w) = ∑ u ∈ us, wt (w u) := by
  unfold total
  split_ifs with h
  · obtain ⟨u, hu, hw⟩ := h
    exact (WithTop.sum_eq_top.2 ⟨u, hu, wt_top.2 hw⟩).symm
  · show ((∑ u ∈ us, (w u).getD 0 : K) : WithTop K) = _
    rw [WithTop.coe_sum]
    refine Finset.sum_congr rfl fun u hu => ?_
    cases hw : w u with
    | none => exact absurd ⟨u, hu, hw⟩ h
    | some a => rfl

theorem wt_accuEnterInter (o i : Option K) : wt (accuEnterInter o i) = wt i + wt o := by
  cases i <;> cases o <;> simp [accuEnterInter, wt]

/-- What enters a cell itself. -/
def external (isNoData : Nat → Bool) (within : K → Bool) (v : Arr Nat) (f : Arr (Option K)) (c : Cell) : Option K :=
  if isNoData (v c.1 c.2) then none else
    match f c.1 c.2 with
    | none => none
    | some a => if !within a then none else some a

theorem accu_fin_eq (c : Cell) (s : Option K) :
    wt ((net (accuCells within inflow) isNoData (fun c s => accuEnterCell within (f c.1 c.2) s) fd.grid.a0 fd.grid.a1 v).fin
      c s) = wt (external isNoData within v f c) + wt s := by
  unfold external
  simp only [net, accuCells]
  cases hnd : isNoData (v c.1 c.2)
  · simp only [Bool.false_eq_true, if_false]
    cases hf : f c.1 c.2 with
    | none => cases s <;> simp [accuEnterCell, wt]
    | some a =>
      cases s with
      | none => simp [accuEnterCell, wt]
      | some s =>
        cases hwi : within a
        · simp [accuEnterCell, wt, hwi]
        · simp [accuEnterCell, wt, hwi, add_comm]
  · simp [wt]

theorem accu_acc_eq (val : Cell → Option K) (us : List Cell) :
    wt ((net (accuCells within inflow) isNoData (fun c s => accuEnterCell within (f c.1 c.2) s) fd.grid.a0 fd.grid.a1 v).acc
      val us) = (us.map fun u => wt (val u)).sum := by
  unfold Net.acc
  have key : ∀ s : Option K, wt (us.foldl (fun s u => accuEnterInter (val u) s) s) = wt s + (us.map fun u => wt (val u)).sum := by
    induction us with
    | nil => intro s; simp
    | cons a us ih =>
      intro s
      rw [List.foldl_cons, ih, wt_accuEnterInter, List.map_cons, List.sum_cons, add_assoc]
  have h0 : wt (some (0 : K)) = 0 := rfl
  have := key (some 0)
  rw [h0, zero_add] at this
  exact this

/-- The equation of `accu`. -/
theorem accu_equation {w : Arr (Option K)} {c : Cell}
    (h : IsSolutionAt (net (accuCells within inflow) isNoData (fun c s => accuEnterCell within (f c.1 c.2) s) fd.grid.a0
      fd.grid.a1 v) (fun c => w c.1 c.2) c) :
    wt (w c.1 c.2) = wt (external isNoData within v f c) +
      ∑ u ∈ inflowing fd.grid.a0 fd.grid.a1 v c, wt (w u.1 u.2) := by
  classical
  obtain ⟨us, hn, hm, hv⟩ := h
  have hset : inflowing fd.grid.a0 fd.grid.a1 v c = us.toFinset := by
    ext u; rw [mem_inflowing, List.mem_toFinset, hm]; rfl
  simp only at hv
  rw [hv, accu_fin_eq, accu_acc_eq, hset, List.sum_toFinset _ hn]

open Classical in
/-- C19, C20: whatever the schedule, the result of `accu` in a cell which is not on or downstream of a cycle is the sum of
the external inflow in its catchment; it is no-data if the flow direction or the inflow of some cell in its catchment is
not valid. -/
theorem accu_correct (hfd : FlowDirections isNoData fd v) (hin : inflow.IsValues fd.grid f) {y : PArr (Option K)}
    (hy : AccuYields within isNoData fd inflow y) :
    ∃ w : Arr (Option K), Represents y w ∧ y.grid = fd.grid ∧
      ∀ i j, i < fd.grid.a0 → j < fd.grid.a1 → ¬ OnCycle fd.grid.a0 fd.grid.a1 v (i, j) →
        w i j = if ∃ u ∈ catchment fd.grid.a0 fd.grid.a1 v (i, j), Invalid isNoData within v f u then none
          else some (∑ u ∈ catchment fd.grid.a0 fd.grid.a1 v (i, j), (f u.1 u.2).getD 0) := by
  obtain ⟨hg, w, hw, h1, _⟩ := routed_result hfd.represents (accu_setup hfd hin) hy.2
  refine ⟨w, hw, hg, fun i j hi hj hc => ?_⟩
  have hcell : (i, j) ∈ allCells fd.grid.a0 fd.grid.a1 := mem_allCells.2 ⟨hi, hj⟩
  have hsum := sum_catchment (fd := v) (e := fun c => wt (external isNoData within v f c)) (val := fun c => wt (w c.1 c.2))
    hcell (acc_iff.2 hc) (by
      intro u hu
      have hu' := (mem_catchment hcell).1 hu
      have hb := mem_allCells.1 (mem_allCells_of_upstream hcell hu')
      refine accu_equation (h1 u.1 u.2 hb.1 hb.2 ?_)
      rw [← acc_iff] at hc ⊢
      exact acc_upstream hc hu')
  have hinv : ∀ u, Invalid isNoData within v f u ↔ external isNoData within v f u = none := by
    intro u
    unfold Invalid external
    cases hnd : isNoData (v u.1 u.2)
    · cases hf : f u.1 u.2 with
      | none => simp
      | some a => cases hwi : within a <;> simp [hwi]
    · simp
  have hval : ∀ u a, external isNoData within v f u = some a → f u.1 u.2 = some a := by
    intro u a h
    unfold external at h
    cases hf : f u.1 u.2 with
    | none => simp [hf] at h
    | some b =>
      simp only [hf] at h
      split_ifs at h
      exact h
  rw [← wt_total (catchment fd.grid.a0 fd.grid.a1 v (i, j)) (external isNoData within v f)] at hsum
  have hsum := wt_inj hsum
  simp only at hsum
  rw [hsum, total]
  simp only [hinv]
  split_ifs with hex
  · rfl
  · congr 1
    refine Finset.sum_congr rfl fun u hu => ?_
    cases he : external isNoData within v f u with
    | none => exact absurd ⟨u, hu, he⟩ hex
    | some a => rw [hval u a he]

/-- C19: the outcome does not depend on the schedule, not even for cells on or downstream of a cycle. -/
theorem accu_unique (hfd : FlowDirections isNoData fd v) (hin : inflow.IsValues fd.grid f) {y y' : PArr (Option K)}
    (hy : AccuYields within isNoData fd inflow y) (hy' : AccuYields within isNoData fd inflow y') : y = y' := by
  refine routed_unique hfd.represents (accu_setup hfd hin) ?_ hy.2 hy'.2
  intro x y s
  apply wt_inj
  show wt (accuEnterInter x (accuEnterInter y s)) = wt (accuEnterInter y (accuEnterInter x s))
  rw [wt_accuEnterInter, wt_accuEnterInter, wt_accuEnterInter, wt_accuEnterInter, add_right_comm]

/-- C19: there is an outcome if and only if no cycle crosses a border between partitions. In particular, if the network
does not contain cycles. -/
theorem accu_yields_iff (hfd : FlowDirections isNoData fd v) (hin : inflow.IsValues fd.grid f) :
    (∃ y, AccuYields within isNoData fd inflow y) ↔ ¬ CycleCrossesBorder fd v := by
  rw [← routed_iff hfd.represents (accu_setup (within := within) hfd hin)]
  exact ⟨fun ⟨y, hy⟩ => ⟨y, hy.2⟩, fun ⟨y, hy⟩ => ⟨y, hin.compatible, hy⟩⟩

/-- C19: nothing goes wrong during the execution, whatever the order in which things happen. If nothing can happen
anymore and no cycle crosses a border between partitions, all tasks have finished: there are no deadlocks. -/
theorem accu_executes (hfd : FlowDirections isNoData fd v) (hin : inflow.IsValues fd.grid f) {order1 order2 : List Nat}
    (ho1 : IsOrder (fd.grid.n0 * fd.grid.n1) order1) (ho2 : IsOrder (fd.grid.n0 * fd.grid.n1) order2)
    {s : Sys (Option K) (Option K)} (h : Reachable (accuCells within inflow) isNoData order1 order2 fd s) :
    (∀ a, Enabled fd.grid s a → ∃ s', perform (accuCells within inflow) isNoData fd s a = .ok s') ∧
    (∀ n s', Steps (accuCells within inflow) isNoData fd n s s' → n ≤ work fd.grid s) ∧
    (Stuck fd.grid s → (Finished fd.grid s ↔ ¬ CycleCrossesBorder fd v)) := by
  refine ⟨fun a ha => ?_, fun n s' hs => ?_, fun hst => ?_⟩
  · obtain ⟨s', h1, _⟩ := router_safe hfd.represents (accu_setup hfd hin) ho1 ho2 h ha
    exact ⟨s', h1⟩
  · have := router_terminates hfd.represents (accu_setup hfd hin) ho1 ho2 h hs
    omega
  · exact finished_iff hfd.represents (accu_setup hfd hin) ho1 ho2 h hst

/-- C19: cells on or downstream of a cycle are not solved: their own external inflow is not accounted for. They hold what
arrived from upstream cells which are not on or downstream of a cycle. -/
theorem accu_cyclic (hfd : FlowDirections isNoData fd v) (hin : inflow.IsValues fd.grid f) {y : PArr (Option K)}
    (hy : AccuYields within isNoData fd inflow y) :
    ∃ w : Arr (Option K), Represents y w ∧
      ∀ i j, i < fd.grid.a0 → j < fd.grid.a1 → OnCycle fd.grid.a0 fd.grid.a1 v (i, j) →
        ∃ us : Finset Cell,
          (∀ u, u ∈ us ↔ Drains fd.grid.a0 fd.grid.a1 v u (i, j) ∧ ¬ OnCycle fd.grid.a0 fd.grid.a1 v u) ∧
          w i j = total us fun u => w u.1 u.2 := by
  classical
  obtain ⟨hg, w, hw, _, h2⟩ := routed_result hfd.represents (accu_setup hfd hin) hy.2
  refine ⟨w, hw, fun i j hi hj hc => ?_⟩
  obtain ⟨us, hn, hm, hv⟩ := h2 i j hi hj hc
  refine ⟨us.toFinset, fun u => by rw [List.mem_toFinset, hm], ?_⟩
  apply wt_inj
  rw [wt_total, List.sum_toFinset _ hn, ← accu_acc_eq (isNoData := isNoData) (within := within) (inflow := inflow) (f := f)
    (fd := fd) (v := v), hv]
  rfl

end

end Lue.Accu

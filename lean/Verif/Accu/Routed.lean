import Verif.Accu.Upstream
import Verif.Router.Properties

/-! The router: existence and uniqueness of the outcome. -/
namespace Lue.Accu

open Lue.Routing Lue.InflowCount Lue.Router Relation

/-- What is assumed about the flow directions: the partitions contain at least two rows and two columns of cells, and
cells without a valid flow direction do not drain, and nothing drains into them. -/
structure FlowDirections (isNoData : Nat → Bool) (fd : PArr Nat) (v : Arr Nat) : Prop where
  represents : Represents fd v
  two0 : 2 ≤ fd.grid.p0
  two1 : 2 ≤ fd.grid.p1
  valid : Valid isNoData fd.grid.a0 fd.grid.a1 v

/-- A stream crosses a border between partitions, and is on or downstream of a cycle. -/
def CycleCrossesBorder (fd : PArr Nat) (v : Arr Nat) : Prop :=
  ∃ u c, Drains fd.grid.a0 fd.grid.a1 v u c ∧ OnCycle fd.grid.a0 fd.grid.a1 v u ∧
    ∀ k0 k1, k0 < fd.grid.n0 → k1 < fd.grid.n1 → ¬ (InPart fd.grid k0 k1 u ∧ InPart fd.grid k0 k1 c)

section
variable {σ μ : Type} {F : CellAccumulator σ μ} {isNoData : Nat → Bool} {enter : Cell → σ → σ} {v : Arr Nat} {fd : PArr Nat}
variable {order1 order2 : List Nat}

/-- Whatever has happened: if there are actions left, one of them can be performed, and after a limited number of actions
nothing is left to do. -/
theorem exists_stuck (hx : Represents fd v) (S : Setup F isNoData enter fd.grid v)
    (ho1 : IsOrder (fd.grid.n0 * fd.grid.n1) order1) (ho2 : IsOrder (fd.grid.n0 * fd.grid.n1) order2) {s : Sys σ μ}
    (h : Reachable F isNoData order1 order2 fd s) : ∃ s', Reachable F isNoData order1 order2 fd s' ∧ Stuck fd.grid s' := by
  generalize hn : work fd.grid s = n
  induction n generalizing s with
  | zero =>
    refine ⟨s, h, fun a ha => ?_⟩
    obtain ⟨_, _, h2⟩ := router_safe hx S ho1 ho2 h ha
    omega
  | succ n ih =>
    by_cases hst : Stuck fd.grid s
    · exact ⟨s, h, hst⟩
    · simp only [Stuck, not_forall, not_not] at hst
      obtain ⟨a, ha⟩ := hst
      obtain ⟨s', h1, h2⟩ := router_safe hx S ho1 ho2 h ha
      exact ih (.step h ha h1) (by omega)

theorem finished_iff (hx : Represents fd v) (S : Setup F isNoData enter fd.grid v)
    (ho1 : IsOrder (fd.grid.n0 * fd.grid.n1) order1) (ho2 : IsOrder (fd.grid.n0 * fd.grid.n1) order2) {s : Sys σ μ}
    (h : Reachable F isNoData order1 order2 fd s) (hst : Stuck fd.grid s) :
    Finished fd.grid s ↔ ¬ CycleCrossesBorder fd v := by
  rw [router_finishes_iff hx S ho1 ho2 h hst]
  constructor
  · rintro h1 ⟨u, c, h2, h3, h4⟩
    exact acc_iff.1 (h1 u c h2 h4) h3
  · intro h1 u c h2 h4
    rw [acc_iff]
    exact fun h3 => h1 ⟨u, c, h2, h3, h4⟩

/-- There is an outcome if and only if no cycle crosses a border between partitions. -/
theorem routed_iff (hx : Represents fd v) (S : Setup F isNoData enter fd.grid v) :
    (∃ y, Routed F isNoData fd y) ↔ ¬ CycleCrossesBorder fd v := by
  constructor
  · rintro ⟨y, o1, o2, s, h1, h2, h3, h4, _⟩
    exact (finished_iff hx S h1 h2 h3 h4.stuck).1 h4
  · intro hc
    have ho : IsOrder (fd.grid.n0 * fd.grid.n1) (List.range (fd.grid.n0 * fd.grid.n1)) := by
      unfold IsOrder; exact List.Perm.refl _
    obtain ⟨s, h1, _⟩ := initialise_ok hx S ho ho
    obtain ⟨s', h2, h3⟩ := exists_stuck hx S ho ho (.init h1)
    exact ⟨_, _, _, s', ho, ho, h2, (finished_iff hx S ho ho h2 h3).2 hc, rfl⟩

theorem routed_result (hx : Represents fd v) (S : Setup F isNoData enter fd.grid v) {y : PArr σ}
    (hy : Routed F isNoData fd y) : y.grid = fd.grid ∧ ∃ w : Arr σ, Represents y w ∧
      (∀ i j, i < fd.grid.a0 → j < fd.grid.a1 → ¬ OnCycle fd.grid.a0 fd.grid.a1 v (i, j) →
        IsSolutionAt (net F isNoData enter fd.grid.a0 fd.grid.a1 v) (fun c => w c.1 c.2) (i, j)) ∧
      (∀ i j, i < fd.grid.a0 → j < fd.grid.a1 → OnCycle fd.grid.a0 fd.grid.a1 v (i, j) →
        ∃ us : List Cell, us.Nodup ∧
          (∀ u, u ∈ us ↔ Drains fd.grid.a0 fd.grid.a1 v u (i, j) ∧ ¬ OnCycle fd.grid.a0 fd.grid.a1 v u) ∧
          w i j = us.foldl (fun s u => F.enterInter (F.outflow (w u.1 u.2)) s) F.init) := by
  obtain ⟨o1, o2, s, h1, h2, h3, h4, rfl⟩ := hy
  refine ⟨rfl, ?_⟩
  obtain ⟨w, hw, hs⟩ := router_result hx S h1 h2 h3 h4.stuck
  refine ⟨w, hw, fun i j hi hj hc => hs i j hi hj (acc_iff.2 hc), fun i j hi hj hc => ?_⟩
  obtain ⟨us, b1, b2, b3⟩ := router_cyclic hx S h1 h2 h3 h4.stuck hw hi hj (fun h => acc_iff.1 h hc)
  exact ⟨us, b1, fun u => by rw [b2, acc_iff], b3⟩

/-- If the order in which material arrives in a cell does not matter, the outcome does not depend on the schedule. -/
theorem routed_unique (hx : Represents fd v) (S : Setup F isNoData enter fd.grid v)
    (hcomm : ∀ x y s, F.enterInter x (F.enterInter y s) = F.enterInter y (F.enterInter x s)) {y y' : PArr σ}
    (hy : Routed F isNoData fd y) (hy' : Routed F isNoData fd y') : y = y' := by
  obtain ⟨hg, w, hw, h1, h2⟩ := routed_result hx S hy
  obtain ⟨hg', w', hw', h1', h2'⟩ := routed_result hx S hy'
  have hacyc : ∀ c : Cell, c.1 < fd.grid.a0 → c.2 < fd.grid.a1 → ¬ OnCycle fd.grid.a0 fd.grid.a1 v c →
      w c.1 c.2 = w' c.1 c.2 := by
    intro c h0 h3 hc
    refine IsSolutionAt.unique (N := net F isNoData enter fd.grid.a0 fd.grid.a1 v) (fun _ _ _ => hcomm _ _ _)
      (v := fun c => w c.1 c.2) (v' := fun c => w' c.1 c.2) (c := c) (acc_iff.2 hc) ?_ ?_
    all_goals
      intro u hu
      have hm : u ∈ allCells fd.grid.a0 fd.grid.a1 := mem_allCells_of_upstream (mem_allCells.2 ⟨h0, h3⟩) hu
      have hu' : ¬ OnCycle fd.grid.a0 fd.grid.a1 v u := by
        rw [← acc_iff] at hc ⊢
        exact acc_upstream hc hu
      have := mem_allCells.1 hm
    · exact h1 u.1 u.2 this.1 this.2 hu'
    · exact h1' u.1 u.2 this.1 this.2 hu'
  have hall : ∀ i j, i < fd.grid.a0 → j < fd.grid.a1 → w i j = w' i j := by
    intro i j hi hj
    by_cases hc : OnCycle fd.grid.a0 fd.grid.a1 v (i, j)
    · obtain ⟨us, hn, hm, hv⟩ := h2 i j hi hj hc
      obtain ⟨us', hn', hm', hv'⟩ := h2' i j hi hj hc
      have hp : us.Perm us' := (List.perm_ext_iff_of_nodup hn hn').2 fun u => by rw [hm, hm']
      rw [hv, hv', hp.foldl_eq' (fun x _ y _ s => hcomm _ _ s)]
      have hstep : ∀ (l : List Cell) (s : σ), (∀ u ∈ l, w u.1 u.2 = w' u.1 u.2) →
          l.foldl (fun s u => F.enterInter (F.outflow (w u.1 u.2)) s) s =
          l.foldl (fun s u => F.enterInter (F.outflow (w' u.1 u.2)) s) s := by
        intro l
        induction l with
        | nil => intros; rfl
        | cons a l ih =>
          intro s hl
          rw [List.foldl_cons, List.foldl_cons, hl a (by simp), ih _ fun u hu => hl u (by simp [hu])]
      exact hstep us' _ fun u hu => by
        obtain ⟨a, b⟩ := (hm' u).1 hu
        exact hacyc u a.1 a.2.1 b
    · exact hacyc (i, j) hi hj hc
  have e1 := hw.parts_eq
  have e2 := hw'.parts_eq
  rcases y with ⟨g, parts⟩
  rcases y' with ⟨g', parts'⟩
  simp only at hg hg' e1 e2
  subst hg
  subst hg'
  rw [e1, e2]
  congr 1
  refine List.map_congr_left fun k hk => ?_
  rw [List.mem_range] at hk
  refine List.map_congr_left fun c hc => ?_
  obtain ⟨_, _, hcell⟩ := (mem_partIdxs hk).mp hc
  obtain ⟨b0, b1⟩ := hcell.lt hw.ok
  exact hall _ _ b0 b1

end

end Lue.Accu

import Verif.Router.Initialise

/-!
Properties of the accumulating router, for all networks of streams, partitionings, cell accumulators and executions.
-/
namespace Lue.Router

open Lue.Routing Lue.InflowCount

variable {σ μ : Type}

section
variable {F : CellAccumulator σ μ} {isNoData : Nat → Bool} {enter : Cell → σ → σ} {v : Arr Nat} {x : PArr Nat}
variable {order1 order2 : List Nat}

theorem reachable_inv (hx : Represents x v) (S : Setup F isNoData enter x.grid v)
    (ho1 : IsOrder (x.grid.n0 * x.grid.n1) order1) (ho2 : IsOrder (x.grid.n0 * x.grid.n1) order2) {s : Sys σ μ}
    (h : Reachable F isNoData order1 order2 x s) : ∃ G, SInv F isNoData enter x.grid v G s := by
  induction h with
  | init h =>
    obtain ⟨s', h1, h2, _⟩ := initialise_ok hx S ho1 ho2
    rw [h1] at h
    injection h with h
    subst h
    exact ⟨_, h2⟩
  | @step s s' a _ he hp ih =>
    obtain ⟨G, hG⟩ := ih
    cases a with
    | intra k0 k1 =>
      obtain ⟨s'', G', h1, h2, _⟩ := perform_intra hx S hG he
      rw [h1] at hp
      injection hp with hp
      subst hp
      exact ⟨_, h2⟩
    | receive k0 k1 d =>
      obtain ⟨s'', G', h1, h2, _⟩ := perform_receive hx S hG he
      rw [h1] at hp
      injection hp with hp
      subst hp
      exact ⟨_, h2⟩

/-- Whatever has happened, nothing goes wrong: no assertion fails, no memory outside of a buffer is accessed, nothing is
sent to a closed channel, and all loops end. And there is less work to do than before. -/
theorem router_safe (hx : Represents x v) (S : Setup F isNoData enter x.grid v)
    (ho1 : IsOrder (x.grid.n0 * x.grid.n1) order1) (ho2 : IsOrder (x.grid.n0 * x.grid.n1) order2) {s : Sys σ μ}
    (h : Reachable F isNoData order1 order2 x s) {a : Action} (ha : Enabled x.grid s a) :
    ∃ s', perform F isNoData x s a = .ok s' ∧ work x.grid s' + 1 = work x.grid s := by
  obtain ⟨G, hG⟩ := reachable_inv hx S ho1 ho2 h
  cases a with
  | intra k0 k1 => obtain ⟨s', _, h1, _, h3⟩ := perform_intra hx S hG ha; exact ⟨s', h1, h3⟩
  | receive k0 k1 d => obtain ⟨s', _, h1, _, h3⟩ := perform_receive hx S hG ha; exact ⟨s', h1, h3⟩

/-- An execution of `n` actions. -/
inductive Steps (F : CellAccumulator σ μ) (isNoData : Nat → Bool) (x : PArr Nat) : Nat → Sys σ μ → Sys σ μ → Prop
  | refl (s : Sys σ μ) : Steps F isNoData x 0 s s
  | step {n : Nat} {s s' s'' : Sys σ μ} {a : Action} : Steps F isNoData x n s s' → Enabled x.grid s' a →
      perform F isNoData x s' a = .ok s'' → Steps F isNoData x (n + 1) s s''

theorem Steps.reachable {n : Nat} {s s' : Sys σ μ} (h : Reachable F isNoData order1 order2 x s) (hs : Steps F isNoData x n s s') :
    Reachable F isNoData order1 order2 x s' := by
  induction hs with
  | refl => exact h
  | step _ he hp ih => exact .step (ih h) he hp

/-- Every execution ends: the number of actions is bounded. -/
theorem router_terminates (hx : Represents x v) (S : Setup F isNoData enter x.grid v)
    (ho1 : IsOrder (x.grid.n0 * x.grid.n1) order1) (ho2 : IsOrder (x.grid.n0 * x.grid.n1) order2) {s s' : Sys σ μ}
    (h : Reachable F isNoData order1 order2 x s) {n : Nat} (hs : Steps F isNoData x n s s') :
    n + work x.grid s' = work x.grid s := by
  induction hs with
  | refl => omega
  | @step n s s1 s2 a hs he hp ih =>
    obtain ⟨s3, h1, h2⟩ := router_safe hx S ho1 ho2 (hs.reachable h) he
    rw [h1] at hp
    injection hp with hp
    subst hp
    have := ih h
    omega

/-- Material which is underway is in the channel between two partitions, and the receiving partition waits for it. -/
theorem SInv.underway (S : Setup F isNoData enter x.grid v) {G : Ghost Cell σ} {s : Sys σ μ}
    (h : SInv F isNoData enter x.grid v G s) {u c : Cell} (hD : Drains x.grid.a0 x.grid.a1 v u c)
    (hu : u ∉ G.dn ∨ u ∈ G.fl) (hcross : u ∈ G.fl ∨ ∀ k0 k1, k0 < x.grid.n0 → k1 < x.grid.n1 →
      ¬ (InPart x.grid k0 k1 u ∧ InPart x.grid k0 k1 c)) :
    ∃ k0 k1 d, k0 < x.grid.n0 ∧ k1 < x.grid.n1 ∧ hasNeighbour x.grid.n0 x.grid.n1 k0 k1 d = true ∧
      (s k0 k1).pending d ≠ [] ∧
      (u ∈ G.fl → (s (neighbour d k0 k1).1 (neighbour d k0 k1).2).chan d.sender ≠ []) := by
  generalize x.grid = g at *
  obtain ⟨q0, q1, m0, m1, hcu⟩ := exists_isCell S.ok hD.1 hD.2.1
  obtain ⟨k0, k1, l0, l1, hcc⟩ := exists_isCell S.ok hD.2.2.1 hD.2.2.2.1
  have hs : InRange (g.rows q0) (g.cols q1) ((m0 : Int), (m1 : Int)) :=
    ⟨by simp, by have := hcu.l0_lt; simp; omega, by simp, by have := hcu.l1_lt; simp; omega⟩
  have hc : InRange (g.rows k0) (g.cols k1) ((l0 : Int), (l1 : Int)) :=
    ⟨by simp, by have := hcc.l0_lt; simp; omega, by simp, by have := hcc.l1_lt; simp; omega⟩
  have hug : u = glob g q0 q1 ((m0 : Int), (m1 : Int)) :=
    Prod.ext (by simpa [glob] using hcu.i_eq) (by simpa [glob] using hcu.j_eq)
  have hcg : c = glob g k0 k1 ((l0 : Int), (l1 : Int)) :=
    Prod.ext (by simpa [glob] using hcc.i_eq) (by simpa [glob] using hcc.j_eq)
  have hne : ¬ (q0 = k0 ∧ q1 = k1) := by
    rintro ⟨rfl, rfl⟩
    rcases hcross with hfl | hno
    · rw [hug] at hfl
      exact h.intra _ _ hcu.k0_lt hcu.k1_lt _ _ hs hc (by rw [← hug, ← hcg]; exact hD) hfl
    · exact hno _ _ hcu.k0_lt hcu.k1_lt ⟨⟨_, hs, hug⟩, ⟨_, hc, hcg⟩⟩
  rw [hug, hcg] at hD
  obtain ⟨o, ho, e0, e1⟩ := (drains_glob S.ok hcc.k0_lt hcc.k1_lt hcu.k0_lt hcu.k1_lt hs hc).mp hD
  have hb := move_bound ho
  have n0 := near S.ok.pos0 S.ok.le0 hcc.k0_lt hcu.k0_lt hcc.l0_lt hcu.l0_lt (δ := o.1) ⟨hb.1, hb.2.1⟩
    (by push_cast at e0 ⊢; omega)
  have n1 := near S.ok.pos1 S.ok.le1 hcc.k1_lt hcu.k1_lt hcc.l1_lt hcu.l1_lt (δ := o.2) ⟨hb.2.2.1, hb.2.2.2.1⟩
    (by push_cast at e1 ⊢; omega)
  obtain ⟨d, hdo⟩ := Dir.offset_surj n0.1 n0.2 n1.1 n1.2 (by omega)
  have hnb : Neighbour g d k0 k1 q0 q1 :=
    ⟨hcc.k0_lt, hcc.k1_lt, hcu.k0_lt, hcu.k1_lt, by rw [hdo]; simp, by rw [hdo]; simp⟩
  have hhas := (hasNeighbour_iff (d := d) hcc.k0_lt hcc.k1_lt).mpr ⟨q0, q1, hnb⟩
  have hq0 : nb0 k0 d = q0 := by have := hnb.eq0; unfold nb0; omega
  have hq1 : nb1 k1 d = q1 := by have := hnb.eq1; unfold nb1; omega
  obtain ⟨_, idx, hl, _⟩ := (sendsTo_iff (isNoData := isNoData) S.ok S.valid.code hnb hs hc).mpr hD
  have hleaves : Leaves g v q0 q1 d.sender ((m0 : Int), (m1 : Int)) := ⟨idx, hl⟩
  refine ⟨k0, k1, d, hcc.k0_lt, hcc.k1_lt, hhas, ?_, ?_⟩
  · obtain ⟨l, _, hl2, hl3⟩ := (h.part _ _ hcc.k0_lt hcc.k1_lt).pending d hhas
    rw [hq0, hq1] at hl2
    have hm : ((m0 : Int), (m1 : Int)) ∈ l := (hl2 _).2 ⟨hs, hleaves, by rw [← hug]; exact hu⟩
    intro he
    rw [he] at hl3
    have hnil := hl3.symm.eq_nil
    rw [List.map_eq_nil_iff] at hnil
    rw [hnil] at hm
    simp at hm
  · intro hfl
    have hnbe : neighbour d k0 k1 = (q0, q1) := by
      show (nb0 k0 d, nb1 k1 d) = _
      rw [hq0, hq1]
    rw [hnbe]
    have hhas' : hasNeighbour g.n0 g.n1 q0 q1 d.sender = true := by
      refine (hasNeighbour_iff hcu.k0_lt hcu.k1_lt).2 ⟨k0, k1, hcu.k0_lt, hcu.k1_lt, hcc.k0_lt, hcc.k1_lt, ?_, ?_⟩
      · have := hnb.eq0; cases d <;> simp only [Dir.offset, Dir.sender] at this ⊢ <;> omega
      · have := hnb.eq1; cases d <;> simp only [Dir.offset, Dir.sender] at this ⊢ <;> omega
    obtain ⟨l, _, hl2, hl3⟩ := (h.part _ _ hcu.k0_lt hcu.k1_lt).chan _ hhas'
    have hm : ((m0 : Int), (m1 : Int)) ∈ l := (hl2 _).2 ⟨hs, hleaves, by rw [← hug]; exact hfl⟩
    intro he
    simp only at he
    rw [he] at hl3
    cases hl3
    simp at hm

/-- A state in which nothing can happen anymore. -/
def Stuck (g : Grid) (s : Sys σ μ) : Prop := ∀ a, ¬ Enabled g s a

/-- No material is underway anymore. -/
def SInv.Quiet (G : Ghost Cell σ) (a0 a1 : Nat) (v : Arr Nat) : Prop := ∀ u c, Drains a0 a1 v u c → u ∉ G.fl

theorem Finished.stuck {g : Grid} {s : Sys σ μ} (h : Finished g s) : Stuck g s := by
  rintro (⟨k0, k1⟩ | ⟨k0, k1, d⟩) he
  · have := (h k0 k1 he.1 he.2.1).1
    rw [he.2.2] at this; exact absurd this (by simp)
  · exact he.2.2.2.1 ((h k0 k1 he.1 he.2.1).2 d)

theorem Stuck.started {g : Grid} {s : Sys σ μ} (h : Stuck g s) {k0 k1 : Nat} (h0 : k0 < g.n0) (h1 : k1 < g.n1) :
    (s k0 k1).started = true := by
  cases hs : (s k0 k1).started
  · exact absurd ⟨h0, h1, hs⟩ (h (.intra k0 k1))
  · rfl

theorem SInv.quiet (S : Setup F isNoData enter x.grid v) {G : Ghost Cell σ} {s : Sys σ μ}
    (h : SInv F isNoData enter x.grid v G s) (hst : Stuck x.grid s) : SInv.Quiet G x.grid.a0 x.grid.a1 v := by
  intro u c hD hfl
  obtain ⟨k0, k1, d, h0, h1, h2, h3, h4⟩ := h.underway S hD (Or.inr hfl) (Or.inl hfl)
  exact hst (.receive k0 k1 d) ⟨h0, h1, hst.started h0 h1, h3, h2, h4 hfl⟩

theorem inPart_of_lt {g : Grid} (hg : g.Ok) {c : Cell} (h0 : c.1 < g.a0) (h1 : c.2 < g.a1) :
    ∃ k0 k1, k0 < g.n0 ∧ k1 < g.n1 ∧ InPart g k0 k1 c := by
  obtain ⟨k0, k1, l0, l1, hcc⟩ := exists_isCell hg h0 h1
  refine ⟨k0, k1, hcc.k0_lt, hcc.k1_lt, ((l0 : Int), (l1 : Int)), ?_, ?_⟩
  · exact ⟨by simp, by have := hcc.l0_lt; simp; omega, by simp, by have := hcc.l1_lt; simp; omega⟩
  · exact Prod.ext (by simpa [glob] using hcc.i_eq) (by simpa [glob] using hcc.j_eq)

/-- All cells which are not on or downstream of a cycle are solved. -/
theorem SInv.solved (S : Setup F isNoData enter x.grid v) {G : Ghost Cell σ} {s : Sys σ μ}
    (h : SInv F isNoData enter x.grid v G s) (hst : Stuck x.grid s) {c : Cell} (h0 : c.1 < x.grid.a0) (h1 : c.2 < x.grid.a1) :
    c ∈ G.dn ↔ Acc (Drains x.grid.a0 x.grid.a1 v) c := by
  have hact : ∀ c : Cell, c.1 < x.grid.a0 → c.2 < x.grid.a1 → c ∈ actOf x.grid s := by
    intro c h0 h1
    obtain ⟨k0, k1, hk0, hk1, hp⟩ := inPart_of_lt S.ok h0 h1
    exact ⟨k0, k1, hk0, hk1, hst.started hk0 hk1, hp⟩
  constructor
  · intro hc; exact h.ghost.dn_acc c hc
  · intro hacc
    have hq := h.quiet S hst
    exact h.ghost.stuck (net_ok ..) (fun u c hD => hact u hD.1 hD.2.1) (fun u c hfl hD => hq u c hD hfl) (hact c h0 h1) hacc

/-- The router does not hang, if there are no cycles. In general, if nothing can happen anymore, all tasks have finished
if and only if no stream which crosses a border between partitions contains a cycle. -/
theorem router_finishes_iff (hx : Represents x v) (S : Setup F isNoData enter x.grid v)
    (ho1 : IsOrder (x.grid.n0 * x.grid.n1) order1) (ho2 : IsOrder (x.grid.n0 * x.grid.n1) order2) {s : Sys σ μ}
    (h : Reachable F isNoData order1 order2 x s) (hst : Stuck x.grid s) :
    Finished x.grid s ↔ ∀ u c, Drains x.grid.a0 x.grid.a1 v u c →
      (∀ k0 k1, k0 < x.grid.n0 → k1 < x.grid.n1 → ¬ (InPart x.grid k0 k1 u ∧ InPart x.grid k0 k1 c)) →
      Acc (Drains x.grid.a0 x.grid.a1 v) u := by
  obtain ⟨G, hG⟩ := reachable_inv hx S ho1 ho2 h
  constructor
  · intro hf u c hD hcross
    rw [← hG.solved S hst hD.1 hD.2.1]
    by_contra hne
    obtain ⟨k0, k1, d, h0, h1, _, h3, _⟩ := hG.underway S hD (Or.inl hne) (Or.inr hcross)
    exact h3 ((hf k0 k1 h0 h1).2 d)
  · intro hacc k0 k1 h0 h1
    refine ⟨hst.started h0 h1, fun d => ?_⟩
    have hp := hG.part k0 k1 h0 h1
    have hq := hG.quiet S hst
    cases hn : hasNeighbour x.grid.n0 x.grid.n1 k0 k1 d
    · exact hp.pending_nil d hn
    · obtain ⟨l, _, hl2, hl3⟩ := hp.pending d hn
      have nb := neighbour_nb h0 h1 hn
      obtain ⟨a0, a1⟩ := nb.adj S.ok
      have hl : l = [] := by
        rw [List.eq_nil_iff_forall_not_mem]
        intro u hu
        obtain ⟨b1, ⟨idx, b2⟩, b3⟩ := (hl2 u).1 hu
        have hr := S.rows k0; have hcl := S.cols k1
        have hc := received_inRange (n0 := x.grid.rows k0) (n1 := x.grid.cols k1) (by omega) (by omega) a0 a1 b1 b2
        have hD : Drains x.grid.a0 x.grid.a1 v (glob x.grid (nb0 k0 d) (nb1 k1 d) u)
            (glob x.grid k0 k1 (convert (x.grid.rows k0) (x.grid.cols k1) d idx)) := by
          rw [drains_glob S.ok h0 h1 nb.q0_lt nb.q1_lt b1 hc]
          exact (geo a0 a1 b1 hc _).1 ⟨idx, b2, rfl⟩
        rcases b3 with b3 | b3
        · apply b3
          rw [hG.solved S hst hD.1 hD.2.1]
          refine hacc _ _ hD ?_
          rintro q0 q1 hq0 hq1 ⟨⟨c1, hc1, he1⟩, ⟨c2, hc2, he2⟩⟩
          obtain ⟨e0, e1, _⟩ := glob_inj S.ok nb.q0_lt nb.q1_lt hq0 hq1 b1 hc1 he1
          obtain ⟨e2, e3, _⟩ := glob_inj S.ok h0 h1 hq0 hq1 hc hc2 he2
          exact neighbour_ne nb ⟨by omega, by omega⟩
        · exact hq _ _ hD b3
      rw [hl] at hl3
      simpa using hl3

/-- The results: if all tasks have finished, the result of each cell which is not on or downstream of a cycle is the one
that follows from the material of all its upstream cells. -/
theorem router_result (hx : Represents x v) (S : Setup F isNoData enter x.grid v)
    (ho1 : IsOrder (x.grid.n0 * x.grid.n1) order1) (ho2 : IsOrder (x.grid.n0 * x.grid.n1) order2) {s : Sys σ μ}
    (h : Reachable F isNoData order1 order2 x s) (hst : Stuck x.grid s) :
    ∃ w : Arr σ, Represents (results x.grid s) w ∧
      ∀ i j, i < x.grid.a0 → j < x.grid.a1 → Acc (Drains x.grid.a0 x.grid.a1 v) (i, j) →
        IsSolutionAt (net F isNoData enter x.grid.a0 x.grid.a1 v) (fun c => w c.1 c.2) (i, j) := by
  obtain ⟨G, hG⟩ := reachable_inv hx S ho1 ho2 h
  refine ⟨fun i j => G.val (i, j), ?_, ?_⟩
  · have hget : ∀ k0 k1, k0 < x.grid.n0 → k1 < x.grid.n1 →
        (results x.grid s).parts[k0 * x.grid.n1 + k1]? = some (s k0 k1).data := by
      intro k0 k1 h0 h1
      simp only [results]
      rw [List.getElem?_map, List.getElem?_range (idx_lt h0 h1), Option.map_some, idx_div h1, idx_mod h1]
    refine ⟨S.ok, by simp [results], ?_, ?_⟩
    · intro k0 k1 p h0 h1 hp
      change k0 < x.grid.n0 at h0
      change k1 < x.grid.n1 at h1
      rw [show (results x.grid s).grid = x.grid from rfl] at hp
      rw [hget k0 k1 h0 h1, Option.some.injEq] at hp
      subst hp
      exact (hG.part k0 k1 h0 h1).data.1
    · intro i j k0 k1 l0 l1 hc
      have hc' : IsCell x.grid i j k0 k1 l0 l1 := hc
      have hin : InRange (x.grid.rows k0) (x.grid.cols k1) ((l0 : Int), (l1 : Int)) :=
        ⟨by simp, by have := hc'.l0_lt; simp; omega, by simp, by have := hc'.l1_lt; simp; omega⟩
      have hd := (hG.part k0 k1 hc'.k0_lt hc'.k1_lt).data.2 _ hin
      unfold PArr.elem?
      rw [show (results x.grid s).grid = x.grid from rfl, hget k0 k1 hc'.k0_lt hc'.k1_lt, Option.bind_some]
      have hlin : lin (x.grid.cols k1) ((l0 : Int), (l1 : Int)) = l0 * x.grid.cols k1 + l1 := by simp [lin]
      rw [hlin] at hd
      rw [hd, hc'.i_eq, hc'.j_eq]
      simp [glob]
  · intro i j hi hj hacc
    exact hG.ghost.isSolutionAt (net_ok ..) ((hG.solved S hst hi hj).2 hacc)

/-- The state of a cell after some of the upstream cells have been handled: what cells on or downstream of a cycle end up
with. -/
theorem router_cyclic (hx : Represents x v) (S : Setup F isNoData enter x.grid v)
    (ho1 : IsOrder (x.grid.n0 * x.grid.n1) order1) (ho2 : IsOrder (x.grid.n0 * x.grid.n1) order2) {s : Sys σ μ}
    (h : Reachable F isNoData order1 order2 x s) (hst : Stuck x.grid s) {w : Arr σ} (hw : Represents (results x.grid s) w)
    {i j : Nat} (hi : i < x.grid.a0) (hj : j < x.grid.a1) (hacc : ¬ Acc (Drains x.grid.a0 x.grid.a1 v) (i, j)) :
    ∃ us : List Cell, us.Nodup ∧
      (∀ u, u ∈ us ↔ Drains x.grid.a0 x.grid.a1 v u (i, j) ∧ Acc (Drains x.grid.a0 x.grid.a1 v) u) ∧
      w i j = us.foldl (fun s u => F.enterInter (F.outflow (w u.1 u.2)) s) F.init := by
  obtain ⟨G, hG⟩ := reachable_inv hx S ho1 ho2 h
  have hval : ∀ i j, i < x.grid.a0 → j < x.grid.a1 → w i j = G.val (i, j) := by
    intro i j hi hj
    obtain ⟨k0, k1, l0, l1, hc⟩ := exists_isCell S.ok hi hj
    have h1 := hw.elem i j k0 k1 l0 l1 hc
    have hin : InRange (x.grid.rows k0) (x.grid.cols k1) ((l0 : Int), (l1 : Int)) :=
      ⟨by simp, by have := hc.l0_lt; simp; omega, by simp, by have := hc.l1_lt; simp; omega⟩
    have hd := (hG.part k0 k1 hc.k0_lt hc.k1_lt).data.2 _ hin
    have hlin : lin (x.grid.cols k1) ((l0 : Int), (l1 : Int)) = l0 * x.grid.cols k1 + l1 := by simp [lin]
    have hget : (results x.grid s).parts[k0 * x.grid.n1 + k1]? = some (s k0 k1).data := by
      simp only [results]
      rw [List.getElem?_map, List.getElem?_range (idx_lt hc.k0_lt hc.k1_lt), Option.map_some, idx_div hc.k1_lt,
        idx_mod hc.k1_lt]
    unfold PArr.elem? at h1
    rw [show (results x.grid s).grid = x.grid from rfl, hget, Option.bind_some] at h1
    rw [hlin, h1, Option.some.injEq] at hd
    rw [hd, hc.i_eq, hc.j_eq]
    simp [glob]
  have hndn : (i, j) ∉ G.dn := fun hm => hacc ((hG.solved S hst hi hj).1 hm)
  have hv := hG.ghost.val_eq (i, j)
  rw [if_neg hndn] at hv
  refine ⟨G.arr (i, j), hG.ghost.arr_nodup _, ?_, ?_⟩
  · intro u
    constructor
    · intro hu
      obtain ⟨a, b, _⟩ := hG.ghost.arr_mem u _ hu
      have a' : Drains x.grid.a0 x.grid.a1 v u (i, j) := a
      exact ⟨a, (hG.solved S hst a'.1 a'.2.1).1 b⟩
    · rintro ⟨a, b⟩
      rcases hG.ghost.sent u (i, j) ((hG.solved S hst a.1 a.2.1).2 b) a with h1 | h1
      · exact h1
      · exact absurd h1 (hG.quiet S hst u _ a)
  · rw [hval i j hi hj, hv]
    have := acc_congr (net F isNoData enter x.grid.a0 x.grid.a1 v) (val := G.val) (val' := fun u => w u.1 u.2)
      (us := G.arr (i, j)) (fun u hu => by
        obtain ⟨a, _⟩ := hG.ghost.arr_mem u _ hu
        have a' : Drains x.grid.a0 x.grid.a1 v u (i, j) := a
        exact (hval u.1 u.2 a'.1 a'.2.1).symm)
    rw [this]
    rfl

end

end Lue.Router

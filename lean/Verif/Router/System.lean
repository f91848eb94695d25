import Verif.Router.Receive
import Mathlib.Algebra.BigOperators.Group.Finset.Basic
import Mathlib.Algebra.BigOperators.Group.List.Basic

/-! Executions. -/
namespace Lue.Router

open Lue.Routing Lue.InflowCount

variable {σ μ : Type}

/-- The cells in partitions whose intra-partition streams are solved. -/
def actOf (g : Grid) (s : Sys σ μ) : Set Cell :=
  {u | ∃ k0 k1, k0 < g.n0 ∧ k1 < g.n1 ∧ (s k0 k1).started = true ∧ InPart g k0 k1 u}

/-- The states of all partitions agree with what has happened. -/
structure SInv (F : CellAccumulator σ μ) (isNoData : Nat → Bool) (enter : Cell → σ → σ) (g : Grid) (v : Arr Nat) (G : Ghost Cell σ)
    (s : Sys σ μ) : Prop where
  ghost : GInv (net F isNoData enter g.a0 g.a1 v) G ∅ (actOf g s)
  part : ∀ k0 k1, k0 < g.n0 → k1 < g.n1 → PRel F g v G k0 k1 (s k0 k1)
  intra : ∀ k0 k1, k0 < g.n0 → k1 < g.n1 → NoIntra g v G k0 k1

/-- What still has to be done in a partition. -/
def partWork (p : PState σ μ) : Nat := (if p.started then 0 else 1) + (directions.map fun d => (p.pending d).length).sum

/-- What still has to be done: the number of partitions whose intra-partition streams are not solved, and the number of
cells which have not been received from neighbouring partitions. -/
def work (g : Grid) (s : Sys σ μ) : Nat := ∑ k ∈ Finset.range g.n0 ×ˢ Finset.range g.n1, partWork (s k.1 k.2)

theorem work_lt {g : Grid} {s s' : Sys σ μ} {k0 k1 : Nat} (h0 : k0 < g.n0) (h1 : k1 < g.n1)
    (heq : ∀ q0 q1, ¬ (q0 = k0 ∧ q1 = k1) → partWork (s' q0 q1) = partWork (s q0 q1))
    (h : partWork (s' k0 k1) + 1 = partWork (s k0 k1)) : work g s' + 1 = work g s := by
  unfold work
  have hm : (k0, k1) ∈ Finset.range g.n0 ×ˢ Finset.range g.n1 := by simp [h0, h1]
  rw [← Finset.add_sum_erase _ _ hm, ← Finset.add_sum_erase _ (fun k => partWork (s k.1 k.2)) hm]
  have : ∑ k ∈ (Finset.range g.n0 ×ˢ Finset.range g.n1).erase (k0, k1), partWork (s' k.1 k.2) =
      ∑ k ∈ (Finset.range g.n0 ×ˢ Finset.range g.n1).erase (k0, k1), partWork (s k.1 k.2) := by
    refine Finset.sum_congr rfl fun k hk => heq _ _ ?_
    rintro ⟨rfl, rfl⟩
    exact (Finset.mem_erase.1 hk).1 rfl
  rw [this]
  simp only
  omega

theorem sum_update {d : Dir} {f f' : Dir → Nat} (hne : ∀ d', d' ≠ d → f' d' = f d') (h : f' d + 1 = f d) :
    (directions.map f').sum + 1 = (directions.map f).sum := by
  have key : ∀ l : List Dir, l.Nodup → d ∈ l → (l.map f').sum + 1 = (l.map f).sum := by
    intro l
    induction l with
    | nil => intro _ hm; simp at hm
    | cons a l ih =>
      intro hnd hm
      obtain ⟨h1, h2⟩ := List.nodup_cons.1 hnd
      simp only [List.map_cons, List.sum_cons]
      by_cases had : a = d
      · subst had
        have : l.map f' = l.map f := List.map_congr_left fun x hx => hne x (by rintro rfl; exact h1 hx)
        rw [this]; omega
      · have hm' : d ∈ l := by
          rcases List.mem_cons.1 hm with e | e
          · exact absurd e.symm had
          · exact e
        have := ih h2 hm'
        rw [hne a had]; omega
  exact key _ directions_nodup (mem_directions d)

section
variable {F : CellAccumulator σ μ} {isNoData : Nat → Bool} {enter : Cell → σ → σ} {v : Arr Nat}

theorem Represents.holds {α : Type} {x : PArr α} {v : Arr α} (hx : Represents x v) {k0 k1 : Nat} (h0 : k0 < x.grid.n0)
    (h1 : k1 < x.grid.n1) : ∃ p, x.parts[k0 * x.grid.n1 + k1]? = some p ∧
      Holds (x.grid.rows k0) (x.grid.cols k1) p fun c => v (glob x.grid k0 k1 c).1 (glob x.grid k0 k1 c).2 := by
  obtain ⟨p, h2, h3, h4⟩ := hx.part h0 h1
  refine ⟨p, h2, h3, fun c hc => ?_⟩
  have := hc.1; have := hc.2.1; have := hc.2.2.1; have := hc.2.2.2
  exact h4 c.1.toNat c.2.toNat (by omega) (by omega)

theorem ctx_ok {x : PArr Nat} (hx : Represents x v) {k0 k1 : Nat} (h0 : k0 < x.grid.n0) (h1 : k1 < x.grid.n1) :
    ∃ fd, ctx x k0 k1 = .ok (partCtx x.grid k0 k1 fd) ∧
      Holds (x.grid.rows k0) (x.grid.cols k1) fd (codes x.grid v k0 k1) := by
  obtain ⟨p, h2, h3⟩ := Represents.holds hx h0 h1
  refine ⟨p, ?_, h3⟩
  unfold ctx
  rw [rd_ok h2, M.bind_ok]
  rfl

theorem Sys.set_self (s : Sys σ μ) (k0 k1 : Nat) (p : PState σ μ) : s.set k0 k1 p k0 k1 = p := by simp [Sys.set]

theorem Sys.set_ne (s : Sys σ μ) {k0 k1 q0 q1 : Nat} (p : PState σ μ) (h : ¬ (q0 = k0 ∧ q1 = k1)) :
    s.set k0 k1 p q0 q1 = s q0 q1 := by
  unfold Sys.set; rw [if_neg h]

theorem perform_intra {x : PArr Nat} (hx : Represents x v) (S : Setup F isNoData enter x.grid v) {G : Ghost Cell σ} {s : Sys σ μ}
    (h : SInv F isNoData enter x.grid v G s) {k0 k1 : Nat} (he : Enabled x.grid s (.intra k0 k1)) :
    ∃ s' G', perform F isNoData x s (.intra k0 k1) = .ok s' ∧ SInv F isNoData enter x.grid v G' s' ∧
      work x.grid s' + 1 = work x.grid s := by
  obtain ⟨h0, h1, hst⟩ := he
  obtain ⟨fd, hctx, hfd⟩ := ctx_ok hx h0 h1
  generalize x.grid = g at *
  have hnew : ∀ u, InPart g k0 k1 u → u ∉ actOf g s := by
    rintro u ⟨c, hc, rfl⟩ ⟨q0, q1, hq0, hq1, hsq, c', hc', he⟩
    obtain ⟨e0, e1, _⟩ := glob_inj S.ok h0 h1 hq0 hq1 hc hc' he
    subst e0 e1
    rw [hst] at hsq; exact absurd hsq (by simp)
  obtain ⟨p', G', e1, e2, e3, e4, e5, e6, e7⟩ := solveIntra_ok S h0 h1 hfd hnew h.ghost (h.part _ _ h0 h1) (h.intra _ _ h0 h1)
  refine ⟨s.set k0 k1 p', G', ?_, ⟨?_, ?_, ?_⟩, ?_⟩
  · simp only [perform, hctx, M.bind_ok, e1]; rfl
  · have : actOf g (s.set k0 k1 p') = actOf g s ∪ {u | InPart g k0 k1 u} := by
      ext u
      constructor
      · rintro ⟨q0, q1, hq0, hq1, hsq, hu⟩
        by_cases hk : q0 = k0 ∧ q1 = k1
        · obtain ⟨rfl, rfl⟩ := hk; exact Or.inr hu
        · rw [Sys.set_ne _ _ hk] at hsq
          exact Or.inl ⟨q0, q1, hq0, hq1, hsq, hu⟩
      · rintro (⟨q0, q1, hq0, hq1, hsq, hu⟩ | hu)
        · refine ⟨q0, q1, hq0, hq1, ?_, hu⟩
          by_cases hk : q0 = k0 ∧ q1 = k1
          · obtain ⟨rfl, rfl⟩ := hk; rw [Sys.set_self]; exact e5
          · rw [Sys.set_ne _ _ hk]; exact hsq
        · exact ⟨k0, k1, h0, h1, by rw [Sys.set_self]; exact e5, hu⟩
    rw [this]; exact e7
  · intro q0 q1 hq0 hq1
    by_cases hk : q0 = k0 ∧ q1 = k1
    · obtain ⟨rfl, rfl⟩ := hk; rw [Sys.set_self]; exact e2
    · rw [Sys.set_ne _ _ hk]; exact (h.part _ _ hq0 hq1).frame S.ok h0 h1 hq0 hq1 hk e3
  · intro q0 q1 hq0 hq1
    by_cases hk : q0 = k0 ∧ q1 = k1
    · obtain ⟨rfl, rfl⟩ := hk; exact e4
    · exact (h.intra _ _ hq0 hq1).frame S.ok h0 h1 hq0 hq1 hk e3
  · refine work_lt h0 h1 (fun q0 q1 hk => by rw [Sys.set_ne _ _ hk]) ?_
    rw [Sys.set_self]
    simp only [partWork, e5, e6, hst, if_true]
    simp only [Bool.false_eq_true, if_false]; omega

theorem perform_receive {x : PArr Nat} (hx : Represents x v) (S : Setup F isNoData enter x.grid v) {G : Ghost Cell σ} {s : Sys σ μ}
    (h : SInv F isNoData enter x.grid v G s) {k0 k1 : Nat} {d : Dir} (he : Enabled x.grid s (.receive k0 k1 d)) :
    ∃ s' G', perform F isNoData x s (.receive k0 k1 d) = .ok s' ∧ SInv F isNoData enter x.grid v G' s' ∧
      work x.grid s' + 1 = work x.grid s := by
  obtain ⟨h0, h1, hst, hpend, hnbr, hch⟩ := he
  obtain ⟨fd, hctx, hfd⟩ := ctx_ok hx h0 h1
  generalize x.grid = g at *
  set N := net F isNoData enter g.a0 g.a1 v with hN
  have hNok : N.Ok := net_ok ..
  have nb := neighbour_nb h0 h1 hnbr
  have hnbe : neighbour d k0 k1 = (nb0 k0 d, nb1 k1 d) := rfl
  have hnbr' : hasNeighbour g.n0 g.n1 (nb0 k0 d) (nb1 k1 d) d.sender = true := by
    refine (hasNeighbour_iff nb.q0_lt nb.q1_lt).2 ⟨k0, k1, nb.q0_lt, nb.q1_lt, h0, h1, ?_, ?_⟩
    · have := nb.eq0; cases d <;> simp only [Dir.offset, Dir.sender] at this ⊢ <;> omega
    · have := nb.eq1; cases d <;> simp only [Dir.offset, Dir.sender] at this ⊢ <;> omega
  have hq := h.part _ _ nb.q0_lt nb.q1_lt
  have hp := h.part _ _ h0 h1
  rw [hnbe] at hch
  simp only at hch
  obtain ⟨l, hl1, hl2, hl3⟩ := hq.chan _ hnbr'
  obtain ⟨m, ms, hms⟩ : ∃ m ms, (s (nb0 k0 d) (nb1 k1 d)).chan d.sender = m :: ms := by
    rcases hx : (s (nb0 k0 d) (nb1 k1 d)).chan d.sender with _ | ⟨m, ms⟩
    · exact absurd hx hch
    · exact ⟨m, ms, rfl⟩
  rw [hms] at hl3
  obtain ⟨u, l', rfl⟩ : ∃ u l', l = u :: l' := by cases hl3; exact ⟨_, _, rfl⟩
  have hmsg : MsgRel F g v G (nb0 k0 d) (nb1 k1 d) d.sender m u := by cases hl3; assumption
  obtain ⟨hu, hul, hufl⟩ := (hl2 u).1 (by simp)
  set c := convert (g.rows k0) (g.cols k1) d m.1 with hcdef
  have hconv : c = convert (g.rows k0) (g.cols k1) d (outIdx g v (nb0 k0 d) (nb1 k1 d) u) := by
    have := hmsg.1 (g.rows k0) (g.cols k1)
    rwa [Dir.sender_sender] at this
  obtain ⟨idx, hidx⟩ := hul
  have hout : outIdx g v (nb0 k0 d) (nb1 k1 d) u = idx := by simp [outIdx, hidx]
  obtain ⟨a0, a1⟩ := nb.adj S.ok
  have hc : InRange (g.rows k0) (g.cols k1) c := by
    rw [hconv, hout]
    have := S.rows k0; have := S.cols k1
    exact received_inRange (by omega) (by omega) a0 a1 hu hidx
  have hD : N.D (glob g (nb0 k0 d) (nb1 k1 d) u) (glob g k0 k1 c) := by
    show Drains _ _ _ _ _
    rw [drains_glob S.ok h0 h1 nb.q0_lt nb.q1_lt hu hc]
    exact (geo a0 a1 hu hc _).1 ⟨idx, hidx, by rw [hconv, hout]⟩
  have hcact : glob g k0 k1 c ∈ actOf g s := ⟨k0, k1, h0, h1, hst, c, hc, rfl⟩
  obtain ⟨_, hcdn, hG1⟩ := h.ghost.arrive hNok hufl hD hcact
  have hlt := h.ghost.arrive_lt hNok hufl hD
  have hup : N.up (glob g k0 k1 c) = nrInflows g.a0 g.a1 v (glob g k0 k1 c) := rfl
  rw [hup] at hlt hG1
  have hi : Inflow g v G k0 k1 d u c := ⟨nb, hu, hc, ⟨idx, hidx⟩, hconv, hufl, h.ghost.fl_dn _ hufl, hcdn,
    fun hx => hcdn (h.ghost.fl_dn _ hx)⟩
  obtain ⟨data, hd1, hd2⟩ := Holds.wr_glob S.ok h0 h1 (f := G.val) hp.data hc
    (F.enterInter m.2 (G.val (glob g k0 k1 c)))
  obtain ⟨counts, hc1, hc2⟩ := Holds.wr_glob S.ok h0 h1 (f := fun u => nrInflows g.a0 g.a1 v u - (G.arr u).length) hp.counts hc
      (nrInflows g.a0 g.a1 v (glob g k0 k1 c) - (G.arr (glob g k0 k1 c)).length - 1)
  set G1 := G.arrive N (glob g (nb0 k0 d) (nb1 k1 d) u) (glob g k0 k1 c) with hG1def
  obtain ⟨hcp, hp1⟩ := PRel.arrive_from S N h0 h1 hp hi (data := data) (counts := counts)
    (by rw [hmsg.2] at hd2; exact hd2)
    (by
      refine hc2.congr fun c' _ => ?_
      by_cases hct : glob g k0 k1 c' = glob g k0 k1 c
      · rw [hct]
        simp only [Function.update_self, Ghost.arrive, List.length_append, List.length_singleton]
        omega
      · simp only [Function.update_of_ne hct, Ghost.arrive])
  have hother : ∀ r0 r1, r0 < g.n0 → r1 < g.n1 → ¬ (r0 = k0 ∧ r1 = k1) → PRel F g v G1 r0 r1
      (s.set (nb0 k0 d) (nb1 k1 d) { s (nb0 k0 d) (nb1 k1 d) with
        chan := Function.update (s (nb0 k0 d) (nb1 k1 d)).chan d.sender ms } r0 r1) := by
    intro r0 r1 hr0 hr1 hne
    by_cases hrq : r0 = nb0 k0 d ∧ r1 = nb1 k1 d
    · obtain ⟨rfl, rfl⟩ := hrq
      rw [Sys.set_self]
      refine PRel.arrive_other S N h0 h1 hi hr0 hr1 hne hq ?_ ?_
      · intro d' hd'
        have : d' ≠ d.sender := fun e => hd' ⟨rfl, rfl, e⟩
        rw [Function.update_of_ne this]
      · intro _ _
        exact ⟨m, ms, l', hms, Function.update_self .., hl1, hl2, hl3⟩
    · rw [Sys.set_ne _ _ hrq]
      have := PRel.arrive_other S N h0 h1 hi hr0 hr1 hne (h.part _ _ hr0 hr1) (chan := (s r0 r1).chan) (fun _ _ => rfl)
        (fun e0 e1 => absurd ⟨e0, e1⟩ hrq)
      exact this
  have hni1 : ∀ r0 r1, r0 < g.n0 → r1 < g.n1 → NoIntra g v G1 r0 r1 := fun r0 r1 hr0 hr1 c1 c2 hc1 hc2 hd hm =>
    h.intra _ _ hr0 hr1 c1 c2 hc1 hc2 hd hm.1
  have hact : ∀ u, InPart g k0 k1 u → u ∈ actOf g s := fun u hu => ⟨k0, k1, h0, h1, hst, hu⟩
  -- the receiving partition
  have hrecv : ∃ p' G', receiveMaterial F (partCtx g k0 k1 fd) d m (s k0 k1) = .ok p' ∧ PRel F g v G' k0 k1 p' ∧
      Frame g v k0 k1 G1 G' ∧ NoIntra g v G' k0 k1 ∧ p'.started = true ∧
      p'.pending = Function.update (s k0 k1).pending d (((s k0 k1).pending d).erase c) ∧ GInv N G' ∅ (actOf g s) := by
    unfold receiveMaterial
    simp only
    rw [check_ok (by exact hcp), M.bind_ok]
    simp only [← hcdef]
    rw [at2_ok (i := c.1) (j := c.2) hc, M.bind_ok, hp.counts.rd hc, M.bind_ok, check_ok (by omega), M.bind_ok,
      hp.data.rd hc, M.bind_ok, hd1, M.bind_ok, hc1, M.bind_ok]
    by_cases hz : (G.arr (glob g k0 k1 c)).length + 1 = nrInflows g.a0 g.a1 v (glob g k0 k1 c)
    · rw [if_pos (by omega)]
      rw [if_pos hz] at hG1
      obtain ⟨p', G', e1, e2, e3, e4, e5, e6, e7⟩ := accumulate_ok S h0 h1 hfd hact hG1 (by simp) hp1
        (hni1 _ _ h0 h1) hc (S.valid.downstream _ _ hD)
      exact ⟨p', G', by rw [e1, M.bind_ok, S.leaveInter, hookAt_id e2.data hc], e2, e3, e4, e5.trans hst, e6, e7⟩
    · rw [if_neg (by omega)]
      rw [if_neg hz] at hG1
      exact ⟨_, G1, rfl, hp1, Frame.refl .., hni1 _ _ h0 h1, hst, rfl, hG1⟩
  obtain ⟨p', G', e1, e2, e3, e4, e5, e6, e7⟩ := hrecv
  have hkq : ¬ (k0 = nb0 k0 d ∧ k1 = nb1 k1 d) := fun e => neighbour_ne nb ⟨e.1.symm, e.2.symm⟩
  refine ⟨(s.set (nb0 k0 d) (nb1 k1 d) { s (nb0 k0 d) (nb1 k1 d) with
        chan := Function.update (s (nb0 k0 d) (nb1 k1 d)).chan d.sender ms }).set k0 k1 p', G', ?_, ⟨?_, ?_, ?_⟩, ?_⟩
  · simp only [perform, hnbe, hms, hctx, M.bind_ok, Sys.set_ne _ _ hkq, e1]; rfl
  · have : actOf g ((s.set (nb0 k0 d) (nb1 k1 d) { s (nb0 k0 d) (nb1 k1 d) with
        chan := Function.update (s (nb0 k0 d) (nb1 k1 d)).chan d.sender ms }).set k0 k1 p') = actOf g s := by
      have hstarted : ∀ q0 q1, ((s.set (nb0 k0 d) (nb1 k1 d) { s (nb0 k0 d) (nb1 k1 d) with
        chan := Function.update (s (nb0 k0 d) (nb1 k1 d)).chan d.sender ms }).set k0 k1 p' q0 q1).started =
          (s q0 q1).started := by
        intro q0 q1
        by_cases hk : q0 = k0 ∧ q1 = k1
        · obtain ⟨rfl, rfl⟩ := hk; rw [Sys.set_self, e5, hst]
        · rw [Sys.set_ne _ _ hk]
          by_cases hrq : q0 = nb0 k0 d ∧ q1 = nb1 k1 d
          · obtain ⟨rfl, rfl⟩ := hrq; rw [Sys.set_self]
          · rw [Sys.set_ne _ _ hrq]
      unfold actOf
      simp only [hstarted]
    rw [this]; exact e7
  · intro q0 q1 hq0 hq1
    by_cases hk : q0 = k0 ∧ q1 = k1
    · obtain ⟨rfl, rfl⟩ := hk; rw [Sys.set_self]; exact e2
    · rw [Sys.set_ne _ _ hk]; exact (hother _ _ hq0 hq1 hk).frame S.ok h0 h1 hq0 hq1 hk e3
  · intro q0 q1 hq0 hq1
    by_cases hk : q0 = k0 ∧ q1 = k1
    · obtain ⟨rfl, rfl⟩ := hk; exact e4
    · exact (hni1 _ _ hq0 hq1).frame S.ok h0 h1 hq0 hq1 hk e3
  · refine work_lt h0 h1 (fun q0 q1 hk => ?_) ?_
    · rw [Sys.set_ne _ _ hk]
      by_cases hrq : q0 = nb0 k0 d ∧ q1 = nb1 k1 d
      · obtain ⟨rfl, rfl⟩ := hrq; rw [Sys.set_self]; rfl
      · rw [Sys.set_ne _ _ hrq]
    · rw [Sys.set_self]
      simp only [partWork, e5, e6, hst, if_true]
      rw [Nat.add_assoc]
      congr 1
      refine sum_update (d := d) ?_ ?_
      · intro d' hd'; rw [Function.update_of_ne hd']
      · rw [Function.update_self, List.length_erase_of_mem hcp]
        have := List.length_pos_of_mem hcp
        omega

end

end Lue.Router

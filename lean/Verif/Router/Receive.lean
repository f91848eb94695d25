import Verif.Router.Stream

/-! Solving the intra-partition streams, and receiving material. -/
namespace Lue.Router

open Lue.Routing Lue.InflowCount

variable {σ μ : Type}

section
variable {F : CellAccumulator σ μ} {isNoData : Nat → Bool} {enter : Cell → σ → σ} {g : Grid} {v : Arr Nat}
variable {k0 k1 : Nat} {fd : List Nat}

/-- Cells which can be solved right away. -/
def ridges (g : Grid) (N : Net Cell σ) (k0 k1 : Nat) (l : List (Int × Int)) : Set Cell :=
  {u | ∃ c ∈ l, u = glob g k0 k1 c ∧ N.up u = 0}

theorem ridges_cons_pos {N : Net Cell σ} {c : Int × Int} {l : List (Int × Int)} (h : N.up (glob g k0 k1 c) = 0) :
    ridges g N k0 k1 (c :: l) = insert (glob g k0 k1 c) (ridges g N k0 k1 l) := by
  ext u
  constructor
  · rintro ⟨c', hc', rfl, hu⟩
    rcases List.mem_cons.1 hc' with rfl | hc'
    · exact Or.inl rfl
    · exact Or.inr ⟨c', hc', rfl, hu⟩
  · rintro (rfl | ⟨c', hc', rfl, hu⟩)
    · exact ⟨c, by simp, rfl, h⟩
    · exact ⟨c', by simp [hc'], rfl, hu⟩

theorem ridges_cons_neg {N : Net Cell σ} {c : Int × Int} {l : List (Int × Int)} (h : N.up (glob g k0 k1 c) ≠ 0) :
    ridges g N k0 k1 (c :: l) = ridges g N k0 k1 l := by
  ext u
  constructor
  · rintro ⟨c', hc', rfl, hu⟩
    rcases List.mem_cons.1 hc' with rfl | hc'
    · exact absurd hu h
    · exact ⟨c', hc', rfl, hu⟩
  · rintro ⟨c', hc', rfl, hu⟩
    exact ⟨c', by simp [hc'], rfl, hu⟩

theorem nrInflows_noData (hv : Valid isNoData g.a0 g.a1 v) {u : Cell} (h : isNoData (v u.1 u.2) = true) :
    nrInflows g.a0 g.a1 v u = 0 := by
  unfold nrInflows
  have : {s : Cell | Drains g.a0 g.a1 v s u} = ∅ := by
    ext s
    simp only [Set.mem_setOf_eq, Set.mem_empty_iff_false, iff_false]
    intro hd
    have := hv.downstream _ _ hd
    rw [this] at h; exact absurd h (by simp)
  rw [this, Set.ncard_empty]

theorem intraCells_ok (S : Setup F isNoData enter g v) (h0 : k0 < g.n0) (h1 : k1 < g.n1)
    (hfd : Holds (g.rows k0) (g.cols k1) fd (codes g v k0 k1)) {act : Set Cell}
    (hact : ∀ u, InPart g k0 k1 u → u ∈ act) {counts : List Nat}
    (hcounts : Holds (g.rows k0) (g.cols k1) counts fun c => nrInflows g.a0 g.a1 v (glob g k0 k1 c)) :
    ∀ (l : List (Int × Int)), l.Nodup → (∀ c ∈ l, InRange (g.rows k0) (g.cols k1) c) → ∀ {G : Ghost Cell σ} {p : PState σ μ},
    GInv (net F isNoData enter g.a0 g.a1 v) G (ridges g (net F isNoData enter g.a0 g.a1 v) k0 k1 l) act →
    PRel F g v G k0 k1 p → NoIntra g v G k0 k1 →
    ∃ p' G', l.foldlM (fun s c => intraCell F isNoData (partCtx g k0 k1 fd) counts c.1 c.2 s) p = .ok p' ∧
      PRel F g v G' k0 k1 p' ∧ Frame g v k0 k1 G G' ∧ NoIntra g v G' k0 k1 ∧ p'.started = p.started ∧
      p'.pending = p.pending ∧ GInv (net F isNoData enter g.a0 g.a1 v) G' ∅ act := by
  intro l
  set N := net F isNoData enter g.a0 g.a1 v with hN
  have hNok : N.Ok := net_ok ..
  induction l with
  | nil =>
    intro _ _ G p hG h hni
    refine ⟨p, G, rfl, h, Frame.refl .., hni, rfl, rfl, ?_⟩
    have : ridges g N k0 k1 [] = ∅ := by ext u; simp [ridges]
    rwa [this] at hG
  | cons c l ih =>
    intro hnd hin G p hG h hni
    have hc := hin c (by simp)
    have hnotin : glob g k0 k1 c ∉ ridges g N k0 k1 l := by
      rintro ⟨c', hc', he, _⟩
      have := (glob_inj S.ok h0 h1 h0 h1 hc (hin c' (by simp [hc'])) he).2.2
      subst this
      exact (List.nodup_cons.1 hnd).1 hc'
    have step : ∃ p' G', intraCell F isNoData (partCtx g k0 k1 fd) counts c.1 c.2 p = .ok p' ∧
        PRel F g v G' k0 k1 p' ∧ Frame g v k0 k1 G G' ∧ NoIntra g v G' k0 k1 ∧ p'.started = p.started ∧
        p'.pending = p.pending ∧ GInv N G' (ridges g N k0 k1 l) act := by
      unfold intraCell
      rw [at2_ok (i := c.1) (j := c.2) hc, M.bind_ok, hfd.rd hc, M.bind_ok]
      by_cases hno : isNoData (codes g v k0 k1 c) = true
      · rw [if_pos hno]
        have hup : N.up (glob g k0 k1 c) = 0 := nrInflows_noData S.valid hno
        rw [ridges_cons_pos hup] at hG
        obtain ⟨_, hdn, hlen⟩ := hG.exc_mem _ (Set.mem_insert _ _)
        have hl : (∀ t, ¬ Drains g.a0 g.a1 v (glob g k0 k1 c) t) ∧ ∀ d, ¬ Leaves g v k0 k1 d c := by
          rcases cell_cases S h0 h1 hc with ⟨_, hD, hl⟩ | ⟨o, hm, _⟩ | ⟨o, hm, _⟩
          · exact ⟨hD, hl⟩
          · rw [S.valid.code _ hno] at hm; exact absurd hm (by simp)
          · rw [S.valid.code _ hno] at hm; exact absurd hm (by simp)
        obtain ⟨data, hd1, hd2⟩ := Holds.wr_glob S.ok h0 h1 (f := G.val) h.data hc (F.markNoData (G.val (glob g k0 k1 c)))
        have hsolve : (G.solve N (glob g k0 k1 c)).val =
            Function.update G.val (glob g k0 k1 c) (F.markNoData (G.val (glob g k0 k1 c))) := by
          have : N.fin (glob g k0 k1 c) (G.val (glob g k0 k1 c)) = F.markNoData (G.val (glob g k0 k1 c)) := by
            show (if isNoData (codes g v k0 k1 c) = true then _ else _) = _
            rw [hno]; rfl
          simp only [Ghost.solve, this]
        rw [← hsolve] at hd2
        rw [h.data.rd hc, M.bind_ok, hd1, M.bind_ok]
        refine ⟨_, _, rfl, PRel.solve_stay S N h0 h1 h hc hl.2 hd2, Frame.solve S N h0 h1 hc hdn, ?_, rfl, rfl,
          hG.solve hNok hnotin⟩
        intro c1 c2 hc1 hc2 hD hm
        rcases hm with e | hm
        · have := (glob_inj S.ok h0 h1 h0 h1 hc1 hc e).2.2
          subst this; exact hl.1 _ hD
        · exact hni c1 c2 hc1 hc2 hD hm
      · rw [if_neg hno, hcounts.rd hc, M.bind_ok]
        by_cases hz : nrInflows g.a0 g.a1 v (glob g k0 k1 c) = 0
        · rw [if_pos hz]
          have hup : N.up (glob g k0 k1 c) = 0 := hz
          rw [ridges_cons_pos hup] at hG
          rw [S.enterIntra, hookAt_id h.data hc, M.bind_ok]
          obtain ⟨p', G', e1, e2, e3⟩ := accumulate_ok S h0 h1 hfd hact hG hnotin h hni hc (by simpa using hno)
          exact ⟨p', G', by rw [e1, M.bind_ok, S.leaveIntra, hookAt_id e2.data hc], e2, e3⟩
        · rw [if_neg hz]
          have hup : N.up (glob g k0 k1 c) ≠ 0 := hz
          rw [ridges_cons_neg hup] at hG
          exact ⟨p, G, rfl, h, Frame.refl .., hni, rfl, rfl, hG⟩
    obtain ⟨p1, G1, e1, e2, e3, e4, e5, e6, e7⟩ := step
    obtain ⟨p2, G2, f1, f2, f3, f4, f5, f6, f7⟩ := ih (List.nodup_cons.1 hnd).2 (fun c' hc' => hin c' (by simp [hc'])) e7 e2 e4
    refine ⟨p2, G2, ?_, f2, e3.trans f3, f4, f5.trans e5, f6.trans e6, f7⟩
    rw [List.foldlM_cons, e1, M.bind_ok, f1]

/-- The cells of a partition, in the order in which they are visited. -/
def rowMajor (n0 n1 : Nat) : List (Int × Int) :=
  (List.range n0).flatMap fun (i : Nat) => (List.range n1).flatMap fun (j : Nat) => [((i : Int), (j : Int))]

theorem mem_rowMajor {n0 n1 : Nat} {c : Int × Int} : c ∈ rowMajor n0 n1 ↔ InRange n0 n1 c := by
  simp only [rowMajor, List.mem_flatMap, List.mem_range, List.mem_singleton]
  constructor
  · rintro ⟨i, hi, j, hj, rfl⟩
    exact ⟨by simp, by simp; omega, by simp, by simp; omega⟩
  · rintro ⟨h1, h2, h3, h4⟩
    exact ⟨c.1.toNat, by omega, c.2.toNat, by omega, Prod.ext (by simp only; omega) (by simp only; omega)⟩

theorem nodup_rowMajor (n0 n1 : Nat) : (rowMajor n0 n1).Nodup := by
  unfold rowMajor
  rw [List.nodup_flatMap]
  constructor
  · intro i _
    rw [List.nodup_flatMap]
    refine ⟨fun _ _ => by simp, List.Pairwise.imp ?_ List.nodup_range⟩
    intro a b hab
    simp [Function.onFun, Ne.symm hab]
  · refine List.Pairwise.imp ?_ List.nodup_range
    intro a b hab
    simp only [Function.onFun, List.disjoint_left, List.mem_flatMap, List.mem_range, List.mem_singleton]
    rintro x ⟨j, _, rfl⟩ ⟨j', _, he⟩
    simp only [Prod.mk.injEq] at he
    omega

theorem solveIntra_ok (S : Setup F isNoData enter g v) (h0 : k0 < g.n0) (h1 : k1 < g.n1)
    (hfd : Holds (g.rows k0) (g.cols k1) fd (codes g v k0 k1)) {act : Set Cell} {G : Ghost Cell σ} {p : PState σ μ}
    (hnew : ∀ u, InPart g k0 k1 u → u ∉ act)
    (hG : GInv (net F isNoData enter g.a0 g.a1 v) G ∅ act) (h : PRel F g v G k0 k1 p) (hni : NoIntra g v G k0 k1) :
    ∃ p' G', solveIntra F isNoData (partCtx g k0 k1 fd) p = .ok p' ∧ PRel F g v G' k0 k1 p' ∧
      Frame g v k0 k1 G G' ∧ NoIntra g v G' k0 k1 ∧ p'.started = true ∧ p'.pending = p.pending ∧
      GInv (net F isNoData enter g.a0 g.a1 v) G' ∅ (act ∪ {u | InPart g k0 k1 u}) := by
  set N := net F isNoData enter g.a0 g.a1 v with hN
  have hG1 := hG.start (new := {u | InPart g k0 k1 u}) hnew
  have hexc : {c | c ∈ {u | InPart g k0 k1 u} ∧ N.up c = 0} = ridges g N k0 k1 (rowMajor (g.rows k0) (g.cols k1)) := by
    ext u
    constructor
    · rintro ⟨⟨c, hc, rfl⟩, hu⟩; exact ⟨c, mem_rowMajor.2 hc, rfl, hu⟩
    · rintro ⟨c, hc, rfl, hu⟩; exact ⟨⟨c, mem_rowMajor.1 hc, rfl⟩, hu⟩
  rw [hexc] at hG1
  have harr : ∀ c, InRange (g.rows k0) (g.cols k1) c → G.arr (glob g k0 k1 c) = [] := by
    intro c hc
    by_contra hne
    obtain ⟨u, hu⟩ := List.exists_mem_of_ne_nil _ hne
    exact hnew _ ⟨c, hc, rfl⟩ (hG.arr_mem u _ hu).2.2
  obtain ⟨p', G', e1, e2, e3, e4, e5, e6, e7⟩ := intraCells_ok S h0 h1 hfd (fun u hu => Or.inr hu)
    (h.counts.congr fun c hc => by rw [harr c hc]; rfl) _ (nodup_rowMajor _ _) (fun c hc => mem_rowMajor.1 hc) hG1 h hni
  refine ⟨{ p' with started := true }, G', ?_, ⟨e2.counts, e2.data, e2.outs, e2.chan, e2.pending, e2.pending_nil, e2.closed⟩,
    e3, e4, rfl, e6, e7⟩
  unfold solveIntra
  have hloop : forLoop (g.rows k0) (fun (i : Nat) s' => forLoop (g.cols k1)
      (fun (j : Nat) s' => intraCell F isNoData (partCtx g k0 k1 fd) p.counts i j s') s') p = .ok p' := by
    rw [← e1]
    exact forLoop_foldlM (X := Int × Int) _ _ _ _ (fun i _ s => forLoop_foldlM (X := Int × Int) _ _ _ _ (fun j _ s => by
      rw [foldlM_single]) s) p
  simp only [hloop, M.bind_ok]
  rfl

/-! ### Material from another partition -/

/-- Material of cell `u` of the neighbour in direction `d` arrives in cell `c`. -/
structure Inflow (g : Grid) (v : Arr Nat) (G : Ghost Cell σ) (k0 k1 : Nat) (d : Dir) (u c : Int × Int) : Prop where
  nb : Neighbour g d k0 k1 (nb0 k0 d) (nb1 k1 d)
  u_in : InRange (g.rows (nb0 k0 d)) (g.cols (nb1 k1 d)) u
  c_in : InRange (g.rows k0) (g.cols k1) c
  leaves : Leaves g v (nb0 k0 d) (nb1 k1 d) d.sender u
  conv : c = convert (g.rows k0) (g.cols k1) d (outIdx g v (nb0 k0 d) (nb1 k1 d) u)
  fl : glob g (nb0 k0 d) (nb1 k1 d) u ∈ G.fl
  dn_u : glob g (nb0 k0 d) (nb1 k1 d) u ∈ G.dn
  dn : glob g k0 k1 c ∉ G.dn
  fl_c : glob g k0 k1 c ∉ G.fl

/-- The state of the receiving partition. -/
theorem PRel.arrive_from (S : Setup F isNoData enter g v) (N : Net Cell σ) (h0 : k0 < g.n0) (h1 : k1 < g.n1)
    {G : Ghost Cell σ} {p : PState σ μ} (h : PRel F g v G k0 k1 p) {d : Dir} {u c : Int × Int} (hi : Inflow g v G k0 k1 d u c)
    {data : List σ} {counts : List Nat}
    (hdata : Holds (g.rows k0) (g.cols k1) data fun c' =>
      (G.arrive N (glob g (nb0 k0 d) (nb1 k1 d) u) (glob g k0 k1 c)).val (glob g k0 k1 c'))
    (hcounts : Holds (g.rows k0) (g.cols k1) counts fun c' => nrInflows g.a0 g.a1 v (glob g k0 k1 c') -
      ((G.arrive N (glob g (nb0 k0 d) (nb1 k1 d) u) (glob g k0 k1 c)).arr (glob g k0 k1 c')).length) :
    c ∈ p.pending d ∧
    PRel F g v (G.arrive N (glob g (nb0 k0 d) (nb1 k1 d) u) (glob g k0 k1 c)) k0 k1
      { p with data := data, counts := counts, pending := Function.update p.pending d ((p.pending d).erase c) } := by
  have hd : hasNeighbour g.n0 g.n1 k0 k1 d = true := (hasNeighbour_iff h0 h1).2 ⟨_, _, hi.nb⟩
  obtain ⟨l, hl1, hl2, hl3⟩ := h.pending d hd
  have hul : u ∈ l := (hl2 u).2 ⟨hi.u_in, hi.leaves, Or.inr hi.fl⟩
  have hmem : c ∈ p.pending d := by
    rw [hl3.mem_iff, List.mem_map]
    exact ⟨u, hul, hi.conv.symm⟩
  have hune : ∀ c', InRange (g.rows k0) (g.cols k1) c' → glob g k0 k1 c' ≠ glob g (nb0 k0 d) (nb1 k1 d) u := fun c' hc' e =>
    not_inPart S.ok h0 h1 hi.nb.q0_lt hi.nb.q1_lt (neighbour_ne hi.nb) hi.u_in ⟨c', hc', e.symm⟩
  refine ⟨hmem, hcounts, hdata, h.outs, ?_, ?_, ?_, h.closed⟩
  · intro d' hd'
    obtain ⟨l, hl1, hl2, hl3⟩ := h.chan d' hd'
    refine ⟨l, hl1, ?_, ?_⟩
    · intro c'
      refine (hl2 c').trans (and_congr_right fun a => and_congr_right fun b => ?_)
      exact ⟨fun x => ⟨x, hune c' a⟩, fun x => x.1⟩
    · refine forall₂_imp_mem hl3 fun m c' hc' hm => ⟨hm.1, ?_⟩
      obtain ⟨a, b, e⟩ := (hl2 c').1 hc'
      rw [hm.2]; simp only [Ghost.arrive]
      rw [Function.update_of_ne]
      intro e'; rw [e'] at e; exact hi.fl_c e
  · intro d' hd'
    by_cases hdd : d' = d
    · subst hdd
      refine ⟨l.erase u, hl1.erase _, ?_, ?_⟩
      · intro c'
        rw [hl1.mem_erase_iff, hl2]
        constructor
        · rintro ⟨a, b, e, f⟩
          refine ⟨b, e, f.imp id fun x => ⟨x, fun he => a ?_⟩⟩
          exact (glob_inj S.ok hi.nb.q0_lt hi.nb.q1_lt hi.nb.q0_lt hi.nb.q1_lt b hi.u_in he).2.2
        · rintro ⟨b, e, f⟩
          refine ⟨?_, b, e, f.imp id fun x => x.1⟩
          rintro rfl
          rcases f with f | f
          · exact f hi.dn_u
          · exact f.2 rfl
      · simp only [Function.update_self]
        have hp : l.Perm (u :: l.erase u) := List.perm_cons_erase hul
        have h2 := hl3.trans (hp.map _)
        rw [List.map_cons] at h2
        have h3 := h2.erase c
        rwa [hi.conv, List.erase_cons_head, ← hi.conv] at h3
    · have nb' := neighbour_nb h0 h1 hd'
      obtain ⟨l, hl1, hl2, hl3⟩ := h.pending d' hd'
      refine ⟨l, hl1, ?_, by simpa only [Function.update_of_ne hdd] using hl3⟩
      intro c'
      refine (hl2 c').trans (and_congr_right fun a => and_congr_right fun b => or_congr Iff.rfl ?_)
      refine ⟨fun x => ⟨x, fun e => hdd ?_⟩, fun x => x.1⟩
      obtain ⟨e0, e1, _⟩ := glob_inj S.ok nb'.q0_lt nb'.q1_lt hi.nb.q0_lt hi.nb.q1_lt a hi.u_in e
      apply Dir.offset_inj
      have := hi.nb.eq0; have := hi.nb.eq1; have := nb'.eq0; have := nb'.eq1
      exact Prod.ext (by omega) (by omega)
  · intro d' hd'
    have hdd : d' ≠ d := by rintro rfl; rw [hd] at hd'; exact absurd hd' (by simp)
    simp only [Function.update_of_ne hdd]
    exact h.pending_nil d' hd'

/-- The states of the other partitions, one of which is the sender. -/
theorem PRel.arrive_other (S : Setup F isNoData enter g v) (N : Net Cell σ) (h0 : k0 < g.n0) (h1 : k1 < g.n1)
    {G : Ghost Cell σ} {d : Dir} {u c : Int × Int} (hi : Inflow g v G k0 k1 d u c)
    {r0 r1 : Nat} (h2 : r0 < g.n0) (h3 : r1 < g.n1) (hr : ¬ (r0 = k0 ∧ r1 = k1)) {p : PState σ μ} (h : PRel F g v G r0 r1 p)
    {chan : Dir → List (Int × μ)}
    (hchan : ∀ d', ¬ (r0 = nb0 k0 d ∧ r1 = nb1 k1 d ∧ d' = d.sender) → chan d' = p.chan d')
    (hsender : r0 = nb0 k0 d → r1 = nb1 k1 d → ∃ m ms l, p.chan d.sender = m :: ms ∧ chan d.sender = ms ∧
      (u :: l).Nodup ∧
      (∀ c, c ∈ u :: l ↔ InRange (g.rows r0) (g.cols r1) c ∧ Leaves g v r0 r1 d.sender c ∧ glob g r0 r1 c ∈ G.fl) ∧
      List.Forall₂ (MsgRel F g v G r0 r1 d.sender) (m :: ms) (u :: l)) :
    PRel F g v (G.arrive N (glob g (nb0 k0 d) (nb1 k1 d) u) (glob g k0 k1 c)) r0 r1 { p with chan := chan } := by
  have hcne : ∀ c', InRange (g.rows r0) (g.cols r1) c' → glob g r0 r1 c' ≠ glob g k0 k1 c := fun c' hc' e =>
    not_inPart S.ok h0 h1 h2 h3 hr hc' ⟨c, hi.c_in, e⟩
  refine ⟨?_, ?_, h.outs, ?_, ?_, h.pending_nil, h.closed⟩
  · refine h.counts.congr fun c' hc' => ?_
    simp only [Ghost.arrive]; rw [Function.update_of_ne (hcne c' hc')]
  · refine h.data.congr fun c' hc' => ?_
    simp only [Ghost.arrive]; rw [Function.update_of_ne (hcne c' hc')]
  · intro d' hd'
    by_cases hs : r0 = nb0 k0 d ∧ r1 = nb1 k1 d ∧ d' = d.sender
    · obtain ⟨rfl, rfl, rfl⟩ := hs
      obtain ⟨m, ms, l, e1, e2, e3, e4, e5⟩ := hsender rfl rfl
      refine ⟨l, (List.nodup_cons.1 e3).2, ?_, ?_⟩
      · intro c'
        constructor
        · intro hc'
          obtain ⟨a, b, e⟩ := (e4 c').1 (by simp [hc'])
          refine ⟨a, b, e, ?_⟩
          intro he
          have := (glob_inj S.ok h2 h3 h2 h3 a hi.u_in he).2.2
          subst this
          exact (List.nodup_cons.1 e3).1 hc'
        · rintro ⟨a, b, e, f⟩
          rcases List.mem_cons.1 ((e4 c').2 ⟨a, b, e⟩) with rfl | x
          · exact absurd rfl f
          · exact x
      · simp only [e2]
        cases e5 with
        | cons _ e5 =>
          refine forall₂_imp_mem e5 fun m c' hc' hm => ⟨hm.1, ?_⟩
          rw [hm.2]; simp only [Ghost.arrive]
          rw [Function.update_of_ne (hcne c' ((e4 c').1 (by simp [hc'])).1)]
    · obtain ⟨l, hl1, hl2, hl3⟩ := h.chan d' hd'
      refine ⟨l, hl1, ?_, ?_⟩
      · intro c'
        refine (hl2 c').trans (and_congr_right fun a => and_congr_right fun b => ?_)
        refine ⟨fun x => ⟨x, fun e => hs ?_⟩, fun x => x.1⟩
        obtain ⟨e0, e1, e2⟩ := glob_inj S.ok h2 h3 hi.nb.q0_lt hi.nb.q1_lt a hi.u_in e
        subst e0 e1 e2
        exact ⟨rfl, rfl, b.unique hi.leaves⟩
      · simp only [hchan d' hs]
        refine forall₂_imp_mem hl3 fun m c' hc' hm => ⟨hm.1, ?_⟩
        rw [hm.2]; simp only [Ghost.arrive]
        rw [Function.update_of_ne (hcne c' ((hl2 c').1 hc').1)]
  · intro d' hd'
    have nb' := neighbour_nb h2 h3 hd'
    obtain ⟨l, hl1, hl2, hl3⟩ := h.pending d' hd'
    refine ⟨l, hl1, ?_, hl3⟩
    intro c'
    refine (hl2 c').trans (and_congr_right fun a => and_congr_right fun b => or_congr Iff.rfl ?_)
    refine ⟨fun x => ⟨x, fun e => hr ?_⟩, fun x => x.1⟩
    obtain ⟨e0, e1, e2⟩ := glob_inj S.ok nb'.q0_lt nb'.q1_lt hi.nb.q0_lt hi.nb.q1_lt a hi.u_in e
    rw [e0, e1, e2] at b
    have hs := b.unique hi.leaves
    have hdd : d' = d := by
      have := congrArg Dir.sender hs
      rwa [Dir.sender_sender, Dir.sender_sender] at this
    subst hdd
    have := hi.nb.eq0; have := hi.nb.eq1; have := nb'.eq0; have := nb'.eq1
    omega

end

end Lue.Router

import Verif.Router.Accumulate

/-! Solving streams within a partition: the loops. -/
namespace Lue.Router

open Lue.Routing Lue.InflowCount

variable {σ μ : Type}

section
variable {F : CellAccumulator σ μ} {isNoData : Nat → Bool} {enter : Cell → σ → σ} {g : Grid} {v : Arr Nat}
variable {k0 k1 : Nat} {fd : List Nat}

/-- The context of a partition. -/
abbrev partCtx (g : Grid) (k0 k1 : Nat) (fd : List Nat) : Ctx := ⟨g.n0, g.n1, k0, k1, g.rows k0, g.cols k1, fd⟩

/-- Nothing happens in a cell. -/
theorem hookAt_id {n0 n1 : Nat} {s : PState σ μ} {f : Int × Int → σ} (h : Holds n0 n1 s.data f) {c : Int × Int} (hc : InRange n0 n1 c) :
    hookAt id (lin n1 c) s = .ok s := by
  unfold hookAt
  obtain ⟨h1, h2⟩ := List.getElem?_eq_some_iff.1 (h.2 c hc)
  rw [h.rd hc, M.bind_ok]
  unfold wr
  rw [if_pos h1, M.bind_ok]
  show Except.ok _ = _
  congr 1
  have : s.data.set (lin n1 c) (id (f c)) = s.data := by
    show s.data.set (lin n1 c) (f c) = s.data
    rw [← h2]; exact List.set_getElem_self h1
  rw [this]

/-- Material of a solved cell is sent to a neighbouring partition. -/
theorem stopAtOutput_ok (S : Setup F isNoData enter g v) (N : Net Cell σ) (h0 : k0 < g.n0) (h1 : k1 < g.n1)
    {G : Ghost Cell σ} {p : PState σ μ} {c : Int × Int} (h : PRel F g v G k0 k1 p)
    (hc : InRange (g.rows k0) (g.cols k1) c) (hdn : glob g k0 k1 c ∉ G.dn) (hfl : glob g k0 k1 c ∉ G.fl) {data : List σ}
    (hdata : Holds (g.rows k0) (g.cols k1) data fun c' => (G.solve N (glob g k0 k1 c)).val (glob g k0 k1 c'))
    {o : Int × Int} {d : Dir} {idx' : Int} (hl : Leaves g v k0 k1 d c)
    (hdest : destinationCell (g.rows k0) (g.cols k1) c.1 c.2 o.1 o.2 = .ok (d, idx'))
    (hcv : ∀ m0 m1, convert m0 m1 d.sender idx' = convert m0 m1 d.sender (outIdx g v k0 k1 c)) :
    ∃ p', stopAtOutput F (partCtx g k0 k1 fd) c o { p with data := data } = .ok p' ∧
      PRel F g v (G.solve N (glob g k0 k1 c)) k0 k1 p' ∧ p'.started = p.started ∧ p'.pending = p.pending := by
  have hmem : (d, c) ∈ p.outs := (h.outs.2 d c).2 ⟨hc, hl, hdn⟩
  unfold stopAtOutput
  rw [at2_ok (i := c.1) (j := c.2) hc, M.bind_ok, S.stopOutput, hookAt_id (s := { p with data := data }) hdata hc, M.bind_ok]
  simp only [hdest, M.bind_ok, check_ok hmem]
  by_cases hn : hasNeighbour g.n0 g.n1 k0 k1 d = true
  · simp only [hn, if_true]
    rw [hdata.rd hc, M.bind_ok]
    have hcl : p.closed d = false := by
      cases hx : p.closed d
      · rfl
      · exact absurd hmem (h.closed d c hx)
    simp only [hcl, Bool.false_eq_true, if_false, Function.update_self]
    have hchan : ∀ d', d' ≠ d → Function.update p.chan d
        (p.chan d ++ [(idx', F.outflow ((G.solve N (glob g k0 k1 c)).val (glob g k0 k1 c)))]) d' = p.chan d' :=
      fun d' hd' => Function.update_of_ne hd' _ _
    by_cases he : (List.filter (fun o => decide (o.1 = d)) (p.outs.erase (d, c))).isEmpty = true
    · rw [if_pos he]
      refine ⟨_, rfl, PRel.solve_leave S N h0 h1 h hc hl hdn hfl hdata hchan ?_ ?_, rfl, rfl⟩
      · intro _
        exact ⟨_, Function.update_self .., hcv, rfl⟩
      · intro d' hd'
        by_cases hdd : d' = d
        · subst hdd
          right
          intro o ho hod
          simp only [List.isEmpty_iff, List.filter_eq_nil_iff, decide_eq_true_eq] at he
          exact he o ho hod
        · left; rwa [Function.update_of_ne hdd] at hd'
    · rw [if_neg he]
      refine ⟨_, rfl, PRel.solve_leave S N h0 h1 h hc hl hdn hfl hdata hchan ?_ (fun d' hd' => Or.inl hd'), rfl, rfl⟩
      intro _
      exact ⟨_, Function.update_self .., hcv, rfl⟩
  · have hn' : hasNeighbour g.n0 g.n1 k0 k1 d = false := by simpa using hn
    simp only [hn', Bool.false_eq_true, if_false]
    refine ⟨_, rfl, PRel.solve_leave S N h0 h1 h hc hl hdn hfl hdata (fun _ _ => rfl) ?_ (fun d' hd' => Or.inl hd'), rfl, rfl⟩
    intro hx; rw [hn'] at hx; exact absurd hx (by simp)

/-- The effect of an iteration of the loop. -/
theorem accumulateCell_ok (S : Setup F isNoData enter g v) (h0 : k0 < g.n0) (h1 : k1 < g.n1)
    (hfd : Holds (g.rows k0) (g.cols k1) fd (codes g v k0 k1)) {G : Ghost Cell σ} {exc act : Set Cell} {p : PState σ μ}
    {c : Int × Int} (hG : GInv (net F isNoData enter g.a0 g.a1 v) G (insert (glob g k0 k1 c) exc) act)
    (hex : glob g k0 k1 c ∉ exc) (h : PRel F g v G k0 k1 p) (hni : NoIntra g v G k0 k1)
    (hact : ∀ u, InPart g k0 k1 u → u ∈ act) (hc : InRange (g.rows k0) (g.cols k1) c)
    (hnd : isNoData (codes g v k0 k1 c) = false) :
    ∃ p' G' next, accumulateCell F (partCtx g k0 k1 fd) c p = .ok (p', next) ∧ PRel F g v G' k0 k1 p' ∧
      Frame g v k0 k1 G G' ∧ NoIntra g v G' k0 k1 ∧ p'.started = p.started ∧ p'.pending = p.pending ∧
      glob g k0 k1 c ∉ G.dn ∧ G'.dn = insert (glob g k0 k1 c) G.dn ∧
      ((next = none ∧ GInv (net F isNoData enter g.a0 g.a1 v) G' exc act) ∨
        ∃ c', next = some c' ∧ InRange (g.rows k0) (g.cols k1) c' ∧ isNoData (codes g v k0 k1 c') = false ∧
          glob g k0 k1 c' ∉ exc ∧
          GInv (net F isNoData enter g.a0 g.a1 v) G' (insert (glob g k0 k1 c') exc) act) := by
  set N := net F isNoData enter g.a0 g.a1 v with hN
  have hNok : N.Ok := net_ok ..
  obtain ⟨_, hdn, hlen⟩ := hG.exc_mem _ (Set.mem_insert _ _)
  have hfl : glob g k0 k1 c ∉ G.fl := fun x => hdn (hG.fl_dn _ x)
  have hG1 := hG.solve hNok hex
  have hup : N.up (glob g k0 k1 c) = nrInflows g.a0 g.a1 v (glob g k0 k1 c) := rfl
  have hf1 : Frame g v k0 k1 G (G.solve N (glob g k0 k1 c)) := Frame.solve S N h0 h1 hc hdn
  obtain ⟨data, hd1, hd2⟩ := Holds.wr_glob S.ok h0 h1 (f := G.val) h.data hc (enter (glob g k0 k1 c) (G.val (glob g k0 k1 c)))
  have hsolve : (G.solve N (glob g k0 k1 c)).val =
      Function.update G.val (glob g k0 k1 c) (enter (glob g k0 k1 c) (G.val (glob g k0 k1 c))) := by
    have : N.fin (glob g k0 k1 c) (G.val (glob g k0 k1 c)) = enter (glob g k0 k1 c) (G.val (glob g k0 k1 c)) := by
      show (if isNoData (codes g v k0 k1 c) = true then _ else _) = _
      rw [hnd]; rfl
    simp only [Ghost.solve, this]
  rw [← hsolve] at hd2
  have hni1 : ∀ c1 c2, c1 ≠ c → InRange (g.rows k0) (g.cols k1) c1 → InRange (g.rows k0) (g.cols k1) c2 →
      Drains g.a0 g.a1 v (glob g k0 k1 c1) (glob g k0 k1 c2) → glob g k0 k1 c1 ∉ (G.solve N (glob g k0 k1 c)).fl := by
    intro c1 c2 hne hc1 hc2 hD hm
    rcases hm with e | hm
    · exact hne (glob_inj S.ok h0 h1 h0 h1 hc1 hc e).2.2
    · exact hni c1 c2 hc1 hc2 hD hm
  unfold accumulateCell
  rw [at2_ok (i := c.1) (j := c.2) hc, M.bind_ok, h.counts.rd hc, M.bind_ok,
    check_ok (by rw [hlen, hup]; omega), M.bind_ok, h.data.rd hc, M.bind_ok, S.enter k0 k1 c _ h0 h1 hc, M.bind_ok, hd1, M.bind_ok,
    hfd.rd hc, M.bind_ok]
  rcases cell_cases S h0 h1 hc with ⟨hm, hD, hl⟩ | ⟨o, hm, ho, hD, hl⟩ | ⟨o, hm, ho, hD, d, idx', hl, hdest, hcv⟩
  · rw [downstreamCell_none hm]
    simp only [and_self, if_true]
    rw [S.stopSink, hookAt_id (s := { p with data := data }) hd2 hc, M.bind_ok]
    refine ⟨{ p with data := data }, _, none, rfl, PRel.solve_stay S N h0 h1 h hc hl hd2, hf1, ?_, rfl, rfl, hdn, rfl,
      Or.inl ⟨rfl, hG1⟩⟩
    intro c1 c2 hc1 hc2 hd
    refine hni1 c1 c2 ?_ hc1 hc2 hd
    rintro rfl; exact hD _ hd
  · rw [downstreamCell_some hm hc]
    have hne0 : ¬ (o.1 = 0 ∧ o.2 = 0) := fun e => (move_bound hm).2.2.2.2 (Prod.ext e.1 e.2)
    have hw : decide (InRange (g.rows k0) (g.cols k1) (c.1 + o.1, c.2 + o.2)) = true := decide_eq_true ho
    rw [hw]
    simp only [hne0, if_false, Bool.not_true, Bool.false_eq_true]
    rw [at2_ok (i := c.1 + o.1) (j := c.2 + o.2) ho, M.bind_ok, hd2.rd hc, M.bind_ok, hd2.rd ho, M.bind_ok, S.leave]
    set t : Int × Int := (c.1 + o.1, c.2 + o.2) with ht
    have hafl : glob g k0 k1 c ∈ (G.solve N (glob g k0 k1 c)).fl := Or.inl rfl
    obtain ⟨htexc, htdn, hG2⟩ := hG1.arrive hNok hafl hD (hact _ ⟨t, ho, rfl⟩)
    have hlt := hG1.arrive_lt hNok hafl hD
    have hupt : N.up (glob g k0 k1 t) = nrInflows g.a0 g.a1 v (glob g k0 k1 t) := rfl
    have harr : (G.solve N (glob g k0 k1 c)).arr = G.arr := rfl
    rw [harr, hupt] at hlt hG2
    obtain ⟨data2, he1, he2⟩ := Holds.wr_glob S.ok h0 h1 hd2 ho
      (F.enterInter (F.outflow ((G.solve N (glob g k0 k1 c)).val (glob g k0 k1 c)))
        ((G.solve N (glob g k0 k1 c)).val (glob g k0 k1 t)))
    obtain ⟨counts2, hc1, hc2⟩ := Holds.wr_glob S.ok h0 h1
      (f := fun u => nrInflows g.a0 g.a1 v u - (G.arr u).length) h.counts ho
      (nrInflows g.a0 g.a1 v (glob g k0 k1 t) - (G.arr (glob g k0 k1 t)).length - 1)
    rw [he1, M.bind_ok, h.counts.rd ho, M.bind_ok, check_ok (by omega), M.bind_ok, hc1, M.bind_ok]
    have htfl : glob g k0 k1 t ∉ (G.solve N (glob g k0 k1 c)).fl := fun x => htdn (hG1.fl_dn _ x)
    have hp1 := PRel.solve_stay S N h0 h1 h hc hl hd2
    have hp2 := PRel.arrive_own S N h0 h1 hp1 hc hl ho htfl (data := data2) (counts := counts2) he2 (by
      refine hc2.congr fun c' hc' => ?_
      by_cases hct : glob g k0 k1 c' = glob g k0 k1 t
      · rw [hct]
        simp only [Function.update_self, Ghost.arrive, harr, List.length_append, List.length_singleton]
        omega
      · simp only [Function.update_of_ne hct, Ghost.arrive, harr])
    have hni2 : NoIntra g v ((G.solve N (glob g k0 k1 c)).arrive N (glob g k0 k1 c) (glob g k0 k1 t)) k0 k1 := by
      intro c1 c2 hc1 hc2 hd hm
      by_cases hcc : c1 = c
      · subst hcc; exact hm.2 rfl
      · exact hni1 c1 c2 hcc hc1 hc2 hd hm.1
    by_cases hz : (G.arr (glob g k0 k1 t)).length + 1 = nrInflows g.a0 g.a1 v (glob g k0 k1 t)
    · rw [if_neg (by omega)]
      rw [if_pos hz] at hG2
      refine ⟨_, _, _, rfl, hp2, hf1.trans (Frame.arrive S N h0 h1 hc hl ho), hni2, rfl, rfl, hdn, rfl, Or.inr ?_⟩
      refine ⟨t, rfl, ho, ?_, htexc, hG2⟩
      exact S.valid.downstream _ _ hD
    · rw [if_pos (by omega), S.stopConfluence, hookAt_id (s := { p with data := data2, counts := counts2 }) he2 ho, M.bind_ok]
      rw [if_neg hz] at hG2
      exact ⟨_, _, _, rfl, hp2, hf1.trans (Frame.arrive S N h0 h1 hc hl ho), hni2, rfl, rfl, hdn, rfl, Or.inl ⟨rfl, hG2⟩⟩
  · rw [downstreamCell_some hm hc]
    have hne0 : ¬ (o.1 = 0 ∧ o.2 = 0) := fun e => (move_bound hm).2.2.2.2 (Prod.ext e.1 e.2)
    have hw : decide (InRange (g.rows k0) (g.cols k1) (c.1 + o.1, c.2 + o.2)) = false := decide_eq_false ho
    rw [hw]
    simp only [hne0, if_false, Bool.not_false, if_true]
    obtain ⟨p', hs1, hs2, hs3, hs4⟩ := stopAtOutput_ok (fd := fd) S N h0 h1 h hc hdn hfl hd2 hl hdest hcv
    rw [hs1, M.bind_ok]
    refine ⟨p', _, none, rfl, hs2, hf1, ?_, hs3, hs4, hdn, rfl, Or.inl ⟨rfl, hG1⟩⟩
    intro c1 c2 hc1 hc2 hd
    refine hni1 c1 c2 ?_ hc1 hc2 hd
    rintro rfl; exact hD _ hc2 hd

open Classical in
/-- The number of cells of a partition which are not solved. -/
noncomputable def remaining (g : Grid) (G : Ghost Cell σ) (k0 k1 : Nat) : Nat :=
  (List.range (g.rows k0 * g.cols k1)).countP fun e =>
    decide (glob g k0 k1 (((e / g.cols k1 : Nat) : Int), ((e % g.cols k1 : Nat) : Int)) ∉ G.dn)

theorem remaining_le (G : Ghost Cell σ) : remaining g G k0 k1 ≤ g.rows k0 * g.cols k1 := by
  unfold remaining
  exact Nat.le_trans List.countP_le_length (by simp)

theorem countP_lt {α : Type} {P Q : α → Bool} {l : List α} (hPQ : ∀ a ∈ l, P a = true → Q a = true) {a : α} (ha : a ∈ l)
    (hQ : Q a = true) (hP : P a = false) : l.countP P < l.countP Q := by
  induction l with
  | nil => simp at ha
  | cons b l ih =>
    have hmono : l.countP P ≤ l.countP Q := List.countP_mono_left fun x hx => hPQ x (by simp [hx])
    rcases List.mem_cons.1 ha with rfl | ha'
    · rw [List.countP_cons_of_pos hQ, List.countP_cons_of_neg (by simp [hP])]
      omega
    · have := ih (fun x hx => hPQ x (by simp [hx])) ha'
      rw [List.countP_cons, List.countP_cons]
      have hb := hPQ b (by simp)
      by_cases hpb : P b = true
      · simp only [hpb, hb hpb, if_true]; omega
      · rw [if_neg hpb]; split_ifs <;> omega

theorem remaining_lt {G G' : Ghost Cell σ} {c : Int × Int} (hc : InRange (g.rows k0) (g.cols k1) c)
    (hdn : glob g k0 k1 c ∉ G.dn) (hdn' : G'.dn = insert (glob g k0 k1 c) G.dn) : remaining g G' k0 k1 < remaining g G k0 k1 := by
  unfold remaining
  have hlt := lin_lt hc
  have h1 := hc.1; have h2 := hc.2.1; have h3 := hc.2.2.1; have h4 := hc.2.2.2
  have hce : ((((lin (g.cols k1) c) / g.cols k1 : Nat) : Int), (((lin (g.cols k1) c) % g.cols k1 : Nat) : Int)) = c := by
    unfold lin
    rw [idx_div (by omega), idx_mod (by omega)]
    exact Prod.ext (by simp only; omega) (by simp only; omega)
  refine countP_lt (a := lin (g.cols k1) c) ?_ (by simpa using hlt) ?_ ?_
  · intro e _ he
    simp only [decide_eq_true_eq, hdn'] at he ⊢
    exact fun x => he (Or.inr x)
  · simp only [decide_eq_true_eq]; rw [hce]; exact hdn
  · simp only [decide_eq_false_iff_not, not_not]; rw [hce, hdn']; exact Or.inl rfl

/-- The effect of solving a stream. -/
theorem accumulateLoop_ok (S : Setup F isNoData enter g v) (h0 : k0 < g.n0) (h1 : k1 < g.n1)
    (hfd : Holds (g.rows k0) (g.cols k1) fd (codes g v k0 k1)) {exc act : Set Cell}
    (hact : ∀ u, InPart g k0 k1 u → u ∈ act) : ∀ (fuel : Nat) {G : Ghost Cell σ} {p : PState σ μ}
    {c : Int × Int}, GInv (net F isNoData enter g.a0 g.a1 v) G (insert (glob g k0 k1 c) exc) act →
    glob g k0 k1 c ∉ exc → PRel F g v G k0 k1 p → NoIntra g v G k0 k1 → InRange (g.rows k0) (g.cols k1) c →
    isNoData (codes g v k0 k1 c) = false → remaining g G k0 k1 < fuel →
    ∃ p' G', accumulateLoop F (partCtx g k0 k1 fd) fuel c p = .ok p' ∧ PRel F g v G' k0 k1 p' ∧
      Frame g v k0 k1 G G' ∧ NoIntra g v G' k0 k1 ∧ p'.started = p.started ∧ p'.pending = p.pending ∧
      GInv (net F isNoData enter g.a0 g.a1 v) G' exc act := by
  intro fuel
  induction fuel with
  | zero => intro G p c _ _ _ _ _ _ hr; omega
  | succ fuel ih =>
    intro G p c hG hex h hni hc hnd hr
    obtain ⟨p1, G1, next, e1, e2, e3, e4, e5, e6, e7, e8, e9⟩ := accumulateCell_ok S h0 h1 hfd hG hex h hni hact hc hnd
    unfold accumulateLoop
    rw [e1, M.bind_ok]
    rcases e9 with ⟨rfl, hG1⟩ | ⟨c', rfl, hc', hnd', hex', hG1⟩
    · exact ⟨p1, G1, rfl, e2, e3, e4, e5, e6, hG1⟩
    · have hlt := remaining_lt (G' := G1) hc e7 e8
      obtain ⟨p2, G2, f1, f2, f3, f4, f5, f6, f7⟩ := ih hG1 hex' e2 e4 hc' hnd' (by omega)
      exact ⟨p2, G2, f1, f2, e3.trans f3, f4, f5.trans e5, f6.trans e6, f7⟩

theorem accumulate_ok (S : Setup F isNoData enter g v) (h0 : k0 < g.n0) (h1 : k1 < g.n1)
    (hfd : Holds (g.rows k0) (g.cols k1) fd (codes g v k0 k1)) {exc act : Set Cell}
    (hact : ∀ u, InPart g k0 k1 u → u ∈ act) {G : Ghost Cell σ} {p : PState σ μ}
    {c : Int × Int} (hG : GInv (net F isNoData enter g.a0 g.a1 v) G (insert (glob g k0 k1 c) exc) act)
    (hex : glob g k0 k1 c ∉ exc) (h : PRel F g v G k0 k1 p) (hni : NoIntra g v G k0 k1)
    (hc : InRange (g.rows k0) (g.cols k1) c) (hnd : isNoData (codes g v k0 k1 c) = false) :
    ∃ p' G', accumulate F (partCtx g k0 k1 fd) c p = .ok p' ∧ PRel F g v G' k0 k1 p' ∧
      Frame g v k0 k1 G G' ∧ NoIntra g v G' k0 k1 ∧ p'.started = p.started ∧ p'.pending = p.pending ∧
      GInv (net F isNoData enter g.a0 g.a1 v) G' exc act :=
  accumulateLoop_ok S h0 h1 hfd hact _ hG hex h hni hc hnd (Nat.lt_succ_of_le (remaining_le G))

end

end Lue.Router

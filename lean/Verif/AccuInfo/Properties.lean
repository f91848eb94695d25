import Verif.AccuInfo.System

/-!
C67: the classes of cells, for all flow direction networks, partitionings and schedules.
-/
namespace Lue.AccuInfo

open Lue.Routing Lue.InflowCount Lue.Router Lue.Accu

/-- The number of the partition of a cell. -/
def partNr (g : Grid) (c : Cell) : Nat :=
  Decomposition.Dim.locate g.a0 g.p0 c.1 * g.n1 + Decomposition.Dim.locate g.a1 g.p1 c.2

theorem partNr_eq {g : Grid} (hg : g.Ok) {c : Cell} {k0 k1 l0 l1 : Nat} (h : IsCell g c.1 c.2 k0 k1 l0 l1) :
    partNr g c = k0 * g.n1 + k1 := by
  have e0 := Decomposition.Dim.locate_unique hg.pos0 hg.le0 h.k0_lt h.l0_lt
  have e1 := Decomposition.Dim.locate_unique hg.pos1 hg.le1 h.k1_lt h.l1_lt
  rw [← h.i_eq] at e0
  rw [← h.j_eq] at e1
  rw [partNr, e0, e1]

theorem samePart_iff {g : Grid} (hg : g.Ok) {u c : Cell} (hu : u.1 < g.a0 ∧ u.2 < g.a1) (hc : c.1 < g.a0 ∧ c.2 < g.a1) :
    SamePart g u c ↔ partNr g u = partNr g c := by
  constructor
  · rintro ⟨k0, k1, l0, l1, m0, m1, h1, h2⟩
    rw [partNr_eq hg h1, partNr_eq hg h2]
  · intro h
    obtain ⟨k0, k1, l0, l1, h1⟩ := exists_isCell hg hu.1 hu.2
    obtain ⟨q0, q1, m0, m1, h2⟩ := exists_isCell hg hc.1 hc.2
    rw [partNr_eq hg h1, partNr_eq hg h2] at h
    have d1 := congrArg (· / g.n1) h
    have d2 := congrArg (· % g.n1) h
    simp only [idx_div h1.k1_lt, idx_mod h1.k1_lt, idx_div h2.k1_lt, idx_mod h2.k1_lt] at d1 d2
    subst d1
    subst d2
    exact ⟨_, _, _, _, _, _, h1, h2⟩

variable {isNoData : Nat → Bool} {fd : PArr Nat} {v : Arr Nat}

theorem trace_setup (hfd : FlowDirections isNoData fd v) :
    Setup traceCells isNoData (fun c s => enterTrace (partNr fd.grid c) s) fd.grid v where
  ok := hfd.represents.ok
  two0 := hfd.two0
  two1 := hfd.two1
  valid := hfd.valid
  leave := fun _ _ => rfl
  enter := fun k0 k1 c s h0 h1 hc => by
    rw [partNr_eq hfd.represents.ok (glob_isCell h0 h1 hc)]
    rfl

theorem foldl_push (f : Cell → Nat × Bool) : ∀ (us : List Cell) (t : Trace),
    us.foldl (fun s u => push (f u) s) t = { t with arr := t.arr ++ us.map f } := by
  intro us
  induction us with
  | nil => intro t; simp
  | cons u us ih => intro t; rw [List.foldl_cons, ih]; simp [push]

/-- What the trace of a cell tells. -/
structure TraceOk (isNoData : Nat → Bool) (g : Grid) (v : Arr Nat) (w : Arr Trace) (c : Cell) : Prop where
  us : ∃ us : List Cell, (∀ u, u ∈ us ↔ Drains g.a0 g.a1 v u c) ∧ (w c.1 c.2).arr = us.map fun u => traceOut (w u.1 u.2)
  own : (w c.1 c.2).own = if isNoData (v c.1 c.2) = true then none else some (partNr g c, (w c.1 c.2).arr.any (far (partNr g c)))

theorem traceOk {w : Arr Trace} {g : Grid} {c : Cell}
    (h : IsSolutionAt (net traceCells isNoData (fun c s => enterTrace (partNr g c) s) g.a0 g.a1 v) (fun c => w c.1 c.2) c) :
    TraceOk isNoData g v w c := by
  obtain ⟨us, _, h2, h3⟩ := h
  have hacc : (net traceCells isNoData (fun c s => enterTrace (partNr g c) s) g.a0 g.a1 v).acc (fun c => w c.1 c.2) us =
      { own := none, arr := us.map fun u => traceOut (w u.1 u.2) } := foldl_push (fun u => traceOut (w u.1 u.2)) us {}
  rw [hacc] at h3
  dsimp only [net] at h3
  cases hn : isNoData (v c.1 c.2) with
  | true =>
    rw [hn, if_pos rfl] at h3
    have h3 : w c.1 c.2 = { own := none, arr := us.map fun u => traceOut (w u.1 u.2) } := h3
    exact ⟨⟨us, h2, by rw [h3]⟩, by rw [h3, hn]; rfl⟩
  | false =>
    rw [hn, if_neg (by simp)] at h3
    have h3 : w c.1 c.2 = (⟨some (partNr g c, (us.map fun u => traceOut (w u.1 u.2)).any (far (partNr g c))),
        us.map fun u => traceOut (w u.1 u.2)⟩ : Trace) := h3
    exact ⟨⟨us, h2, by rw [h3]⟩, by rw [h3, hn]; rfl⟩

/-- Cells that drain have a valid flow direction. -/
theorem drains_valid (hv : Valid isNoData fd.grid.a0 fd.grid.a1 v) {u c : Cell} (h : Drains fd.grid.a0 fd.grid.a1 v u c) :
    isNoData (v u.1 u.2) = false := by
  obtain ⟨_, _, _, _, o, ho, _⟩ := h
  cases hn : isNoData (v u.1 u.2) with
  | false => rfl
  | true => rw [hv.code _ hn] at ho; cases ho

theorem traceOut_eq {g : Grid} {w : Arr Trace} {u : Cell} (h : TraceOk isNoData g v w u) (hn : isNoData (v u.1 u.2) = false) :
    traceOut (w u.1 u.2) = (partNr g u, (w u.1 u.2).arr.any (far (partNr g u))) := by
  unfold traceOut
  rw [h.own, hn]
  rfl

/-- Whether material that entered the partition arrived in a cell. -/
theorem inter_iff (hfd : FlowDirections isNoData fd v) {w : Arr Trace}
    (hw : ∀ c : Cell, c.1 < fd.grid.a0 → c.2 < fd.grid.a1 → Acc (Drains fd.grid.a0 fd.grid.a1 v) c → TraceOk isNoData fd.grid v w c)
    {c : Cell} (h0 : c.1 < fd.grid.a0) (h1 : c.2 < fd.grid.a1) (hacc : Acc (Drains fd.grid.a0 fd.grid.a1 v) c) :
    (w c.1 c.2).arr.any (far (partNr fd.grid c)) = true ↔ Inter fd.grid v c := by
  induction hacc with
  | intro c hacc' ih =>
    obtain ⟨us, hu, harr⟩ := (hw c h0 h1 (.intro c hacc')).us
    have hout : ∀ u, Drains fd.grid.a0 fd.grid.a1 v u c →
        (far (partNr fd.grid c) (traceOut (w u.1 u.2)) = true ↔ ¬ SamePart fd.grid u c ∨ Inter fd.grid v u) := by
      intro u hD
      rw [traceOut_eq (hw u hD.1 hD.2.1 (hacc' u hD)) (drains_valid hfd.valid hD), ← ih u hD hD.1 hD.2.1,
        samePart_iff hfd.represents.ok ⟨hD.1, hD.2.1⟩ ⟨h0, h1⟩]
      simp [far]
    rw [harr, List.any_map, List.any_eq_true]
    constructor
    · rintro ⟨u, hu', hf⟩
      have hD := (hu u).1 hu'
      rcases (hout u hD).1 hf with h | h
      · exact .input ⟨u, hD, h⟩
      · by_cases hs : SamePart fd.grid u c
        · exact .flow h hD hs
        · exact .input ⟨u, hD, hs⟩
    · intro h
      cases h with
      | input h =>
        obtain ⟨u, hD, hs⟩ := h
        exact ⟨u, (hu u).2 hD, (hout u hD).2 (Or.inl hs)⟩
      | @flow u _ hi hD hs => exact ⟨u, (hu u).2 hD, (hout u hD).2 (Or.inr hi)⟩

/-- How a stream ends in a cell, in terms of the whole array. -/
theorem stopOf_spec (hx : Represents fd v) {k0 k1 l0 l1 : Nat} {c : Cell} (hc : IsCell fd.grid c.1 c.2 k0 k1 l0 l1)
    {cx : Ctx} (hcx : ctx fd k0 k1 = .ok cx) :
    cx.n0 = fd.grid.rows k0 ∧ cx.n1 = fd.grid.cols k1 ∧
      cx.fd.getD (lin cx.n1 ((l0 : Int), (l1 : Int))) 0 = v c.1 c.2 ∧
      ((Sink v c ∧ stopOf cx ((l0 : Int), (l1 : Int)) = some sinkCell) ∨
        (Output fd.grid v c ∧ ¬ Sink v c ∧ stopOf cx ((l0 : Int), (l1 : Int)) = some partitionOutputCell) ∨
        (¬ Sink v c ∧ ¬ Output fd.grid v c ∧ stopOf cx ((l0 : Int), (l1 : Int)) = none)) := by
  have hg := hx.ok
  obtain ⟨p, hp1, hp2⟩ := Represents.holds hx hc.k0_lt hc.k1_lt
  unfold ctx at hcx
  rw [rd_ok hp1, M.bind_ok] at hcx
  obtain rfl := Except.ok.inj hcx
  have hin : InRange (fd.grid.rows k0) (fd.grid.cols k1) ((l0 : Int), (l1 : Int)) :=
    ⟨by simp, by have := hc.l0_lt; simp; omega, by simp, by have := hc.l1_lt; simp; omega⟩
  have hglob : glob fd.grid k0 k1 ((l0 : Int), (l1 : Int)) = c :=
    Prod.ext (by simpa [glob] using hc.i_eq.symm) (by simpa [glob] using hc.j_eq.symm)
  have hcode : p.getD (lin (fd.grid.cols k1) ((l0 : Int), (l1 : Int))) 0 = v c.1 c.2 := by
    rw [List.getD_eq_getElem?_getD, hp2.2 _ hin]; show v _ _ = _; rw [hglob]
  refine ⟨rfl, rfl, hcode, ?_⟩
  unfold stopOf Sink Output
  dsimp only
  rw [hcode]
  cases hm : move (v c.1 c.2) with
  | none => exact Or.inl ⟨rfl, rfl⟩
  | some o =>
    have hout : InRange (fd.grid.rows k0) (fd.grid.cols k1) (step ((l0 : Int), (l1 : Int)) o) ↔
        ¬ ∃ o', some o = some o' ∧ ∀ c' : Cell, (c'.1 : Int) = c.1 + o'.1 → (c'.2 : Int) = c.2 + o'.2 → ¬ SamePart fd.grid c c' := by
      constructor
      · rintro hr ⟨o', ho', hno⟩
        obtain rfl := Option.some.inj ho'
        have hcell := glob_isCell hc.k0_lt hc.k1_lt hr
        have b1 := hr.1
        have b2 := hr.2.2.1
        simp only [step] at b1 b2
        refine hno (glob fd.grid k0 k1 (step ((l0 : Int), (l1 : Int)) o)) ?_ ?_ ⟨_, _, _, _, _, _, hc, hcell⟩
        · simp only [glob, step]; rw [hc.i_eq]; push_cast; omega
        · simp only [glob, step]; rw [hc.j_eq]; push_cast; omega
      · intro hno
        by_contra hr
        refine hno ⟨o, rfl, fun c' e1 e2 hs => hr ?_⟩
        obtain ⟨q0, q1, a0, a1, m0, m1, h1, h2⟩ := hs
        obtain ⟨rfl, rfl, rfl, rfl⟩ := hc.unique hg h1
        have f1 := h2.i_eq; have f2 := h2.j_eq; have f3 := h2.l0_lt; have f4 := h2.l1_lt
        have f5 := hc.i_eq; have f6 := hc.j_eq
        rw [f1, f5] at e1
        rw [f2, f6] at e2
        push_cast at e1 e2
        have g1 : (l0 : Int) + o.1 = m0 := by omega
        have g2 : (l1 : Int) + o.2 = m1 := by omega
        refine ⟨?_, ?_, ?_, ?_⟩ <;> simp only [step, g1, g2] <;> omega
    by_cases hr : InRange (fd.grid.rows k0) (fd.grid.cols k1) (step ((l0 : Int), (l1 : Int)) o)
    · exact Or.inr (Or.inr ⟨(by intro h; cases h), hout.1 hr, by simp [hr]⟩)
    · refine Or.inr (Or.inl ⟨?_, (by intro h; cases h), by simp [hr]⟩)
      by_contra hno
      exact hr (hout.2 hno)

/-- The operation returns, unless the flow directions contain a cycle which crosses a border between partitions. -/
theorem info_yields_iff (hfd : FlowDirections isNoData fd v) : (∃ y, InfoYields isNoData fd y) ↔ ¬ CycleCrossesBorder fd v := by
  rw [← routed_iff hfd.represents (trace_setup hfd)]
  constructor
  · rintro ⟨y, o1, o2, s, h1, h2, h3, h4, _⟩
    obtain ⟨s', h5, rfl⟩ := h3.lift hom_info
    exact ⟨_, o1, o2, _, h1, h2, h5.map hom_trace, h4, rfl⟩
  · rintro ⟨y, o1, o2, s, h1, h2, h3, h4, _⟩
    obtain ⟨s', h5, rfl⟩ := h3.lift hom_trace
    exact ⟨_, o1, o2, _, h1, h2, h5.map hom_info, h4, rfl⟩

/-- Whatever has happened, nothing goes wrong. -/
theorem info_safe (hfd : FlowDirections isNoData fd v) {order1 order2 : List Nat}
    (ho1 : IsOrder (fd.grid.n0 * fd.grid.n1) order1) (ho2 : IsOrder (fd.grid.n0 * fd.grid.n1) order2) {s : Sys Nat Nat}
    (h : Reachable infoCells isNoData order1 order2 fd s) {a : Action} (ha : Enabled fd.grid s a) :
    ∃ s', perform infoCells isNoData fd s a = .ok s' := by
  obtain ⟨s2, h2, rfl⟩ := h.lift hom_info
  obtain ⟨s3, h3, _⟩ := router_safe hfd.represents (trace_setup hfd) ho1 ho2 (h2.map hom_trace)
    (enabled_map.2 (enabled_map.1 ha))
  rw [perform_map hom_trace] at h3
  obtain ⟨s4, h4, _⟩ := map_eq_ok h3
  exact ⟨s4.map Prod.fst Prod.fst, by rw [perform_map hom_info, h4]; rfl⟩

/-- Each cell which is not on or downstream of a cycle ends up with a class which agrees with its position. -/
theorem info_result (hfd : FlowDirections isNoData fd v) {y : PArr Nat} (hy : InfoYields isNoData fd y) :
    y.grid = fd.grid ∧ ∃ u : Arr Nat, Represents y u ∧ ∀ i j, i < fd.grid.a0 → j < fd.grid.a1 →
      ¬ OnCycle fd.grid.a0 fd.grid.a1 v (i, j) → Allowed isNoData fd.grid v (i, j) (u i j) := by
  obtain ⟨o1, o2, s, ho1, ho2, hr, hf, rfl⟩ := hy
  refine ⟨rfl, ?_⟩
  obtain ⟨s2, hr2, rfl⟩ := hr.lift hom_info
  have hf2 : Finished fd.grid (s2.map Prod.snd Prod.snd) := hf
  obtain ⟨w, hw, hsol⟩ := router_result hfd.represents (trace_setup hfd) ho1 ho2 (hr2.map hom_trace) hf2.stuck
  have hx := hfd.represents
  have hg := hx.ok
  have hctx : ∀ k0 k1, k0 < fd.grid.n0 → k1 < fd.grid.n1 → ∃ cx, ctx fd k0 k1 = .ok cx := by
    intro k0 k1 h0 h1
    obtain ⟨p, hp1, _⟩ := Represents.holds hx h0 h1
    exact ⟨_, by unfold ctx; rw [rd_ok hp1, M.bind_ok]; rfl⟩
  have hok := reachable_ok hfd.valid.code hctx hr2
  have hget : ∀ {σ μ : Type} (t : Sys σ μ) k0 k1, k0 < fd.grid.n0 → k1 < fd.grid.n1 →
      (results fd.grid t).parts[k0 * fd.grid.n1 + k1]? = some (t k0 k1).data := by
    intro σ μ t k0 k1 h0 h1
    simp only [results]
    rw [List.getElem?_map, List.getElem?_range (idx_lt h0 h1), Option.map_some, idx_div h1, idx_mod h1]
  -- The state of each cell
  have hcell : ∀ i j k0 k1 l0 l1, IsCell fd.grid i j k0 k1 l0 l1 →
      ∃ cl, (s2 k0 k1).data[l0 * fd.grid.cols k1 + l1]? = some (cl, w i j) := by
    intro i j k0 k1 l0 l1 hc
    have h1 := hw.elem i j k0 k1 l0 l1 hc
    unfold PArr.elem? at h1
    rw [show (results fd.grid (s2.map Prod.snd Prod.snd)).grid = fd.grid from rfl, hget _ _ _ hc.k0_lt hc.k1_lt,
      Option.bind_some] at h1
    have h1 : ((s2 k0 k1).data.map Prod.snd)[l0 * fd.grid.cols k1 + l1]? = some (w i j) := h1
    rw [List.getElem?_map, Option.map_eq_some_iff] at h1
    obtain ⟨⟨cl, t⟩, h2, h3⟩ := h1
    exact ⟨cl, by rw [h2, ← h3]⟩
  obtain ⟨u, hu⟩ : ∃ u : Arr Nat, ∀ i j k0 k1 l0 l1, IsCell fd.grid i j k0 k1 l0 l1 →
      (s2 k0 k1).data[l0 * fd.grid.cols k1 + l1]? = some (u i j, w i j) := by
    refine ⟨fun i j =>
      (((s2 (Decomposition.Dim.locate fd.grid.a0 fd.grid.p0 i) (Decomposition.Dim.locate fd.grid.a1 fd.grid.p1 j)).data[
        (i - Decomposition.Dim.locate fd.grid.a0 fd.grid.p0 i * fd.grid.p0) *
          fd.grid.cols (Decomposition.Dim.locate fd.grid.a1 fd.grid.p1 j) +
          (j - Decomposition.Dim.locate fd.grid.a1 fd.grid.p1 j * fd.grid.p1)]?).getD (0, ({} : Trace))).1, ?_⟩
    intro i j k0 k1 l0 l1 hc
    obtain ⟨cl, h1⟩ := hcell i j k0 k1 l0 l1 hc
    have e0 := Decomposition.Dim.locate_unique hg.pos0 hg.le0 hc.k0_lt hc.l0_lt
    have e1 := Decomposition.Dim.locate_unique hg.pos1 hg.le1 hc.k1_lt hc.l1_lt
    rw [← hc.i_eq] at e0
    rw [← hc.j_eq] at e1
    have f0 : i - k0 * fd.grid.p0 = l0 := by have := hc.i_eq; omega
    have f1 : j - k1 * fd.grid.p1 = l1 := by have := hc.j_eq; omega
    dsimp only
    rw [e0, e1, f0, f1, h1]
    rfl
  refine ⟨u, ⟨hg, by simp [results], ?_, ?_⟩, ?_⟩
  · intro k0 k1 p h0 h1 hp
    change k0 < fd.grid.n0 at h0
    change k1 < fd.grid.n1 at h1
    rw [show (results fd.grid (s2.map Prod.fst Prod.fst)).grid = fd.grid from rfl, hget _ _ _ h0 h1, Option.some.injEq] at hp
    have := hw.part_size k0 k1 _ h0 h1 (hget (s2.map Prod.snd Prod.snd) k0 k1 h0 h1)
    have h2 : ((s2 k0 k1).data.map Prod.snd).length = fd.grid.rows k0 * fd.grid.cols k1 := this
    rw [List.length_map] at h2
    rw [← hp]
    show ((s2 k0 k1).data.map Prod.fst).length = _
    rw [List.length_map, h2]
    rfl
  · intro i j k0 k1 l0 l1 hc
    have hc' : IsCell fd.grid i j k0 k1 l0 l1 := hc
    unfold PArr.elem?
    rw [show (results fd.grid (s2.map Prod.fst Prod.fst)).grid = fd.grid from rfl, hget _ _ _ hc'.k0_lt hc'.k1_lt,
      Option.bind_some]
    show ((s2 k0 k1).data.map Prod.fst)[_]? = _
    rw [List.getElem?_map, hu i j k0 k1 l0 l1 hc']
    rfl
  · intro i j hi hj hcyc
    have hacc : Acc (Drains fd.grid.a0 fd.grid.a1 v) (i, j) := acc_iff.2 hcyc
    have htr : ∀ c : Cell, c.1 < fd.grid.a0 → c.2 < fd.grid.a1 → Acc (Drains fd.grid.a0 fd.grid.a1 v) c →
        TraceOk isNoData fd.grid v w c := fun c h0 h1 ha => traceOk (hsol c.1 c.2 h0 h1 ha)
    obtain ⟨k0, k1, l0, l1, hc⟩ := exists_isCell hg hi hj
    obtain ⟨cx, hcx⟩ := hctx k0 k1 hc.k0_lt hc.k1_lt
    obtain ⟨hn0, hn1, hcode, hstop⟩ := stopOf_spec (c := (i, j)) hx hc hcx
    have hpn : partNr fd.grid (i, j) = k0 * fd.grid.n1 + k1 := partNr_eq hg (c := (i, j)) hc
    have hin : InRange cx.n0 cx.n1 ((l0 : Int), (l1 : Int)) := by
      rw [hn0, hn1]
      exact ⟨by simp, by have := hc.l0_lt; simp; omega, by simp, by have := hc.l1_lt; simp; omega⟩
    have hdata : (s2 k0 k1).data[lin cx.n1 ((l0 : Int), (l1 : Int))]? = some (u i j, w i j) := by
      rw [hn1]
      simpa [lin] using hu i j k0 k1 l0 l1 hc
    obtain ⟨hp1, hp2⟩ := (hok k0 k1 hc.k0_lt hc.k1_lt cx hcx).2 (hf k0 k1 hc.k0_lt hc.k1_lt).1
    have hco := hp1.cell _ hin _ hdata
    have ht := htr (i, j) hi hj hacc
    obtain ⟨us, hus, harr⟩ := ht.us
    have hown := ht.own
    have hinter := inter_iff hfd htr (c := (i, j)) hi hj hacc
    dsimp only at hcode hus harr hown hinter
    cases hn : isNoData (v i j) with
    | true =>
      have hnil : us = [] := by
        rw [List.eq_nil_iff_forall_not_mem]
        intro u' hu'
        have := hfd.valid.downstream _ _ ((hus u').1 hu')
        rw [hn] at this; cases this
      have : u i j = noData := hp2 _ hin (by rw [hcode]; exact hn) _ hdata (by rw [harr, hnil]; rfl)
        (by rw [hown, hn]; rfl)
      rw [this]
      exact .noData hn
    | false =>
      have hown' : (w i j).own ≠ none := by rw [hown, hn]; simp
      have hcls : u i j = classOf cx (k0 * fd.grid.n1 + k1) ((l0 : Int), (l1 : Int)) (w i j).arr.getLast? :=
        hco.cls hown' (fun h => h) (by rw [hcode]; exact hn)
      have hlast := hco.last
      dsimp only at hlast
      rw [← hpn] at hcls hlast
      have hinl : Input fd.grid v (i, j) → Inter fd.grid v (i, j) := .input
      rcases List.eq_nil_or_concat us with rfl | ⟨us', l, rfl⟩
      · rw [hcls, harr]
        refine .ridge hn fun u' hu' => ?_
        have := (hus u').2 hu'
        cases this
      · have hD : Drains fd.grid.a0 fd.grid.a1 v l (i, j) := (hus l).1 (by simp)
        have hgl : (w i j).arr.getLast? = some (traceOut (w l.1 l.2)) := by rw [harr]; simp
        have hlacc := hacc.inv hD
        rw [traceOut_eq (htr l hD.1 hD.2.1 hlacc) (drains_valid hfd.valid hD)] at hgl
        have hli := inter_iff hfd htr hD.1 hD.2.1 hlacc
        have hsame := samePart_iff hg (u := l) (c := (i, j)) ⟨hD.1, hD.2.1⟩ ⟨hi, hj⟩
        have hnr : ¬ Ridge fd.grid v (i, j) := fun h => h l hD
        rw [hgl] at hcls hlast
        by_cases hpl : partNr fd.grid l = partNr fd.grid (i, j)
        · -- Last from the same partition
          have hcls : u i j = (stopOf cx ((l0 : Int), (l1 : Int))).getD (mid ((w l.1 l.2).arr.any (far (partNr fd.grid l)))) := by
            rw [hcls]; simp [classOf, hpl]
          have hS := hsame.2 hpl
          have hflag : Inter fd.grid v (i, j) ↔ Inter fd.grid v l := by
            constructor
            · intro h
              obtain ⟨a, ha, hfa⟩ := hlast (hinter.2 h)
              obtain rfl := Option.some.inj ha
              rw [far, hpl] at hfa
              rw [← hli, hpl]
              simpa using hfa
            · exact fun h => .flow h hD hS
          have hsc : StreamClass fd.grid v (i, j) (u i j) := by
            rw [hcls]
            rcases hstop with ⟨h1, h2⟩ | ⟨h1, _, h2⟩ | ⟨h1, h3, h2⟩
            · rw [h2]; exact .sink h1
            · rw [h2]; exact .output h1
            · rw [h2]
              show StreamClass _ _ _ (mid _)
              cases hb : (w l.1 l.2).arr.any (far (partNr fd.grid l)) with
              | true => exact .inter h1 h3 (hflag.2 (hli.1 hb))
              | false => exact .intra h1 h3 fun h => by rw [hli.2 (hflag.1 h)] at hb; cases hb
          by_cases hi' : Input fd.grid v (i, j)
          · exact .order hn hi' ⟨l, hD, hS, hflag.1 (hinl hi')⟩ hsc
          · exact .stream hn hnr hi' hsc
        · have hcls : u i j = infoLeaveInter ((stopOf cx ((l0 : Int), (l1 : Int))).getD interPartitionStreamCell) := by
            rw [hcls]; simp [classOf, hpl]
          refine .input hn ⟨l, hD, fun h => hpl (hsame.1 h)⟩ ?_
          rw [hcls]
          rcases hstop with ⟨h1, h2⟩ | ⟨h1, _, h2⟩ | ⟨h1, h3, h2⟩
          · rw [h2]
            refine .input ?_
            rintro ⟨o, ho, _⟩
            unfold Sink at h1
            rw [h1] at ho; cases ho
          · rw [h2]; exact .both h1
          · rw [h2]; exact .input h3

end Lue.AccuInfo

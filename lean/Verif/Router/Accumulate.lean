import Verif.Router.Inv

/-! Solving streams within a partition. -/
namespace Lue.Router

open Lue.Routing Lue.InflowCount

variable {σ μ : Type}

section
variable {F : CellAccumulator σ μ} {isNoData : Nat → Bool} {enter : Cell → σ → σ} {g : Grid} {v : Arr Nat}

/-- Material of solved cells which stays in the partition is not underway. -/
def NoIntra (g : Grid) (v : Arr Nat) (G : Ghost Cell σ) (k0 k1 : Nat) : Prop :=
  ∀ c c', InRange (g.rows k0) (g.cols k1) c → InRange (g.rows k0) (g.cols k1) c' →
    Drains g.a0 g.a1 v (glob g k0 k1 c) (glob g k0 k1 c') → glob g k0 k1 c ∉ G.fl

theorem NoIntra.frame (hg : g.Ok) {k0 k1 q0 q1 : Nat} (h0 : k0 < g.n0) (h1 : k1 < g.n1) (h2 : q0 < g.n0) (h3 : q1 < g.n1)
    (hne : ¬ (q0 = k0 ∧ q1 = k1)) {G G' : Ghost Cell σ} (h : NoIntra g v G q0 q1) (hf : Frame g v k0 k1 G G') :
    NoIntra g v G' q0 q1 := fun c c' hc hc' hd hm =>
  h c c' hc hc' hd ((hf.fl _ (not_inPart hg h0 h1 h2 h3 hne hc)).1 hm)

theorem neighbour_ne {d : Dir} {k0 k1 q0 q1 : Nat} (h : Neighbour g d k0 k1 q0 q1) : ¬ (q0 = k0 ∧ q1 = k1) := by
  rintro ⟨rfl, rfl⟩
  obtain ⟨_, _, _, _, hne⟩ := d.offset_bound
  have := h.eq0; have := h.eq1
  omega

theorem leave_none {n0 n1 : Nat} {c o : Int × Int} {code : Nat} (hm : move code = some o)
    (ho : InRange n0 n1 (c.1 + o.1, c.2 + o.2)) : leave n0 n1 c.1 c.2 code = none := by
  obtain ⟨h1, h2, h3, h4⟩ := ho
  simp only at h1 h2 h3 h4
  simp only [leave, hm, Option.bind_some]
  rw [if_neg (by omega), if_neg (by omega), if_neg (by omega), if_neg (by omega)]

/-- Where the material of a cell goes. -/
theorem cell_cases (S : Setup F isNoData enter g v) {k0 k1 : Nat} (h0 : k0 < g.n0) (h1 : k1 < g.n1) {c : Int × Int}
    (hc : InRange (g.rows k0) (g.cols k1) c) :
    (move (codes g v k0 k1 c) = none ∧ (∀ t, ¬ Drains g.a0 g.a1 v (glob g k0 k1 c) t) ∧ ∀ d, ¬ Leaves g v k0 k1 d c) ∨
    (∃ o, move (codes g v k0 k1 c) = some o ∧ InRange (g.rows k0) (g.cols k1) (c.1 + o.1, c.2 + o.2) ∧
      Drains g.a0 g.a1 v (glob g k0 k1 c) (glob g k0 k1 (c.1 + o.1, c.2 + o.2)) ∧ ∀ d, ¬ Leaves g v k0 k1 d c) ∨
    (∃ o, move (codes g v k0 k1 c) = some o ∧ ¬ InRange (g.rows k0) (g.cols k1) (c.1 + o.1, c.2 + o.2) ∧
      (∀ c', InRange (g.rows k0) (g.cols k1) c' → ¬ Drains g.a0 g.a1 v (glob g k0 k1 c) (glob g k0 k1 c')) ∧
      ∃ d idx', Leaves g v k0 k1 d c ∧ destinationCell (g.rows k0) (g.cols k1) c.1 c.2 o.1 o.2 = .ok (d, idx') ∧
        ∀ m0 m1, convert m0 m1 d.sender idx' = convert m0 m1 d.sender (outIdx g v k0 k1 c)) := by
  rcases hm : move (codes g v k0 k1 c) with _ | o
  · left
    refine ⟨rfl, ?_, ?_⟩
    · rintro t ⟨_, _, _, _, o, ho, _⟩
      simp only [codes] at hm
      rw [hm] at ho; exact absurd ho (by simp)
    · rintro d ⟨idx, hl⟩
      simp [leave, hm] at hl
  · right
    by_cases ho : InRange (g.rows k0) (g.cols k1) (c.1 + o.1, c.2 + o.2)
    · left
      refine ⟨o, rfl, ho, ?_, ?_⟩
      · rw [drains_glob S.ok h0 h1 h0 h1 hc ho]
        exact ⟨o, hm, by omega, by omega⟩
      · rintro d ⟨idx, hl⟩
        rw [leave_none hm ho] at hl; exact absurd hl (by simp)
    · right
      refine ⟨o, rfl, ho, ?_, ?_⟩
      · intro c' hc' hd
        rw [drains_glob S.ok h0 h1 h0 h1 hc hc'] at hd
        obtain ⟨o', ho', e1, e2⟩ := hd
        simp only [codes] at hm
        rw [hm] at ho'
        simp only [Option.some.injEq] at ho'
        subst ho'
        apply ho
        have : (c.1 + o.1, c.2 + o.2) = c' := Prod.ext (by simp only; omega) (by simp only; omega)
        rw [this]; exact hc'
      · obtain ⟨d, idx, idx', hl, hd, hcv⟩ := destinationCell_ok (S.rows k0) (S.cols k1) hm hc ho
        refine ⟨d, idx', ⟨idx, hl⟩, hd, ?_⟩
        have : outIdx g v k0 k1 c = idx := by simp [outIdx, hl]
        rw [this]; exact hcv

/-- Writing the state of a cell. -/
theorem Holds.wr_glob (hg : g.Ok) {α : Type} {k0 k1 : Nat} (h0 : k0 < g.n0) (h1 : k1 < g.n1) {data : List α} {f : Cell → α}
    (h : Holds (g.rows k0) (g.cols k1) data fun c => f (glob g k0 k1 c)) {c : Int × Int}
    (hc : InRange (g.rows k0) (g.cols k1) c) (x : α) :
    ∃ data', Lue.wr data (lin (g.cols k1) c) x = .ok data' ∧
      Holds (g.rows k0) (g.cols k1) data' fun c' => (Function.update f (glob g k0 k1 c) x) (glob g k0 k1 c') := by
  obtain ⟨d', h2, h3⟩ := h.wr hc x
  refine ⟨d', h2, h3.congr fun c' hc' => ?_⟩
  by_cases he : c' = c
  · subst he; simp
  · rw [Function.update_of_ne he, Function.update_of_ne]
    intro e
    exact he (glob_inj hg h0 h1 h0 h1 hc' hc e).2.2

section
variable {k0 k1 : Nat} {G : Ghost Cell σ} {p : PState σ μ} {c : Int × Int}

/-- A cell is solved whose material stays in the partition, or goes nowhere. -/
theorem PRel.solve_stay (S : Setup F isNoData enter g v) (N : Net Cell σ) (h0 : k0 < g.n0) (h1 : k1 < g.n1)
    (h : PRel F g v G k0 k1 p) (hc : InRange (g.rows k0) (g.cols k1) c) (hl : ∀ d, ¬ Leaves g v k0 k1 d c) {data : List σ}
    (hdata : Holds (g.rows k0) (g.cols k1) data fun c' => (G.solve N (glob g k0 k1 c)).val (glob g k0 k1 c')) :
    PRel F g v (G.solve N (glob g k0 k1 c)) k0 k1 { p with data := data } := by
  have hne : ∀ d c', InRange (g.rows k0) (g.cols k1) c' → Leaves g v k0 k1 d c' → glob g k0 k1 c' ≠ glob g k0 k1 c := by
    intro d c' hc' hl' e
    have := (glob_inj S.ok h0 h1 h0 h1 hc' hc e).2.2
    subst this
    exact hl d hl'
  refine ⟨h.counts, hdata, ⟨h.outs.1, ?_⟩, ?_, ?_, h.pending_nil, h.closed⟩
  · intro d c'
    refine (h.outs.2 d c').trans (and_congr_right fun a => and_congr_right fun b => not_congr ?_)
    exact ⟨fun x => Or.inr x, fun x => x.resolve_left (hne d c' a b)⟩
  · intro d hd
    obtain ⟨l, hl1, hl2, hl3⟩ := h.chan d hd
    refine ⟨l, hl1, ?_, ?_⟩
    · intro c'
      refine (hl2 c').trans (and_congr_right fun a => and_congr_right fun b => ?_)
      exact ⟨fun x => Or.inr x, fun x => x.resolve_left (hne d c' a b)⟩
    · refine forall₂_imp_mem hl3 fun m c' hc' hm => ⟨hm.1, ?_⟩
      obtain ⟨a, b, _⟩ := (hl2 c').1 hc'
      rw [hm.2]; simp [Ghost.solve, Function.update_of_ne (hne d c' a b)]
  · intro d hd
    have nb := neighbour_nb h0 h1 hd
    obtain ⟨l, hl1, hl2, hl3⟩ := h.pending d hd
    refine ⟨l, hl1, ?_, hl3⟩
    intro c'
    refine (hl2 c').trans (and_congr_right fun a => and_congr_right fun b => ?_)
    have hne' : glob g (nb0 k0 d) (nb1 k1 d) c' ≠ glob g k0 k1 c := fun e =>
      not_inPart S.ok h0 h1 nb.q0_lt nb.q1_lt (neighbour_ne nb) a ⟨c, hc, e⟩
    refine or_congr (not_congr ?_) ?_
    · exact ⟨fun x => Or.inr x, fun x => x.resolve_left hne'⟩
    · exact ⟨fun x => Or.inr x, fun x => x.resolve_left hne'⟩

/-- A cell is solved whose material leaves the partition. -/
theorem PRel.solve_leave (S : Setup F isNoData enter g v) (N : Net Cell σ) (h0 : k0 < g.n0) (h1 : k1 < g.n1)
    (h : PRel F g v G k0 k1 p) (hc : InRange (g.rows k0) (g.cols k1) c) {dd : Dir} (hl : Leaves g v k0 k1 dd c)
    (hdn : glob g k0 k1 c ∉ G.dn) (hfl : glob g k0 k1 c ∉ G.fl) {data : List σ}
    (hdata : Holds (g.rows k0) (g.cols k1) data fun c' => (G.solve N (glob g k0 k1 c)).val (glob g k0 k1 c'))
    {chan : Dir → List (Int × μ)} {closed : Dir → Bool}
    (hchan : ∀ d, d ≠ dd → chan d = p.chan d)
    (hdd : hasNeighbour g.n0 g.n1 k0 k1 dd = true → ∃ m, chan dd = p.chan dd ++ [m] ∧
      MsgRel F g v (G.solve N (glob g k0 k1 c)) k0 k1 dd m c)
    (hclosed : ∀ d, closed d = true → p.closed d = true ∨ ∀ o ∈ p.outs.erase (dd, c), o.1 ≠ d) :
    PRel F g v (G.solve N (glob g k0 k1 c)) k0 k1
      { p with data := data, outs := p.outs.erase (dd, c), chan := chan, closed := closed } := by
  have hne : ∀ c', InRange (g.rows k0) (g.cols k1) c' → c' ≠ c → glob g k0 k1 c' ≠ glob g k0 k1 c := by
    intro c' hc' hn e
    exact hn (glob_inj S.ok h0 h1 h0 h1 hc' hc e).2.2
  refine ⟨h.counts, hdata, ⟨h.outs.1.erase _, ?_⟩, ?_, ?_, h.pending_nil, ?_⟩
  · intro d c'
    rw [h.outs.1.mem_erase_iff, h.outs.2]
    constructor
    · rintro ⟨a, b, e, f⟩
      refine ⟨b, e, ?_⟩
      rintro (x | x)
      · by_cases hcc : c' = c
        · subst hcc; exact a (by rw [e.unique hl])
        · exact hne c' b hcc x
      · exact f x
    · rintro ⟨b, e, f⟩
      refine ⟨?_, b, e, fun x => f (Or.inr x)⟩
      intro x
      simp only [Prod.mk.injEq] at x
      obtain ⟨_, rfl⟩ := x
      exact f (Or.inl rfl)
  · intro d hd
    obtain ⟨l, hl1, hl2, hl3⟩ := h.chan d hd
    have hcl : c ∉ l := fun hm => hfl ((hl2 c).1 hm).2.2
    have hl3' : List.Forall₂ (MsgRel F g v (G.solve N (glob g k0 k1 c)) k0 k1 d) (p.chan d) l := by
      refine forall₂_imp_mem hl3 fun m c' hc' hm => ⟨hm.1, ?_⟩
      rw [hm.2]; simp only [Ghost.solve]
      rw [Function.update_of_ne (hne c' ((hl2 c').1 hc').1 (fun e => hcl (e ▸ hc')))]
    by_cases hdir : d = dd
    · subst hdir
      obtain ⟨m, hm1, hm2⟩ := hdd hd
      refine ⟨l ++ [c], ?_, ?_, ?_⟩
      · exact List.nodup_append.2 ⟨hl1, by simp, fun x hx y hy e => hcl (by simp at hy; subst hy; exact e ▸ hx)⟩
      · intro c'
        rw [List.mem_append, hl2, List.mem_singleton]
        constructor
        · rintro (⟨a, b, e⟩ | rfl)
          · exact ⟨a, b, Or.inr e⟩
          · exact ⟨hc, hl, Or.inl rfl⟩
        · rintro ⟨a, b, e | e⟩
          · right; exact (glob_inj S.ok h0 h1 h0 h1 a hc e).2.2
          · left; exact ⟨a, b, e⟩
      · simp only [hm1]
        exact List.rel_append hl3' (.cons hm2 .nil)
    · refine ⟨l, hl1, ?_, ?_⟩
      · intro c'
        refine (hl2 c').trans (and_congr_right fun a => and_congr_right fun b => ?_)
        have hcc : c' ≠ c := fun e => hdir (by subst e; exact b.unique hl)
        exact ⟨fun x => Or.inr x, fun x => x.resolve_left (hne c' a hcc)⟩
      · simp only [hchan d hdir]
        exact hl3'
  · intro d hd
    have nb := neighbour_nb h0 h1 hd
    obtain ⟨l, hl1, hl2, hl3⟩ := h.pending d hd
    refine ⟨l, hl1, ?_, hl3⟩
    intro c'
    refine (hl2 c').trans (and_congr_right fun a => and_congr_right fun b => ?_)
    have hne' : glob g (nb0 k0 d) (nb1 k1 d) c' ≠ glob g k0 k1 c := fun e =>
      not_inPart S.ok h0 h1 nb.q0_lt nb.q1_lt (neighbour_ne nb) a ⟨c, hc, e⟩
    refine or_congr (not_congr ?_) ?_
    · exact ⟨fun x => Or.inr x, fun x => x.resolve_left hne'⟩
    · exact ⟨fun x => Or.inr x, fun x => x.resolve_left hne'⟩
  · intro d c' hcl hm
    rcases hclosed d hcl with h2 | h2
    · exact h.closed d c' h2 (List.mem_of_mem_erase hm)
    · exact h2 _ hm rfl

/-- Material arrives in a cell of the same partition. -/
theorem PRel.arrive_own (S : Setup F isNoData enter g v) (N : Net Cell σ) (h0 : k0 < g.n0) (h1 : k1 < g.n1)
    (h : PRel F g v G k0 k1 p) (hc : InRange (g.rows k0) (g.cols k1) c) (hl : ∀ d, ¬ Leaves g v k0 k1 d c)
    {t : Int × Int} (ht : InRange (g.rows k0) (g.cols k1) t) (htfl : glob g k0 k1 t ∉ G.fl) {data : List σ} {counts : List Nat}
    (hdata : Holds (g.rows k0) (g.cols k1) data fun c' =>
      (G.arrive N (glob g k0 k1 c) (glob g k0 k1 t)).val (glob g k0 k1 c'))
    (hcounts : Holds (g.rows k0) (g.cols k1) counts fun c' => nrInflows g.a0 g.a1 v (glob g k0 k1 c') -
      ((G.arrive N (glob g k0 k1 c) (glob g k0 k1 t)).arr (glob g k0 k1 c')).length) :
    PRel F g v (G.arrive N (glob g k0 k1 c) (glob g k0 k1 t)) k0 k1 { p with data := data, counts := counts } := by
  have hne : ∀ d c', InRange (g.rows k0) (g.cols k1) c' → Leaves g v k0 k1 d c' → glob g k0 k1 c' ≠ glob g k0 k1 c := by
    intro d c' hc' hl' e
    have := (glob_inj S.ok h0 h1 h0 h1 hc' hc e).2.2
    subst this
    exact hl d hl'
  refine ⟨hcounts, hdata, h.outs, ?_, ?_, h.pending_nil, h.closed⟩
  · intro d hd
    obtain ⟨l, hl1, hl2, hl3⟩ := h.chan d hd
    refine ⟨l, hl1, ?_, ?_⟩
    · intro c'
      refine (hl2 c').trans (and_congr_right fun a => and_congr_right fun b => ?_)
      exact ⟨fun x => ⟨x, hne d c' a b⟩, fun x => x.1⟩
    · refine forall₂_imp_mem hl3 fun m c' hc' hm => ⟨hm.1, ?_⟩
      obtain ⟨a, b, e⟩ := (hl2 c').1 hc'
      rw [hm.2]; simp only [Ghost.arrive]
      rw [Function.update_of_ne]
      intro e'; rw [e'] at e; exact htfl e
  · intro d hd
    have nb := neighbour_nb h0 h1 hd
    obtain ⟨l, hl1, hl2, hl3⟩ := h.pending d hd
    refine ⟨l, hl1, ?_, hl3⟩
    intro c'
    refine (hl2 c').trans (and_congr_right fun a => and_congr_right fun b => or_congr Iff.rfl ?_)
    have hne' : glob g (nb0 k0 d) (nb1 k1 d) c' ≠ glob g k0 k1 c := fun e =>
      not_inPart S.ok h0 h1 nb.q0_lt nb.q1_lt (neighbour_ne nb) a ⟨c, hc, e⟩
    exact ⟨fun x => ⟨x, hne'⟩, fun x => x.1⟩

theorem Frame.solve (S : Setup F isNoData enter g v) (N : Net Cell σ) (h0 : k0 < g.n0) (h1 : k1 < g.n1)
    (hc : InRange (g.rows k0) (g.cols k1) c) (hdn : glob g k0 k1 c ∉ G.dn) :
    Frame g v k0 k1 G (G.solve N (glob g k0 k1 c)) := by
  have hne : ∀ u, ¬ InPart g k0 k1 u → u ≠ glob g k0 k1 c := fun u hu e => hu ⟨c, hc, e⟩
  refine ⟨fun _ _ => rfl, ?_, ?_, ?_, ?_⟩
  · intro u hu; simp only [Ghost.solve]; rw [Function.update_of_ne (hne u hu)]
  · intro u hu; exact ⟨fun x => x.resolve_left (hne u hu), fun x => Or.inr x⟩
  · intro u hu; exact ⟨fun x => x.resolve_left (hne u hu), fun x => Or.inr x⟩
  · intro d c' hc' _
    by_cases he : glob g k0 k1 c' = glob g k0 k1 c
    · rw [he]; exact ⟨fun _ => Or.inl hdn, fun _ => Or.inr (Or.inl rfl)⟩
    · refine or_congr (not_congr ?_) ?_
      · exact ⟨fun x => x.resolve_left he, fun x => Or.inr x⟩
      · exact ⟨fun x => x.resolve_left he, fun x => Or.inr x⟩

theorem Frame.arrive (S : Setup F isNoData enter g v) (N : Net Cell σ) (h0 : k0 < g.n0) (h1 : k1 < g.n1)
    (hc : InRange (g.rows k0) (g.cols k1) c) (hl : ∀ d, ¬ Leaves g v k0 k1 d c) {t : Int × Int}
    (ht : InRange (g.rows k0) (g.cols k1) t) :
    Frame g v k0 k1 G (G.arrive N (glob g k0 k1 c) (glob g k0 k1 t)) := by
  have hne : ∀ c, InRange (g.rows k0) (g.cols k1) c → ∀ u, ¬ InPart g k0 k1 u → u ≠ glob g k0 k1 c :=
    fun c hc u hu e => hu ⟨c, hc, e⟩
  refine ⟨?_, ?_, fun _ _ => Iff.rfl, ?_, ?_⟩
  · intro u hu; simp only [Ghost.arrive]; rw [Function.update_of_ne (hne t ht u hu)]
  · intro u hu; simp only [Ghost.arrive]; rw [Function.update_of_ne (hne t ht u hu)]
  · intro u hu; exact ⟨fun x => x.1, fun x => ⟨x, hne c hc u hu⟩⟩
  · intro d c' hc' hl'
    refine or_congr Iff.rfl ⟨fun x => x.1, fun x => ⟨x, ?_⟩⟩
    intro e
    have := (glob_inj S.ok h0 h1 h0 h1 hc' hc e).2.2
    subst this
    exact hl d hl'

end

end

end Lue.Router

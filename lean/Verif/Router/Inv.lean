import Verif.Router.Cells
import Verif.Router.Ghost
import Mathlib.Data.Finset.Prod

/-! The relation between the states of the partitions and what has happened with each cell. -/
namespace Lue.Router

open Lue.Routing Lue.InflowCount

theorem check_ok {P : Prop} [Decidable P] (h : P) : check (decide P) = .ok () := by simp [check, h]

theorem forall₂_imp_mem {α β : Type} {R S : α → β → Prop} {l : List α} {l' : List β} (h : List.Forall₂ R l l')
    (hi : ∀ a, ∀ b ∈ l', R a b → S a b) : List.Forall₂ S l l' := by
  induction h with
  | nil => exact .nil
  | cons a _ ih => exact .cons (hi _ _ (by simp) a) (ih fun a b hb => hi a b (by simp [hb]))

theorem Dir.sender_sender (d : Dir) : d.sender.sender = d := by cases d <;> rfl

variable {σ μ : Type}

/-- The network of cells. -/
def net (F : CellAccumulator σ μ) (isNoData : Nat → Bool) (enter : Cell → σ → σ) (a0 a1 : Nat) (v : Arr Nat) : Net Cell σ where
  D := Drains a0 a1 v
  init := F.init
  push := fun x s => F.enterInter (F.outflow x) s
  fin := fun c s => if isNoData (v c.1 c.2) then F.markNoData s else enter c s

theorem net_ok (F : CellAccumulator σ μ) (isNoData : Nat → Bool) (enter : Cell → σ → σ) (a0 a1 : Nat) (v : Arr Nat) :
    (net F isNoData enter a0 a1 v).Ok where
  unique := fun _ _ _ h h' => h.unique h'
  finite := fun c => by
    refine Set.Finite.subset (Finset.finite_toSet (Finset.range a0 ×ˢ Finset.range a1)) ?_
    intro u hu
    have h1 := hu.1
    have h2 := hu.2.1
    simpa using ⟨h1, h2⟩

/-- The assumptions. -/
structure Setup (F : CellAccumulator σ μ) (isNoData : Nat → Bool) (enter : Cell → σ → σ) (g : Grid) (v : Arr Nat) : Prop where
  ok : g.Ok
  two0 : 2 ≤ g.p0
  two1 : 2 ≤ g.p1
  valid : Valid isNoData g.a0 g.a1 v
  leave : ∀ a b, F.leaveCell a b = F.enterInter (F.outflow a) b
  enter : ∀ k0 k1 c s, k0 < g.n0 → k1 < g.n1 → InRange (g.rows k0) (g.cols k1) c →
    F.enterCell (k0 * g.n1 + k1) (lin (g.cols k1) c) s = .ok (enter (glob g k0 k1 c) s)
  /-- Nothing else happens in cells. -/
  enterIntra : F.enterIntra = id := by rfl
  leaveIntra : F.leaveIntra = id := by rfl
  leaveInter : F.leaveInter = id := by rfl
  stopSink : F.stopSink = id := by rfl
  stopConfluence : F.stopConfluence = id := by rfl
  stopOutput : F.stopOutput = id := by rfl

section
variable {F : CellAccumulator σ μ} {isNoData : Nat → Bool} {enter : Cell → σ → σ} {g : Grid} {v : Arr Nat}

theorem Setup.rows (S : Setup F isNoData enter g v) (k : Nat) : 2 ≤ g.rows k :=
  Nat.le_trans S.two0 (Decomposition.Dim.extent_ge S.ok.pos0 k)

theorem Setup.cols (S : Setup F isNoData enter g v) (k : Nat) : 2 ≤ g.cols k :=
  Nat.le_trans S.two1 (Decomposition.Dim.extent_ge S.ok.pos1 k)

/-- The downstream cell of a cell is in the partition in direction `d`. -/
def Leaves (g : Grid) (v : Arr Nat) (k0 k1 : Nat) (d : Dir) (c : Int × Int) : Prop :=
  ∃ idx, leave (g.rows k0) (g.cols k1) c.1 c.2 (codes g v k0 k1 c) = some (d, idx)

/-- The index of the input cell. -/
def outIdx (g : Grid) (v : Arr Nat) (k0 k1 : Nat) (c : Int × Int) : Int :=
  ((leave (g.rows k0) (g.cols k1) c.1 c.2 (codes g v k0 k1 c)).map Prod.snd).getD 0

theorem Leaves.unique {k0 k1 : Nat} {d d' : Dir} {c : Int × Int} (h : Leaves g v k0 k1 d c) (h' : Leaves g v k0 k1 d' c) :
    d = d' := by
  obtain ⟨i, hi⟩ := h
  obtain ⟨i', hi'⟩ := h'
  rw [hi] at hi'
  simp only [Option.some.injEq, Prod.mk.injEq] at hi'
  exact hi'.1

/-- The output cells whose material has not been sent yet. -/
def OutsRel (g : Grid) (v : Arr Nat) (G : Ghost Cell σ) (k0 k1 : Nat) (outs : List (Dir × (Int × Int))) : Prop :=
  outs.Nodup ∧ ∀ d c, (d, c) ∈ outs ↔ InRange (g.rows k0) (g.cols k1) c ∧ Leaves g v k0 k1 d c ∧ glob g k0 k1 c ∉ G.dn

/-- A message contains the material of a cell. -/
def MsgRel (F : CellAccumulator σ μ) (g : Grid) (v : Arr Nat) (G : Ghost Cell σ) (k0 k1 : Nat) (d : Dir) (m : Int × μ)
    (c : Int × Int) : Prop :=
  (∀ m0 m1, convert m0 m1 d.sender m.1 = convert m0 m1 d.sender (outIdx g v k0 k1 c)) ∧
    m.2 = F.outflow (G.val (glob g k0 k1 c))

/-- The messages which have not been received yet. -/
def ChanRel (F : CellAccumulator σ μ) (g : Grid) (v : Arr Nat) (G : Ghost Cell σ) (k0 k1 : Nat) (d : Dir)
    (msgs : List (Int × μ)) : Prop :=
  ∃ l : List (Int × Int), l.Nodup ∧
    (∀ c, c ∈ l ↔ InRange (g.rows k0) (g.cols k1) c ∧ Leaves g v k0 k1 d c ∧ glob g k0 k1 c ∈ G.fl) ∧
    List.Forall₂ (MsgRel F g v G k0 k1 d) msgs l

/-- The input cells for which no material has been received yet. -/
def PendRel (g : Grid) (v : Arr Nat) (G : Ghost Cell σ) (k0 k1 : Nat) (d : Dir) (pending : List (Int × Int)) : Prop :=
  ∃ l : List (Int × Int), l.Nodup ∧
    (∀ c, c ∈ l ↔ InRange (g.rows (nb0 k0 d)) (g.cols (nb1 k1 d)) c ∧ Leaves g v (nb0 k0 d) (nb1 k1 d) d.sender c ∧
      (glob g (nb0 k0 d) (nb1 k1 d) c ∉ G.dn ∨ glob g (nb0 k0 d) (nb1 k1 d) c ∈ G.fl)) ∧
    pending.Perm (l.map fun c => convert (g.rows k0) (g.cols k1) d (outIdx g v (nb0 k0 d) (nb1 k1 d) c))

/-- The state of a partition agrees with what has happened. -/
structure PRel (F : CellAccumulator σ μ) (g : Grid) (v : Arr Nat) (G : Ghost Cell σ) (k0 k1 : Nat) (p : PState σ μ) : Prop where
  counts : Holds (g.rows k0) (g.cols k1) p.counts fun c =>
    nrInflows g.a0 g.a1 v (glob g k0 k1 c) - (G.arr (glob g k0 k1 c)).length
  data : Holds (g.rows k0) (g.cols k1) p.data fun c => G.val (glob g k0 k1 c)
  outs : OutsRel g v G k0 k1 p.outs
  chan : ∀ d, hasNeighbour g.n0 g.n1 k0 k1 d = true → ChanRel F g v G k0 k1 d (p.chan d)
  pending : ∀ d, hasNeighbour g.n0 g.n1 k0 k1 d = true → PendRel g v G k0 k1 d (p.pending d)
  pending_nil : ∀ d, hasNeighbour g.n0 g.n1 k0 k1 d = false → p.pending d = []
  closed : ∀ d c, p.closed d = true → (d, c) ∉ p.outs

/-- A cell of a partition. -/
def InPart (g : Grid) (k0 k1 : Nat) (u : Cell) : Prop := ∃ c, InRange (g.rows k0) (g.cols k1) c ∧ u = glob g k0 k1 c

/-- Things only happened with cells in a partition. -/
structure Frame (g : Grid) (v : Arr Nat) (k0 k1 : Nat) (G G' : Ghost Cell σ) : Prop where
  arr : ∀ u, ¬ InPart g k0 k1 u → G'.arr u = G.arr u
  val : ∀ u, ¬ InPart g k0 k1 u → G'.val u = G.val u
  dn : ∀ u, ¬ InPart g k0 k1 u → (u ∈ G'.dn ↔ u ∈ G.dn)
  fl : ∀ u, ¬ InPart g k0 k1 u → (u ∈ G'.fl ↔ u ∈ G.fl)
  pend : ∀ d c, InRange (g.rows k0) (g.cols k1) c → Leaves g v k0 k1 d c →
    ((glob g k0 k1 c ∉ G'.dn ∨ glob g k0 k1 c ∈ G'.fl) ↔ (glob g k0 k1 c ∉ G.dn ∨ glob g k0 k1 c ∈ G.fl))

theorem Frame.refl (k0 k1 : Nat) (G : Ghost Cell σ) : Frame g v k0 k1 G G :=
  ⟨fun _ _ => rfl, fun _ _ => rfl, fun _ _ => Iff.rfl, fun _ _ => Iff.rfl, fun _ _ _ _ => Iff.rfl⟩

theorem Frame.trans {k0 k1 : Nat} {G1 G2 G3 : Ghost Cell σ} (h : Frame g v k0 k1 G1 G2) (h' : Frame g v k0 k1 G2 G3) :
    Frame g v k0 k1 G1 G3 :=
  ⟨fun u hu => (h'.arr u hu).trans (h.arr u hu), fun u hu => (h'.val u hu).trans (h.val u hu),
    fun u hu => (h'.dn u hu).trans (h.dn u hu), fun u hu => (h'.fl u hu).trans (h.fl u hu),
    fun d c hc hl => (h'.pend d c hc hl).trans (h.pend d c hc hl)⟩

theorem not_inPart (hg : g.Ok) {k0 k1 q0 q1 : Nat} (h0 : k0 < g.n0) (h1 : k1 < g.n1) (h2 : q0 < g.n0) (h3 : q1 < g.n1)
    (hne : ¬ (q0 = k0 ∧ q1 = k1)) {c : Int × Int} (hc : InRange (g.rows q0) (g.cols q1) c) :
    ¬ InPart g k0 k1 (glob g q0 q1 c) := by
  rintro ⟨c', hc', he⟩
  obtain ⟨e0, e1, _⟩ := glob_inj hg h2 h3 h0 h1 hc hc' he
  exact hne ⟨e0, e1⟩

/-- The other partitions are not affected. -/
theorem PRel.frame (hg : g.Ok) {k0 k1 q0 q1 : Nat} (h0 : k0 < g.n0) (h1 : k1 < g.n1) (h2 : q0 < g.n0) (h3 : q1 < g.n1)
    (hne : ¬ (q0 = k0 ∧ q1 = k1)) {G G' : Ghost Cell σ} {p : PState σ μ} (h : PRel F g v G q0 q1 p)
    (hf : Frame g v k0 k1 G G') : PRel F g v G' q0 q1 p := by
  have hn : ∀ c, InRange (g.rows q0) (g.cols q1) c → ¬ InPart g k0 k1 (glob g q0 q1 c) := fun c hc =>
    not_inPart hg h0 h1 h2 h3 hne hc
  refine ⟨?_, ?_, ⟨h.outs.1, ?_⟩, ?_, ?_, h.pending_nil, h.closed⟩
  · exact h.counts.congr fun c hc => by rw [hf.arr _ (hn c hc)]
  · exact h.data.congr fun c hc => by rw [hf.val _ (hn c hc)]
  · intro d c
    rw [h.outs.2 d c]
    constructor
    · rintro ⟨a, b, e⟩; exact ⟨a, b, fun hh => e ((hf.dn _ (hn c a)).1 hh)⟩
    · rintro ⟨a, b, e⟩; exact ⟨a, b, fun hh => e ((hf.dn _ (hn c a)).2 hh)⟩
  · intro d hd
    obtain ⟨l, hl1, hl2, hl3⟩ := h.chan d hd
    refine ⟨l, hl1, ?_, ?_⟩
    · intro c; rw [hl2 c]
      constructor
      · rintro ⟨a, b, e⟩; exact ⟨a, b, (hf.fl _ (hn c a)).2 e⟩
      · rintro ⟨a, b, e⟩; exact ⟨a, b, (hf.fl _ (hn c a)).1 e⟩
    · exact forall₂_imp_mem hl3 fun m c hc hm => ⟨hm.1, by rw [hf.val _ (hn c ((hl2 c).1 hc).1)]; exact hm.2⟩
  · intro d hd
    have nb := neighbour_nb h2 h3 hd
    obtain ⟨l, hl1, hl2, hl3⟩ := h.pending d hd
    refine ⟨l, hl1, ?_, hl3⟩
    intro c; rw [hl2 c]
    by_cases hk : nb0 q0 d = k0 ∧ nb1 q1 d = k1
    · obtain ⟨e0, e1⟩ := hk
      rw [e0, e1]
      constructor
      · rintro ⟨a, b, e⟩; exact ⟨a, b, (hf.pend _ _ a b).2 e⟩
      · rintro ⟨a, b, e⟩; exact ⟨a, b, (hf.pend _ _ a b).1 e⟩
    · constructor
      · rintro ⟨a, b, e⟩
        have hn' := not_inPart hg h0 h1 nb.q0_lt nb.q1_lt hk a
        refine ⟨a, b, ?_⟩; rwa [hf.dn _ hn', hf.fl _ hn']
      · rintro ⟨a, b, e⟩
        have hn' := not_inPart hg h0 h1 nb.q0_lt nb.q1_lt hk a
        refine ⟨a, b, ?_⟩; rwa [hf.dn _ hn', hf.fl _ hn'] at e

end

end Lue.Router

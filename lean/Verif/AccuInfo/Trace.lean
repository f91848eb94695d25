import Verif.AccuInfo.Spec
import Verif.Router.Natural
import Verif.Router.Outcomes

/-! Besides classes, keep track of what arrived in cells. -/
namespace Lue.AccuInfo

open Lue.Routing Lue.InflowCount Lue.Router

/-- What happened to a cell: its partition and whether it is part of a stream that enters the partition, once it is solved,
and the same about each of the cells whose material arrived. -/
structure Trace where
  own : Option (Nat × Bool) := none
  arr : List (Nat × Bool) := []

/-- Material from another partition, or from a stream that enters the partition -/
def far (k : Nat) (a : Nat × Bool) : Bool := decide (a.1 ≠ k) || a.2

def enterTrace (k : Nat) (t : Trace) : Trace := { t with own := some (k, t.arr.any (far k)) }

def push (m : Nat × Bool) (t : Trace) : Trace := { t with arr := t.arr ++ [m] }

def traceOut (t : Trace) : Nat × Bool := t.own.getD (0, false)

def traceCells : CellAccumulator Trace (Nat × Bool) where
  init := {}
  enterInter := push
  enterCell := fun k _ t => .ok (enterTrace k t)
  leaveCell := fun a b => push (traceOut a) b
  outflow := traceOut
  markNoData := id

/-- Both -/
def bothCells : CellAccumulator (Nat × Trace) (Nat × (Nat × Bool)) where
  init := (0, {})
  enterInter := fun m s => (interPartitionStreamCell, push m.2 s.2)
  enterCell := fun k _ s => .ok (s.1, enterTrace k s.2)
  leaveCell := fun a b => (infoLeaveCell a.1 b.1, push (traceOut a.2) b.2)
  outflow := fun s => (s.1, traceOut s.2)
  markNoData := fun s => (noData, s.2)
  enterIntra := fun s => (intraPartitionStreamCell, s.2)
  leaveIntra := fun s => (ridgeCell, s.2)
  leaveInter := fun s => (infoLeaveInter s.1, s.2)
  stopSink := fun s => (sinkCell, s.2)
  stopConfluence := fun s => (confluenceCell, s.2)
  stopOutput := fun s => (partitionOutputCell, s.2)

theorem hom_info : Hom bothCells infoCells Prod.fst Prod.fst := by
  constructor <;> intros <;> rfl

theorem hom_trace : Hom bothCells traceCells Prod.snd Prod.snd := by
  constructor <;> intros <;> rfl

/-! ### Within a partition -/

abbrev PS := PState (Nat × Trace) (Nat × (Nat × Bool))

/-- Material that crosses a cell arrives here: whether the stream ends in the cell, and how. -/
def stopOf (x : Ctx) (c : Int × Int) : Option Nat :=
  match move (x.fd.getD (lin x.n1 c) 0) with
  | none => some sinkCell
  | some o => if InRange x.n0 x.n1 (step c o) then none else some partitionOutputCell

/-- The class while following a stream -/
def mid (b : Bool) : Nat := if b then interPartitionStreamCell else intraPartitionStreamCell

/-- The class of a cell, given what arrived last -/
def classOf (x : Ctx) (k : Nat) (c : Int × Int) : Option (Nat × Bool) → Nat
  | none => ridgeCell
  | some a => if a.1 ≠ k then infoLeaveInter ((stopOf x c).getD interPartitionStreamCell) else (stopOf x c).getD (mid a.2)

variable (isNoData : Nat → Bool)

/-- What is known about a cell. -/
structure CellOk (x : Ctx) (k : Nat) (b : Bool) (X : Prop) (c : Int × Int) (count : Option Nat) (s : Nat × Trace) : Prop where
  count : s.2.own ≠ none → count = some 0
  cls : s.2.own ≠ none → ¬ X → isNoData (x.fd.getD (lin x.n1 c) 0) = false → s.1 = classOf x k c s.2.arr.getLast?
  noData : s.1 = noData → isNoData (x.fd.getD (lin x.n1 c) 0) = true
  own : ∀ a, s.2.own = some a → a = (k, s.2.arr.any (far k))
  last : s.2.arr.any (far k) = true → ∃ a, s.2.arr.getLast? = some a ∧ far k a = true
  phase : b = false → s.2.arr.any (far k) = false

/-- What is known about a partition. The class of the cells in `X` has not been decided upon yet. -/
structure PartOk (x : Ctx) (k : Nat) (b : Bool) (X : Int × Int → Prop) (p : PS) : Prop where
  cell : ∀ c, InRange x.n0 x.n1 c → ∀ s, p.data[lin x.n1 c]? = some s →
    CellOk isNoData x k b (X c) c p.counts[lin x.n1 c]? s
  msgs : ∀ d m, m ∈ p.chan d → m.2.2.1 = k

/-- What does not change when following a stream that starts in cell `c`. -/
structure Untouched (x : Ctx) (c : Int × Int) (p p' : PS) : Prop where
  started : p'.started = p.started
  counts : ∀ c', InRange x.n0 x.n1 c' → p.counts[lin x.n1 c']? = some 0 → p'.counts[lin x.n1 c']? = some 0
  solved : ∀ c', InRange x.n0 x.n1 c' → c' ≠ c → p.counts[lin x.n1 c']? = some 0 →
    p'.data[lin x.n1 c']? = p.data[lin x.n1 c']?
  noArrival : ∀ c', InRange x.n0 x.n1 c' → c' ≠ c → ∀ s, p'.data[lin x.n1 c']? = some s → s.2.arr = [] →
    p.data[lin x.n1 c']? = some s

variable {isNoData}

theorem getLast?_push (m : Nat × Bool) (t : Trace) : (push m t).arr.getLast? = some m := by simp [push]

theorem any_push (k : Nat) (m : Nat × Bool) (t : Trace) : (push m t).arr.any (far k) = (t.arr.any (far k) || far k m) := by
  simp [push]

theorem getElem?_set_cases {α : Type} {l : List α} {i j : Nat} {a b : α} (h : (l.set i a)[j]? = some b) :
    (j = i ∧ b = a) ∨ (j ≠ i ∧ l[j]? = some b) := by
  rw [List.getElem?_set] at h
  split at h
  · rename_i he
    split at h
    · exact Or.inl ⟨he.symm, (Option.some.inj h).symm⟩
    · cases h
  · rename_i he
    exact Or.inr ⟨fun hj => he hj.symm, h⟩

theorem infoLeave_ne {a b : Nat} (hb : b ≠ noData) (ha : a ≠ noData) : infoLeaveCell a b = a := by
  simp [infoLeaveCell, hb, ha]

theorem mid_ne (b : Bool) : mid b ≠ noData := by cases b <;> decide

/-- Following a stream, `b` tells whether it entered the partition. -/
theorem stream_ok (hnd : ∀ code, isNoData code = true → move code = none) {x : Ctx} {k : Nat} (hk : x.k0 * x.m1 + x.k1 = k)
    {b : Bool} : ∀ {fuel : Nat} {c : Int × Int} {X : Int × Int → Prop} {p p' : PS} {s : Nat × Trace},
    accumulateLoop bothCells x fuel c p = .ok p' → PartOk isNoData x k b X p →
    p.data[lin x.n1 c]? = some s → s.2.own = none → s.2.arr.any (far k) = b →
    (isNoData (x.fd.getD (lin x.n1 c) 0) = false → s.1 = mid b) →
    InRange x.n0 x.n1 c ∧ PartOk isNoData x k b (fun c' => X c' ∨ c' = c) p' ∧ Untouched x c p p' ∧
      ∃ s', p'.data[lin x.n1 c]? = some s' ∧ s'.2 = enterTrace k s.2 ∧
        (isNoData (x.fd.getD (lin x.n1 c) 0) = false → s'.1 = (stopOf x c).getD (mid b)) := by
  intro fuel
  induction fuel with
  | zero => intro c X p p' s h; cases h
  | succ fuel ih =>
    intro c X p p' s h hp hs hown hfar hcls
    unfold accumulateLoop at h
    obtain ⟨⟨q, next⟩, h1, h⟩ := obind h
    obtain ⟨hc, s0, s1, code, hcount, hs0, hs1, hcode, hst, hcase⟩ := oaccumulateCell h1
    rw [hs] at hs0
    obtain rfl := Option.some.inj hs0
    have hs1 : s1 = (s.1, enterTrace k s.2) := by
      rw [hk] at hs1
      exact (Except.ok.inj hs1).symm
    have hcd : x.fd.getD (lin x.n1 c) 0 = code := by rw [List.getD_eq_getElem?_getD, hcode]; rfl
    have hlen : lin x.n1 c < p.data.length := (List.getElem?_eq_some_iff.1 hs).1
    have hcell := hp.cell c hc s hs
    -- The cell, once it is solved
    have hsolved : ∀ cl : Nat, (cl = noData → isNoData code = true) → ∀ X : Prop, X →
        CellOk isNoData x k b X c (some 0) (cl, enterTrace k s.2) := fun cl hcl X hX =>
      { count := fun _ => rfl
        cls := fun _ hx => absurd hX hx
        noData := by rw [hcd]; exact hcl
        own := fun a ha => (Option.some.inj ha).symm
        last := hcell.last
        phase := hcell.phase }
    have hinj : ∀ c', InRange x.n0 x.n1 c' → (lin x.n1 c' = lin x.n1 c ↔ c' = c) := fun c' hc' =>
      ⟨fun he => lin_inj hc' hc he, fun he => by rw [he]⟩
    have hreg : s.1 = noData → isNoData code = true := by rw [← hcd]; exact hcell.noData
    rcases hcase with ⟨hm, rfl, hd, hct, hch⟩ | ⟨o, hm, hr, rfl, hd, hct, hch⟩ | ⟨o, s2, n, hm, hr, hne, hs2, hn, hch, hct, hnext⟩
    · -- Sink
      obtain rfl := Except.ok.inj h
      rw [hs1] at hd
      have hstop : stopOf x c = some sinkCell := by unfold stopOf; rw [hcd, hm]
      refine ⟨hc, ⟨?_, ?_⟩, ⟨hst, ?_, ?_, ?_⟩, ?_⟩
      · intro c' hc' s' hs'
        rw [hd] at hs'
        rw [hct]
        rcases getElem?_set_cases hs' with ⟨he, rfl⟩ | ⟨he, hs'⟩
        · obtain rfl := (hinj c' hc').1 he
          rw [hcount]
          exact hsolved _ (by intro h; cases h) _ (Or.inr rfl)
        · have := hp.cell c' hc' s' hs'
          exact { this with cls := fun a hx => this.cls a (fun h => hx (Or.inl h)) }
      · intro d m hm'; rw [hch] at hm'; exact hp.msgs d m hm'
      · intro c' _ hz; rw [hct]; exact hz
      · intro c' hc' hne _
        rw [hd, List.getElem?_set_ne fun he => hne ((hinj c' hc').1 he.symm)]
      · intro c' hc' hne s' hs' _
        rwa [hd, List.getElem?_set_ne fun he => hne ((hinj c' hc').1 he.symm)] at hs'
      · refine ⟨(sinkCell, enterTrace k s.2), ?_, rfl, fun _ => by rw [hstop]; rfl⟩
        rw [hd]; exact List.getElem?_set_self hlen
    · -- Output
      obtain rfl := Except.ok.inj h
      rw [hs1] at hd hch
      have hstop : stopOf x c = some partitionOutputCell := by unfold stopOf; rw [hcd, hm]; simp [hr]
      refine ⟨hc, ⟨?_, ?_⟩, ⟨hst, ?_, ?_, ?_⟩, ?_⟩
      · intro c' hc' s' hs'
        rw [hd] at hs'
        rw [hct]
        rcases getElem?_set_cases hs' with ⟨he, rfl⟩ | ⟨he, hs'⟩
        · obtain rfl := (hinj c' hc').1 he
          rw [hcount]
          exact hsolved _ (by intro h; cases h) _ (Or.inr rfl)
        · have := hp.cell c' hc' s' hs'
          exact { this with cls := fun a hx => this.cls a (fun h => hx (Or.inl h)) }
      · intro d m hm'
        rcases hch d m hm' with hm' | hm'
        · exact hp.msgs d m hm'
        · rw [hm']; rfl
      · intro c' _ hz; rw [hct]; exact hz
      · intro c' hc' hne _
        rw [hd, List.getElem?_set_ne fun he => hne ((hinj c' hc').1 he.symm)]
      · intro c' hc' hne s' hs' _
        rwa [hd, List.getElem?_set_ne fun he => hne ((hinj c' hc').1 he.symm)] at hs'
      · refine ⟨(partitionOutputCell, enterTrace k s.2), ?_, rfl, fun _ => by rw [hstop]; rfl⟩
        rw [hd]; exact List.getElem?_set_self hlen
    · -- The stream continues
      have hregc : isNoData code = false := by
        cases hb : isNoData code with
        | false => rfl
        | true => rw [hnd code hb] at hm; cases hm
      have hcls' : s.1 = mid b := hcls (by rw [hcd]; exact hregc)
      have hstop : stopOf x c = none := by unfold stopOf; rw [hcd, hm]; simp [hr]
      have hcell2 := hp.cell _ hr s2 hs2
      have hun2 : s2.2.own = none := by
        by_contra hne'
        have := hcell2.count hne'
        rw [hn] at this
        cases this
      have hlen2 : lin x.n1 (step c o) < p.data.length := (List.getElem?_eq_some_iff.1 hs2).1
      have hclen2 : lin x.n1 (step c o) < p.counts.length := (List.getElem?_eq_some_iff.1 hn).1
      have hinj2 : ∀ c', InRange x.n0 x.n1 c' → (lin x.n1 c' = lin x.n1 (step c o) ↔ c' = step c o) := fun c' hc' =>
        ⟨fun he => lin_inj hc' hr he, fun he => by rw [he]⟩
      have hstep : step c o ≠ c := fun he => hne (by rw [he])
      have hout : traceOut (enterTrace k s.2) = (k, b) := by
        show (k, s.2.arr.any (far k)) = (k, b)
        rw [hfar]
      have hfark : far k (k, b) = b := by simp [far]
      have hleave : infoLeaveCell (mid b) s2.1 = noData → isNoData (x.fd.getD (lin x.n1 (step c o)) 0) = true := by
        intro he
        by_cases h2 : s2.1 = noData
        · exact hcell2.noData h2
        · rw [infoLeave_ne h2 (mid_ne b)] at he
          exact absurd he (mid_ne b)
      have hany : (push (k, b) s2.2).arr.any (far k) = b := by
        rw [any_push, hfark]
        cases b with
        | true => simp
        | false => rw [hcell2.phase rfl]; rfl
      have hstep_ok : ∀ cl : Nat, (cl = noData → isNoData (x.fd.getD (lin x.n1 (step c o)) 0) = true) →
          CellOk isNoData x k b (X (step c o) ∨ step c o = c) (step c o) (some n) (cl, push (k, b) s2.2) := fun cl hcl =>
        { count := fun hw => absurd hun2 hw
          cls := fun hw => absurd hun2 hw
          noData := hcl
          own := fun a ha => by
            have : s2.2.own = some a := ha
            rw [hun2] at this
            cases this
          last := fun hl => by
            refine ⟨(k, b), getLast?_push _ _, ?_⟩
            rw [hany] at hl
            rw [hfark, hl]
          phase := fun hb => by rw [hany, hb] }
      -- The state after the cell
      have key : ∀ (q : PS) (cl : Nat), (cl = noData → isNoData (x.fd.getD (lin x.n1 (step c o)) 0) = true) →
          q.data = (p.data.set (lin x.n1 c) s1).set (lin x.n1 (step c o)) (cl, push (k, b) s2.2) →
          q.counts = p.counts.set (lin x.n1 (step c o)) n → q.chan = p.chan → q.started = p.started →
          PartOk isNoData x k b (fun c' => X c' ∨ c' = c) q ∧ Untouched x c p q ∧ q.data[lin x.n1 c]? = some (mid b, enterTrace k s.2) ∧
            q.data[lin x.n1 (step c o)]? = some (cl, push (k, b) s2.2) ∧ q.counts[lin x.n1 c]? = some 0 := by
        intro q cl hcl hqd hqc hqch hqs
        have hget : ∀ c' s', InRange x.n0 x.n1 c' → q.data[lin x.n1 c']? = some s' →
            (c' = step c o ∧ s' = (cl, push (k, b) s2.2)) ∨ (c' = c ∧ s' = s1) ∨
              (c' ≠ step c o ∧ c' ≠ c ∧ p.data[lin x.n1 c']? = some s') := by
          intro c' s' hc' hs'
          rw [hqd] at hs'
          rcases getElem?_set_cases hs' with ⟨he, rfl⟩ | ⟨he, hs'⟩
          · exact Or.inl ⟨(hinj2 c' hc').1 he, rfl⟩
          · rcases getElem?_set_cases hs' with ⟨he', rfl⟩ | ⟨he', hs'⟩
            · exact Or.inr (Or.inl ⟨(hinj c' hc').1 he', rfl⟩)
            · exact Or.inr (Or.inr ⟨fun h => he ((hinj2 c' hc').2 h), fun h => he' ((hinj c' hc').2 h), hs'⟩)
        have hcnt : ∀ c', InRange x.n0 x.n1 c' → c' ≠ step c o → q.counts[lin x.n1 c']? = p.counts[lin x.n1 c']? := by
          intro c' hc' hne'
          rw [hqc, List.getElem?_set_ne fun he => hne' ((hinj2 c' hc').1 he.symm)]
        have hcs : s1 = (mid b, enterTrace k s.2) := by rw [hs1, hcls']
        have hqself : q.data[lin x.n1 (step c o)]? = some (cl, push (k, b) s2.2) := by
          rw [hqd]; exact List.getElem?_set_self (by simpa using hlen2)
        refine ⟨⟨?_, ?_⟩, ⟨hqs, ?_, ?_, ?_⟩, ?_, hqself, ?_⟩
        · intro c' hc' s' hs'
          rcases hget c' s' hc' hs' with ⟨rfl, rfl⟩ | ⟨rfl, rfl⟩ | ⟨h1', h2', h3'⟩
          · rw [hqc, List.getElem?_set_self hclen2]
            exact hstep_ok cl hcl
          · rw [hcnt c' hc' (Ne.symm hstep), hcount, hcs]
            exact hsolved _ (fun h => absurd h (mid_ne b)) _ (Or.inr rfl)
          · rw [hcnt c' hc' h1']
            have := hp.cell c' hc' s' h3'
            exact { this with cls := fun a hx => this.cls a (fun h => hx (Or.inl h)) }
        · intro d m hm'; rw [hqch] at hm'; exact hp.msgs d m hm'
        · intro c' hc' hz
          have : c' ≠ step c o := by rintro rfl; rw [hn] at hz; cases hz
          rw [hcnt c' hc' this]; exact hz
        · intro c' hc' hne' hz
          have h2' : c' ≠ step c o := by rintro rfl; rw [hn] at hz; cases hz
          rw [hqd, List.getElem?_set_ne fun he => h2' ((hinj2 c' hc').1 he.symm),
            List.getElem?_set_ne fun he => hne' ((hinj c' hc').1 he.symm)]
        · intro c' hc' hne' s' hs' harr
          rcases hget c' s' hc' hs' with ⟨rfl, rfl⟩ | ⟨rfl, rfl⟩ | ⟨h1', h2', h3'⟩
          · simp [push] at harr
          · exact absurd rfl hne'
          · exact h3'
        · rw [hqd, List.getElem?_set_ne hne, List.getElem?_set_self hlen, hcs]
        · rw [hcnt c hc (Ne.symm hstep), hcount]
      have hbl : bothCells.leaveCell s1 s2 = (infoLeaveCell (mid b) s2.1, push (k, b) s2.2) := by
        show (infoLeaveCell s1.1 s2.1, push (traceOut s1.2) s2.2) = _
        rw [hs1, hcls', hout]
      rcases hnext with ⟨rfl, rfl, hd⟩ | ⟨hpos, rfl, hd⟩
      · rw [hbl] at hd
        obtain ⟨k1, k2, k3, k4, k5⟩ := key q _ hleave hd hct hch hst
        obtain ⟨_, i1, i2, s', i3, i4, i5⟩ := ih h k1 k4 hun2 hany (by
          intro hreg'
          by_cases h2 : s2.1 = noData
          · rw [hcell2.noData h2] at hreg'; cases hreg'
          · exact infoLeave_ne h2 (mid_ne b))
        refine ⟨hc, ⟨?_, i1.msgs⟩, ⟨i2.started.trans k2.started, ?_, ?_, ?_⟩, ?_⟩
        · intro c' hc' s'' hs''
          have := i1.cell c' hc' s'' hs''
          by_cases he : c' = step c o
          · subst he
            rw [i3] at hs''
            obtain rfl := Option.some.inj hs''
            refine { this with cls := fun _ _ hreg' => ?_ }
            rw [i5 hreg', i4]
            show _ = classOf x k (step c o) (push (k, b) s2.2).arr.getLast?
            rw [getLast?_push]
            simp [classOf]
          · exact { this with cls := fun a hx => this.cls a (fun h => h.elim hx he) }
        · exact fun c' hc' hz => i2.counts c' hc' (k2.counts c' hc' hz)
        · intro c' hc' hne' hz
          have hz2 := k2.counts c' hc' hz
          have : c' ≠ step c o := by rintro rfl; rw [hn] at hz; cases hz
          rw [i2.solved c' hc' this hz2, k2.solved c' hc' hne' hz]
        · intro c' hc' hne' s'' hs'' harr
          by_cases he : c' = step c o
          · subst he
            rw [i3] at hs''
            obtain rfl := Option.some.inj hs''
            rw [i4] at harr
            simp [enterTrace, push] at harr
          · exact k2.noArrival c' hc' hne' s'' (i2.noArrival c' hc' he s'' hs'' harr) harr
        · refine ⟨(mid b, enterTrace k s.2), ?_, rfl, fun _ => by rw [hstop]; rfl⟩
          rw [i2.solved c hc (Ne.symm hstep) k5, k3]
      · have hbl2 : bothCells.stopConfluence (bothCells.leaveCell s1 s2) = (confluenceCell, push (k, b) s2.2) := by
          rw [hbl]; rfl
        rw [hbl2] at hd
        obtain rfl := Except.ok.inj h
        obtain ⟨k1, k2, k3, _, _⟩ := key q _ (by intro h; cases h) hd hct hch hst
        exact ⟨hc, k1, k2, _, k3, rfl, fun _ => by rw [hstop]; rfl⟩

/-- Only the class of a cell changes. -/
theorem PartOk.reclass {x : Ctx} {k : Nat} {b : Bool} {X Y : Int × Int → Prop} {p : PS} (hp : PartOk isNoData x k b X p)
    {c : Int × Int} (hc : InRange x.n0 x.n1 c) {s : Nat × Trace} (hs : p.data[lin x.n1 c]? = some s) {cl : Nat}
    (hX : ∀ c', InRange x.n0 x.n1 c' → c' ≠ c → X c' → Y c') (hnd : cl = noData → isNoData (x.fd.getD (lin x.n1 c) 0) = true)
    (hcl : s.2.own ≠ none → ¬ Y c → isNoData (x.fd.getD (lin x.n1 c) 0) = false → cl = classOf x k c s.2.arr.getLast?) :
    PartOk isNoData x k b Y { p with data := p.data.set (lin x.n1 c) (cl, s.2) } := by
  refine ⟨?_, hp.msgs⟩
  intro c' hc' s' hs'
  rcases getElem?_set_cases hs' with ⟨he, rfl⟩ | ⟨he, hs'⟩
  · obtain rfl := lin_inj hc' hc he
    have := hp.cell c' hc s hs
    exact ⟨this.count, hcl, hnd, this.own, this.last, this.phase⟩
  · have := hp.cell c' hc' s' hs'
    exact { this with cls := fun a hy => this.cls a (fun hx => hy (hX c' hc' (fun hn => he (by rw [hn])) hx)) }

/-- What is known while the cells of a partition are visited. `V` are the cells which have been visited. -/
structure LoopOk (isNoData : Nat → Bool) (x : Ctx) (k : Nat) (counts0 : List Nat) (V : Int × Int → Prop) (p : PS) : Prop where
  ok : PartOk isNoData x k false (fun _ => False) p
  zero : ∀ c, InRange x.n0 x.n1 c → counts0[lin x.n1 c]? = some 0 → p.counts[lin x.n1 c]? = some 0 ∧
    ∀ s, p.data[lin x.n1 c]? = some s → s.2.arr = []
  fresh : ∀ c, InRange x.n0 x.n1 c → ∀ s, p.data[lin x.n1 c]? = some s → s.2.arr = [] → s.2.own ≠ none → V c
  marked : ∀ c, InRange x.n0 x.n1 c → V c → isNoData (x.fd.getD (lin x.n1 c) 0) = true →
    ∀ s, p.data[lin x.n1 c]? = some s → s.2.arr = [] → s.2.own = none → s.1 = noData

theorem intraCell_ok (hnd : ∀ code, isNoData code = true → move code = none) {x : Ctx} {k : Nat} (hk : x.k0 * x.m1 + x.k1 = k)
    {counts0 : List Nat} {V : Int × Int → Prop} {i j : Int} {p p' : PS}
    (h : intraCell bothCells isNoData x counts0 i j p = .ok p') (hp : LoopOk isNoData x k counts0 V p) (hV : ¬ V (i, j)) :
    LoopOk isNoData x k counts0 (fun c => V c ∨ c = (i, j)) p' := by
  unfold intraCell at h
  obtain ⟨e, h1, h⟩ := obind h
  obtain ⟨hc, rfl⟩ := oat2 (c := (i, j)) h1
  obtain ⟨code, h2, h⟩ := obind h
  have hcd : x.fd.getD (lin x.n1 (i, j)) 0 = code := by rw [List.getD_eq_getElem?_getD, ord h2]; rfl
  split at h
  · rename_i hn
    obtain ⟨s, h3, h⟩ := obind h
    have h3 := ord h3
    obtain ⟨data, h4, h⟩ := obind h
    obtain ⟨hlen, rfl⟩ := owr h4
    obtain rfl := Except.ok.inj h
    refine ⟨hp.ok.reclass hc h3 (fun _ _ _ h => h) (fun _ => by rw [hcd]; exact hn) (fun _ _ hr => ?_), ?_, ?_, ?_⟩
    · rw [hcd, hn] at hr; cases hr
    · intro c hc' hz
      refine ⟨(hp.zero c hc' hz).1, fun s' hs' => ?_⟩
      rcases getElem?_set_cases hs' with ⟨he, rfl⟩ | ⟨he, hs'⟩
      · obtain rfl := lin_inj hc' hc he
        exact (hp.zero _ hc hz).2 s h3
      · exact (hp.zero c hc' hz).2 s' hs'
    · intro c hc' s' hs' ha ho
      rcases getElem?_set_cases hs' with ⟨he, rfl⟩ | ⟨he, hs'⟩
      · exact Or.inr (lin_inj hc' hc he)
      · exact Or.inl (hp.fresh c hc' s' hs' ha ho)
    · intro c hc' hv hr s' hs' ha ho
      rcases getElem?_set_cases hs' with ⟨he, rfl⟩ | ⟨he, hs'⟩
      · rfl
      · exact hp.marked c hc' (hv.resolve_right fun hn => he (by rw [hn])) hr s' hs' ha ho
  · rename_i hn
    have hn : isNoData code = false := by simpa using hn
    have hreg : isNoData (x.fd.getD (lin x.n1 (i, j)) 0) = false := by rw [hcd]; exact hn
    obtain ⟨count, h3, h⟩ := obind h
    split at h
    · rename_i hz
      rw [hz] at h3
      have h3 := ord h3
      obtain ⟨hz1, hz2⟩ := hp.zero (i, j) hc h3
      obtain ⟨q, h4, h⟩ := obind h
      obtain ⟨s, h5, rfl⟩ := ohook h4
      have ha : s.2.arr = [] := hz2 s h5
      have ho : s.2.own = none := by
        by_contra ho
        exact hV (hp.fresh (i, j) hc s h5 ha ho)
      obtain ⟨r, h6, h⟩ := obind h
      have hlen : lin x.n1 (i, j) < p.data.length := (List.getElem?_eq_some_iff.1 h5).1
      have hq : PartOk isNoData x k false (fun _ => False)
          { p with data := p.data.set (lin x.n1 (i, j)) (intraPartitionStreamCell, s.2) } :=
        hp.ok.reclass hc h5 (fun _ _ _ h => h) (fun h => by cases h) (fun h => absurd ho h)
      obtain ⟨_, i1, i2, s', i3, i4, i5⟩ := stream_ok hnd hk (s := (intraPartitionStreamCell, s.2)) h6 hq
        (List.getElem?_set_self hlen) ho (by show s.2.arr.any _ = false; rw [ha]; rfl) (fun _ => rfl)
      obtain ⟨s'', h7, rfl⟩ := ohook h
      rw [i3] at h7
      obtain rfl := Option.some.inj h7
      have hlen2 : lin x.n1 (i, j) < r.data.length := (List.getElem?_eq_some_iff.1 i3).1
      have ha' : s'.2.arr = [] := by rw [i4]; exact ha
      have hback : ∀ c, InRange x.n0 x.n1 c → c ≠ (i, j) → ∀ s2, r.data[lin x.n1 c]? = some s2 → s2.2.arr = [] →
          p.data[lin x.n1 c]? = some s2 := by
        intro c hc' hne s2 hs2 ha2
        have := i2.noArrival c hc' hne s2 hs2 ha2
        rcases getElem?_set_cases this with ⟨he, _⟩ | ⟨he, hs3⟩
        · exact absurd (lin_inj hc' hc he) hne
        · exact hs3
      refine ⟨i1.reclass hc i3 (fun c _ hne h => h.elim (fun h => h) hne) (fun h => by cases h) (fun _ _ _ => by rw [ha']; rfl),
        ?_, ?_, ?_⟩
      · intro c hc' hz'
        obtain ⟨z1, z2⟩ := hp.zero c hc' hz'
        refine ⟨i2.counts c hc' z1, fun s2 hs2 => ?_⟩
        rcases getElem?_set_cases hs2 with ⟨he, rfl⟩ | ⟨he, hs2⟩
        · exact ha'
        · have hne : c ≠ (i, j) := fun hn => he (by rw [hn])
          rw [i2.solved c hc' hne z1] at hs2
          rcases getElem?_set_cases hs2 with ⟨he', _⟩ | ⟨_, hs3⟩
          · exact absurd he' he
          · exact z2 s2 hs3
      · intro c hc' s2 hs2 ha2 ho2
        rcases getElem?_set_cases hs2 with ⟨he, rfl⟩ | ⟨he, hs2⟩
        · exact Or.inr (lin_inj hc' hc he)
        · exact Or.inl (hp.fresh c hc' s2 (hback c hc' (fun hn => he (by rw [hn])) s2 hs2 ha2) ha2 ho2)
      · intro c hc' hv hr s2 hs2 ha2 ho2
        rcases getElem?_set_cases hs2 with ⟨he, rfl⟩ | ⟨he, hs2⟩
        · obtain rfl := lin_inj hc' hc he
          rw [hreg] at hr; cases hr
        · have hne : c ≠ (i, j) := fun hn => he (by rw [hn])
          exact hp.marked c hc' (hv.resolve_right hne) hr s2 (hback c hc' hne s2 hs2 ha2) ha2 ho2
    · obtain rfl := Except.ok.inj h
      refine ⟨hp.ok, hp.zero, fun c hc' s hs ha ho => Or.inl (hp.fresh c hc' s hs ha ho), fun c hc' hv hr s hs ha ho => ?_⟩
      rcases hv with hv | rfl
      · exact hp.marked c hc' hv hr s hs ha ho
      · rw [hreg] at hr; cases hr

/-- What is known about a partition, for each partition and at any time. -/
def PInv (isNoData : Nat → Bool) (x : Ctx) (k : Nat) (p : PS) : Prop :=
  (p.started = false → (∀ s ∈ p.data, s = (0, {})) ∧ ∀ d, p.chan d = []) ∧
  (p.started = true → PartOk isNoData x k true (fun _ => False) p ∧
    ∀ c, InRange x.n0 x.n1 c → isNoData (x.fd.getD (lin x.n1 c) 0) = true →
      ∀ s, p.data[lin x.n1 c]? = some s → s.2.arr = [] → s.2.own = none → s.1 = noData)

theorem LoopOk.congr {x : Ctx} {k : Nat} {counts0 : List Nat} {V V' : Int × Int → Prop} {p : PS}
    (h : LoopOk isNoData x k counts0 V p) (hV : ∀ c, InRange x.n0 x.n1 c → (V c ↔ V' c)) : LoopOk isNoData x k counts0 V' p :=
  ⟨h.ok, h.zero, fun c hc s hs ha ho => (hV c hc).1 (h.fresh c hc s hs ha ho),
    fun c hc hv => h.marked c hc ((hV c hc).2 hv)⟩

theorem forLoop_of_ok {α : Type} (inv : Nat → α → Prop) {body : Nat → α → M α} {s : α} (h0 : inv 0 s) : ∀ {n : Nat} {s' : α},
    (∀ i < n, ∀ a a', inv i a → body i a = .ok a' → inv (i + 1) a') → forLoop n body s = .ok s' → inv n s' := by
  intro n
  induction n with
  | zero => intro s' _ h; obtain rfl := Except.ok.inj h; exact h0
  | succ n ih =>
    intro s' hb h
    unfold forLoop at h ih
    rw [List.range_succ, List.foldlM_append] at h
    obtain ⟨a, h1, h⟩ := obind h
    simp only [List.foldlM_cons, List.foldlM_nil] at h
    obtain ⟨a', h2, h⟩ := obind h
    obtain rfl := Except.ok.inj h
    exact hb n (by omega) a a' (ih (fun i hi => hb i (by omega)) h1) h2

theorem solveIntra_ok (hnd : ∀ code, isNoData code = true → move code = none) {x : Ctx} {k : Nat} (hk : x.k0 * x.m1 + x.k1 = k)
    {p p' : PS} (h : solveIntra bothCells isNoData x p = .ok p') (hs : p.started = false) (hp : PInv isNoData x k p) :
    PInv isNoData x k p' := by
  obtain ⟨hdata, hchan⟩ := hp.1 hs
  have hall : ∀ c s, p.data[lin x.n1 c]? = some s → s = (0, {}) := fun c s h => hdata s (List.mem_of_getElem? h)
  have hinit : LoopOk isNoData x k p.counts (fun c => c.1 < ((0 : Nat) : Int) ∨ (c.1 = ((0 : Nat) : Int) ∧ c.2 < ((0 : Nat) : Int))) p := by
    refine ⟨⟨?_, fun d m hm => by rw [hchan] at hm; cases hm⟩, ?_, ?_, ?_⟩
    · intro c hc s hs
      obtain rfl := hall c s hs
      exact ⟨fun h => absurd rfl h, fun h => absurd rfl h, (by intro h; cases h), (by intro a h; cases h), (by intro h; cases h),
        fun _ => rfl⟩
    · exact fun c hc hz => ⟨hz, fun s hs => by rw [hall c s hs]⟩
    · exact fun c hc s hs _ ho => absurd (by rw [hall c s hs]) ho
    · intro c hc hv
      have := hc.1
      have := hc.2.2.1
      simp only [Nat.cast_zero] at hv
      omega
  unfold solveIntra at h
  obtain ⟨q, h1, h⟩ := obind h
  obtain rfl := Except.ok.inj h
  have hloop := forLoop_of_ok
    (fun i => LoopOk isNoData x k p.counts (fun c => c.1 < (i : Int) ∨ (c.1 = (i : Int) ∧ c.2 < ((0 : Nat) : Int)))) hinit
    (fun i _ a a' ha hb => by
      have := forLoop_of_ok
        (fun j => LoopOk isNoData x k p.counts (fun c => c.1 < (i : Int) ∨ (c.1 = (i : Int) ∧ c.2 < (j : Int)))) ha
        (fun j _ a a' ha hb => by
          refine (intraCell_ok hnd hk hb ha (by simp)).congr fun c _ => ?_
          obtain ⟨c1, c2⟩ := c
          simp only [Prod.mk.injEq, Nat.cast_add, Nat.cast_one]
          omega) hb
      refine this.congr fun c hc => ?_
      have := hc.2.2.2
      have := hc.2.2.1
      simp only [Nat.cast_add, Nat.cast_one, Nat.cast_zero]
      omega) h1
  refine ⟨(fun hc => by cases hc), fun _ => ⟨⟨fun c hc s hs => ?_, hloop.ok.msgs⟩, fun c hc => ?_⟩⟩
  · have := hloop.ok.cell c hc s hs
    exact { this with phase := fun h => by cases h }
  · exact hloop.marked c hc (Or.inl hc.2.1)

theorem receive_ok (hnd : ∀ code, isNoData code = true → move code = none) {x : Ctx} {k : Nat} (hk : x.k0 * x.m1 + x.k1 = k)
    {d : Dir} {m : Int × (Nat × (Nat × Bool))} {p p' : PS} (h : receiveMaterial bothCells x d m p = .ok p')
    (hs : p.started = true) (hm : m.2.2.1 ≠ k) (hp : PInv isNoData x k p) : p'.started = true ∧ PInv isNoData x k p' := by
  obtain ⟨hok, hmark⟩ := hp.2 hs
  unfold receiveMaterial at h
  obtain ⟨_, _, h⟩ := obind h
  obtain ⟨e, h1, h⟩ := obind h
  obtain ⟨hc, rfl⟩ := oat2 h1
  generalize convert x.n0 x.n1 d m.1 = c at *
  obtain ⟨count, h2, h⟩ := obind h
  have h2 := ord h2
  obtain ⟨_, h3, h⟩ := obind h
  have h3 := ocheck h3
  obtain ⟨s, h4, h⟩ := obind h
  have h4 := ord h4
  obtain ⟨data, h5, h⟩ := obind h
  obtain ⟨hlen, rfl⟩ := owr h5
  obtain ⟨counts, h6, h⟩ := obind h
  obtain ⟨hclen, rfl⟩ := owr h6
  have hfar : far k m.2.2 = true := by simp [far, hm]
  have hcell := hok.cell c hc s h4
  have hown : s.2.own = none := by
    by_contra ho
    have := hcell.count ho
    simp only at h2
    rw [h2] at this
    have := Option.some.inj this
    omega
  have hany : (push m.2.2 s.2).arr.any (far k) = true := by rw [any_push, hfar, Bool.or_true]
  have hq : PartOk isNoData x k true (fun _ => False) { p with
      pending := Function.update p.pending d ((p.pending d).erase c)
      data := p.data.set (lin x.n1 c) (interPartitionStreamCell, push m.2.2 s.2)
      counts := p.counts.set (lin x.n1 c) (count - 1) } := by
    refine ⟨?_, hok.msgs⟩
    intro c' hc' s' hs'
    rcases getElem?_set_cases hs' with ⟨he, rfl⟩ | ⟨he, hs'⟩
    · obtain rfl := lin_inj hc' hc he
      exact ⟨fun h => absurd hown h, fun h => absurd hown h, (by intro h; cases h),
        (fun a ha => by
          have : s.2.own = some a := ha
          rw [hown] at this
          cases this),
        fun _ => ⟨m.2.2, getLast?_push _ _, hfar⟩, fun h => by cases h⟩
    · have := hok.cell c' hc' s' hs'
      dsimp only
      rwa [List.getElem?_set_ne (Ne.symm he)]
  have hmark' : ∀ c', InRange x.n0 x.n1 c' → isNoData (x.fd.getD (lin x.n1 c') 0) = true →
      ∀ s', (p.data.set (lin x.n1 c) (interPartitionStreamCell, push m.2.2 s.2))[lin x.n1 c']? = some s' → s'.2.arr = [] →
        s'.2.own = none → s'.1 = noData := by
    intro c' hc' hn s' hs' ha ho
    rcases getElem?_set_cases hs' with ⟨he, rfl⟩ | ⟨he, hs'⟩
    · simp [push] at ha
    · exact hmark c' hc' hn s' hs' ha ho
  split at h
  · obtain ⟨r, h7, h⟩ := obind h
    obtain ⟨_, i1, i2, s', i3, i4, i5⟩ := stream_ok hnd hk (s := (interPartitionStreamCell, push m.2.2 s.2)) h7 hq
      (List.getElem?_set_self hlen) hown hany (fun _ => rfl)
    obtain ⟨s'', h8, rfl⟩ := ohook h
    rw [i3] at h8
    obtain rfl := Option.some.inj h8
    have hst : r.started = true := i2.started.trans hs
    refine ⟨hst, fun hn => ?_, fun _ => ⟨?_, ?_⟩⟩
    · have hn : r.started = false := hn
      rw [hst] at hn; cases hn
    · refine i1.reclass hc i3 (fun c _ hne h => h.elim (fun h => h) hne) ?_ ?_
      · intro h
        exfalso
        have : infoLeaveInter s'.1 = noData := h
        unfold infoLeaveInter at this
        split at this <;> cases this
      · intro _ _ hr
        show infoLeaveInter s'.1 = _
        rw [i5 hr, i4]
        show _ = classOf x k c (push m.2.2 s.2).arr.getLast?
        rw [getLast?_push]
        simp [classOf, hm, mid]
    · intro c' hc' hn s2 hs2 ha ho
      rcases getElem?_set_cases hs2 with ⟨he, rfl⟩ | ⟨he, hs2⟩
      · have ha : s'.2.arr = [] := ha
        rw [i4] at ha
        simp [push, enterTrace] at ha
      · exact hmark' c' hc' hn s2 (i2.noArrival c' hc' (fun hn => he (by rw [hn])) s2 hs2 ha) ha ho
  · obtain rfl := Except.ok.inj h
    exact ⟨hs, (fun hn => by have hn : p.started = false := hn; rw [hs] at hn; cases hn), fun _ => ⟨hq, hmark'⟩⟩

end Lue.AccuInfo

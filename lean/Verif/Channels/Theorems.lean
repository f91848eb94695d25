import Verif.Channels.Reach
import Mathlib.Logic.Relation

/-!
# Concurrent routing operations do not mix up each other's values

The process is in any state it can reach, whatever operations were called, in whatever order, and however their tasks, the
requests to AGAS, and the unregistering of names were scheduled.
-/

namespace Lue.Channels

open Lue.InflowCount (Dir hasNeighbour directions)

variable {V : Type}

/-- What a partition obtains from a direction is what the partition that lies in this direction, of the same array of
communicators of the same operation, sent in the opposite direction: the same values, in the same order. The last ones can
still be under way. -/
theorem received_from_neighbour {s : State V} (h : Reachable s) {a p q : Nat} {x : CommArray} {d e : Dir}
    (hx : s.arrays[a]? = some x) (hl : Lies x.m0 x.m1 p d q) (he : Opposite d e) :
    gots s.log a p d <+: sents s.log a q e := by
  obtain ⟨own, hw, hf⟩ := reachable_inv h
  obtain rfl := opposite_unique he
  obtain ⟨ch, ho⟩ := Option.isSome_iff_exists.mp ((hw.own_iff a x hx q d.sender).mpr ⟨p, hl.symm⟩)
  exact ⟨s.queue ch, hf.flow a x p q d ch hx hl ho⟩

/-- Nothing is obtained from a direction in which there is no neighbour, and nothing is sent there -/
theorem exchange_with_neighbours {s : State V} (h : Reachable s) {a p : Nat} {d : Dir} {v : V}
    (hev : .got a p d v ∈ s.log ∨ .sent a p d v ∈ s.log) :
    ∃ (x : CommArray) (q : Nat), s.arrays[a]? = some x ∧ Lies x.m0 x.m1 p d q := by
  obtain ⟨own, hw, hf⟩ := reachable_inv h
  exact hev.elim (hf.gotten a p d v) (hf.sending a p d v)

/-- A partition that is told that no more values follow has obtained everything the neighbour sent, and the neighbour has
closed its side -/
theorem ended_complete {s : State V} (h : Reachable s) {a p : Nat} {d : Dir} (hev : .ended a p d ∈ s.log) :
    ∃ (x : CommArray) (q : Nat) (e : Dir), s.arrays[a]? = some x ∧ Lies x.m0 x.m1 p d q ∧ Opposite d e ∧
      .closed a q e ∈ s.log ∧ gots s.log a p d = sents s.log a q e := by
  obtain ⟨own, hw, hf⟩ := reachable_inv h
  obtain ⟨x, q, ch, hx, hl, ho, hq, hc⟩ := hf.ended a p d hev
  refine ⟨x, q, d.sender, hx, hl, sender_opposite d, (hf.closed a q _ ch ho).mp hc, ?_⟩
  have := hf.flow a x p q d ch hx hl ho
  rw [hq, List.append_nil] at this
  exact this

/-- Each partition has a channel to and a channel from each of its neighbours, and none in the other directions -/
theorem channels_to_neighbours {s : State V} (h : Reachable s) {a p : Nat} {x : CommArray}
    (hx : s.arrays[a]? = some x) (hp : p < x.m0 * x.m1) :
    ∃ c : Comm, x.tasks[p]? = some c ∧ ∀ d, ((c.send d).isSome = true ↔ ∃ q, Lies x.m0 x.m1 p d q) ∧
      ((c.recv d).isSome = true ↔ ∃ q, Lies x.m0 x.m1 p d q) := by
  obtain ⟨own, hw, hf⟩ := reachable_inv h
  obtain ⟨h1, h2⟩ := hw.tasks a x hx
  have hlt : p < x.tasks.length := by rw [h1]; exact hp
  refine ⟨x.tasks[p], List.getElem?_eq_getElem hlt, fun d => ?_⟩
  obtain ⟨h3, h4⟩ := h2 p _ (List.getElem?_eq_getElem hlt)
  refine ⟨by rw [h3]; exact hw.own_iff a x hx p d, ?_, ?_⟩
  · intro hr
    cases hc : x.tasks[p].recv d with
    | none => rw [hc] at hr; cases hr
    | some c =>
      cases c with
      | waiting key => obtain ⟨q, hq, -⟩ := (h4 d).waiting key hc; exact ⟨q, hq⟩
      | ready ch => obtain ⟨q, hq, -⟩ := (h4 d).ready ch hc; exact ⟨q, hq⟩
  · intro hq
    cases hc : x.tasks[p].recv d with
    | none => exact absurd hq ((h4 d).none hc)
    | some c => rfl

/-- A name under which a channel is about to be registered is not in use: registering does not fail -/
theorem register_succeeds {s : State V} (h : Reachable s) {key : Key} {ch : Nat}
    (hr : .register key ch ∈ s.setup.reqs) : s.table key = none := by
  obtain ⟨own, hw, -⟩ := reachable_inv h
  cases ht : s.table key with
  | none => rfl
  | some ch' =>
    exfalso
    obtain ⟨a, x, p, d, hx, ho, hk⟩ := hw.regs key ch hr
    obtain ⟨b, y, q, e, hy, ho', hk'⟩ := hw.table key ch' ht
    obtain ⟨rfl, rfl, rfl⟩ := hw.keyOf_inj hx hy (hk.symm.trans hk')
    rw [ho] at ho'
    obtain rfl := Option.some.inj ho'
    exact hw.done key ch ht (List.mem_filterMap.mpr ⟨_, hr, rfl⟩)

/-- Unregistering the names of an array of communicators does not affect the names of another one -/
theorem unregister_own {s : State V} (h : Reachable s) {key : Key} (hr : .unregister key ∈ s.setup.reqs) {a p : Nat}
    {x : CommArray} {c : Comm} {d : Dir} (hx : s.arrays[a]? = some x) (hu : .unregistered a ∉ s.log)
    (hc : x.tasks[p]? = some c) : c.recv d ≠ some (.waiting key) := by
  obtain ⟨own, hw, -⟩ := reachable_inv h
  intro hwait
  obtain ⟨q, -, hk⟩ := (((hw.tasks a x hx).2 p c hc).2 d).waiting key hwait
  obtain ⟨b, y, q', e, hy, hk', hub⟩ := hw.unregs key hr
  obtain ⟨rfl, -, -⟩ := hw.keyOf_inj hx hy (hk.symm.trans hk')
  exact hu hub

/-- Zero or more steps -/
abbrev Steps : State V → State V → Prop := Relation.ReflTransGen Step

theorem Steps.reachable {s t : State V} (h : Reachable s) (hst : Steps s t) : Reachable t := by
  induction hst with
  | refl => exact h
  | tail _ hst ih => exact .step ih hst

/-- A receive channel whose name is in the table -/
theorem resolve_possible {s : State V} {a p : Nat} {x : CommArray} {c : Comm} {d : Dir} {key : Key} {ch : Nat}
    (hx : s.arrays[a]? = some x) (hc : x.tasks[p]? = some c) (hw : c.recv d = some (.waiting key))
    (hk : s.table key = some ch) :
    ∃ (s' : State V) (x' : CommArray) (c' : Comm), Steps s s' ∧ s'.log = s.log ∧
      s'.arrays[a]? = some x' ∧ SameArray x x' ∧ x'.tasks[p]? = some c' ∧ c'.recv d = some (.ready ch) := by
  refine ⟨_, _, _, Relation.ReflTransGen.single (Step.resolve s a p x c d key ch hx hc hw hk), rfl,
    get_set_self hx, ⟨rfl, rfl, rfl, rfl⟩, get_set_self hc, ?_⟩
  simp [Comm.resolve, put]

/-- Each receive channel can become ready, as long as the names are not unregistered -/
theorem ready_possible {s : State V} (h : Reachable s) {a p q : Nat} {x : CommArray} {d : Dir}
    (hx : s.arrays[a]? = some x) (hl : Lies x.m0 x.m1 p d q) (hu : .unregistered a ∉ s.log) :
    ∃ (s' : State V) (x' : CommArray) (c' : Comm) (ch : Nat), Steps s s' ∧ s'.log = s.log ∧
      s'.arrays[a]? = some x' ∧ SameArray x x' ∧ x'.tasks[p]? = some c' ∧ c'.recv d = some (.ready ch) := by
  obtain ⟨c, hc, hd⟩ := channels_to_neighbours h hx hl.lt.1
  obtain ⟨own, hw, hf⟩ := reachable_inv h
  obtain ⟨cl, hcl⟩ := Option.isSome_iff_exists.mp ((hd d).2.mpr ⟨q, hl⟩)
  cases cl with
  | ready ch => exact ⟨s, x, c, ch, .refl, rfl, hx, ⟨rfl, rfl, rfl, rfl⟩, hc, hcl⟩
  | waiting key =>
    obtain ⟨q', hl', hk⟩ := (((hw.tasks a x hx).2 p c hc).2 d).waiting key hcl
    obtain ⟨ch, ho⟩ := Option.isSome_iff_exists.mp ((hw.own_iff a x hx q' d.sender).mpr ⟨p, hl'.symm⟩)
    rcases hw.live a x q' d.sender ch hx hu ho with ht | hr
    · rw [← hk] at ht
      obtain ⟨s', x', c', h'⟩ := resolve_possible hx hc hcl ht
      exact ⟨s', x', c', ch, h'⟩
    · rw [← hk] at hr
      have hnone := register_succeeds h hr
      obtain ⟨before, after, hreqs⟩ := List.append_of_mem hr
      have hstep := Step.agas s (.register key ch) before after hreqs
      have ht : handle (.register key ch) s.table key = some ch := by simp [handle, hnone]
      obtain ⟨s', x', c', h1, h2⟩ := resolve_possible
        (s := { s with setup := { s.setup with reqs := before ++ after }, table := handle (.register key ch) s.table })
        hx hc hcl ht
      exact ⟨s', x', c', ch, (Relation.ReflTransGen.single hstep).trans h1, h2⟩

/-- Obtain everything that is waiting in a channel -/
theorem drain : ∀ (vs : List V) (s : State V) (a p : Nat) (x : CommArray) (c : Comm) (d : Dir) (ch : Nat),
    s.arrays[a]? = some x → x.tasks[p]? = some c → c.recv d = some (.ready ch) → s.queue ch = vs →
    ∃ s' : State V, Steps s s' ∧ gots s'.log a p d = gots s.log a p d ++ vs := by
  intro vs
  induction vs with
  | nil => intro s a p x c d ch hx hc hr hq; exact ⟨s, .refl, by simp⟩
  | cons v vs ih =>
    intro s a p x c d ch hx hc hr hq
    have hstep := Step.get s a p x c d ch v vs hx hc hr hq
    obtain ⟨s', h1, h2⟩ := ih
      { s with queue := fun k => if k = ch then vs else s.queue k, log := s.log ++ [.got a p d v] } a p x c d ch hx hc hr
      (show (if ch = ch then vs else s.queue ch) = vs by simp)
    refine ⟨s', (Relation.ReflTransGen.single hstep).trans h1, ?_⟩
    rw [h2]
    simp only []
    rw [gots_append]
    simp [Event.got?]

/-- Nothing gets lost: as long as the names are not unregistered, everything that is sent can be obtained by the neighbour -/
theorem delivery_possible {s : State V} (h : Reachable s) {a p q : Nat} {x : CommArray} {d e : Dir}
    (hx : s.arrays[a]? = some x) (hl : Lies x.m0 x.m1 p d q) (he : Opposite d e) (hu : .unregistered a ∉ s.log) :
    ∃ s' : State V, Steps s s' ∧ gots s'.log a p d = sents s.log a q e := by
  obtain rfl := opposite_unique he
  obtain ⟨s1, x1, c1, ch, h1, hlog, hx1, hsame, hc1, hr1⟩ := ready_possible h hx hl hu
  have hreach := Steps.reachable h h1
  obtain ⟨s2, h2, hg⟩ := drain _ s1 a p x1 c1 d ch hx1 hc1 hr1 rfl
  refine ⟨s2, h1.trans h2, ?_⟩
  obtain ⟨own, hw, hf⟩ := reachable_inv hreach
  obtain ⟨q', hl', ho⟩ := (((hw.tasks a x1 hx1).2 p c1 hc1).2 d).ready ch hr1
  have hflow := hf.flow a x1 p q' d ch hx1 hl' ho
  have hq : q' = q := by
    rw [hsame.m0, hsame.m1] at hl'
    exact hl'.unique hl
  rw [hg, hflow, hlog, hq]

/-- A partition can send to each of its neighbours, as long as it did not close the channel -/
theorem send_possible {s : State V} (h : Reachable s) {a p q : Nat} {x : CommArray} {d : Dir}
    (hx : s.arrays[a]? = some x) (hl : Lies x.m0 x.m1 p d q) (hc : .closed a p d ∉ s.log) (v : V) :
    ∃ s' : State V, Step s s' ∧ s'.arrays = s.arrays ∧ s'.log = s.log ++ [.sent a p d v] := by
  obtain ⟨c, hp, hd⟩ := channels_to_neighbours h hx hl.lt.1
  obtain ⟨ch, hch⟩ := Option.isSome_iff_exists.mp ((hd d).1.mpr ⟨q, hl⟩)
  obtain ⟨own, hw, hf⟩ := reachable_inv h
  have ho : own a p d = some ch := by rw [← ((hw.tasks a x hx).2 p c hp).1]; exact hch
  have hopen : s.closed ch = false := by
    cases hb : s.closed ch with
    | false => rfl
    | true => exact absurd ((hf.closed a p d ch ho).mp hb) hc
  exact ⟨_, Step.send s a p x c d ch v hx hp hch hopen, rfl, rfl⟩

/-- A channel is read by one task only, for one direction only -/
theorem channels_not_shared {s : State V} (h : Reachable s) {a b p q : Nat} {x y : CommArray} {c c' : Comm} {d e : Dir}
    {ch : Nat} (hx : s.arrays[a]? = some x) (hy : s.arrays[b]? = some y) (hp : x.tasks[p]? = some c)
    (hq : y.tasks[q]? = some c') (hs : c.recv d = some (.ready ch)) (hs' : c'.recv e = some (.ready ch)) :
    a = b ∧ p = q ∧ d = e := by
  obtain ⟨own, hw, -⟩ := reachable_inv h
  obtain ⟨r, hr, ho⟩ := (((hw.tasks a x hx).2 p c hp).2 d).ready ch hs
  obtain ⟨r', hr', ho'⟩ := (((hw.tasks b y hy).2 q c' hq).2 e).ready ch hs'
  obtain ⟨rfl, rfl, he⟩ := hw.own_inj _ _ _ _ _ _ _ ho ho'
  obtain rfl := sender_inj he
  rw [hx] at hy
  obtain rfl := Option.some.inj hy
  exact ⟨rfl, hr.symm.unique hr'.symm, rfl⟩

end Lue.Channels

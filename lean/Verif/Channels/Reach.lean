import Verif.Channels.Steps

/-!
# What holds in every state that can be reached
-/

namespace Lue.Channels

open Lue.InflowCount (Dir hasNeighbour directions)

variable {V : Type} {own : Nat → Nat → Dir → Option Nat}

theorem wired_resolve {s : State V} (h : Wired s own) (a p : Nat) (x : CommArray) (c : Comm) (d : Dir) (key : Key) (ch : Nat)
    (hx : s.arrays[a]? = some x) (hc : x.tasks[p]? = some c) (hw : c.recv d = some (.waiting key))
    (hk : s.table key = some ch) :
    Wired { s with arrays := s.arrays.set a { x with tasks := x.tasks.set p (c.resolve d ch) } } own := by
  have hs : SameArrays s.arrays (s.arrays.set a { x with tasks := x.tasks.set p (c.resolve d ch) }) :=
    sameArrays_set hx ⟨rfl, rfl, rfl, rfl⟩
  refine wired_same h _ s.setup.reqs s.log hs ?_ ?_ (fun _ _ => Iff.rfl) rfl (fun _ h => h) h.events h.unregs
  · intro b y hy
    rcases get_set hy with ⟨rfl, rfl⟩ | ⟨-, hy⟩
    · obtain ⟨h1, h2⟩ := h.tasks b x hx
      refine ⟨by show (x.tasks.set p _).length = _; rw [List.length_set]; exact h1, fun q c' hc' => ?_⟩
      rcases get_set hc' with ⟨rfl, rfl⟩ | ⟨-, hc'⟩
      · obtain ⟨h3, h4⟩ := h2 q c hc
        refine ⟨h3, fun e => ?_⟩
        by_cases he : e = d
        · subst he
          have hr : (c.resolve e ch).recv e = some (.ready ch) := by simp [Comm.resolve, put]
          obtain ⟨r, hl, hkey⟩ := (h4 e).waiting key hw
          refine ⟨fun hn => ?_, fun key' hw' => ?_, fun ch' hr' => ?_⟩
          · rw [hr] at hn; cases hn
          · rw [hr] at hw'; cases hw'
          · rw [hr] at hr'
            simp only [Option.some.injEq, Client.ready.injEq] at hr'
            subst hr'
            refine ⟨r, hl, ?_⟩
            obtain ⟨b', y, q', d', hy, ho, hkey'⟩ := h.table key ch hk
            obtain ⟨h5, h6, h7⟩ := h.keyOf_inj hx hy (hkey.symm.trans hkey')
            rw [h5, h6, h7]; exact ho
        · have hr : (c.resolve d ch).recv e = c.recv e := by simp [Comm.resolve, put, he]
          have := h4 e
          exact ⟨fun hn => this.none (hr ▸ hn), fun key' hw' => this.waiting key' (hr ▸ hw'),
            fun ch' hr' => this.ready ch' (hr ▸ hr')⟩
      · obtain ⟨h3, h4⟩ := h2 q c' hc'
        exact ⟨h3, fun e => ⟨(h4 e).none, (h4 e).waiting, (h4 e).ready⟩⟩
    · exact h.tasks b y hy
  · intro b y hy q c' hc'
    rcases get_set hy with ⟨rfl, rfl⟩ | ⟨-, hy⟩
    · exact h.comms b x hx q c' hc'
    · exact h.comms b y hy q c' hc'

theorem wired_unregister {s : State V} (h : Wired s own) (a : Nat) (x : CommArray) (hx : s.arrays[a]? = some x) :
    Wired { s with
        arrays := s.arrays.set a { x with comms := (unregisterAll x.basename x.comms s.setup.reqs).1 }
        setup := { s.setup with reqs := (unregisterAll x.basename x.comms s.setup.reqs).2 }
        log := s.log ++ [.unregistered a] } own := by
  obtain ⟨h1, new, h2, h3⟩ := unregisterAll_spec x.basename x.comms s.setup.reqs
  have hs : SameArrays s.arrays (s.arrays.set a { x with comms := (unregisterAll x.basename x.comms s.setup.reqs).1 }) :=
    sameArrays_set hx ⟨rfl, rfl, rfl, rfl⟩
  refine wired_same h _ _ _ hs ?_ ?_ ?_ ?_ ?_ ?_ ?_
  · intro b y hy
    rcases get_set hy with ⟨rfl, rfl⟩ | ⟨-, hy⟩
    · obtain ⟨h4, h5⟩ := h.tasks b x hx
      refine ⟨h4, fun p c hc => ?_⟩
      obtain ⟨h6, h7⟩ := h5 p c hc
      exact ⟨h6, fun e => ⟨(h7 e).none, (h7 e).waiting, (h7 e).ready⟩⟩
    · exact h.tasks b y hy
  · intro b y hy p c hc
    rcases get_set hy with ⟨rfl, rfl⟩ | ⟨-, hy⟩
    · have h4 : ((unregisterAll x.basename x.comms s.setup.reqs).1.map Comm.idx)[p]? = some c.idx := by
        rw [List.getElem?_map, hc]; rfl
      rw [h1, List.getElem?_map] at h4
      cases hc' : x.comms[p]? with
      | none => rw [hc'] at h4; simp at h4
      | some c' =>
        rw [hc'] at h4
        simp only [Option.map_some, Option.some.injEq] at h4
        rw [← h4]
        exact h.comms b x hx p c' hc'
    · exact h.comms b y hy p c hc
  · intro key ch
    rw [h2, List.mem_append]
    refine ⟨fun h' => h'.elim (fun h => h) (fun h' => ?_), Or.inl⟩
    obtain ⟨d, c, -, he⟩ := h3 _ h'
    cases he
  · rw [h2, List.filterMap_append]
    have : new.filterMap Req.chan = [] := by
      rw [List.filterMap_eq_nil_iff]
      intro r hr
      obtain ⟨d, c, -, rfl⟩ := h3 r hr
      rfl
    rw [this, List.append_nil]
  · intro b hb
    exact List.mem_append_left _ hb
  · intro ev hev
    rw [List.mem_append, List.mem_singleton] at hev
    rcases hev with hev | rfl
    · exact h.events ev hev
    · exact get_lt hx
  · intro key hr
    rw [h2, List.mem_append] at hr
    rcases hr with hr | hr
    · obtain ⟨b, y, p, d, hy, hk, hl⟩ := h.unregs key hr
      exact ⟨b, y, p, d, hy, hk, List.mem_append_left _ hl⟩
    · obtain ⟨d, c, hc, he⟩ := h3 _ hr
      simp only [Req.unregister.injEq] at he
      obtain ⟨p, hp⟩ := List.mem_iff_getElem?.mp hc
      refine ⟨a, x, p, d, hx, ?_, by simp⟩
      rw [he, h.comms a x hx p c hp, keyOf]

/-! ### Exchanging values -/

theorem gots_append (log : List (Event V)) (ev : Event V) (a p : Nat) (d : Dir) :
    gots (log ++ [ev]) a p d = gots log a p d ++ (Event.got? a p d ev).toList := by
  unfold gots
  rw [List.filterMap_append]
  congr 1

theorem sents_append (log : List (Event V)) (ev : Event V) (a p : Nat) (d : Dir) :
    sents (log ++ [ev]) a p d = sents log a p d ++ (Event.sent? a p d ev).toList := by
  unfold sents
  rw [List.filterMap_append]
  congr 1

theorem flow_send {s : State V} (h : Wired s own) (hf : Flow s own) (a p : Nat) (x : CommArray) (d : Dir) (ch : Nat) (v : V)
    (hx : s.arrays[a]? = some x) (ho : own a p d = some ch) (hopen : s.closed ch = false) :
    Flow { s with
        queue := fun k => if k = ch then s.queue ch ++ [v] else s.queue k
        log := s.log ++ [.sent a p d v] } own := by
  have hlt := (h.own_dom a p d ch ho).2
  constructor
  · intro b y q r e c hy hl hoc
    simp only []
    rw [gots_append, sents_append]
    have hg : Event.got? b q e (Event.sent a p d v) = none := rfl
    rw [hg, Option.toList_none, List.append_nil]
    have hold := hf.flow b y q r e c hy hl hoc
    by_cases hc : c = ch
    · subst hc
      obtain ⟨rfl, rfl, rfl⟩ := h.own_inj _ _ _ _ _ _ _ ho hoc
      simp only [if_true, Event.sent?, and_self, Option.toList_some]
      rw [← List.append_assoc, hold]
    · have hs : Event.sent? b r e.sender (Event.sent a p d v) = none := by
        simp only [Event.sent?]
        rw [if_neg]
        rintro ⟨rfl, rfl, rfl⟩
        rw [ho] at hoc
        exact hc (Option.some.inj hoc).symm
      rw [hs, Option.toList_none, List.append_nil, if_neg hc]
      exact hold
  · intro c hc
    simp only [] at hc
    have hne : c ≠ ch := by omega
    simp only [hne, if_false]
    exact hf.fresh c hc
  · intro b q e c hoc
    rw [hf.closed b q e c hoc]
    simp
  · intro b q e hev
    have hev' : Event.ended b q e ∈ s.log := by simpa using hev
    obtain ⟨y, r, c, hy, hl, h1, h2, h3⟩ := hf.ended b q e hev'
    refine ⟨y, r, c, hy, hl, h1, ?_, h3⟩
    have hne : c ≠ ch := by
      rintro rfl
      rw [hopen] at h3
      cases h3
    simp only [hne, if_false]
    exact h2
  · intro b q e w hev
    have hev' : Event.got b q e w ∈ s.log := by simpa using hev
    exact hf.gotten b q e w hev'
  · intro b q e w hev
    rw [List.mem_append, List.mem_singleton] at hev
    rcases hev with hev | hev
    · exact hf.sending b q e w hev
    · simp only [Event.sent.injEq] at hev
      obtain ⟨rfl, rfl, rfl, rfl⟩ := hev
      obtain ⟨q', hq'⟩ := (h.own_iff b x hx q e).mp (by rw [ho]; rfl)
      exact ⟨x, q', hx, hq'⟩

theorem flow_close {s : State V} (h : Wired s own) (hf : Flow s own) (a p : Nat) (d : Dir) (ch : Nat)
    (ho : own a p d = some ch) :
    Flow { s with
        closed := fun k => if k = ch then true else s.closed k
        log := s.log ++ [.closed a p d] } own := by
  have hlt := (h.own_dom a p d ch ho).2
  constructor
  · intro b y q r e c hy hl hoc
    simp only []
    rw [gots_append, sents_append]
    have hg : Event.got? b q e (Event.closed a p d : Event V) = none := rfl
    have hs : Event.sent? b r e.sender (Event.closed a p d : Event V) = none := rfl
    rw [hg, hs, Option.toList_none, List.append_nil, List.append_nil]
    exact hf.flow b y q r e c hy hl hoc
  · intro c hc
    simp only [] at hc
    have hne : c ≠ ch := by omega
    simp only [hne, if_false]
    exact hf.fresh c hc
  · intro b q e c hoc
    rw [List.mem_append, List.mem_singleton]
    by_cases hc : c = ch
    · subst hc
      obtain ⟨rfl, rfl, rfl⟩ := h.own_inj _ _ _ _ _ _ _ ho hoc
      simp
    · simp only [hc, if_false]
      rw [hf.closed b q e c hoc]
      refine ⟨Or.inl, fun h' => h'.elim (fun h => h) (fun h' => ?_)⟩
      simp only [Event.closed.injEq] at h'
      obtain ⟨rfl, rfl, rfl⟩ := h'
      rw [ho] at hoc
      exact absurd (Option.some.inj hoc).symm hc
  · intro b q e hev
    have hev' : Event.ended b q e ∈ s.log := by simpa using hev
    obtain ⟨y, r, c, hy, hl, h1, h2, h3⟩ := hf.ended b q e hev'
    refine ⟨y, r, c, hy, hl, h1, h2, ?_⟩
    simp only [h3, ite_self]
  · intro b q e w hev
    have hev' : Event.got b q e w ∈ s.log := by simpa using hev
    exact hf.gotten b q e w hev'
  · intro b q e w hev
    have hev' : Event.sent b q e w ∈ s.log := by simpa using hev
    exact hf.sending b q e w hev'

theorem sender_inj {d e : Dir} (h : d.sender = e.sender) : d = e := by
  rw [← sender_sender d, ← sender_sender e, h]

theorem flow_get {s : State V} (h : Wired s own) (hf : Flow s own) (a p q : Nat) (x : CommArray) (d : Dir) (ch : Nat) (v : V)
    (rest : List V) (hx : s.arrays[a]? = some x) (hl : Lies x.m0 x.m1 p d q) (ho : own a q d.sender = some ch)
    (hq : s.queue ch = v :: rest) :
    Flow { s with
        queue := fun k => if k = ch then rest else s.queue k
        log := s.log ++ [.got a p d v] } own := by
  have hlt := (h.own_dom a _ _ ch ho).2
  constructor
  · intro b y q' r e c hy hl' hoc
    simp only []
    rw [gots_append, sents_append]
    have hs : Event.sent? b r e.sender (Event.got a p d v) = none := rfl
    rw [hs, Option.toList_none, List.append_nil]
    have hold := hf.flow b y q' r e c hy hl' hoc
    by_cases hc : c = ch
    · subst hc
      obtain ⟨rfl, rfl, he⟩ := h.own_inj _ _ _ _ _ _ _ ho hoc
      obtain rfl := sender_inj he
      rw [hx] at hy
      obtain rfl := Option.some.inj hy
      obtain rfl : p = q' := by
        have h1 := hl.symm
        have h2 := hl'.symm
        exact h1.unique h2
      simp only [if_true, Event.got?, and_self, Option.toList_some]
      rw [hq] at hold
      rw [List.append_assoc]
      exact hold
    · have hs : Event.got? b q' e (Event.got a p d v) = none := by
        simp only [Event.got?]
        rw [if_neg]
        rintro ⟨rfl, rfl, rfl⟩
        rw [hx] at hy
        obtain rfl := Option.some.inj hy
        obtain rfl := hl.unique hl'
        rw [ho] at hoc
        exact hc (Option.some.inj hoc).symm
      rw [hs, Option.toList_none, List.append_nil, if_neg hc]
      exact hold
  · intro c hc
    simp only [] at hc
    have hne : c ≠ ch := by omega
    simp only [hne, if_false]
    exact hf.fresh c hc
  · intro b q' e c hoc
    rw [hf.closed b q' e c hoc]
    simp
  · intro b q' e hev
    have hev' : Event.ended b q' e ∈ s.log := by simpa using hev
    obtain ⟨y, r, c, hy, hl', h1, h2, h3⟩ := hf.ended b q' e hev'
    refine ⟨y, r, c, hy, hl', h1, ?_, h3⟩
    have hne : c ≠ ch := by
      rintro rfl
      rw [hq] at h2
      cases h2
    simp only [hne, if_false]
    exact h2
  · intro b q' e w hev
    rw [List.mem_append, List.mem_singleton] at hev
    rcases hev with hev | hev
    · exact hf.gotten b q' e w hev
    · simp only [Event.got.injEq] at hev
      obtain ⟨rfl, rfl, rfl, rfl⟩ := hev
      exact ⟨x, q, hx, hl⟩
  · intro b q' e w hev
    have hev' : Event.sent b q' e w ∈ s.log := by simpa using hev
    exact hf.sending b q' e w hev'

theorem flow_ended {s : State V} (hf : Flow s own) (a p q : Nat) (x : CommArray) (d : Dir) (ch : Nat)
    (hx : s.arrays[a]? = some x) (hl : Lies x.m0 x.m1 p d q) (ho : own a q d.sender = some ch)
    (hq : s.queue ch = []) (hc : s.closed ch = true) :
    Flow { s with log := s.log ++ [.ended a p d] } own := by
  constructor
  · intro b y q' r e c hy hl' hoc
    simp only []
    rw [gots_append, sents_append]
    have hg : Event.got? b q' e (Event.ended a p d : Event V) = none := rfl
    have hs : Event.sent? b r e.sender (Event.ended a p d : Event V) = none := rfl
    rw [hg, hs, Option.toList_none, List.append_nil, List.append_nil]
    exact hf.flow b y q' r e c hy hl' hoc
  · exact hf.fresh
  · intro b q' e c hoc
    rw [hf.closed b q' e c hoc]
    simp
  · intro b q' e hev
    rw [List.mem_append, List.mem_singleton] at hev
    rcases hev with hev | hev
    · exact hf.ended b q' e hev
    · simp only [Event.ended.injEq] at hev
      obtain ⟨rfl, rfl, rfl⟩ := hev
      exact ⟨x, q, ch, hx, hl, ho, hq, hc⟩
  · intro b q' e w hev
    have hev' : Event.got b q' e w ∈ s.log := by simpa using hev
    exact hf.gotten b q' e w hev'
  · intro b q' e w hev
    have hev' : Event.sent b q' e w ∈ s.log := by simpa using hev
    exact hf.sending b q' e w hev'

/-- Every step keeps everything intact -/
theorem inv_step {s t : State V} (h : Wired s own) (hf : Flow s own) (hst : Step s t) :
    ∃ own', Wired t own' ∧ Flow t own' := by
  cases hst with
  | inflowCount m0 m1 => exact inv_create h hf _ _ _
  | route functor e m0 m1 =>
    obtain ⟨o1, h1, hf1⟩ := inv_create h hf (.inflowOf functor) m0 m1
    exact inv_create h1 hf1 _ _ _
  | agas r before after hr =>
    exact ⟨own, wired_agas h r before after hr, flow_same hf s.arrays (before ++ after) _ s.log (sameArrays_refl _) (Or.inl rfl)⟩
  | resolve a p x c d key ch hx hc hw hk =>
    exact ⟨own, wired_resolve h a p x c d key ch hx hc hw hk,
      flow_same hf _ s.setup.reqs s.table s.log (sameArrays_set hx ⟨rfl, rfl, rfl, rfl⟩) (Or.inl rfl)⟩
  | send a p x c d ch v hx hc hs hopen =>
    have ho : own a p d = some ch := by rw [← ((h.tasks a x hx).2 p c hc).1]; exact hs
    exact ⟨own, wired_exchange h _ _ _ (by intro b; simp) (get_lt hx), flow_send h hf a p x d ch v hx ho hopen⟩
  | close a p x c d ch hx hc hs =>
    have ho : own a p d = some ch := by rw [← ((h.tasks a x hx).2 p c hc).1]; exact hs
    exact ⟨own, wired_exchange h _ _ _ (by intro b; simp) (get_lt hx), flow_close h hf a p d ch ho⟩
  | get a p x c d ch v rest hx hc hr hq =>
    obtain ⟨q, hl, ho⟩ := (((h.tasks a x hx).2 p c hc).2 d).ready ch hr
    exact ⟨own, wired_exchange h _ _ _ (by intro b; simp) (get_lt hx), flow_get h hf a p q x d ch v rest hx hl ho hq⟩
  | ended a p x c d ch hx hc hr hq hcl =>
    obtain ⟨q, hl, ho⟩ := (((h.tasks a x hx).2 p c hc).2 d).ready ch hr
    exact ⟨own, wired_exchange h _ _ _ (by intro b; simp) (get_lt hx), flow_ended hf a p q x d ch hx hl ho hq hcl⟩
  | unregister a x hx =>
    exact ⟨own, wired_unregister h a x hx,
      flow_same hf _ _ s.table _ (sameArrays_set hx ⟨rfl, rfl, rfl, rfl⟩) (Or.inr ⟨a, rfl⟩)⟩

theorem reachable_inv {s : State V} (h : Reachable s) : ∃ own, Wired s own ∧ Flow s own := by
  induction h with
  | init => exact ⟨_, inv_init⟩
  | step _ hst ih =>
    obtain ⟨own, h1, h2⟩ := ih
    exact inv_step h1 h2 hst

end Lue.Channels

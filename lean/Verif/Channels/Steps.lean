import Verif.Channels.Invariant

/-!
# The steps of the process keep the administration intact
-/

namespace Lue.Channels

open Lue.InflowCount (Dir hasNeighbour directions)

variable {V : Type} {own : Nat → Nat → Dir → Option Nat}

/-- Sending, obtaining and closing do not change the administration -/
theorem wired_exchange {s : State V} (h : Wired s own) (q : Nat → List V) (cl : Nat → Bool) (ev : Event V)
    (hn : ∀ a, ev ≠ .unregistered a) (ha : ev.array < s.arrays.length) :
    Wired { s with queue := q, closed := cl, log := s.log ++ [ev] } own := by
  have hu : ∀ a, Event.unregistered a ∈ s.log ++ [ev] ↔ Event.unregistered a ∈ s.log := by
    intro a
    rw [List.mem_append, List.mem_singleton]
    exact ⟨fun h => h.elim (fun h => h) (fun h => absurd h.symm (hn a)), Or.inl⟩
  refine ⟨h.named, h.distinct, h.own_iff, h.own_dom, h.own_inj, h.table, h.regs, h.pending, h.done, h.tasks, h.comms, ?_, ?_, ?_⟩
  · intro key hr
    obtain ⟨a, x, p, d, hx, h1, h2⟩ := h.unregs key hr
    exact ⟨a, x, p, d, hx, h1, (hu a).mpr h2⟩
  · intro a x p d ch hx hua ho
    exact h.live a x p d ch hx (fun h' => hua ((hu a).mpr h')) ho
  · intro ev' hev
    rw [List.mem_append, List.mem_singleton] at hev
    rcases hev with hev | rfl
    · exact h.events ev' hev
    · exact ha

/-- AGAS handles a request -/
theorem wired_agas {s : State V} (h : Wired s own) (r : Req) (before after : List Req)
    (hr : s.setup.reqs = before ++ r :: after) :
    Wired { s with setup := { s.setup with reqs := before ++ after }, table := handle r s.table } own := by
  have hmem : ∀ r', r' ∈ before ++ after → r' ∈ s.setup.reqs := by
    intro r' hr'
    rw [hr]
    rw [List.mem_append] at hr' ⊢
    exact hr'.elim Or.inl (fun h => Or.inr (List.mem_cons_of_mem _ h))
  have hmem' : ∀ r', r' ∈ s.setup.reqs → r' = r ∨ r' ∈ before ++ after := by
    intro r' hr'
    rw [hr, List.mem_append, List.mem_cons] at hr'
    rw [List.mem_append]
    tauto
  have hsub : List.Sublist ((before ++ after).filterMap Req.chan) (s.setup.reqs.filterMap Req.chan) := by
    rw [hr]
    exact List.Sublist.filterMap _ (List.Sublist.append_left (List.sublist_cons_self _ _) _)
  have hrin : r ∈ s.setup.reqs := by rw [hr]; simp
  have hregs : ∀ key ch, r = .register key ch → s.table key = none ∧ ch ∉ (before ++ after).filterMap Req.chan := by
    rintro key ch rfl
    have hin : ch ∈ s.setup.reqs.filterMap Req.chan := List.mem_filterMap.mpr ⟨_, hrin, rfl⟩
    constructor
    · cases ht : s.table key with
      | none => rfl
      | some ch' =>
        exfalso
        obtain ⟨a, x, p, d, hx, ho, hk⟩ := h.regs key ch hrin
        obtain ⟨b, y, q, e, hy, ho', hk'⟩ := h.table key ch' ht
        obtain ⟨rfl, rfl, rfl⟩ := h.keyOf_inj hx hy (hk.symm.trans hk')
        rw [ho] at ho'
        obtain rfl := Option.some.inj ho'
        exact h.done key ch ht hin
    · have hp := h.pending
      rw [hr, List.filterMap_append, List.filterMap_cons] at hp
      simp only [Req.chan] at hp
      rw [List.filterMap_append]
      rw [List.nodup_append] at hp
      obtain ⟨-, hp2, hp3⟩ := hp
      rw [List.mem_append]
      rintro (h1 | h1)
      · exact hp3 ch h1 ch List.mem_cons_self rfl
      · exact (List.nodup_cons.mp hp2).1 h1
  have htable : ∀ key ch, handle r s.table key = some ch → s.table key = some ch ∨ r = .register key ch := by
    intro key ch ht
    cases r with
    | register key' ch' =>
      rw [handle] at ht
      simp only [(hregs key' ch' rfl).1, Option.isSome_none, Bool.false_eq_true, if_false] at ht
      split at ht
      · rename_i hk
        subst hk
        obtain rfl := Option.some.inj ht
        exact Or.inr rfl
      · exact Or.inl ht
    | unregister key' =>
      rw [handle] at ht
      beta_reduce at ht
      split at ht
      · cases ht
      · exact Or.inl ht
  refine ⟨h.named, h.distinct, h.own_iff, h.own_dom, h.own_inj, ?_, ?_, ?_, ?_, h.tasks, h.comms, ?_, ?_, h.events⟩
  · intro key ch ht
    rcases htable key ch ht with ht | rfl
    · exact h.table key ch ht
    · exact h.regs key ch hrin
  · intro key ch hr'
    exact h.regs key ch (hmem _ hr')
  · exact h.pending.sublist hsub
  · intro key ch ht
    rcases htable key ch ht with ht | rfl
    · exact fun h' => h.done key ch ht (hsub.subset h')
    · exact (hregs key ch rfl).2
  · intro key hr'
    exact h.unregs key (hmem _ hr')
  · intro a x p d ch hx hu ho
    simp only []
    rcases h.live a x p d ch hx hu ho with ht | hreg
    · left
      cases r with
      | register key' ch' =>
        rw [handle]
        simp only [(hregs key' ch' rfl).1, Option.isSome_none, Bool.false_eq_true, if_false]
        split
        · rename_i hk
          rw [hk, (hregs key' ch' rfl).1] at ht
          cases ht
        · exact ht
      | unregister key' =>
        rw [handle]
        beta_reduce
        split
        · rename_i hk
          obtain ⟨b, y, q, e, hy, h1, h2⟩ := h.unregs key' hrin
          obtain ⟨rfl, -, -⟩ := h.keyOf_inj hx hy (hk.trans h1)
          exact absurd h2 hu
        · exact ht
    · rcases hmem' _ hreg with hreg | hreg
      · left
        have := (hregs _ _ hreg.symm).1
        rw [← hreg, handle]
        simp [this]
      · exact Or.inr hreg

theorem get_set {α : Type} {l : List α} {y z : α} {a b : Nat} (h : (l.set a y)[b]? = some z) :
    (b = a ∧ z = y) ∨ (b ≠ a ∧ l[b]? = some z) := by
  by_cases hb : b = a
  · subst hb
    have hl : b < l.length := by have := get_lt h; rwa [List.length_set] at this
    rw [List.getElem?_set_self hl] at h
    exact Or.inl ⟨rfl, (Option.some.inj h).symm⟩
  · rw [List.getElem?_set_ne (Ne.symm hb)] at h
    exact Or.inr ⟨hb, h⟩

theorem get_set_self {α : Type} {l : List α} {x y : α} {a : Nat} (h : l[a]? = some x) : (l.set a y)[a]? = some y :=
  List.getElem?_set_self (get_lt h)

/-- Arrays of communicators that differ in the state of their channels only -/
structure SameArray (x y : CommArray) : Prop where
  use : y.use = x.use
  basename : y.basename = x.basename
  m0 : y.m0 = x.m0
  m1 : y.m1 = x.m1

/-- Collections of arrays that differ in the state of their channels only -/
def SameArrays (l l' : List CommArray) : Prop :=
  l'.length = l.length ∧ ∀ (a : Nat) (y : CommArray), l'[a]? = some y → ∃ x, l[a]? = some x ∧ SameArray x y

theorem SameArrays.back {l l' : List CommArray} (h : SameArrays l l') {a : Nat} {x : CommArray} (hx : l[a]? = some x) :
    ∃ y, l'[a]? = some y ∧ SameArray x y := by
  have ha : a < l'.length := by rw [h.1]; exact get_lt hx
  refine ⟨l'[a], List.getElem?_eq_getElem ha, ?_⟩
  obtain ⟨x', hx', hs⟩ := h.2 a l'[a] (List.getElem?_eq_getElem ha)
  rw [hx] at hx'
  obtain rfl := Option.some.inj hx'
  exact hs

theorem SameArray.keyOf {x y : CommArray} (h : SameArray x y) (p : Nat) (d : Dir) : keyOf y p d = keyOf x p d := by
  simp only [Channels.keyOf, h.basename]

theorem sameArrays_set {l : List CommArray} {a : Nat} {x y : CommArray} (hx : l[a]? = some x) (h : SameArray x y) :
    SameArrays l (l.set a y) := by
  refine ⟨List.length_set, fun b z hz => ?_⟩
  rcases get_set hz with ⟨rfl, rfl⟩ | ⟨-, hz⟩
  · exact ⟨x, hx, h⟩
  · exact ⟨z, hz, rfl, rfl, rfl, rfl⟩

/-- The administration, if only the state of channels held by communicators changes -/
theorem wired_same {s : State V} (h : Wired s own) (arrays : List CommArray) (reqs : List Req) (log : List (Event V))
    (hs : SameArrays s.arrays arrays)
    (htasks : ∀ (a : Nat) (x : CommArray), arrays[a]? = some x →
      x.tasks.length = x.m0 * x.m1 ∧ ∀ (p : Nat) (c : Comm), x.tasks[p]? = some c →
        c.send = own a p ∧ ∀ d, RecvOk own a x p c d)
    (hcomms : ∀ (a : Nat) (x : CommArray), arrays[a]? = some x → ∀ (p : Nat) (c : Comm), x.comms[p]? = some c → c.idx = p)
    (hreg : ∀ key ch, Req.register key ch ∈ reqs ↔ Req.register key ch ∈ s.setup.reqs)
    (hchan : reqs.filterMap Req.chan = s.setup.reqs.filterMap Req.chan)
    (hlog : ∀ a, Event.unregistered a ∈ s.log → Event.unregistered a ∈ log)
    (hev : ∀ ev ∈ log, ev.array < s.arrays.length)
    (hunreg : ∀ key, Req.unregister key ∈ reqs →
      ∃ (a : Nat) (x : CommArray) (p : Nat) (d : Dir), s.arrays[a]? = some x ∧ key = keyOf x p d ∧ .unregistered a ∈ log) :
    Wired { s with arrays := arrays, setup := { s.setup with reqs := reqs }, log := log } own := by
  constructor
  · intro a y hy
    obtain ⟨x, hx, he⟩ := hs.2 a y hy
    rw [he.use, he.basename]
    exact h.named a x hx
  · intro a b y y' id hy hy' hk hb hb'
    obtain ⟨x, hx, he⟩ := hs.2 a y hy
    obtain ⟨x', hx', he'⟩ := hs.2 b y' hy'
    rw [he.use, he'.use] at hk
    rw [he.use, he.basename] at hb
    rw [he'.use, he'.basename] at hb'
    exact h.distinct a b x x' id hx hx' hk hb hb'
  · intro a y hy p d
    obtain ⟨x, hx, he⟩ := hs.2 a y hy
    rw [he.m0, he.m1]
    exact h.own_iff a x hx p d
  · intro a p d ch ho
    obtain ⟨h1, h2⟩ := h.own_dom a p d ch ho
    exact ⟨by show a < arrays.length; rw [hs.1]; exact h1, h2⟩
  · exact h.own_inj
  · intro key ch ht
    obtain ⟨a, x, p, d, hx, ho, hk⟩ := h.table key ch ht
    obtain ⟨y, hy, he⟩ := hs.back hx
    exact ⟨a, y, p, d, hy, ho, by rw [he.keyOf]; exact hk⟩
  · intro key ch hr
    obtain ⟨a, x, p, d, hx, ho, hk⟩ := h.regs key ch ((hreg key ch).mp hr)
    obtain ⟨y, hy, he⟩ := hs.back hx
    exact ⟨a, y, p, d, hy, ho, by rw [he.keyOf]; exact hk⟩
  · show (reqs.filterMap Req.chan).Nodup
    rw [hchan]; exact h.pending
  · intro key ch ht
    show ch ∉ reqs.filterMap Req.chan
    rw [hchan]; exact h.done key ch ht
  · exact htasks
  · exact hcomms
  · intro key hr
    obtain ⟨a, x, p, d, hx, hk, hl⟩ := hunreg key hr
    obtain ⟨y, hy, he⟩ := hs.back hx
    exact ⟨a, y, p, d, hy, by rw [he.keyOf]; exact hk, hl⟩
  · intro a y p d ch hy hu ho
    obtain ⟨x, hx, he⟩ := hs.2 a y hy
    rw [he.keyOf]
    rcases h.live a x p d ch hx (fun h' => hu (hlog a h')) ho with h1 | h1
    · exact Or.inl h1
    · exact Or.inr ((hreg _ _).mpr h1)
  · intro ev h'
    show ev.array < arrays.length
    rw [hs.1]; exact hev ev h'

/-- The values under way, if nothing is sent or obtained -/
theorem flow_same {s : State V} (h : Flow s own) (arrays : List CommArray) (reqs : List Req) (table : Key → Option Nat)
    (log : List (Event V)) (hs : SameArrays s.arrays arrays)
    (hlog : log = s.log ∨ ∃ a, log = s.log ++ [.unregistered a]) :
    Flow { s with arrays := arrays, setup := { s.setup with reqs := reqs }, table := table, log := log } own := by
  have hg : ∀ a p d, gots log a p d = gots s.log a p d := by
    intro a p d
    rcases hlog with rfl | ⟨b, rfl⟩
    · rfl
    · simp [gots, List.filterMap_append, Event.got?]
  have hsent : ∀ a p d, sents log a p d = sents s.log a p d := by
    intro a p d
    rcases hlog with rfl | ⟨b, rfl⟩
    · rfl
    · simp [sents, List.filterMap_append, Event.sent?]
  have hm : ∀ ev : Event V, (∀ a, ev ≠ .unregistered a) → (ev ∈ log ↔ ev ∈ s.log) := by
    intro ev hne
    rcases hlog with rfl | ⟨b, rfl⟩
    · rfl
    · rw [List.mem_append, List.mem_singleton]
      exact ⟨fun h => h.elim (fun h => h) (fun h => absurd h (hne b)), Or.inl⟩
  constructor
  · intro a y p q d ch hy hl ho
    obtain ⟨x, hx, he⟩ := hs.2 a y hy
    rw [he.m0, he.m1] at hl
    show gots log a p d ++ s.queue ch = sents log a q d.sender
    rw [hg, hsent]
    exact h.flow a x p q d ch hx hl ho
  · exact h.fresh
  · intro a p d ch ho
    rw [hm _ (by intro b; simp)]
    exact h.closed a p d ch ho
  · intro a p d hev
    rw [hm _ (by intro b; simp)] at hev
    obtain ⟨x, q, ch, hx, hl, h1⟩ := h.ended a p d hev
    obtain ⟨y, hy, he⟩ := hs.back hx
    exact ⟨y, q, ch, hy, by rw [he.m0, he.m1]; exact hl, h1⟩
  · intro a p d v hev
    rw [hm _ (by intro b; simp)] at hev
    obtain ⟨x, q, hx, hl⟩ := h.gotten a p d v hev
    obtain ⟨y, hy, he⟩ := hs.back hx
    exact ⟨y, q, hy, by rw [he.m0, he.m1]; exact hl⟩
  · intro a p d v hev
    rw [hm _ (by intro b; simp)] at hev
    obtain ⟨x, q, hx, hl⟩ := h.sending a p d v hev
    obtain ⟨y, hy, he⟩ := hs.back hx
    exact ⟨y, q, hy, by rw [he.m0, he.m1]; exact hl⟩

theorem sameArrays_refl (l : List CommArray) : SameArrays l l := ⟨rfl, fun _ y hy => ⟨y, hy, rfl, rfl, rfl, rfl⟩⟩

/-! ### Unregistering -/

theorem unregister_fold (b : Str) : ∀ (ds : List Dir) (x : Comm × List Req),
    (ds.foldl (unregisterStep b) x).1.idx = x.1.idx ∧
    ∃ new, (ds.foldl (unregisterStep b) x).2 = x.2 ++ new ∧
      ∀ r ∈ new, ∃ d, r = .unregister ⟨channelName b d, x.1.idx⟩ := by
  intro ds
  induction ds with
  | nil => intro x; exact ⟨rfl, [], by simp, by simp⟩
  | cons d ds ih =>
    intro x
    rw [List.foldl_cons]
    obtain ⟨h1, new, h2, h3⟩ := ih (unregisterStep b x d)
    by_cases hs : (x.1.send d).isSome = true
    · have he : unregisterStep b x d = unregister1 b d x := by rw [unregisterStep, if_pos hs]
      rw [he] at h1 h2 h3 ⊢
      refine ⟨h1, .unregister ⟨channelName b d, x.1.idx⟩ :: new, ?_, ?_⟩
      · rw [h2]; simp [unregister1]
      · intro r hr
        rw [List.mem_cons] at hr
        rcases hr with rfl | hr
        · exact ⟨d, rfl⟩
        · exact h3 r hr
    · have he : unregisterStep b x d = x := by rw [unregisterStep, if_neg hs]
      rw [he] at h1 h2 h3 ⊢
      exact ⟨h1, new, h2, h3⟩

theorem unregisterAll_spec (b : Str) : ∀ (cs : List Comm) (reqs : List Req),
    (unregisterAll b cs reqs).1.map Comm.idx = cs.map Comm.idx ∧
    ∃ new, (unregisterAll b cs reqs).2 = reqs ++ new ∧
      ∀ r ∈ new, ∃ d, ∃ c ∈ cs, r = .unregister ⟨channelName b d, c.idx⟩ := by
  intro cs
  induction cs with
  | nil => intro reqs; exact ⟨rfl, [], by simp [unregisterAll], by simp⟩
  | cons c cs ih =>
    intro reqs
    obtain ⟨h1, new, h2, h3⟩ := unregister_fold b directions (c, reqs)
    obtain ⟨h4, new', h5, h6⟩ := ih (unregister b c reqs).2
    have he : unregisterAll b (c :: cs) reqs =
        ((unregister b c reqs).1 :: (unregisterAll b cs (unregister b c reqs).2).1,
          (unregisterAll b cs (unregister b c reqs).2).2) := rfl
    rw [he]
    refine ⟨?_, new ++ new', ?_, ?_⟩
    · rw [List.map_cons, List.map_cons, h4]
      congr 1
    · rw [h5]
      show (List.foldl (unregisterStep b) (c, reqs) directions).2 ++ new' = _
      rw [h2, List.append_assoc]
    · intro r hr
      rw [List.mem_append] at hr
      rcases hr with hr | hr
      · obtain ⟨d, rfl⟩ := h3 r hr
        exact ⟨d, c, List.mem_cons_self, rfl⟩
      · obtain ⟨d, c', hc', rfl⟩ := h6 r hr
        exact ⟨d, c', List.mem_cons_of_mem _ hc', rfl⟩

end Lue.Channels

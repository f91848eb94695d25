import Verif.Channels.Construct

/-!
# The channels of different tasks are different, and connected to the right neighbours
-/

namespace Lue.Channels

open Lue.InflowCount (Dir hasNeighbour directions)

variable {V : Type}

/-- Where a partition registers its send channel -/
def keyOf (x : CommArray) (p : Nat) (d : Dir) : Key := ⟨channelName x.basename d, p⟩

/-- The array of communicators an event is about -/
def Event.array : Event V → Nat
  | .sent a _ _ _ => a
  | .closed a _ _ => a
  | .got a _ _ _ => a
  | .ended a _ _ => a
  | .unregistered a => a

/-- What a task knows about the channels from its neighbours -/
structure RecvOk (own : Nat → Nat → Dir → Option Nat) (a : Nat) (x : CommArray) (p : Nat) (c : Comm) (d : Dir) : Prop where
  none : c.recv d = none → ¬ ∃ q, Lies x.m0 x.m1 p d q
  waiting : ∀ key, c.recv d = some (.waiting key) → ∃ q, Lies x.m0 x.m1 p d q ∧ key = keyOf x q d.sender
  ready : ∀ ch, c.recv d = some (.ready ch) → ∃ q, Lies x.m0 x.m1 p d q ∧ own a q d.sender = some ch

/-- The administration. `own a p d` is the channel created by partition `p` of array `a` for sending in direction `d`. -/
structure Wired (s : State V) (own : Nat → Nat → Dir → Option Nat) : Prop where
  named : ∀ (a : Nat) (x : CommArray), s.arrays[a]? = some x →
    ∃ id, x.basename = x.use.basename ++ DataModel.name id ∧ id < s.counter x.use.kind
  distinct : ∀ (a b : Nat) (x y : CommArray) (id : Nat), s.arrays[a]? = some x → s.arrays[b]? = some y →
    x.use.kind = y.use.kind → x.basename = x.use.basename ++ DataModel.name id →
    y.basename = y.use.basename ++ DataModel.name id → a = b
  own_iff : ∀ (a : Nat) (x : CommArray), s.arrays[a]? = some x → ∀ p d,
    (own a p d).isSome = true ↔ ∃ q, Lies x.m0 x.m1 p d q
  own_dom : ∀ a p d ch, own a p d = some ch → a < s.arrays.length ∧ ch < s.setup.next
  own_inj : ∀ a b p q d e ch, own a p d = some ch → own b q e = some ch → a = b ∧ p = q ∧ d = e
  table : ∀ key ch, s.table key = some ch →
    ∃ (a : Nat) (x : CommArray) (p : Nat) (d : Dir), s.arrays[a]? = some x ∧ own a p d = some ch ∧ key = keyOf x p d
  regs : ∀ key ch, Req.register key ch ∈ s.setup.reqs →
    ∃ (a : Nat) (x : CommArray) (p : Nat) (d : Dir), s.arrays[a]? = some x ∧ own a p d = some ch ∧ key = keyOf x p d
  pending : (s.setup.reqs.filterMap Req.chan).Nodup
  done : ∀ key ch, s.table key = some ch → ch ∉ s.setup.reqs.filterMap Req.chan
  tasks : ∀ (a : Nat) (x : CommArray), s.arrays[a]? = some x →
    x.tasks.length = x.m0 * x.m1 ∧ ∀ (p : Nat) (c : Comm), x.tasks[p]? = some c →
      c.send = own a p ∧ ∀ d, RecvOk own a x p c d
  comms : ∀ (a : Nat) (x : CommArray), s.arrays[a]? = some x → ∀ (p : Nat) (c : Comm), x.comms[p]? = some c → c.idx = p
  unregs : ∀ key, Req.unregister key ∈ s.setup.reqs →
    ∃ (a : Nat) (x : CommArray) (p : Nat) (d : Dir), s.arrays[a]? = some x ∧ key = keyOf x p d ∧
      .unregistered a ∈ s.log
  live : ∀ (a : Nat) (x : CommArray) (p : Nat) (d : Dir) (ch : Nat), s.arrays[a]? = some x →
    .unregistered a ∉ s.log → own a p d = some ch →
    s.table (keyOf x p d) = some ch ∨ Req.register (keyOf x p d) ch ∈ s.setup.reqs
  events : ∀ ev ∈ s.log, ev.array < s.arrays.length

/-- The values that are under way -/
structure Flow (s : State V) (own : Nat → Nat → Dir → Option Nat) : Prop where
  flow : ∀ (a : Nat) (x : CommArray) (p q : Nat) (d : Dir) (ch : Nat), s.arrays[a]? = some x → Lies x.m0 x.m1 p d q →
    own a q d.sender = some ch → gots s.log a p d ++ s.queue ch = sents s.log a q d.sender
  fresh : ∀ ch, s.setup.next ≤ ch → s.queue ch = [] ∧ s.closed ch = false
  closed : ∀ a p d ch, own a p d = some ch → (s.closed ch = true ↔ .closed a p d ∈ s.log)
  ended : ∀ a p d, .ended a p d ∈ s.log → ∃ (x : CommArray) (q ch : Nat), s.arrays[a]? = some x ∧ Lies x.m0 x.m1 p d q ∧
    own a q d.sender = some ch ∧ s.queue ch = [] ∧ s.closed ch = true
  gotten : ∀ a p d v, .got a p d v ∈ s.log → ∃ (x : CommArray) (q : Nat), s.arrays[a]? = some x ∧ Lies x.m0 x.m1 p d q
  sending : ∀ a p d v, .sent a p d v ∈ s.log → ∃ (x : CommArray) (q : Nat), s.arrays[a]? = some x ∧ Lies x.m0 x.m1 p d q

/-- Different tasks use different names -/
theorem Wired.keyOf_inj {s : State V} {own : Nat → Nat → Dir → Option Nat} (h : Wired s own) {a b p q : Nat}
    {x y : CommArray} {d e : Dir} (hx : s.arrays[a]? = some x) (hy : s.arrays[b]? = some y)
    (hk : keyOf x p d = keyOf y q e) : a = b ∧ p = q ∧ d = e := by
  obtain ⟨i, hi, -⟩ := h.named a x hx
  obtain ⟨j, hj, -⟩ := h.named b y hy
  simp only [keyOf, Key.mk.injEq] at hk
  obtain ⟨h1, h2⟩ := hk
  rw [hi, hj] at h1
  obtain ⟨h3, h4, h5⟩ := channelName_inj h1
  subst h4
  exact ⟨h.distinct a b x y i hx hy h3 hi hj, h2, h5⟩

/-- The initial state -/
theorem inv_init : Wired (State.init V) (fun _ _ _ => none) ∧ Flow (State.init V) (fun _ _ _ => none) := by
  constructor
  · constructor <;> simp [State.init]
  · constructor <;> simp [State.init]

theorem get_append {α : Type} {l : List α} {z x : α} {a : Nat} (h : (l ++ [z])[a]? = some x) :
    l[a]? = some x ∨ (a = l.length ∧ z = x) := by
  by_cases ha : a < l.length
  · rw [List.getElem?_append_left ha] at h; exact Or.inl h
  · have : a < (l ++ [z]).length := (List.getElem?_eq_some_iff.mp h).1
    rw [List.length_append, List.length_singleton] at this
    obtain rfl : a = l.length := by omega
    rw [List.getElem?_append_right (le_refl _), Nat.sub_self] at h
    exact Or.inr ⟨rfl, by simpa using h⟩

theorem get_append_old {α : Type} {l : List α} {z x : α} {a : Nat} (h : l[a]? = some x) : (l ++ [z])[a]? = some x := by
  rw [List.getElem?_append_left (List.getElem?_eq_some_iff.mp h).1]; exact h

theorem get_append_new {α : Type} (l : List α) (z : α) : (l ++ [z])[l.length]? = some z := by
  rw [List.getElem?_append_right (le_refl _), Nat.sub_self]; rfl

theorem get_lt {α : Type} {l : List α} {x : α} {a : Nat} (h : l[a]? = some x) : a < l.length :=
  (List.getElem?_eq_some_iff.mp h).1

theorem gots_nil {log : List (Event V)} {n a p : Nat} {d : Dir} (h : ∀ ev ∈ log, ev.array < n) (ha : n ≤ a) :
    gots log a p d = [] := by
  unfold gots
  rw [List.filterMap_eq_nil_iff]
  intro ev hev
  have := h ev hev
  cases ev with
  | got a' p' d' v =>
    simp only [Event.array] at this
    have : a' ≠ a := by omega
    simp [Event.got?, this]
  | sent _ _ _ _ => rfl
  | closed _ _ _ => rfl
  | ended _ _ _ => rfl
  | unregistered _ => rfl

theorem sents_nil {log : List (Event V)} {n a p : Nat} {d : Dir} (h : ∀ ev ∈ log, ev.array < n) (ha : n ≤ a) :
    sents log a p d = [] := by
  unfold sents
  rw [List.filterMap_eq_nil_iff]
  intro ev hev
  have := h ev hev
  cases ev with
  | sent a' p' d' v =>
    simp only [Event.array] at this
    have : a' ≠ a := by omega
    simp [Event.sent?, this]
  | got _ _ _ _ => rfl
  | closed _ _ _ => rfl
  | ended _ _ _ => rfl
  | unregistered _ => rfl

/-- Creating an array of communicators -/
theorem inv_create {s : State V} {own : Nat → Nat → Dir → Option Nat} (h : Wired s own) (hf : Flow s own) (use : Use)
    (m0 m1 : Nat) : ∃ own', Wired (createArray use m0 m1 s) own' ∧ Flow (createArray use m0 m1 s) own' := by
  obtain ⟨c1, c2, c3, c4, c5, new, c6, c7, c8⟩ := constructAll_spec (use.basename ++ DataModel.name (s.counter use.kind))
    m0 m1 (positions m0 m1) s.setup
  have he : createArray use m0 m1 s =
    { s with
      counter := fun k => if k = use.kind then s.counter use.kind + 1 else s.counter k
      arrays := s.arrays ++ [⟨use, use.basename ++ DataModel.name (s.counter use.kind), m0, m1,
        (constructAll (use.basename ++ DataModel.name (s.counter use.kind)) m0 m1 (positions m0 m1) s.setup).1,
        (constructAll (use.basename ++ DataModel.name (s.counter use.kind)) m0 m1 (positions m0 m1) s.setup).1⟩]
      setup := (constructAll (use.basename ++ DataModel.name (s.counter use.kind)) m0 m1 (positions m0 m1) s.setup).2 } := rfl
  rw [he]
  revert c1 c2 c3 c4 c5 c6 c7 c8
  generalize constructAll (use.basename ++ DataModel.name (s.counter use.kind)) m0 m1 (positions m0 m1) s.setup = y
  obtain ⟨cs, t⟩ := y
  simp only []
  intro c1 c2 c3 c4 c5 c6 c7 c8
  rw [positions_length] at c1
  -- The new array
  have hpos : ∀ i j, i < m0 → j < m1 → ∃ c : Comm, cs[i * m1 + j]? = some c ∧
      Fresh (use.basename ++ DataModel.name (s.counter use.kind)) m0 m1 i j c := by
    intro i j hi hj
    exact c2 _ (i, j) (positions_get hi hj)
  generalize hz : (⟨use, use.basename ++ DataModel.name (s.counter use.kind), m0, m1, cs, cs⟩ : CommArray) = z
  have z1 : z.use = use := by rw [← hz]
  have z2 : z.basename = use.basename ++ DataModel.name (s.counter use.kind) := by rw [← hz]
  have z3 : z.m0 = m0 := by rw [← hz]
  have z4 : z.m1 = m1 := by rw [← hz]
  have z5 : z.tasks = cs := by rw [← hz]
  have z6 : z.comms = cs := by rw [← hz]
  clear hz
  let own' : Nat → Nat → Dir → Option Nat := fun a p d =>
    if a = s.arrays.length then (cs[p]?).bind fun c => c.send d else own a p d
  have o_old : ∀ a p d, a < s.arrays.length → own' a p d = own a p d := by
    intro a p d ha
    have : a ≠ s.arrays.length := by omega
    simp only [own', this, if_false]
  have o_new : ∀ p d, own' s.arrays.length p d = (cs[p]?).bind fun c => c.send d := by
    intro p d; simp only [own', if_true]
  have o_new_some : ∀ p d ch, own' s.arrays.length p d = some ch → ∃ c : Comm, cs[p]? = some c ∧ c.send d = some ch := by
    intro p d ch ho
    rw [o_new] at ho
    cases hc : cs[p]? with
    | none => rw [hc] at ho; simp at ho
    | some c => rw [hc] at ho; exact ⟨c, rfl, ho⟩
  have o_get : ∀ p d ch (c : Comm), cs[p]? = some c → c.send d = some ch → own' s.arrays.length p d = some ch := by
    intro p d ch c hc hs
    rw [o_new, hc]; exact hs
  have cidx : ∀ (p : Nat) (c : Comm), cs[p]? = some c → c.idx = p ∧ p < m0 * m1 := by
    intro p c hc
    have hp : p < m0 * m1 := c1 ▸ get_lt hc
    obtain ⟨i, j, hi, hj, rfl⟩ := exists_pos hp
    obtain ⟨c', hc', hfr⟩ := hpos i j hi hj
    rw [hc] at hc'
    obtain rfl := Option.some.inj hc'
    exact ⟨by rw [hfr.idx, linearIdx_nat], hp⟩
  have hkey : ∀ p d (c : Comm), cs[p]? = some c →
      (⟨channelName (use.basename ++ DataModel.name (s.counter use.kind)) d, c.idx⟩ : Key) = keyOf z p d := by
    intro p d c hc
    rw [(cidx p c hc).1, keyOf, z2]
  refine ⟨own', ?_, ?_⟩
  · constructor
    · -- named
      intro a x hx
      rcases get_append hx with hx | ⟨-, rfl⟩
      · obtain ⟨id, h1, h2⟩ := h.named a x hx
        refine ⟨id, h1, ?_⟩
        simp only []
        split
        · rename_i hk; rw [hk] at h2; omega
        · exact h2
      · refine ⟨s.counter use.kind, by rw [z1, z2], ?_⟩
        rw [z1]; simp
    · -- distinct
      intro a b x y id hx hy hk hbx hby
      have old : ∀ (a : Nat) (x : CommArray), s.arrays[a]? = some x → x.use.kind = use.kind →
          x.basename = x.use.basename ++ DataModel.name (s.counter use.kind) → False := by
        intro a x hx hk hb
        obtain ⟨id', h1, h2⟩ := h.named a x hx
        rw [h1] at hb
        have := DataModel.name_inj (List.append_cancel_left hb)
        rw [hk] at h2
        omega
      have new : z.basename = z.use.basename ++ DataModel.name id → id = s.counter use.kind := by
        intro hb
        rw [z2, z1] at hb
        exact (DataModel.name_inj (List.append_cancel_left hb)).symm
      rcases get_append hx with hx | ⟨ha, rfl⟩
      · rcases get_append hy with hy | ⟨hb, rfl⟩
        · exact h.distinct a b x y id hx hy hk hbx hby
        · obtain rfl := new hby
          rw [z1] at hk
          exact (old a x hx hk hbx).elim
      · rcases get_append hy with hy | ⟨hb, rfl⟩
        · obtain rfl := new hbx
          rw [z1] at hk
          exact (old b y hy hk.symm hby).elim
        · rw [ha, hb]
    · -- own_iff
      intro a x hx p d
      rcases get_append hx with hx | ⟨ha, rfl⟩
      · rw [o_old a p d (get_lt hx)]
        exact h.own_iff a x hx p d
      · subst ha
        rw [z3, z4]
        constructor
        · intro ho
          obtain ⟨ch, ho⟩ := Option.isSome_iff_exists.mp ho
          obtain ⟨c, hc, hs⟩ := o_new_some p d ch ho
          obtain ⟨i, j, hi, hj, rfl⟩ := exists_pos (cidx p c hc).2
          obtain ⟨c', hc', hfr⟩ := hpos i j hi hj
          rw [hc] at hc'
          obtain rfl := Option.some.inj hc'
          rw [← hasNeighbour_iff hi hj d, ← hfr.send d, hs]; rfl
        · rintro ⟨q, hq⟩
          obtain ⟨i, j, hi, hj, rfl⟩ := exists_pos hq.lt.1
          obtain ⟨c, hc, hfr⟩ := hpos i j hi hj
          have := (hasNeighbour_iff hi hj d).mpr ⟨q, hq⟩
          rw [o_new, hc, Option.bind_some, hfr.send d]; exact this
    · -- own_dom
      intro a p d ch ho
      by_cases ha : a = s.arrays.length
      · subst ha
        obtain ⟨c, hc, hs⟩ := o_new_some p d ch ho
        exact ⟨by simp, (c4 p c d ch hc hs).2⟩
      · have ho' : own a p d = some ch := by simpa only [own', ha, if_false] using ho
        obtain ⟨h1, h2⟩ := h.own_dom a p d ch ho'
        exact ⟨by simp only [List.length_append, List.length_singleton]; omega, by show ch < t.next; omega⟩
    · -- own_inj
      intro a b p q d e ch ho ho'
      by_cases ha : a = s.arrays.length
      · subst ha
        obtain ⟨c, hc, hs⟩ := o_new_some p d ch ho
        by_cases hb : b = s.arrays.length
        · subst hb
          obtain ⟨c', hc', hs'⟩ := o_new_some q e ch ho'
          exact ⟨rfl, c5 p q c c' d e ch hc hc' hs hs'⟩
        · have ho' : own b q e = some ch := by simpa only [own', hb, if_false] using ho'
          have := (h.own_dom b q e ch ho').2
          have := (c4 p c d ch hc hs).1
          omega
      · have ho : own a p d = some ch := by simpa only [own', ha, if_false] using ho
        by_cases hb : b = s.arrays.length
        · subst hb
          obtain ⟨c', hc', hs'⟩ := o_new_some q e ch ho'
          have := (h.own_dom a p d ch ho).2
          have := (c4 q c' e ch hc' hs').1
          omega
        · have ho' : own b q e = some ch := by simpa only [own', hb, if_false] using ho'
          exact h.own_inj a b p q d e ch ho ho'
    · -- table
      intro key ch hk
      obtain ⟨a, x, p, d, hx, ho, rfl⟩ := h.table key ch hk
      exact ⟨a, x, p, d, get_append_old hx, by rw [o_old a p d (get_lt hx)]; exact ho, rfl⟩
    · -- regs
      intro key ch hr
      simp only [] at hr
      rw [c6, List.mem_append] at hr
      rcases hr with hr | hr
      · obtain ⟨a, x, p, d, hx, ho, rfl⟩ := h.regs key ch hr
        exact ⟨a, x, p, d, get_append_old hx, by rw [o_old a p d (get_lt hx)]; exact ho, rfl⟩
      · obtain ⟨p, c, d, ch', hc, hs, he⟩ := (c8 _).mp hr
        simp only [Req.register.injEq] at he
        obtain ⟨rfl, rfl⟩ := he
        exact ⟨s.arrays.length, z, p, d, get_append_new _ _, o_get p d _ c hc hs, hkey p d c hc⟩
    · -- pending
      simp only []
      rw [c6, List.filterMap_append, c7]
      refine List.Nodup.append h.pending List.nodup_range' ?_
      intro ch h1 h2
      obtain ⟨r, hr, hch⟩ := List.mem_filterMap.mp h1
      cases r with
      | unregister key => simp [Req.chan] at hch
      | register key ch' =>
        simp only [Req.chan, Option.some.injEq] at hch
        subst hch
        obtain ⟨a, x, p, d, hx, ho, -⟩ := h.regs key ch' hr
        have := (h.own_dom a p d ch' ho).2
        rw [List.mem_range'_1] at h2
        omega
    · -- done
      intro key ch hk
      simp only []
      rw [c6, List.filterMap_append, c7, List.mem_append]
      rintro (h1 | h2)
      · exact h.done key ch hk h1
      · obtain ⟨a, x, p, d, hx, ho, -⟩ := h.table key ch hk
        have := (h.own_dom a p d ch ho).2
        rw [List.mem_range'_1] at h2
        omega
    · -- tasks
      intro a x hx
      rcases get_append hx with hx | ⟨ha, rfl⟩
      · obtain ⟨h1, h2⟩ := h.tasks a x hx
        refine ⟨h1, fun p c hc => ?_⟩
        obtain ⟨h3, h4⟩ := h2 p c hc
        refine ⟨by rw [h3]; funext d; rw [o_old a p d (get_lt hx)], fun d => ?_⟩
        refine ⟨(h4 d).none, (h4 d).waiting, fun ch hr => ?_⟩
        obtain ⟨q, h5, h6⟩ := (h4 d).ready ch hr
        exact ⟨q, h5, by rw [o_old a q _ (get_lt hx)]; exact h6⟩
      · subst ha
        rw [z3, z4, z5]
        refine ⟨c1, fun p c hc => ?_⟩
        obtain ⟨i, j, hi, hj, rfl⟩ := exists_pos (cidx p c hc).2
        obtain ⟨c', hc', hfr⟩ := hpos i j hi hj
        have heq := hc
        rw [hc'] at heq
        obtain rfl := Option.some.inj heq
        refine ⟨by funext d; rw [o_new, hc]; rfl, fun d => ?_⟩
        have hr := hfr.recv d
        refine ⟨fun hn => ?_, fun key hw => ?_, fun ch hr' => ?_⟩
        · rw [z3, z4, ← hasNeighbour_iff hi hj d]
          intro hb
          rw [hn, hb] at hr
          simp at hr
        · rw [z3, z4]
          rw [hw] at hr
          cases hb : hasNeighbour m0 m1 i j d with
          | false => rw [hb] at hr; simp at hr
          | true =>
            obtain ⟨q, hq⟩ := (hasNeighbour_iff hi hj d).mp hb
            refine ⟨q, hq, ?_⟩
            rw [hb] at hr
            simp only [if_true, Option.some.injEq, Client.waiting.injEq] at hr
            rw [hr, neighbourIdx_eq hj hq, keyOf, z2]
        · rw [hr'] at hr
          cases hb : hasNeighbour m0 m1 i j d with
          | false => rw [hb] at hr; simp at hr
          | true => rw [hb] at hr; simp at hr
    · -- comms
      intro a x hx p c hc
      rcases get_append hx with hx | ⟨ha, rfl⟩
      · exact h.comms a x hx p c hc
      · rw [z6] at hc
        exact (cidx p c hc).1
    · -- unregs
      intro key hr
      simp only [] at hr
      rw [c6, List.mem_append] at hr
      rcases hr with hr | hr
      · obtain ⟨a, x, p, d, hx, h1, h2⟩ := h.unregs key hr
        exact ⟨a, x, p, d, get_append_old hx, h1, h2⟩
      · obtain ⟨p, c, d, ch', hc, hs, he⟩ := (c8 _).mp hr
        simp at he
    · -- live
      intro a x p d ch hx hu ho
      simp only []
      rw [c6, List.mem_append]
      rcases get_append hx with hx | ⟨ha, rfl⟩
      · rw [o_old a p d (get_lt hx)] at ho
        rcases h.live a x p d ch hx hu ho with h1 | h1
        · exact Or.inl h1
        · exact Or.inr (Or.inl h1)
      · subst ha
        obtain ⟨c, hc, hs⟩ := o_new_some p d ch ho
        exact Or.inr (Or.inr ((c8 _).mpr ⟨p, c, d, ch, hc, hs, by rw [hkey p d c hc]⟩))
    · -- events
      intro ev hev
      have := h.events ev hev
      simp only [List.length_append, List.length_singleton]
      omega
  · constructor
    · -- flow
      intro a x p q d ch hx hl ho
      rcases get_append hx with hx | ⟨ha, rfl⟩
      · rw [o_old a q _ (get_lt hx)] at ho
        exact hf.flow a x p q d ch hx hl ho
      · subst ha
        obtain ⟨c, hc, hs⟩ := o_new_some q _ ch ho
        have := (c4 q c _ ch hc hs).1
        rw [gots_nil h.events (le_refl _), sents_nil h.events (le_refl _)]
        exact (hf.fresh ch this).1
    · intro ch hch
      exact hf.fresh ch (le_trans c3 hch)
    · -- closed
      intro a p d ch ho
      by_cases ha : a = s.arrays.length
      · subst ha
        obtain ⟨c, hc, hs⟩ := o_new_some p d ch ho
        have := (hf.fresh ch (c4 p c d ch hc hs).1).2
        constructor
        · intro h1
          simp only [] at h1
          rw [this] at h1
          cases h1
        · intro h1
          have := h.events _ h1
          simp only [Event.array] at this
          omega
      · have ho : own a p d = some ch := by simpa only [own', ha, if_false] using ho
        exact hf.closed a p d ch ho
    · -- ended
      intro a p d hev
      obtain ⟨x, q, ch, hx, h1, h2, h3, h4⟩ := hf.ended a p d hev
      exact ⟨x, q, ch, get_append_old hx, h1, by rw [o_old a q _ (get_lt hx)]; exact h2, h3, h4⟩
    · intro a p d v hev
      obtain ⟨x, q, hx, h1⟩ := hf.gotten a p d v hev
      exact ⟨x, q, get_append_old hx, h1⟩
    · intro a p d v hev
      obtain ⟨x, q, hx, h1⟩ := hf.sending a p d v hev
      exact ⟨x, q, get_append_old hx, h1⟩

end Lue.Channels

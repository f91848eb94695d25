import Verif.FirstN.Lemmas

/-! The invariant of walking along routes: `pos r` is the number of pieces of route `r` that have been handled. -/
namespace Lue.FirstN

open Classical

theorem need_some {α : Type} {o : Option α} {a : α} (h : o = some a) : need o = .ok a := by rw [h]; rfl

theorem assert_ok {b : Bool} (h : b = true) : assert b = .ok () := by rw [h]; rfl

theorem ok_bind {α β : Type} (a : α) (f : α → Except Err β) : ((Except.ok a : Except Err α) >>= f) = f a := rfl

structure CompInv (R : Route) (path : Int → List Piece) (n : Int) (pos : Int → Nat) (p : Nat) (configured : Bool) (c : Comp) :
    Prop where
  ok : c.idxs.Ok
  idxs : ∀ r, c.idxs.get r =
    if cnt p ((path r).take (pos r)) < cnt p (path r) then some (cnt p ((path r).take (pos r))) else none
  len : c.out.length = (R.parts p).nrCells
  out : ∀ i < (R.parts p).nrCells, c.out[i]? =
    some (if ∃ r, (p, i) ∈ (cellsOf ((path r).take (pos r))).take n.toNat then some 1 else none)
  down : configured = true → c.finished = false → c.downstream = (R.parts p).remoteLocations
  fin : c.finished = true ↔ c.idxs = [] ∧ (c.retrieved = true ∨ (R.parts p).frags ≠ [])

/-- What a message tells: where the next piece of its route is located, and how many cells have been visited. -/
def MsgOk (path : Int → List Piece) (n : Int) (pos : Int → Nat) : Msg → Prop
  | .walk p r d => (∃ cells, (path r)[pos r]? = some (p, cells)) ∧ d.max = n ∧
      d.visited = (min (cellsOf ((path r).take (pos r))).length n.toNat : Nat)
  | .skip p r => (∃ cells, (path r)[pos r]? = some (p, cells)) ∧ n.toNat ≤ (cellsOf ((path r).take (pos r))).length

structure Inv (R : Route) (path : Int → List Piece) (n : Int) (pos : Int → Nat) (s : Sys) : Prop where
  le : ∀ r, pos r ≤ (path r).length
  unstarted : s.started = false → s.msgs = [] ∧ ∀ r, pos r = 0
  routes : (s.msgs.map Msg.route).Nodup
  msg : ∀ m ∈ s.msgs, MsgOk path n pos m
  sent : s.started = true → ∀ r, pos r < (path r).length → ∃ m ∈ s.msgs, m.route = r
  conf : s.started = true → ∀ p < R.nrParts, s.configured p = true
  comp : ∀ p < R.nrParts, CompInv R path n pos p (s.configured p) (s.comp p)

variable {R : Route} {path : Int → List Piece} {n : Int} {pos : Int → Nat} {s : Sys}

theorem init_inv (hw : WellFormed R path) : Inv R path n (fun _ => 0) (init R) where
  le := fun _ => Nat.zero_le _
  unstarted := fun _ => ⟨rfl, fun _ => rfl⟩
  routes := List.nodup_nil
  msg := by intro m hm; simp [init] at hm
  sent := by intro h; simp [init] at h
  conf := by intro h; simp [init] at h
  comp := by
    intro p hp
    refine ⟨?_, ?_, ?_, ?_, ?_, ?_⟩
    · have := hw.frags_ok p hp
      unfold AMap.Ok at *
      simpa [init, Comp.new, Function.comp_def] using this
    · intro r
      simp only [init, Comp.new, AMap.get_map_const, hw.frags p hp r, fragmentsIn_eq_nil]
      have h0 : cnt p ((path r).take 0) = 0 := by simp [cnt]
      simp only [h0]
      by_cases h : cnt p (path r) = 0
      · simp [h]
      · have : 0 < cnt p (path r) := by omega
        simp [h, this]
    · simp [init, Comp.new]
    · intro i hi
      have : ¬ ∃ r, (p, i) ∈ (cellsOf ((path r).take 0)).take n.toNat := by
        rintro ⟨r, hr⟩
        simp [cellsOf] at hr
      simp only [init, Comp.new, this, if_false]
      rw [List.getElem?_replicate]
      simp [hi]
    · intro h; simp [init] at h
    · simp only [init, Comp.new]
      simp

/-- Handling a piece in another partition does not matter. -/
theorem CompInv.other {p q : Nat} {b : Bool} {c : Comp} {r : Int} {cells : List Nat} (h : CompInv R path n pos q b c)
    (hp : (path r)[pos r]? = some (p, cells)) (hne : q ≠ p) : CompInv R path n (Function.update pos r (pos r + 1)) q b c := by
  refine ⟨h.ok, ?_, h.len, ?_, h.down, h.fin⟩
  · intro r'
    rw [h.idxs r']
    by_cases hr : r' = r
    · subst hr
      have := cnt_take_succ (p := q) hp
      simp only [Ne.symm hne, if_false, Nat.add_zero] at this
      rw [Function.update_self, this]
    · rw [Function.update_of_ne hr]
  · intro i hi
    rw [h.out i hi]
    congr 2
    apply propext
    apply exists_congr
    intro r'
    by_cases hr : r' = r
    · subst hr
      rw [Function.update_self, cellsOf_take_succ hp, List.take_append]
      simp only [List.mem_append]
      refine ⟨Or.inl, ?_⟩
      rintro (h | h)
      · exact h
      · have := List.mem_of_mem_take h
        simp only [List.mem_map, Prod.mk.injEq] at this
        obtain ⟨_, _, h1, _⟩ := this
        exact absurd h1.symm hne
    · rw [Function.update_of_ne hr]

/-- Leaving a fragment: the index is increased, or removed after the last fragment; the partition is finished when none is
left. -/
theorem leaveFragment_ok {c : Comp} {r : Int} {idx nf : Nat} (hok : c.idxs.Ok) (hget : c.idxs.get r = some idx) (hlt : idx < nf)
    (hf : c.finished = false) : ∃ c', leaveFragment c r (idx + 1) nf = .ok c' ∧ c'.out = c.out ∧ c'.retrieved = c.retrieved ∧
      c'.idxs.Ok ∧ (∀ r', c'.idxs.get r' = if r = r' then (if idx + 1 < nf then some (idx + 1) else none) else c.idxs.get r') ∧
      (c'.finished = true ↔ c'.idxs = []) ∧ (c'.finished = false → c'.downstream = c.downstream) := by
  unfold leaveFragment
  have hok1 : (c.idxs.put r (idx + 1)).Ok := hok.put _ _
  by_cases h : idx + 1 = nf
  · simp only [h, if_true]
    have hg : ∀ r', ((c.idxs.put r nf).erase r).get r' = if r = r' then (if nf < nf then some nf else none) else c.idxs.get r' := by
      intro r'
      rw [AMap.get_erase, AMap.get_put]
      by_cases hr : r = r' <;> simp [hr]
    by_cases he : ((c.idxs.put r nf).erase r).isEmpty = true
    · refine ⟨{ c with idxs := (c.idxs.put r nf).erase r, finished := true, downstream := [] }, ?_, rfl, rfl, (hok.put _ _).erase _, hg,
        ?_, ?_⟩
      · simp only [he, if_true, finishPartition, hf]
        rfl
      · simpa using he
      · intro h; simp at h
    · refine ⟨{ c with idxs := (c.idxs.put r nf).erase r }, ?_, rfl, rfl, (hok.put _ _).erase _, hg, ?_, fun _ => rfl⟩
      · simp only [he, Bool.false_eq_true, if_false]
      · simp only [hf, Bool.false_eq_true, false_iff]
        simpa using he
  · have h2 : idx + 1 < nf := by omega
    simp only [h, if_false]
    refine ⟨_, rfl, rfl, rfl, hok1, ?_, ?_, fun _ => rfl⟩
    · intro r'
      simp only [AMap.get_put, h2, if_true]
    · simp only [hf, Bool.false_eq_true, false_iff]
      intro h3
      have := AMap.get_put c.idxs r r (idx + 1)
      rw [h3] at this
      simp [AMap.get_nil] at this

/-- Some facts about the piece a message is about. -/
theorem piece_facts (hw : WellFormed R path) (hi : Inv R path n pos s) {m : Msg} (hm : m ∈ s.msgs) {p : Nat} {r : Int}
    {cells : List Nat} (hp : (path r)[pos r]? = some (p, cells)) :
    p < R.nrParts ∧ (∀ i ∈ cells, i < (R.parts p).nrCells) ∧ s.started = true ∧
    (s.comp p).idxs.get r = some (cnt p ((path r).take (pos r))) ∧ (s.comp p).finished = false ∧
    (R.parts p).frags.get r = some (fragmentsIn p (path r)) ∧
    (fragmentsIn p (path r))[cnt p ((path r).take (pos r))]? = some ⟨cells, (path r)[pos r + 1]?.map Prod.fst⟩ ∧
    (s.comp p).idxs.isEmpty = false ∧ cnt p ((path r).take (pos r)) < (fragmentsIn p (path r)).length := by
  obtain ⟨h1, h2⟩ := hw.parts r _ (List.mem_of_getElem? hp)
  have hst : s.started = true := by
    by_contra h
    have := (hi.unstarted (by simpa using h)).1
    rw [this] at hm
    simp at hm
  have hlt := cnt_take_lt hp
  have hget := (hi.comp p h1).idxs r
  rw [if_pos hlt] at hget
  have hne : (s.comp p).idxs ≠ [] := by
    intro h
    rw [h] at hget
    simp [AMap.get_nil] at hget
  refine ⟨h1, h2, hst, hget, ?_, ?_, fragmentsIn_getElem hp, ?_, by rw [length_fragmentsIn]; exact hlt⟩
  · have := (hi.comp p h1).fin
    by_contra h
    exact hne (this.1 (by simpa using h)).1
  · rw [hw.frags p h1 r, if_neg]
    rw [fragmentsIn_eq_nil]
    omega
  · simpa using hne

/-- The downstream component is known. -/
theorem next_known (hw : WellFormed R path) (hi : Inv R path n pos s) {m : Msg} (hm : m ∈ s.msgs) {p q : Nat} {r : Int}
    {cells : List Nat} (hp : (path r)[pos r]? = some (p, cells)) (hq : (path r)[pos r + 1]?.map Prod.fst = some q) :
    q ∈ (s.comp p).downstream := by
  obtain ⟨h1, _, h3, _, h5, h6, _⟩ := piece_facts hw hi hm hp
  rw [(hi.comp p h1).down (hi.conf h3 p h1) h5]
  unfold RoutePartition.remoteLocations
  exact List.mem_flatMap.2 ⟨_, AMap.mem_of_get h6, mem_fragmentsIn_next hp hq⟩

/-- The component of the partition of the piece that is handled, after it has been handled. -/
theorem comp_after (hi : Inv R path n pos s) {p : Nat} {r : Int} {cells : List Nat}
    (hp : (path r)[pos r]? = some (p, cells)) (h1 : p < R.nrParts) {c' : Comp} (hlen : c'.out.length = (s.comp p).out.length)
    (hout : ∀ i, c'.out[i]? = if i ∈ cells.take (n.toNat - (cellsOf ((path r).take (pos r))).length) then some (some 1)
      else (s.comp p).out[i]?)
    (hfrags : (R.parts p).frags ≠ []) (hok : c'.idxs.Ok)
    (hidx : ∀ r', c'.idxs.get r' = if r = r' then
      (if cnt p ((path r).take (pos r)) + 1 < (fragmentsIn p (path r)).length then some (cnt p ((path r).take (pos r)) + 1) else none)
      else (s.comp p).idxs.get r')
    (hfin : c'.finished = true ↔ c'.idxs = []) (hdown : c'.finished = false → c'.downstream = (s.comp p).downstream)
    (hf : (s.comp p).finished = false) :
    CompInv R path n (Function.update pos r (pos r + 1)) p (s.configured p) c' := by
  have hc := hi.comp p h1
  refine ⟨hok, ?_, hlen.trans hc.len, ?_, ?_, ?_⟩
  · intro r'
    rw [hidx r']
    by_cases hr : r = r'
    · subst hr
      have := cnt_take_succ (p := p) hp
      simp only [if_true] at this ⊢
      rw [Function.update_self, this, length_fragmentsIn]
    · rw [if_neg hr, Function.update_of_ne (Ne.symm hr), hc.idxs r']
  · intro i hi'
    have key : (∃ r', (p, i) ∈ (cellsOf ((path r').take (Function.update pos r (pos r + 1) r'))).take n.toNat) ↔
        i ∈ cells.take (n.toNat - (cellsOf ((path r).take (pos r))).length) ∨
        ∃ r', (p, i) ∈ (cellsOf ((path r').take (pos r'))).take n.toNat := by
      have hmap : ∀ k, (p, i) ∈ (cells.map fun i => (p, i)).take k ↔ i ∈ cells.take k := by
        intro k
        rw [← List.map_take]
        simp only [List.mem_map, Prod.mk.injEq, true_and, exists_eq_right]
      constructor
      · rintro ⟨r', h⟩
        by_cases hr : r' = r
        · subst hr
          rw [Function.update_self, cellsOf_take_succ hp, List.take_append, List.mem_append] at h
          rcases h with h | h
          · exact Or.inr ⟨_, h⟩
          · exact Or.inl ((hmap _).1 h)
        · rw [Function.update_of_ne hr] at h
          exact Or.inr ⟨_, h⟩
      · rintro (h | ⟨r', h⟩)
        · refine ⟨r, ?_⟩
          rw [Function.update_self, cellsOf_take_succ hp, List.take_append, List.mem_append]
          exact Or.inr ((hmap _).2 h)
        · refine ⟨r', ?_⟩
          by_cases hr : r' = r
          · subst hr
            rw [Function.update_self, cellsOf_take_succ hp, List.take_append, List.mem_append]
            exact Or.inl h
          · rw [Function.update_of_ne hr]
            exact h
    rw [hout i, hc.out i hi']
    by_cases h1 : i ∈ cells.take (n.toNat - (cellsOf ((path r).take (pos r))).length)
    · rw [if_pos h1, if_pos (key.2 (Or.inl h1))]
    · rw [if_neg h1]
      by_cases h2 : ∃ r', (p, i) ∈ (cellsOf ((path r').take (pos r'))).take n.toNat
      · rw [if_pos h2, if_pos (key.2 (Or.inr h2))]
      · rw [if_neg h2, if_neg]
        intro h3
        rcases key.1 h3 with h4 | h4
        · exact h1 h4
        · exact h2 h4
  · intro h2 h3
    rw [hdown h3]
    exact hc.down h2 hf
  · rw [hfin]
    exact ⟨fun h => ⟨h, Or.inr hfrags⟩, fun h => h.1⟩

/-- The state after a message has been handled. -/
theorem inv_deliver (hi : Inv R path n pos s) {m : Msg} (hm : m ∈ s.msgs) {p : Nat} {cells : List Nat}
    (hp : (path m.route)[pos m.route]? = some (p, cells)) (hst : s.started = true) {c' : Comp}
    (hc : CompInv R path n (Function.update pos m.route (pos m.route + 1)) p (s.configured p) c') {msgs : List Msg}
    (hmsgs : ∀ m' ∈ msgs, m'.route = m.route ∧ MsgOk path n (Function.update pos m.route (pos m.route + 1)) m')
    (hone : msgs.length ≤ 1) (hmore : pos m.route + 1 < (path m.route).length → msgs ≠ []) :
    Inv R path n (Function.update pos m.route (pos m.route + 1))
      { s with comp := Function.update s.comp p c', msgs := s.msgs.erase m ++ msgs } := by
  have hlt : pos m.route < (path m.route).length := by
    obtain ⟨h, _⟩ := List.getElem?_eq_some_iff.1 hp
    exact h
  have hnd : s.msgs.Nodup := hi.routes.of_map _
  have hnot : ∀ m' ∈ s.msgs.erase m, m'.route ≠ m.route := by
    intro m' h1 h2
    rw [hnd.mem_erase_iff] at h1
    exact h1.1 (List.inj_on_of_nodup_map hi.routes h1.2 hm h2)
  have hrest : ∀ m' : Msg, m'.route ≠ m.route → MsgOk path n pos m' →
      MsgOk path n (Function.update pos m.route (pos m.route + 1)) m' := by
    intro m' h1 h2
    cases m' with
    | walk q r d =>
      simp only [Msg.route] at h1
      have e : Function.update pos m.route (pos m.route + 1) r = pos r := Function.update_of_ne h1 _ _
      simp only [MsgOk, e] at h2 ⊢
      exact h2
    | skip q r =>
      simp only [Msg.route] at h1
      have e : Function.update pos m.route (pos m.route + 1) r = pos r := Function.update_of_ne h1 _ _
      simp only [MsgOk, e] at h2 ⊢
      exact h2
  refine ⟨?_, ?_, ?_, ?_, ?_, hi.conf, ?_⟩
  · intro r
    by_cases h : r = m.route
    · subst h; rw [Function.update_self]; omega
    · rw [Function.update_of_ne h]; exact hi.le r
  · intro h; simp only [hst] at h; cases h
  · rw [List.map_append, List.nodup_append]
    refine ⟨hi.routes.sublist (List.erase_sublist.map _), ?_, ?_⟩
    · match msgs, hone with
      | [], _ => exact List.nodup_nil
      | [_], _ => exact List.nodup_singleton _
    · intro a ha b hb
      obtain ⟨m1, h1, rfl⟩ := List.mem_map.1 ha
      obtain ⟨m2, h2, rfl⟩ := List.mem_map.1 hb
      rw [(hmsgs m2 h2).1]
      exact hnot m1 h1
  · intro m' h
    rcases List.mem_append.1 h with h | h
    · exact hrest m' (hnot m' h) (hi.msg m' (List.mem_of_mem_erase h))
    · exact (hmsgs m' h).2
  · intro _ r hr
    by_cases h : r = m.route
    · subst h
      rw [Function.update_self] at hr
      obtain ⟨m', h'⟩ := List.exists_mem_of_ne_nil _ (hmore hr)
      exact ⟨m', List.mem_append.2 (Or.inr h'), (hmsgs m' h').1⟩
    · rw [Function.update_of_ne h] at hr
      obtain ⟨m', h1, h2⟩ := hi.sent hst r hr
      refine ⟨m', List.mem_append.2 (Or.inl ?_), h2⟩
      rw [hnd.mem_erase_iff]
      refine ⟨?_, h1⟩
      rintro rfl
      exact h h2.symm
  · intro q hq
    by_cases h : q = p
    · subst h
      simp only [Function.update_self]
      exact hc
    · simp only [Function.update_of_ne h]
      exact (hi.comp q hq).other hp h

theorem deliver_walk (hw : WellFormed R path) (hi : Inv R path n pos s) {p : Nat} {r : Int} {d : CellCounter}
    (hm : Msg.walk p r d ∈ s.msgs) : ∃ s', perform R n s (.deliver (.walk p r d)) = .ok s' ∧
      Inv R path n (Function.update pos r (pos r + 1)) s' ∧ s'.configured = s.configured ∧ s'.started = s.started ∧
      (∀ q, (s'.comp q).retrieved = (s.comp q).retrieved) ∧ pos r < (path r).length := by
  obtain ⟨⟨cells, hp⟩, hmax, hvis⟩ := hi.msg _ hm
  obtain ⟨h1, h2, h3, h4, h5, h6, h7, h8, h9⟩ := piece_facts hw hi hm hp
  have hlt : pos r < (path r).length := (List.getElem?_eq_some_iff.1 hp).1
  have hlen : (s.comp p).out.length = (R.parts p).nrCells := (hi.comp p h1).len
  obtain ⟨out', ho1, ho2, ho3⟩ := walkCells_ok cells (s.comp p).out d (by rw [hlen]; exact h2)
  have hk : (d.max - d.visited).toNat = n.toNat - (cellsOf ((path r).take (pos r))).length := by
    rw [hmax, hvis]; omega
  obtain ⟨c', hl1, hl2, hl3, hl4, hl5, hl6, hl7⟩ := leaveFragment_ok (c := { s.comp p with out := out' }) (hi.comp p h1).ok h4 h9 h5
  simp only at hl2 hl3 hl5 hl7
  have hvis' : d.visited + (min cells.length (d.max - d.visited).toNat : Nat) =
      (min (cellsOf ((path r).take (pos r + 1))).length n.toNat : Nat) := by
    rw [hk, hvis, cellsOf_take_succ hp, List.length_append, List.length_map]
    omega
  generalize hd' : d.visited + (min cells.length (d.max - d.visited).toNat : Nat) = v' at *
  have hwalk : ∃ msgs, walk (R.parts p) (s.comp p) r d = .ok (c', msgs) ∧
      (∀ m' ∈ msgs, m'.route = r ∧ MsgOk path n (Function.update pos r (pos r + 1)) m') ∧ msgs.length ≤ 1 ∧
      (pos r + 1 < (path r).length → msgs ≠ []) := by
    unfold walk
    rw [assert_ok (by rw [h8]; rfl), ok_bind, need_some h4, ok_bind, need_some h6, ok_bind, need_some h7, ok_bind]
    simp only
    rw [ho1, ok_bind]
    simp only
    cases hnx : (path r)[pos r + 1]?.map Prod.fst with
    | none =>
      have hlast : pos r + 1 = (path r).length := by
        simp only [Option.map_eq_none_iff, List.getElem?_eq_none_iff] at hnx
        omega
      have hcnt : cnt p ((path r).take (pos r)) + 1 = (fragmentsIn p (path r)).length := by
        have := cnt_take_succ (p := p) hp
        rw [hlast, List.take_length] at this
        rw [length_fragmentsIn, this]
        simp
      refine ⟨[], ?_, by simp, by simp, by omega⟩
      simp only [ok_bind]
      rw [assert_ok (by simp [hcnt]), ok_bind, hl1, ok_bind]
    | some q =>
      have hq := next_known hw hi hm hp hnx
      obtain ⟨e, he, rfl⟩ := Option.map_eq_some_iff.1 hnx
      by_cases hkw : v' < d.max
      · refine ⟨[.walk e.1 r { d with visited := v' }], ?_, ?_, by simp, by simp⟩
        · simp only
          rw [assert_ok (by simpa using hq), ok_bind]
          simp only [CellCounter.keepWalking, hkw, decide_true, if_true, ok_bind]
          rw [assert_ok (by simp), ok_bind, hl1, ok_bind]
        · intro m' hm'
          rw [List.mem_singleton.1 hm']
          refine ⟨rfl, ⟨e.2, ?_⟩, hmax, ?_⟩
          · rw [Function.update_self]; exact he
          · rw [Function.update_self]; exact hvis'
      · refine ⟨[.skip e.1 r], ?_, ?_, by simp, by simp⟩
        · simp only
          rw [assert_ok (by simpa using hq), ok_bind]
          simp only [CellCounter.keepWalking, hkw, decide_false, Bool.false_eq_true, if_false, ok_bind]
          rw [assert_ok (by simp), ok_bind, hl1, ok_bind]
        · intro m' hm'
          rw [List.mem_singleton.1 hm']
          refine ⟨rfl, ⟨e.2, ?_⟩, ?_⟩
          · rw [Function.update_self]; exact he
          · rw [Function.update_self]
            rw [hmax] at hkw
            omega
  obtain ⟨msgs, hw1, hw2, hw3, hw4⟩ := hwalk
  refine ⟨{ s with comp := Function.update s.comp p c', msgs := s.msgs.erase (.walk p r d) ++ msgs }, ?_, ?_, rfl, rfl, ?_, hlt⟩
  · simp only [perform, hw1, ok_bind]
  · refine inv_deliver (m := .walk p r d) hi hm hp h3 ?_ hw2 hw3 hw4
    refine comp_after hi hp h1 (by rw [hl2, ho2]) ?_ ?_ hl4 hl5 hl6 hl7 h5
    · intro i
      rw [hl2, ho3, hk]
    · intro h
      rw [h] at h6
      simp [AMap.get_nil] at h6
  · intro q
    by_cases h : q = p
    · subst h; simp only [Function.update_self]; exact hl3
    · simp only [Function.update_of_ne h]

theorem deliver_skip (hw : WellFormed R path) (hi : Inv R path n pos s) {p : Nat} {r : Int}
    (hm : Msg.skip p r ∈ s.msgs) : ∃ s', perform R n s (.deliver (.skip p r)) = .ok s' ∧
      Inv R path n (Function.update pos r (pos r + 1)) s' ∧ s'.configured = s.configured ∧ s'.started = s.started ∧
      (∀ q, (s'.comp q).retrieved = (s.comp q).retrieved) ∧ pos r < (path r).length := by
  obtain ⟨⟨cells, hp⟩, hvis⟩ := hi.msg _ hm
  obtain ⟨h1, h2, h3, h4, h5, h6, h7, h8, h9⟩ := piece_facts hw hi hm hp
  have hlt : pos r < (path r).length := (List.getElem?_eq_some_iff.1 hp).1
  obtain ⟨c', hl1, hl2, hl3, hl4, hl5, hl6, hl7⟩ := leaveFragment_ok (c := s.comp p) (hi.comp p h1).ok h4 h9 h5
  have hwalk : ∃ msgs, skipWalking (R.parts p) (s.comp p) r = .ok (c', msgs) ∧
      (∀ m' ∈ msgs, m'.route = r ∧ MsgOk path n (Function.update pos r (pos r + 1)) m') ∧ msgs.length ≤ 1 ∧
      (pos r + 1 < (path r).length → msgs ≠ []) := by
    unfold skipWalking
    rw [assert_ok (by rw [h8]; rfl), ok_bind, need_some h4, ok_bind, need_some h6, ok_bind, need_some h7, ok_bind]
    simp only
    cases hnx : (path r)[pos r + 1]?.map Prod.fst with
    | none =>
      have hlast : pos r + 1 = (path r).length := by
        simp only [Option.map_eq_none_iff, List.getElem?_eq_none_iff] at hnx
        omega
      refine ⟨[], ?_, by simp, by simp, by omega⟩
      simp only [ok_bind]
      rw [hl1, ok_bind]
    | some q =>
      have hq := next_known hw hi hm hp hnx
      obtain ⟨e, he, rfl⟩ := Option.map_eq_some_iff.1 hnx
      refine ⟨[.skip e.1 r], ?_, ?_, by simp, by simp⟩
      · simp only
        rw [assert_ok (by simpa using hq), ok_bind]
        simp only [ok_bind]
        rw [hl1, ok_bind]
      · intro m' hm'
        rw [List.mem_singleton.1 hm']
        refine ⟨rfl, ⟨e.2, ?_⟩, ?_⟩
        · rw [Function.update_self]; exact he
        · rw [Function.update_self, cellsOf_take_succ hp, List.length_append]
          omega
  obtain ⟨msgs, hw1, hw2, hw3, hw4⟩ := hwalk
  refine ⟨{ s with comp := Function.update s.comp p c', msgs := s.msgs.erase (.skip p r) ++ msgs }, ?_, ?_, rfl, rfl, ?_, hlt⟩
  · simp only [perform, hw1, ok_bind]
  · refine inv_deliver (m := .skip p r) hi hm hp h3 ?_ hw2 hw3 hw4
    refine comp_after hi hp h1 (by rw [hl2]) ?_ ?_ hl4 hl5 hl6 hl7 h5
    · intro i
      have : n.toNat - (cellsOf ((path r).take (pos r))).length = 0 := by omega
      rw [hl2, this]
      simp
    · intro h
      rw [h] at h6
      simp [AMap.get_nil] at h6
  · intro q
    by_cases h : q = p
    · subst h; simp only [Function.update_self]; exact hl3
    · simp only [Function.update_of_ne h]

end Lue.FirstN

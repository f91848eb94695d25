import Verif.FirstN.Proofs
import Mathlib.Algebra.BigOperators.Group.Finset.Basic

/-!
Properties of `first_n`, for all routes, maxima, and executions: all orders in which tasks run and messages are delivered.
-/
namespace Lue.FirstN

open Classical

variable {R : Route} {path : Int → List Piece} {n : Int} {pos : Int → Nat} {s : Sys}

/-- What still has to be done. -/
def todo (R : Route) (path : Int → List Piece) (pos : Int → Nat) (s : Sys) : Nat :=
  ∑ r ∈ (R.starts.map Prod.fst).toFinset, ((path r).length - pos r) +
  (∑ p ∈ Finset.range R.nrParts, (if (s.comp p).retrieved then 0 else 1) +
  (∑ p ∈ Finset.range R.nrParts, (if s.configured p then 0 else 1) + (if s.started then 0 else 1)))

theorem sum_dec {ι : Type} {S : Finset ι} {f f' : ι → Nat} {a : ι} (ha : a ∈ S) (h : f' a + 1 = f a)
    (hne : ∀ b, b ≠ a → f' b = f b) : ∑ x ∈ S, f' x + 1 = ∑ x ∈ S, f x := by
  rw [← Finset.add_sum_erase _ _ ha, ← Finset.add_sum_erase _ f ha]
  have : ∑ x ∈ S.erase a, f' x = ∑ x ∈ S.erase a, f x :=
    Finset.sum_congr rfl fun x hx => hne x (Finset.mem_erase.1 hx).1
  omega

theorem mem_starts (hw : WellFormed R path) {r : Int} {k : Nat} (h : k < (path r).length) :
    r ∈ (R.starts.map Prod.fst).toFinset := by
  rw [List.mem_toFinset]
  cases hp : path r with
  | nil => rw [hp] at h; simp at h
  | cons e l =>
    have := (hw.start r e.1).2 (by rw [hp]; rfl)
    exact AMap.get_isSome.1 ⟨_, this⟩

theorem todo_deliver (hw : WellFormed R path) {r : Int} {s' : Sys} (hr : pos r < (path r).length)
    (h1 : s'.configured = s.configured) (h2 : s'.started = s.started)
    (h3 : ∀ q, (s'.comp q).retrieved = (s.comp q).retrieved) :
    todo R path (Function.update pos r (pos r + 1)) s' + 1 = todo R path pos s := by
  have hd : ∑ r' ∈ (R.starts.map Prod.fst).toFinset, ((path r').length - Function.update pos r (pos r + 1) r') + 1 =
      ∑ r' ∈ (R.starts.map Prod.fst).toFinset, ((path r').length - pos r') := by
    refine sum_dec (mem_starts hw hr) ?_ ?_
    · rw [Function.update_self]; omega
    · intro b hb
      rw [Function.update_of_ne hb]
  unfold todo
  simp only [h1, h2, h3]
  omega

/-- Every possible action succeeds, and decreases the amount of work left by one. -/
theorem perform_ok (hw : WellFormed R path) (hi : Inv R path n pos s) {a : Action} (he : Enabled R s a) (ht : Timely s a) :
    ∃ s' pos', perform R n s a = .ok s' ∧ Inv R path n pos' s' ∧ todo R path pos' s' + 1 = todo R path pos s := by
  cases a with
  | deliver m =>
    cases m with
    | walk p r d =>
      obtain ⟨s', h1, h2, h3, h4, h5, h6⟩ := deliver_walk hw hi he
      exact ⟨s', _, h1, h2, todo_deliver hw h6 h3 h4 h5⟩
    | skip p r =>
      obtain ⟨s', h1, h2, h3, h4, h5, h6⟩ := deliver_skip hw hi he
      exact ⟨s', _, h1, h2, todo_deliver hw h6 h3 h4 h5⟩
  | configure p =>
    obtain ⟨hp, hc⟩ := he
    refine ⟨_, pos, rfl, ?_, ?_⟩
    · refine ⟨hi.le, hi.unstarted, hi.routes, hi.msg, hi.sent, ?_, ?_⟩
      · intro h q hq
        have := hi.conf h p hp
        rw [hc] at this
        cases this
      · intro q hq
        have := hi.comp q hq
        by_cases h : q = p
        · subst h
          simp only [Function.update_self]
          exact ⟨this.ok, this.idxs, this.len, this.out, fun _ _ => rfl, this.fin⟩
        · simp only [Function.update_of_ne h]
          exact this
    · have hd : ∑ q ∈ Finset.range R.nrParts, (if Function.update s.configured p true q then 0 else 1) + 1 =
          ∑ q ∈ Finset.range R.nrParts, (if s.configured q then 0 else 1) := by
        refine sum_dec (Finset.mem_range.2 hp) ?_ ?_
        · simp [hc]
        · intro b hb; rw [Function.update_of_ne hb]
      have hr : ∀ q, (Function.update s.comp p (setDownstream (s.comp p) (R.parts p).remoteLocations) q).retrieved =
          (s.comp q).retrieved := by
        intro q
        by_cases h : q = p
        · subst h; simp [setDownstream]
        · rw [Function.update_of_ne h]
      unfold todo
      simp only [hr]
      omega
  | start =>
    obtain ⟨h1, h2⟩ := he
    obtain ⟨h3, h4⟩ := hi.unstarted h1
    refine ⟨_, pos, rfl, ?_, ?_⟩
    · refine ⟨hi.le, ?_, ?_, ?_, ?_, fun _ => h2, hi.comp⟩
      · intro h; simp at h
      · simp only [h3, List.nil_append, List.map_map]
        have := hw.starts_ok
        unfold AMap.Ok at this
        exact this
      · intro m hm
        simp only [h3, List.nil_append, List.mem_map] at hm
        obtain ⟨e, he, rfl⟩ := hm
        obtain ⟨r, p⟩ := e
        have h5 := (hw.start r p).1 ((AMap.mem_iff_get hw.starts_ok r p).1 he)
        simp only [MsgOk, h4, CellCounter.new]
        refine ⟨?_, trivial, by simp [cellsOf]⟩
        rw [List.head?_eq_getElem?] at h5
        obtain ⟨e, h6, rfl⟩ := Option.map_eq_some_iff.1 h5
        exact ⟨e.2, h6⟩
      · intro _ r hr
        have h5 := mem_starts hw hr
        rw [List.mem_toFinset, List.mem_map] at h5
        obtain ⟨e, he, rfl⟩ := h5
        exact ⟨_, List.mem_append.2 (Or.inr (List.mem_map.2 ⟨e, he, rfl⟩)), rfl⟩
    · unfold todo
      simp only [h1, if_true, Bool.false_eq_true, if_false]
      omega
  | result p =>
    obtain ⟨hp, hr⟩ := he
    have hf : (s.comp p).finished = false := ht
    have hc := hi.comp p hp
    have key : ∃ c', resultPartition (s.comp p) = .ok c' ∧ CompInv R path n pos p (s.configured p) c' ∧ c'.retrieved = true := by
      unfold resultPartition
      simp only [hr, Bool.false_eq_true, if_false]
      by_cases h : (s.comp p).idxs.isEmpty = true
      · refine ⟨{ s.comp p with retrieved := true, finished := true, downstream := [] }, ?_, ?_, rfl⟩
        · simp only [h, if_true, finishPartition, hf]
          rfl
        · refine ⟨hc.ok, hc.idxs, hc.len, hc.out, ?_, ?_⟩
          · intro _ h; simp at h
          · simp only [List.isEmpty_iff] at h
            simp [h]
      · refine ⟨{ s.comp p with retrieved := true }, ?_, ?_, rfl⟩
        · simp only [h, Bool.false_eq_true, if_false]
        · refine ⟨hc.ok, hc.idxs, hc.len, hc.out, hc.down, ?_⟩
          simp only [List.isEmpty_iff] at h
          simp [h, hf]
    obtain ⟨c', h1, h2, h3⟩ := key
    refine ⟨{ s with comp := Function.update s.comp p c' }, pos, ?_, ?_, ?_⟩
    · simp only [perform, h1, ok_bind]
    · refine ⟨hi.le, hi.unstarted, hi.routes, hi.msg, hi.sent, hi.conf, ?_⟩
      intro q hq
      by_cases h : q = p
      · subst h
        simp only [Function.update_self]
        exact h2
      · simp only [Function.update_of_ne h]
        exact hi.comp q hq
    · have hd : ∑ q ∈ Finset.range R.nrParts, (if (Function.update s.comp p c' q).retrieved then 0 else 1) + 1 =
          ∑ q ∈ Finset.range R.nrParts, (if (s.comp q).retrieved then 0 else 1) := by
        refine sum_dec (Finset.mem_range.2 hp) ?_ ?_
        · simp [hr, h3]
        · intro b hb; rw [Function.update_of_ne hb]
      unfold todo
      simp only
      omega

theorem reachable_inv (hw : WellFormed R path) (h : Reachable R n s) : ∃ pos, Inv R path n pos s := by
  induction h with
  | init => exact ⟨_, init_inv hw⟩
  | step _ he ht hp ih =>
    obtain ⟨pos, hi⟩ := ih
    obtain ⟨s'', pos', h1, h2, _⟩ := perform_ok hw hi he ht
    rw [h1] at hp
    injection hp with hp
    subst hp
    exact ⟨_, h2⟩

/-- Whatever has happened before, whatever happens next goes right: no assertion fails, nothing is accessed that does not
exist, no promise is satisfied twice. -/
theorem first_n_safe (hw : WellFormed R path) (h : Reachable R n s) {a : Action} (he : Enabled R s a) (ht : Timely s a) :
    ∃ s', perform R n s a = .ok s' := by
  obtain ⟨pos, hi⟩ := reachable_inv hw h
  obtain ⟨s', _, h1, _⟩ := perform_ok hw hi he ht
  exact ⟨s', h1⟩

/-- An execution of `k` actions. -/
inductive Steps (R : Route) (n : Int) : Nat → Sys → Prop
  | init : Steps R n 0 (init R)
  | step {k : Nat} {s s' : Sys} {a : Action} : Steps R n k s → Enabled R s a → Timely s a → perform R n s a = .ok s' →
      Steps R n (k + 1) s'

/-- The number of actions in a complete execution: per partition two, one for starting the walks, and one per fragment. -/
def nrActions (R : Route) (path : Int → List Piece) : Nat :=
  (∑ r ∈ (R.starts.map Prod.fst).toFinset, (path r).length) + 2 * R.nrParts + 1

/-- All executions end. -/
theorem first_n_terminates (hw : WellFormed R path) {k : Nat} (h : Steps R n k s) : k ≤ nrActions R path := by
  have : ∃ pos, Inv R path n pos s ∧ k + todo R path pos s = nrActions R path := by
    induction h with
    | init =>
      refine ⟨_, init_inv hw, ?_⟩
      simp only [todo, init, Comp.new, Bool.false_eq_true, if_false, nrActions, Finset.sum_const, Finset.card_range, Nat.sub_zero,
        Nat.nsmul_eq_mul, Nat.mul_one]
      omega
    | step _ he ht hp ih =>
      obtain ⟨pos, hi, h0⟩ := ih
      obtain ⟨s'', pos', h1, h2, h3⟩ := perform_ok hw hi he ht
      rw [h1] at hp
      injection hp with hp
      subst hp
      exact ⟨_, h2, by omega⟩
  obtain ⟨_, _, h⟩ := this
  omega

/-- As soon as a partition is finished its cells have their final values: one when a cell is one of the first `n` cells of a
route, no-data otherwise. -/
theorem first_n_result (hw : WellFormed R path) (h : Reachable R n s) {p : Nat} (hp : p < R.nrParts)
    (hf : (s.comp p).finished = true) : (s.comp p).out.length = (R.parts p).nrCells ∧
    ∀ i < (R.parts p).nrCells, (AmongFirst path n p i → (s.comp p).out[i]? = some (some 1)) ∧
      (¬ AmongFirst path n p i → (s.comp p).out[i]? = some none) := by
  obtain ⟨pos, hi⟩ := reachable_inv hw h
  have hc := hi.comp p hp
  refine ⟨hc.len, ?_⟩
  have hall : ∀ r, cnt p ((path r).take (pos r)) = cnt p (path r) := by
    intro r
    have h1 := hc.idxs r
    rw [(hc.fin.1 hf).1, AMap.get_nil] at h1
    have := cnt_take_le p (path r) (pos r)
    by_contra hne
    rw [if_pos (by omega)] at h1
    cases h1
  have hdrop : ∀ r, ∀ e ∈ (path r).drop (pos r), e.1 ≠ p := by
    intro r e he heq
    have h1 := hall r
    have h2 : cnt p (path r) = cnt p ((path r).take (pos r)) + cnt p ((path r).drop (pos r)) := by
      unfold cnt
      rw [← List.length_append, ← List.filter_append, List.take_append_drop]
    have h3 : 0 < cnt p ((path r).drop (pos r)) := by
      unfold cnt
      exact List.length_pos_of_mem (List.mem_filter.2 ⟨he, by simpa using heq⟩)
    omega
  intro i hi'
  have key : AmongFirst path n p i ↔ ∃ r, (p, i) ∈ (cellsOf ((path r).take (pos r))).take n.toNat := by
    unfold AmongFirst
    apply exists_congr
    intro r
    have hsplit : cellsOf (path r) = cellsOf ((path r).take (pos r)) ++ cellsOf ((path r).drop (pos r)) := by
      unfold cellsOf
      rw [← List.flatMap_append, List.take_append_drop]
    rw [hsplit, List.take_append, List.mem_append]
    refine ⟨?_, Or.inl⟩
    rintro (h | h)
    · exact h
    · have := List.mem_of_mem_take h
      simp only [cellsOf, List.mem_flatMap, List.mem_map, Prod.mk.injEq] at this
      obtain ⟨e, he, _, _, h1, _⟩ := this
      exact absurd h1 (hdrop r e he)
  rw [key, hc.out i hi']
  exact ⟨fun h => by rw [if_pos h], fun h => by rw [if_neg h]⟩

/-- When nothing is left to do, all partitions are finished. -/
theorem first_n_finishes (hw : WellFormed R path) (h : Reachable R n s) (hq : ∀ a, ¬ Enabled R s a) :
    ∀ p < R.nrParts, (s.comp p).finished = true := by
  obtain ⟨pos, hi⟩ := reachable_inv hw h
  have hret : ∀ p < R.nrParts, (s.comp p).retrieved = true := by
    intro p hp
    by_contra h
    exact hq (.result p) ⟨hp, by simpa using h⟩
  have hconf : ∀ p < R.nrParts, s.configured p = true := by
    intro p hp
    by_contra h
    exact hq (.configure p) ⟨hp, by simpa using h⟩
  have hst : s.started = true := by
    by_contra h
    exact hq .start ⟨by simpa using h, hconf⟩
  have hpos : ∀ r, pos r = (path r).length := by
    intro r
    by_contra h
    have := hi.le r
    obtain ⟨m, hm, _⟩ := hi.sent hst r (by omega)
    exact hq (.deliver m) hm
  intro p hp
  have hc := hi.comp p hp
  refine hc.fin.2 ⟨?_, Or.inl (hret p hp)⟩
  rw [AMap.eq_nil_iff_get]
  intro r
  rw [hc.idxs r, hpos r, List.take_length]
  simp

/-- A finished partition stays as it is: its future is made ready once, and its cells do not change anymore. -/
theorem first_n_once (hw : WellFormed R path) (h : Reachable R n s) {a : Action} (he : Enabled R s a) (ht : Timely s a) {s' : Sys}
    (hs : perform R n s a = .ok s') {p : Nat} (hp : p < R.nrParts) (hf : (s.comp p).finished = true) :
    (s'.comp p).finished = true ∧ (s'.comp p).out = (s.comp p).out := by
  obtain ⟨pos, hi⟩ := reachable_inv hw h
  cases a with
  | start => simp only [perform, Except.ok.injEq] at hs; subst hs; exact ⟨hf, rfl⟩
  | configure q =>
    simp only [perform, Except.ok.injEq] at hs
    subst hs
    by_cases hq : p = q
    · subst hq; simp only [Function.update_self, setDownstream]; exact ⟨hf, trivial⟩
    · simp only [Function.update_of_ne hq]; exact ⟨hf, trivial⟩
  | result q =>
    have hq : p ≠ q := by
      rintro rfl
      have : (s.comp p).finished = false := ht
      rw [hf] at this
      cases this
    obtain ⟨c', hc⟩ : ∃ c', s' = { s with comp := Function.update s.comp q c' } := by
      simp only [perform] at hs
      cases hr : resultPartition (s.comp q) with
      | error e => rw [hr] at hs; cases hs
      | ok c' => rw [hr, ok_bind] at hs; injection hs with hs; exact ⟨c', hs.symm⟩
    subst hc
    simp only [Function.update_of_ne hq]
    exact ⟨hf, trivial⟩
  | deliver m =>
    have hfin := fun {p : Nat} {r : Int} {cells : List Nat} (hx : (path r)[pos r]? = some (p, cells)) =>
      (piece_facts hw hi (m := m) he hx).2.2.2.2.1
    cases m with
    | walk q r d =>
      obtain ⟨⟨cells, hx⟩, _⟩ := hi.msg _ he
      have hq : p ≠ q := by
        rintro rfl
        have := hfin hx
        rw [hf] at this
        cases this
      obtain ⟨c', msgs, hc⟩ : ∃ c' msgs, s' = { s with comp := Function.update s.comp q c', msgs := msgs } := by
        simp only [perform] at hs
        cases hr : walk (R.parts q) (s.comp q) r d with
        | error e => rw [hr] at hs; cases hs
        | ok c' => rw [hr, ok_bind] at hs; injection hs with hs; exact ⟨_, _, hs.symm⟩
      subst hc
      simp only [Function.update_of_ne hq]
      exact ⟨hf, trivial⟩
    | skip q r =>
      obtain ⟨⟨cells, hx⟩, _⟩ := hi.msg _ he
      have hq : p ≠ q := by
        rintro rfl
        have := hfin hx
        rw [hf] at this
        cases this
      obtain ⟨c', msgs, hc⟩ : ∃ c' msgs, s' = { s with comp := Function.update s.comp q c', msgs := msgs } := by
        simp only [perform] at hs
        cases hr : skipWalking (R.parts q) (s.comp q) r with
        | error e => rw [hr] at hs; cases hs
        | ok c' => rw [hr, ok_bind] at hs; injection hs with hs; exact ⟨_, _, hs.symm⟩
      subst hc
      simp only [Function.update_of_ne hq]
      exact ⟨hf, trivial⟩

/-! ### When `result_partition()` is overtaken -/

/-- When the walk has finished a partition before `result_partition()` is called, that call satisfies the promise a second
time: it throws, and the array returned contains a partition that never becomes valid. -/
theorem first_n_overtaken (hw : WellFormed R path) (h : Reachable R n s) {p : Nat} (hp : p < R.nrParts)
    (he : Enabled R s (.result p)) (ht : ¬ Timely s (.result p)) :
    perform R n s (.result p) = .error .promiseAlreadySatisfied := by
  obtain ⟨pos, hi⟩ := reachable_inv hw h
  have hf : (s.comp p).finished = true := by
    by_contra hne
    exact ht (by simpa [Timely] using hne)
  have hr := he.2
  have hc := (hi.comp p hp).fin.1 hf
  simp only [perform, resultPartition, hr, Bool.false_eq_true, if_false, hc.1, List.isEmpty_nil, if_true, finishPartition, assert, hf]
  rfl

/-! ### An example: two partitions, one route visiting the first, the second, and the first again, another in the second -/

/-- Routes 7 and 8. -/
def examplePath : Int → List Piece := fun r =>
  if r = 7 then [(0, [2, 0]), (1, [1]), (0, [1])] else if r = 8 then [(1, [0])] else []

/-- The data structures. -/
def exampleRoute : Route :=
  { starts := [(7, 0), (8, 1)], nrParts := 2
    parts := fun p => if p = 0 then ⟨3, [(7, [⟨[2, 0], some 1⟩, ⟨[1], none⟩])]⟩ else ⟨2, [(7, [⟨[1], some 0⟩]), (8, [⟨[0], none⟩])]⟩ }

theorem example_wellFormed : WellFormed exampleRoute examplePath where
  starts_ok := by unfold AMap.Ok; decide
  frags_ok := by intro p hp; match p, hp with | 0, _ => unfold AMap.Ok; decide | 1, _ => unfold AMap.Ok; decide
  start := by
    intro r p
    simp only [exampleRoute, examplePath, AMap.get_cons, AMap.get_nil]
    by_cases h7 : r = 7
    · subst h7; simp
    · by_cases h8 : r = 8
      · subst h8; simp
      · simp [h7, h8, Ne.symm h7, Ne.symm h8]
  frags := by
    intro p hp r
    match p, hp with
    | 0, _ =>
      by_cases h7 : r = 7
      · subst h7; decide
      · by_cases h8 : r = 8
        · subst h8; decide
        · simp [exampleRoute, examplePath, AMap.get_cons, AMap.get_nil, h7, h8, Ne.symm h7, fragmentsIn, fragmentsOf]
    | 1, _ =>
      by_cases h7 : r = 7
      · subst h7; decide
      · by_cases h8 : r = 8
        · subst h8; decide
        · simp [exampleRoute, examplePath, AMap.get_cons, AMap.get_nil, h7, h8, Ne.symm h7, Ne.symm h8, fragmentsIn, fragmentsOf]
  parts := by
    intro r e he
    unfold examplePath at he
    split at he
    · simp only [List.mem_cons, List.not_mem_nil, or_false] at he
      rcases he with rfl | rfl | rfl <;> decide
    · split at he
      · simp only [List.mem_cons, List.not_mem_nil, or_false] at he
        subst he; decide
      · simp at he

/-- Perform a sequence of actions. -/
def run (R : Route) (n : Int) : List Action → Sys → Except Err Sys
  | [], s => .ok s
  | a :: l, s => do run R n l (← perform R n s a)

/-- The first two cells of each route. The walk of route 8 ends before that of route 7 starts. -/
example : (run exampleRoute 2 [.configure 1, .result 1, .configure 0, .start, .deliver (.walk 1 8 ⟨0, 2⟩), .result 0,
    .deliver (.walk 0 7 ⟨0, 2⟩), .deliver (.skip 1 7), .deliver (.skip 0 7)] (init exampleRoute)).toOption.map
    (fun s => ((s.comp 0).out, (s.comp 1).out, (s.comp 0).finished, (s.comp 1).finished)) =
    some ([some 1, none, some 1], [some 1, none], true, true) := by decide

/-- All of the cells of the second partition are handled before its result is asked for. -/
example : (match run exampleRoute 2 [.configure 1, .configure 0, .start, .deliver (.walk 1 8 ⟨0, 2⟩),
    .deliver (.walk 0 7 ⟨0, 2⟩), .deliver (.skip 1 7), .result 1] (init exampleRoute) with
    | .error e => some e | .ok _ => none) = some .promiseAlreadySatisfied := by decide

example : AmongFirst examplePath 2 0 0 ∧ ¬ AmongFirst examplePath 2 0 1 := by
  constructor
  · exact ⟨7, by decide⟩
  · rintro ⟨r, h⟩
    unfold examplePath at h
    split at h
    · revert h; decide
    · split at h
      · revert h; decide
      · simp [cellsOf] at h

end Lue.FirstN

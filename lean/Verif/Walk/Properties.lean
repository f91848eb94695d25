import Verif.Walk.Proofs
import Verif.FirstN.Properties

/-!
Properties of walking along routes, for all algorithms, routes, and executions: all orders in which tasks run and messages are
delivered.
-/
namespace Lue.Walk

open Lue.FirstN (Piece Fragment RoutePartition Route Err need assert fragmentsIn cnt WellFormed cnt_take_succ cnt_take_le cnt_take_lt
  fragmentsIn_getElem fragmentsIn_eq_nil length_fragmentsIn mem_fragmentsIn_next need_some assert_ok ok_bind sum_dec mem_starts
  nrActions)

variable {β δ : Type} [DecidableEq δ] {A : Algo β δ} {E : Effect β δ}
variable {R : Route} {path : Int → List Piece} {pos : Int → Nat} {s : Sys β δ} {Good : Int → δ → Prop}

/-- What still has to be done. -/
def todo (R : Route) (path : Int → List Piece) (pos : Int → Nat) (s : Sys β δ) : Nat :=
  ∑ r ∈ (R.starts.map Prod.fst).toFinset, ((path r).length - pos r) +
  (∑ p ∈ Finset.range R.nrParts, (if (s.comp p).retrieved then 0 else 1) +
  (∑ p ∈ Finset.range R.nrParts, (if s.configured p then 0 else 1) + (if s.started then 0 else 1)))

omit [DecidableEq δ] in
theorem todo_deliver (hw : WellFormed R path) {r : Int} {s' : Sys β δ} (hr : pos r < (path r).length)
    (h1 : s'.configured = s.configured) (h2 : s'.started = s.started)
    (h3 : ∀ q, (s'.comp q).retrieved = (s.comp q).retrieved) :
    todo R path (Function.update pos r (pos r + 1)) s' + 1 = todo R path pos s := by
  have hd : ∑ r' ∈ (R.starts.map Prod.fst).toFinset, ((path r').length - Function.update pos r (pos r + 1) r') + 1 =
      ∑ r' ∈ (R.starts.map Prod.fst).toFinset, ((path r').length - pos r') := by
    refine sum_dec (mem_starts hw hr) ?_ ?_
    · rw [Function.update_self]; omega
    · intro b hb
      rw [Function.update_of_ne hb]
  unfold todo
  simp only [h1, h2, h3]
  omega

/-- Every possible action succeeds, and decreases the amount of work left by one. -/
theorem perform_ok (hw : WellFormed R path) (hcor : Correct A E R path Good) (hcons : Consistent A E path)
    (hi : Inv A E Good R path pos s) {a : Action δ} (he : Enabled R s a) (ht : Timely s a) :
    ∃ s' pos', perform A R s a = .ok s' ∧ Inv A E Good R path pos' s' ∧ todo R path pos' s' + 1 = todo R path pos s := by
  cases a with
  | deliver m =>
    cases m with
    | walk p r d =>
      obtain ⟨s', h1, h2, h3, h4, h5, h6⟩ := deliver_walk hw hcor hcons hi he
      exact ⟨s', _, h1, h2, todo_deliver hw h6 h3 h4 h5⟩
    | skip p r =>
      obtain ⟨s', h1, h2, h3, h4, h5, h6⟩ := deliver_skip hw hcons hi he
      exact ⟨s', _, h1, h2, todo_deliver hw h6 h3 h4 h5⟩
  | configure p =>
    obtain ⟨hp, hc⟩ := he
    refine ⟨_, pos, rfl, ?_, ?_⟩
    · refine ⟨hi.le, hi.unstarted, hi.routes, hi.msg, hi.sent, ?_, ?_⟩
      · intro h q hq
        have := hi.conf h p hp
        rw [hc] at this
        cases this
      · intro q hq
        have := hi.comp q hq
        by_cases h : q = p
        · subst h
          simp only [Function.update_self]
          exact ⟨this.ok, this.idxs, this.len, this.out, fun _ _ => rfl, this.fin⟩
        · simp only [Function.update_of_ne h]
          exact this
    · have hd : ∑ q ∈ Finset.range R.nrParts, (if Function.update s.configured p true q then 0 else 1) + 1 =
          ∑ q ∈ Finset.range R.nrParts, (if s.configured q then 0 else 1) := by
        refine sum_dec (Finset.mem_range.2 hp) ?_ ?_
        · simp [hc]
        · intro b hb; rw [Function.update_of_ne hb]
      have hr : ∀ q, (Function.update s.comp p (setDownstream (s.comp p) (R.parts p).remoteLocations) q).retrieved =
          (s.comp q).retrieved := by
        intro q
        by_cases h : q = p
        · subst h; simp [setDownstream]
        · rw [Function.update_of_ne h]
      unfold todo
      simp only [hr]
      omega
  | start =>
    obtain ⟨h1, h2⟩ := he
    obtain ⟨h3, h4⟩ := hi.unstarted h1
    refine ⟨_, pos, rfl, ?_, ?_⟩
    · refine ⟨hi.le, ?_, ?_, ?_, ?_, fun _ => h2, hi.comp⟩
      · intro h; simp at h
      · simp only [h3, List.nil_append, List.map_map]
        have := hw.starts_ok
        unfold AMap.Ok at this
        exact this
      · intro m hm
        simp only [h3, List.nil_append, List.mem_map] at hm
        obtain ⟨e, he, rfl⟩ := hm
        obtain ⟨r, p⟩ := e
        have h5 := (hw.start r p).1 ((AMap.mem_iff_get hw.starts_ok r p).1 he)
        simp only [MsgOk, h4]
        refine ⟨?_, by simp [dataAfter], hcor.start r ?_⟩
        swap
        · intro hn
          rw [hn] at h5
          simp at h5
        rw [List.head?_eq_getElem?] at h5
        obtain ⟨e, h6, rfl⟩ := Option.map_eq_some_iff.1 h5
        exact ⟨e.2, h6⟩
      · intro _ r hr
        have h5 := mem_starts hw hr
        rw [List.mem_toFinset, List.mem_map] at h5
        obtain ⟨e, he, rfl⟩ := h5
        exact ⟨_, List.mem_append.2 (Or.inr (List.mem_map.2 ⟨e, he, rfl⟩)), rfl⟩
    · unfold todo
      simp only [h1, if_true, Bool.false_eq_true, if_false]
      omega
  | result p =>
    obtain ⟨hp, hr⟩ := he
    have hf : (s.comp p).finished = false := ht
    have hc := hi.comp p hp
    have key : ∃ c', resultPartition (s.comp p) = .ok c' ∧ CompInv A E R path pos p (s.configured p) c' ∧ c'.retrieved = true := by
      unfold resultPartition
      simp only [hr, Bool.false_eq_true, if_false]
      by_cases h : (s.comp p).idxs.isEmpty = true
      · refine ⟨{ s.comp p with retrieved := true, finished := true, downstream := [] }, ?_, ?_, rfl⟩
        · simp only [h, if_true, finishPartition, hf]
          rfl
        · refine ⟨hc.ok, hc.idxs, hc.len, hc.out, ?_, ?_⟩
          · intro _ h; simp at h
          · simp only [List.isEmpty_iff] at h
            simp [h]
      · refine ⟨{ s.comp p with retrieved := true }, ?_, ?_, rfl⟩
        · simp only [h, Bool.false_eq_true, if_false]
        · refine ⟨hc.ok, hc.idxs, hc.len, hc.out, hc.down, ?_⟩
          simp only [List.isEmpty_iff] at h
          simp [h, hf]
    obtain ⟨c', h1, h2, h3⟩ := key
    refine ⟨{ s with comp := Function.update s.comp p c' }, pos, ?_, ?_, ?_⟩
    · simp only [perform, h1, ok_bind]
    · refine ⟨hi.le, hi.unstarted, hi.routes, hi.msg, hi.sent, hi.conf, ?_⟩
      intro q hq
      by_cases h : q = p
      · subst h
        simp only [Function.update_self]
        exact h2
      · simp only [Function.update_of_ne h]
        exact hi.comp q hq
    · have hd : ∑ q ∈ Finset.range R.nrParts, (if (Function.update s.comp p c' q).retrieved then 0 else 1) + 1 =
          ∑ q ∈ Finset.range R.nrParts, (if (s.comp q).retrieved then 0 else 1) := by
        refine sum_dec (Finset.mem_range.2 hp) ?_ ?_
        · simp [hr, h3]
        · intro b hb; rw [Function.update_of_ne hb]
      unfold todo
      simp only
      omega

theorem steps_inv (hw : WellFormed R path) (hcor : Correct A E R path Good) (hcons : Consistent A E path)
    {k : Nat} (h : Steps A R k s) : ∃ pos, Inv A E Good R path pos s ∧ k + todo R path pos s = nrActions R path := by
  induction h with
  | init =>
    refine ⟨_, init_inv hw, ?_⟩
    simp only [todo, init, Comp.new, Bool.false_eq_true, if_false, nrActions, Finset.sum_const, Finset.card_range, Nat.sub_zero,
      Nat.nsmul_eq_mul, Nat.mul_one]
    omega
  | step _ he ht hp ih =>
    obtain ⟨pos, hi, h0⟩ := ih
    obtain ⟨s'', pos', h1, h2, h3⟩ := perform_ok hw hcor hcons hi he ht
    rw [h1] at hp
    injection hp with hp
    subst hp
    exact ⟨_, h2, by omega⟩

/-- Whatever has happened before, whatever happens next goes right: no assertion fails, nothing is accessed that does not
exist, no promise is satisfied twice. -/
theorem walk_safe (hw : WellFormed R path) (hcor : Correct A E R path Good) (hcons : Consistent A E path)
    {k : Nat} (h : Steps A R k s) {a : Action δ} (he : Enabled R s a) (ht : Timely s a) :
    ∃ s', perform A R s a = .ok s' := by
  obtain ⟨pos, hi, _⟩ := steps_inv hw hcor hcons h
  obtain ⟨s', _, h1, _⟩ := perform_ok hw hcor hcons hi he ht
  exact ⟨s', h1⟩

/-- All executions end: the number of actions is that of a complete execution at most. -/
theorem walk_terminates (hw : WellFormed R path) (hcor : Correct A E R path Good) (hcons : Consistent A E path)
    {k : Nat} (h : Steps A R k s) : k ≤ nrActions R path := by
  obtain ⟨_, _, h⟩ := steps_inv hw hcor hcons h
  omega

/-- As soon as a partition is finished its cells have their final values: those written by the sequential walks along the
routes, and no-data if there is none. -/
theorem walk_result (hw : WellFormed R path) (hcor : Correct A E R path Good) (hcons : Consistent A E path)
    {k : Nat} (h : Steps A R k s) {p : Nat} (hp : p < R.nrParts) (hf : (s.comp p).finished = true) :
    (s.comp p).out.length = (R.parts p).nrCells ∧
    ∀ i < (R.parts p).nrCells, (∀ v, Written A E path p i v → (s.comp p).out[i]? = some v) ∧
      ((∀ v, ¬ Written A E path p i v) → (s.comp p).out[i]? = some A.noData) := by
  obtain ⟨pos, hi, _⟩ := steps_inv hw hcor hcons h
  have hc := hi.comp p hp
  refine ⟨hc.len, ?_⟩
  have hall : ∀ r, cnt p ((path r).take (pos r)) = cnt p (path r) := by
    intro r
    have h1 := hc.idxs r
    rw [(hc.fin.1 hf).1, AMap.get_nil] at h1
    have := cnt_take_le p (path r) (pos r)
    by_contra hne
    rw [if_pos (by omega)] at h1
    cases h1
  have hdrop : ∀ r, ∀ e ∈ (path r).drop (pos r), e.1 ≠ p := by
    intro r e he heq
    have h1 := hall r
    have h2 : cnt p (path r) = cnt p ((path r).take (pos r)) + cnt p ((path r).drop (pos r)) := by
      unfold cnt
      rw [← List.length_append, ← List.filter_append, List.take_append_drop]
    have h3 : 0 < cnt p ((path r).drop (pos r)) := by
      unfold cnt
      exact List.length_pos_of_mem (List.mem_filter.2 ⟨he, by simpa using heq⟩)
    omega
  intro i hi'
  have key : ∀ r v, (p, i, v) ∈ writesAlong A E r (path r) A.start ↔
      (p, i, v) ∈ writesAlong A E r ((path r).take (pos r)) A.start := by
    intro r v
    refine ⟨?_, writesAlong_mem_of_take⟩
    intro h
    rw [← List.take_append_drop (pos r) (path r), writesAlong_append] at h
    rcases List.mem_append.1 h with h | h
    · exact h
    · cases hd : dataAfter A E r ((path r).take (pos r)) A.start with
      | none => rw [hd] at h; simp [elseNone] at h
      | some d =>
        rw [hd] at h
        obtain ⟨e, he, h2⟩ := writesAlong_part h
        exact absurd h2 (hdrop r e he)
  refine ⟨?_, ?_⟩
  · rintro v ⟨r, hv⟩
    exact (hc.out i hi').1 r v ((key r v).1 hv)
  · intro hn
    exact (hc.out i hi').2 fun r v hv => hn v ⟨r, (key r v).2 hv⟩

/-- When nothing is left to do, all partitions are finished. -/
theorem walk_finishes (hw : WellFormed R path) (hcor : Correct A E R path Good) (hcons : Consistent A E path)
    {k : Nat} (h : Steps A R k s) (hq : ∀ a, ¬ Enabled R s a) : ∀ p < R.nrParts, (s.comp p).finished = true := by
  obtain ⟨pos, hi, _⟩ := steps_inv hw hcor hcons h
  have hret : ∀ p < R.nrParts, (s.comp p).retrieved = true := by
    intro p hp
    by_contra h
    exact hq (.result p) ⟨hp, by simpa using h⟩
  have hconf : ∀ p < R.nrParts, s.configured p = true := by
    intro p hp
    by_contra h
    exact hq (.configure p) ⟨hp, by simpa using h⟩
  have hst : s.started = true := by
    by_contra h
    exact hq .start ⟨by simpa using h, hconf⟩
  have hpos : ∀ r, pos r = (path r).length := by
    intro r
    by_contra h
    have := hi.le r
    obtain ⟨m, hm, _⟩ := hi.sent hst r (by omega)
    exact hq (.deliver m) hm
  intro p hp
  have hc := hi.comp p hp
  refine hc.fin.2 ⟨?_, Or.inl (hret p hp)⟩
  rw [AMap.eq_nil_iff_get]
  intro r
  rw [hc.idxs r, hpos r, List.take_length]
  simp

/-- A finished partition stays as it is: its future is made ready once, and its cells do not change anymore. -/
theorem walk_once (hw : WellFormed R path) (hcor : Correct A E R path Good) (hcons : Consistent A E path)
    {k : Nat} (h : Steps A R k s) {a : Action δ} (he : Enabled R s a) (ht : Timely s a) {s' : Sys β δ}
    (hs : perform A R s a = .ok s') {p : Nat} (hf : (s.comp p).finished = true) :
    (s'.comp p).finished = true ∧ (s'.comp p).out = (s.comp p).out := by
  obtain ⟨pos, hi, _⟩ := steps_inv hw hcor hcons h
  cases a with
  | start => simp only [perform, Except.ok.injEq] at hs; subst hs; exact ⟨hf, rfl⟩
  | configure q =>
    simp only [perform, Except.ok.injEq] at hs
    subst hs
    by_cases hq : p = q
    · subst hq; simp only [Function.update_self, setDownstream]; exact ⟨hf, trivial⟩
    · simp only [Function.update_of_ne hq]; exact ⟨hf, trivial⟩
  | result q =>
    have hq : p ≠ q := by
      rintro rfl
      have : (s.comp p).finished = false := ht
      rw [hf] at this
      cases this
    obtain ⟨c', hc⟩ : ∃ c', s' = { s with comp := Function.update s.comp q c' } := by
      simp only [perform] at hs
      cases hr : resultPartition (s.comp q) with
      | error e => rw [hr] at hs; cases hs
      | ok c' => rw [hr, ok_bind] at hs; injection hs with hs; exact ⟨c', hs.symm⟩
    subst hc
    simp only [Function.update_of_ne hq]
    exact ⟨hf, trivial⟩
  | deliver m =>
    have hfin := fun {p : Nat} {r : Int} {cells : List Nat} (hx : (path r)[pos r]? = some (p, cells)) =>
      (piece_facts hw hi (m := m) he hx).2.2.2.2.1
    cases m with
    | walk q r d =>
      obtain ⟨⟨cells, hx⟩, _⟩ := hi.msg _ he
      have hq : p ≠ q := by
        rintro rfl
        have := hfin hx
        rw [hf] at this
        cases this
      obtain ⟨c', msgs, hc⟩ : ∃ c' msgs, s' = { s with comp := Function.update s.comp q c', msgs := msgs } := by
        simp only [perform] at hs
        cases hr : walk A q (R.parts q) (s.comp q) r d with
        | error e => rw [hr] at hs; cases hs
        | ok c' => rw [hr, ok_bind] at hs; injection hs with hs; exact ⟨_, _, hs.symm⟩
      subst hc
      simp only [Function.update_of_ne hq]
      exact ⟨hf, trivial⟩
    | skip q r =>
      obtain ⟨⟨cells, hx⟩, _⟩ := hi.msg _ he
      have hq : p ≠ q := by
        rintro rfl
        have := hfin hx
        rw [hf] at this
        cases this
      obtain ⟨c', msgs, hc⟩ : ∃ c' msgs, s' = { s with comp := Function.update s.comp q c', msgs := msgs } := by
        simp only [perform] at hs
        cases hr : skipWalking (δ := δ) (R.parts q) (s.comp q) r with
        | error e => rw [hr] at hs; cases hs
        | ok c' => rw [hr, ok_bind] at hs; injection hs with hs; exact ⟨_, _, hs.symm⟩
      subst hc
      simp only [Function.update_of_ne hq]
      exact ⟨hf, trivial⟩

/-- When the walk has finished a partition before `result_partition()` is called, that call satisfies the promise a second
time: it throws, and the array returned contains a partition that never becomes valid. -/
theorem walk_overtaken (hw : WellFormed R path) (hcor : Correct A E R path Good) (hcons : Consistent A E path)
    {k : Nat} (h : Steps A R k s) {p : Nat} (he : Enabled R s (.result p)) (ht : ¬ Timely s (.result p)) :
    perform A R s (.result p) = .error .promiseAlreadySatisfied := by
  obtain ⟨pos, hi, _⟩ := steps_inv hw hcor hcons h
  have hf : (s.comp p).finished = true := by
    by_contra hne
    exact ht (by simpa [Timely] using hne)
  have hr := he.2
  have hc := (hi.comp p he.1).fin.1 hf
  simp only [perform, resultPartition, hr, Bool.false_eq_true, if_false, hc.1, List.isEmpty_nil, if_true, finishPartition, assert, hf]
  rfl

end Lue.Walk

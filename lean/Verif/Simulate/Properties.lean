import Verif.Simulate.Proofs
import Mathlib.Data.List.Nodup

/-!
# Properties of running a model (C28)
-/
namespace Lue.Simulate

/-! ## The programs fit -/

theorem check_iterations {first R N : Nat} (last : Nat) (rest : List Instr) (hrest : Check first R N none rest) :
    ∀ n i, 1 ≤ n → first + i + n = last + 1 → i + n ≤ N →
      Check first R N (some ⟨i, i, false⟩)
        ((List.range' i n).flatMap (fun j => iteration last (first + j)) ++ ([.destroy] ++ rest)) := by
  intro n
  induction n with
  | zero => intro i h; omega
  | succ n ih =>
    intro i _ hl hN
    rw [List.range'_succ, List.flatMap_cons, List.append_assoc]
    by_cases hn : n = 0
    · subst hn
      obtain rfl : last = first + i := by omega
      simp only [iteration, if_true, List.range'_zero, List.flatMap_nil, List.nil_append, List.cons_append, Check]
      exact ⟨trivial, trivial, trivial, by omega, by omega, trivial, ⟨_, rfl⟩, trivial, trivial, hrest⟩
    · have hne : first + i ≠ last := by omega
      simp only [iteration, hne, if_false, List.append_nil, List.cons_append, List.nil_append, Check]
      exact ⟨trivial, trivial, trivial, by omega, by omega, trivial, ⟨_, rfl⟩, ih (i + 1) (by omega) (by omega) (by omega)⟩

theorem check_simulate {first last rate : Nat} (h : first ≤ last) (rest : List Instr)
    (hrest : Check first (effectiveRate (last - first + 1) rate) (last - first + 1) none rest) :
    Check first (effectiveRate (last - first + 1) rate) (last - first + 1) none (simulate first last rate ++ rest) := by
  simp only [simulate, List.append_assoc, List.cons_append, List.nil_append, Check, List.range_eq_range']
  refine ⟨?_, trivial, trivial, ?_⟩
  · unfold effectiveRate; split <;> omega
  · exact check_iterations last rest hrest _ 0 (by omega) (by omega) (by omega)

theorem check_runDeterministic (n rate : Nat) (rest : List Instr) (hrest : Check 1 (effectiveRate n rate) n none rest) :
    Check 1 (effectiveRate n rate) n none (runDeterministic n rate ++ rest) := by
  simp only [runDeterministic, List.append_assoc, List.cons_append, List.nil_append, Check, Event.isOuter, true_and]
  split
  · have := check_simulate (first := 1) (last := n) (rate := rate) (by omega)
      (.emit .finalizeModel :: .emit .finalizeProgressor :: rest)
    have hn : n - 1 + 1 = n := by omega
    rw [hn] at this
    exact this (by simp only [Check, Event.isOuter, true_and]; exact hrest)
  · simp only [List.nil_append, Check, Event.isOuter, true_and]; exact hrest

theorem check_runStochastic (nrSamples n rate : Nat) :
    Check 1 (effectiveRate n rate) n none (runStochastic nrSamples n rate) := by
  unfold runStochastic
  induction List.range nrSamples with
  | nil => trivial
  | cons i l ih =>
    rw [List.flatMap_cons]
    simp only [sample, List.append_assoc, List.cons_append, List.nil_append, Check, Event.isOuter, true_and]
    refine check_runDeterministic n rate _ ?_
    simp only [Check, Event.isOuter, true_and]; exact ih

theorem inv_reachable {nrSamples n rate : Nat} {s : State} (h : Reachable (runStochastic nrSamples n rate) s) :
    ∃ m, Inv 1 (effectiveRate n rate) n m s := by
  obtain ⟨as, hr⟩ := h
  exact inv_run hr ⟨check_runStochastic _ _ _, rel_init _ _ _ _, base_init _⟩

/-! ## The calls in the programs -/

theorem events_append (p q : List Instr) : events (p ++ q) = events p ++ events q := by simp [events]

theorem events_flatMap {α : Type} (l : List α) (f : α → List Instr) :
    events (l.flatMap f) = l.flatMap fun a => events (f a) := by
  induction l with
  | nil => rfl
  | cons a l ih => rw [List.flatMap_cons, events_append, ih, List.flatMap_cons]

theorem events_iteration (last t : Nat) : events (iteration last t) = [.called t, .progress t] := by
  unfold iteration; split <;> rfl

theorem range_flatMap_succ {β : Type} (n : Nat) (f : Nat → List β) :
    (List.range n).flatMap (fun i => f (1 + i)) = (List.range' 1 n).flatMap f := by
  rw [List.range'_eq_map_range, List.flatMap_map]

theorem events_simulate {n rate : Nat} (hn : 0 < n) :
    events (simulate 1 n rate) = (List.range' 1 n).flatMap (fun t => [.called t, .progress t]) := by
  simp only [simulate, events_append, events_flatMap, events_iteration]
  have : n - 1 + 1 = n := by omega
  rw [this, range_flatMap_succ n (fun t => [Event.called t, Event.progress t])]
  simp [events]

theorem events_runDeterministic (n rate : Nat) : events (runDeterministic n rate) = expectedRun n := by
  simp only [runDeterministic, events_append, expectedRun]
  have h : events (if n > 0 then simulate 1 n rate else []) = (List.range' 1 n).flatMap (fun t => [.called t, .progress t]) := by
    split
    · exact events_simulate (by omega)
    · have : n = 0 := by omega
      subst this; rfl
  rw [h]; rfl

theorem events_runStochastic (nrSamples n rate : Nat) : events (runStochastic nrSamples n rate) = expectedRuns nrSamples n := by
  simp only [runStochastic, events_flatMap, sample, events_append, events_runDeterministic, expectedRuns]
  rw [← range_flatMap_succ]
  congr 1
  funext i
  rw [Nat.add_comm]; rfl

theorem check_isCall {first R N : Nat} : ∀ (p : List Instr) (m : Option Mode), Check first R N m p →
    ∀ e, Instr.emit e ∈ p → e.isCall = true := by
  intro p
  induction p with
  | nil => simp
  | cons i p ih =>
    intro m hc e he
    cases m with
    | none =>
      cases i with
      | emit e' =>
        rcases List.mem_cons.mp he with h | h
        · injection h with h; subst h
          have := hc.1; cases e <;> simp_all [Event.isOuter, Event.isCall]
        · exact ih _ hc.2 e h
      | construct d l => exact ih _ hc.2.2.2 e (by simpa using he)
      | _ => exact hc.elim
    | some m =>
      cases i with
      | emit e' =>
        rcases List.mem_cons.mp he with h | h
        · injection h with h; subst h
          obtain ⟨⟨t, rfl⟩, -⟩ := hc; rfl
        · exact ih _ hc.2 e h
      | call t => exact ih _ hc.2.2.2.2 e (by simpa using he)
      | wait t => exact ih _ hc.2.2 e (by simpa using he)
      | join => exact ih _ hc.2 e (by simpa using he)
      | destroy => exact ih _ hc.2 e (by simpa using he)
      | construct d l => exact hc.elim

theorem calls_reachable {nrSamples n rate : Nat} {s : State} (h : Reachable (runStochastic nrSamples n rate) s) :
    calls s.trace ++ events s.prog = expectedRuns nrSamples n := by
  obtain ⟨as, hr⟩ := h
  have := calls_run hr (check_isCall _ _ (check_runStochastic nrSamples n rate))
  rw [this]; simp [init, calls, events_runStochastic]

/-! ## Properties -/

/-- No continuation ever uses a semaphore that does not exist anymore. -/
theorem run_safe {nrSamples n rate : Nat} {s : State} (h : Reachable (runStochastic nrSamples n rate) s) :
    s.dangling = false := by
  obtain ⟨m, hi⟩ := inv_reachable h
  exact hi.base.notDangling

/-- At any moment, the calls made are the first ones of those that must be made, in the right order. -/
theorem run_order {nrSamples n rate : Nat} {s : State} (h : Reachable (runStochastic nrSamples n rate) s) :
    calls s.trace <+: expectedRuns nrSamples n := ⟨_, calls_reachable h⟩

/-- A time step is only ready after the model has been called for it, and it is not called again before it is ready. -/
theorem run_ready_after_called {nrSamples n rate : Nat} {s : State} (h : Reachable (runStochastic nrSamples n rate) s) (t : Nat) :
    s.trace.count (.ready t) ≤ s.trace.count (.called t) ∧ s.trace.count (.called t) ≤ s.trace.count (.ready t) + 1 := by
  obtain ⟨m, hi⟩ := inv_reachable h
  have h1 := hi.base.each t
  have h2 := List.nodup_iff_count_le_one.mp hi.base.stepsNodup t
  have h3 := (List.subperm_of_subset hi.base.nodup (fun x hx => hi.base.sub x hx)).count_le t
  omega

theorem Inv.inFlight {first R N : Nat} {m : Option Mode} {s : State} (h : Inv first R N m s) :
    nrCalled s.trace ≤ nrReady s.trace + N ∧ nrCalled s.trace ≤ nrReady s.trace + R + 1 ∧
      (¬ StepInFlight first s.trace → nrCalled s.trace ≤ nrReady s.trace + R) ∧
      (m = none → nrCalled s.trace = nrReady s.trace) := by
  have hb := h.base
  have hnr := hb.nr
  have hrl := hb.ready_length_le
  cases m with
  | none =>
    have hrel : RelOut s := h.rel
    have h2 := hb.ready_length (Nat.le_of_eq hrel.signalled)
    have h4 := hrel.signalled
    refine ⟨?_, ?_, ?_, ?_⟩ <;> (intros; omega)
  | some m =>
    have hrel : RelIn first R N m s := h.rel
    have hlen : s.steps.length = m.k := by rw [hrel.steps]; simp
    have h2 := hb.ready_length (by have := hrel.sk; omega)
    have := hrel.sk; have := hrel.kw; have := hrel.waited; have := hrel.kn
    refine ⟨by omega, by omega, ?_, by simp⟩
    intro hnf
    have heach := hb.each first
    unfold StepInFlight at hnf
    by_cases hk : m.k = 0
    · omega
    have hin : s.steps.count first = 1 := by
      refine List.count_eq_one_of_mem hb.stepsNodup ?_
      rw [hrel.steps]; simp only [List.mem_range'_1]; omega
    have hpos : 0 < s.readySteps.count first := by omega
    have : 0 < s.readySteps.length := List.length_pos_of_mem (List.count_pos_iff.mp hpos)
    have := hrel.rate
    omega

/-- At any moment, at most one more than the rate limit of the time steps are in flight, and at most all of them. Once the
first time step is ready, the rate limit is not exceeded anymore. -/
theorem run_in_flight {nrSamples n rate : Nat} {s : State} (h : Reachable (runStochastic nrSamples n rate) s) :
    nrCalled s.trace ≤ nrReady s.trace + n ∧
    (0 < rate → nrCalled s.trace ≤ nrReady s.trace + rate + 1 ∧
      (¬ StepInFlight 1 s.trace → nrCalled s.trace ≤ nrReady s.trace + rate)) := by
  obtain ⟨m, hi⟩ := inv_reachable h
  have := hi.inFlight
  refine ⟨this.1, fun hr => ?_⟩
  have he : effectiveRate n rate = rate := by simp [effectiveRate, hr]
  rw [he] at this
  exact ⟨this.2.1, this.2.2.1⟩

theorem quiet_step {first R N : Nat} {m : Option Mode} {s s' : State} {a : Action} (h : Inv first R N m s)
    (hs : step s a = some s')
    (hq : ∀ pre e suf, s.trace = pre ++ e :: suf → e.isOuter = true → nrCalled pre = nrReady pre) :
    ∀ pre e suf, s'.trace = pre ++ e :: suf → e.isOuter = true → nrCalled pre = nrReady pre := by
  have key : (s'.trace = s.trace ∨ ∃ e, s'.trace = s.trace ++ [e] ∧ (e.isOuter = true → m = none)) := by
    cases a with
    | main =>
      have hc := h.check
      simp only [step, main] at hs
      cases hp' : s.prog with
      | nil => simp [hp'] at hs
      | cons i p =>
        rw [hp'] at hs hc
        cases i with
        | emit e =>
          simp only [Option.some.injEq] at hs
          subst hs
          refine Or.inr ⟨e, rfl, ?_⟩
          cases m with
          | none => intro _; rfl
          | some m => obtain ⟨⟨t, rfl⟩, -⟩ := hc; intro h; simp [Event.isOuter] at h
        | construct d l => simp only [Option.some.injEq] at hs; subst hs; exact Or.inl rfl
        | call t =>
          simp only [Option.some.injEq] at hs
          subst hs
          exact Or.inr ⟨_, rfl, by simp [Event.isOuter]⟩
        | wait t =>
          simp only at hs
          split at hs
          · simp at hs
          · split at hs
            · simp only [Option.some.injEq] at hs; subst hs; exact Or.inl rfl
            · simp at hs
        | join =>
          simp only at hs
          split at hs
          · simp only [Option.some.injEq] at hs; subst hs; exact Or.inl rfl
          · simp at hs
        | destroy => simp only [Option.some.injEq] at hs; subst hs; exact Or.inl rfl
    | ready t =>
      simp only [step, ready] at hs
      split at hs
      · simp only [Option.some.injEq] at hs; subst hs
        exact Or.inr ⟨_, rfl, by simp [Event.isOuter]⟩
      · simp at hs
    | signal =>
      simp only [step, signal] at hs
      split at hs
      · simp at hs
      · split at hs
        · split at hs <;> · simp only [Option.some.injEq] at hs; subst hs; exact Or.inl rfl
        · simp at hs
    | finish =>
      simp only [step, finish] at hs
      split at hs
      · simp only [Option.some.injEq] at hs; subst hs; exact Or.inl rfl
      · simp at hs
  intro pre e suf htr he
  rcases key with hk | ⟨e', hk, hm⟩
  · rw [hk] at htr; exact hq pre e suf htr he
  · rw [hk] at htr
    rcases List.eq_nil_or_concat suf with rfl | ⟨suf', x, rfl⟩
    · obtain ⟨rfl, hee⟩ := List.append_inj' htr rfl
      injection hee with hee
      subst hee
      exact h.inFlight.2.2.2 (hm he)
    · have : pre ++ e :: (suf' ++ [x]) = (pre ++ e :: suf') ++ [x] := by simp
      rw [List.concat_eq_append, this] at htr
      exact hq pre e suf' (List.append_inj' htr rfl).1 he

theorem quiet_run {first R N : Nat} {s s' : State} {as : List Action} (hr : Run s as s') :
    ∀ {m : Option Mode}, Inv first R N m s →
    (∀ pre e suf, s.trace = pre ++ e :: suf → e.isOuter = true → nrCalled pre = nrReady pre) →
    ∀ pre e suf, s'.trace = pre ++ e :: suf → e.isOuter = true → nrCalled pre = nrReady pre := by
  induction hr with
  | nil => intro m _ h; exact h
  | cons hs _ ih =>
    intro m h hq
    obtain ⟨m', h'⟩ := inv_step h hs
    exact ih h' (quiet_step h hs hq)

/-- Whenever something else than a time step is handled (e.g. the model is finalized or the next sample is initialized),
all time steps started so far are ready. -/
theorem run_quiet {nrSamples n rate : Nat} {s : State} (h : Reachable (runStochastic nrSamples n rate) s)
    {pre suf : List Event} {e : Event} (htr : s.trace = pre ++ e :: suf) (he : e.isOuter = true) :
    nrCalled pre = nrReady pre := by
  obtain ⟨as, hr⟩ := h
  exact quiet_run hr ⟨check_runStochastic nrSamples n rate, rel_init _ _ _ _, base_init _⟩
    (by intro pre e suf h; simp [init] at h) pre e suf htr he

/-- When the thread is done, all calls have been made and all time steps are ready. -/
theorem run_complete {nrSamples n rate : Nat} {s : State} (h : Reachable (runStochastic nrSamples n rate) s)
    (hp : s.prog = []) :
    calls s.trace = expectedRuns nrSamples n ∧ nrCalled s.trace = nrReady s.trace := by
  have h1 := calls_reachable h
  rw [hp] at h1
  obtain ⟨m, hi⟩ := inv_reachable h
  refine ⟨by simpa [events] using h1, ?_⟩
  have hc := hi.check
  rw [hp] at hc
  cases m with
  | none => exact hi.inFlight.2.2.2 rfl
  | some m => exact hc.elim

theorem stepInFlight_iff {first R N : Nat} {m : Option Mode} {s : State} (h : Inv first R N m s) (t : Nat) :
    StepInFlight t s.trace ↔ t ∈ s.steps ∧ t ∉ s.readySteps := by
  have h1 := h.base.each t
  unfold StepInFlight
  constructor
  · intro hlt
    have h2 := List.nodup_iff_count_le_one.mp h.base.stepsNodup t
    have h3 : 0 < s.steps.count t := by omega
    have h4 : s.readySteps.count t = 0 := by omega
    exact ⟨List.count_pos_iff.mp h3, List.count_eq_zero.mp h4⟩
  · rintro ⟨h2, h3⟩
    have := List.count_pos_iff.mpr h2
    have := List.count_eq_zero.mpr h3
    omega

/-- The library never waits for anything else than for time steps in flight. -/
theorem run_progress {nrSamples n rate : Nat} {s : State} (h : Reachable (runStochastic nrSamples n rate) s)
    (hp : s.prog ≠ []) (hf : ∀ t, ¬ StepInFlight t s.trace) :
    ∃ a s', (∀ t, a ≠ .ready t) ∧ step s a = some s' := by
  obtain ⟨m, hi⟩ := inv_reachable h
  refine progress_inv hi hp ?_
  intro t ht
  by_contra hn
  exact hf t ((stepInFlight_iff hi t).mpr ⟨ht, hn⟩)

/-- The rate limit only holds up the thread as long as a time step that is `rate` steps back is in flight. -/
theorem run_not_throttled {nrSamples n rate t : Nat} {s : State} {p : List Instr}
    (h : Reachable (runStochastic nrSamples n rate) s) (hp : s.prog = .wait t :: p)
    (hn : ∀ u, u + effectiveRate n rate ≤ t + 1 → ¬ StepInFlight u s.trace)
    (h1 : step s .signal = none) (h2 : step s .finish = none) : ∃ s', step s .main = some s' := by
  obtain ⟨m, hi⟩ := inv_reachable h
  have hc := hi.check
  rw [hp] at hc
  cases m with
  | none => exact hc.elim
  | some m =>
    obtain ⟨ht, hw, -⟩ := hc
    have hrel : RelIn 1 (effectiveRate n rate) n m s := hi.rel
    have hlen : s.steps.length = m.k := by rw [hrel.steps]; simp
    have := hrel.fs; have := hrel.sk; have := hrel.sf; have := hrel.rate
    have hfin : s.finished = s.signalled := by
      simp only [step, finish] at h2
      split at h2
      · simp at h2
      · omega
    have hpass : (Semaphore.passes ⟨(effectiveRate n rate : Int) - 1, (1 + (s.signalled - 1) : Nat)⟩ t) = true := by
      simp only [Semaphore.passes, gt_iff_lt, Bool.not_eq_eq_eq_not, Bool.not_true, decide_eq_false_iff_not, Int.not_lt]
      by_contra hcon
      have hlt : s.signalled < s.steps.length := by omega
      have hget : s.steps[s.signalled] = 1 + s.signalled := by simp [hrel.steps]
      have hnr : 1 + s.signalled ∉ s.readySteps := by
        intro hr
        simp only [step, signal, List.getElem?_eq_getElem hlt, hget, if_pos (And.intro hfin.symm hr), hrel.sem] at h1
        simp at h1
      have hin : StepInFlight (1 + s.signalled) s.trace :=
        (stepInFlight_iff hi _).mpr ⟨hget ▸ List.getElem_mem hlt, hnr⟩
      exact hn _ (by omega) hin
    exact ⟨_, by simp only [step, main, hp, hrel.sem, hpass]; rfl⟩

/-- A time step in flight can become ready: nothing is lost. -/
theorem run_ready_enabled {nrSamples n rate : Nat} {s : State} (h : Reachable (runStochastic nrSamples n rate) s) {t : Nat}
    (hf : StepInFlight t s.trace) : ∃ s', step s (.ready t) = some s' := by
  obtain ⟨m, hi⟩ := inv_reachable h
  have := (stepInFlight_iff hi t).mp hf
  exact ⟨_, by simp [step, ready, this]; rfl⟩

/-- A run cannot go on forever, and when nothing can happen anymore, everything has been done. -/
theorem run_terminates (nrSamples n rate : Nat) :
    (∃ bound, ∀ as s, Run (init (runStochastic nrSamples n rate)) as s → as.length ≤ bound) ∧
    ∀ s, Reachable (runStochastic nrSamples n rate) s → (∀ a, step s a = none) →
      s.prog = [] ∧ calls s.trace = expectedRuns nrSamples n ∧ nrCalled s.trace = nrReady s.trace := by
  refine ⟨⟨measure (init (runStochastic nrSamples n rate)), fun as s hr => ?_⟩, ?_⟩
  · have := measure_run hr (first := 1) (R := effectiveRate n rate) (N := n) (m := none)
      ⟨check_runStochastic nrSamples n rate, rel_init _ _ _ _, base_init _⟩
    omega
  · intro s h hstuck
    have hp : s.prog = [] := by
      by_contra hp
      obtain ⟨a, s', -, ha⟩ := run_progress h hp (fun t ht => by
        obtain ⟨s', hs'⟩ := run_ready_enabled h ht
        rw [hstuck] at hs'; simp at hs')
      rw [hstuck] at ha; simp at ha
    exact ⟨hp, run_complete h hp⟩

/-! ## The rate limit is exceeded at the start -/

theorem Run.trans {s s' s'' : State} {as bs : List Action} (h : Run s as s') (h' : Run s' bs s'') : Run s (as ++ bs) s'' := by
  induction h with
  | nil => exact h'
  | cons hs _ ih => exact .cons hs (ih h')

/-- The thread can start `k` time steps while none becomes ready. -/
theorem run_ahead {rate last : Nat} (hr : 1 ≤ rate) (rest : List Instr) :
    ∀ k i : Nat, i + k ≤ rate → i + k ≤ last →
    ∀ s : State, s.prog = (List.range' i (last - i)).flatMap (fun j => iteration last (1 + j)) ++ rest → last = i + (last - i) →
      s.sem = some ⟨(rate : Int) - 1, 1⟩ → k < last - i →
    ∃ as s', Run s as s' ∧ s'.prog = (List.range' (i + k) (last - (i + k))).flatMap (fun j => iteration last (1 + j)) ++ rest ∧
      nrCalled s'.trace = nrCalled s.trace + k ∧ nrReady s'.trace = nrReady s.trace := by
  intro k
  induction k with
  | zero => intro i _ _ s hp _ _ _; exact ⟨[], s, .nil, hp, rfl, rfl⟩
  | succ k ih =>
    intro i hik hil s hp hl hsem hk
    obtain ⟨d, hd⟩ : ∃ d, last - i = d + 1 := ⟨last - i - 1, by omega⟩
    rw [hd, List.range'_succ, List.flatMap_cons] at hp
    have hne : 1 + i ≠ last := by omega
    have hit : iteration last (1 + i) = [.call (1 + i), .wait (1 + i), .emit (.progress (1 + i))] := by
      simp [iteration, hne]
    rw [hit] at hp
    have hd' : last - (i + 1) = d := by omega
    let rest' := (List.range' (i + 1) d).flatMap (fun j => iteration last (1 + j)) ++ rest
    let s1 : State :=
      { s with
        prog := .wait (1 + i) :: .emit (.progress (1 + i)) :: rest'
        steps := s.steps ++ [1 + i]
        trace := s.trace ++ [.called (1 + i)] }
    let s2 : State := { s1 with prog := .emit (.progress (1 + i)) :: rest' }
    let s3 : State := { s2 with prog := rest', trace := s2.trace ++ [.progress (1 + i)] }
    have e1 : step s .main = some s1 := by
      simp only [step, main, hp, List.cons_append, List.nil_append, s1, rest']
    have e2 : step s1 .main = some s2 := by
      have hpass : (Semaphore.passes ⟨(rate : Int) - 1, 1⟩ (1 + i : Nat)) = true := by
        simp only [Semaphore.passes, gt_iff_lt, Bool.not_eq_eq_eq_not, Bool.not_true, decide_eq_false_iff_not, Int.not_lt]
        omega
      simp only [step, main, s1, s2, hsem, hpass]; rfl
    have e3 : step s2 .main = some s3 := rfl
    obtain ⟨as, s', hrun, hp', h1, h2⟩ := ih (i + 1) (by omega) (by omega) s3 (by rw [hd']) (by omega) hsem (by omega)
    refine ⟨.main :: .main :: .main :: as, s', .cons e1 (.cons e2 (.cons e3 hrun)), ?_, ?_, ?_⟩
    · rw [hp']
      have : i + 1 + k = i + (k + 1) := by omega
      rw [this]
    · rw [h1]
      simp only [s3, s2, s1, nrCalled_append]
      have ha : nrCalled [Event.called (1 + i)] = 1 := rfl
      have hb : nrCalled [Event.progress (1 + i)] = 0 := rfl
      omega
    · rw [h2]
      simp only [s3, s2, s1, nrReady_append]
      have ha : nrReady [Event.called (1 + i)] = 0 := rfl
      have hb : nrReady [Event.progress (1 + i)] = 0 := rfl
      omega

/-- FINDING: whatever the rate limit, one more time step than the rate limit can be in flight (when there are that many
time steps). The cause is that the semaphore starts with the first time step as lower limit, as if it had been finished. -/
theorem run_exceeds {nrSamples n rate : Nat} (hs : 0 < nrSamples) (hr : 0 < rate) (hn : rate < n) :
    ∃ s, Reachable (runStochastic nrSamples n rate) s ∧ nrCalled s.trace = rate + 1 ∧ nrReady s.trace = 0 := by
  obtain ⟨k, rfl⟩ : ∃ k, nrSamples = k + 1 := ⟨nrSamples - 1, by omega⟩
  obtain ⟨n', rfl⟩ : ∃ n', n = n' + 1 := ⟨n - 1, by omega⟩
  have hprog : ∃ rest, runStochastic (k + 1) (n' + 1) rate =
      .emit (.preprocessProgressor 1) :: .emit (.preprocessModel 1) :: .emit .initializeProgressor ::
        .emit .initializeModel :: .construct ((rate : Int) - 1) 1 ::
        ((List.range' 0 (n' + 1 - 0)).flatMap (fun j => iteration (n' + 1) (1 + j)) ++ rest) := by
    have he : effectiveRate (n' + 1) rate = rate := by simp [effectiveRate, hr]
    rw [runStochastic, List.range_succ_eq_map, List.flatMap_cons]
    simp only [sample, runDeterministic, simulate, Nat.add_sub_cancel, he, Nat.succ_pos, gt_iff_lt, if_true,
      List.append_assoc, List.cons_append, List.nil_append, ← List.range_eq_range', Nat.sub_zero]
    exact ⟨_, rfl⟩
  obtain ⟨rest, hprog⟩ := hprog
  let s0 : State :=
    { prog := (List.range' 0 (n' + 1 - 0)).flatMap (fun j => iteration (n' + 1) (1 + j)) ++ rest,
      sem := some ⟨(rate : Int) - 1, 1⟩, steps := [], readySteps := [], signalled := 0, finished := 0, dangling := false,
      trace := [.preprocessProgressor 1, .preprocessModel 1, .initializeProgressor, .initializeModel] }
  have h0 : Run (init (runStochastic (k + 1) (n' + 1) rate)) [.main, .main, .main, .main, .main] s0 := by
    rw [hprog]
    exact .cons rfl (.cons rfl (.cons rfl (.cons rfl (.cons rfl .nil))))
  obtain ⟨as, s1, hrun, hp1, hc1, hr1⟩ := run_ahead (rate := rate) (last := n' + 1) hr rest rate 0 (by omega) (by omega) s0 rfl
    (by omega) rfl (by omega)
  have hp1' : ∃ p, s1.prog = .call (1 + rate) :: p := by
    rw [hp1]
    obtain ⟨d, hd⟩ : ∃ d, n' + 1 - (0 + rate) = d + 1 := ⟨n' - rate, by omega⟩
    rw [hd, List.range'_succ, List.flatMap_cons]
    simp only [iteration, Nat.zero_add, List.cons_append, List.append_assoc]
    exact ⟨_, rfl⟩
  obtain ⟨p, hp1'⟩ := hp1'
  refine ⟨_, ⟨_, (h0.trans hrun).trans (.cons (a := .main) (by simp only [step, main, hp1']; rfl) .nil)⟩, ?_, ?_⟩
  · simp only [nrCalled_append, hc1]
    have ha : nrCalled [Event.called (1 + rate)] = 1 := rfl
    have hb : nrCalled s0.trace = 0 := rfl
    omega
  · simp only [nrReady_append, hr1]
    rfl

/-! ## Examples -/

/-- Two samples of two time steps, rate limit 1: the model is called for the second time step while the first one is not
ready yet. -/
example : ∃ s, Reachable (runStochastic 2 2 1) s ∧ nrCalled s.trace = 2 ∧ nrReady s.trace = 0 :=
  run_exceeds (by decide) (by decide) (by decide)

/-- Execute actions -/
def exec (s : State) : List Action → Option State
  | [] => some s
  | a :: as => (step s a).bind fun s' => exec s' as

theorem run_of_exec {as : List Action} : ∀ {s s' : State}, exec s as = some s' → Run s as s' := by
  induction as with
  | nil => intro s s' h; simp only [exec, Option.some.injEq] at h; subst h; exact .nil
  | cons a as ih =>
    intro s s' h
    simp only [exec] at h
    cases hs : step s a with
    | none => rw [hs] at h; simp at h
    | some s1 => rw [hs] at h; exact .cons hs (ih h)

/-- A complete run of three time steps with rate limit 2, whose states become ready in another order than they are started. -/
example : ((exec (init (runStochastic 1 3 2))
    ([.main, .main, .main, .main, .main] ++ [.main, .main, .main] ++ [.main, .main, .main] ++ [.main] ++
      [.ready 2, .ready 1, .signal, .finish, .signal, .finish] ++ [.main, .main, .ready 3, .signal, .finish] ++
      [.main, .main, .main, .main, .main, .main])).map fun s => (s.prog, s.trace)) =
    some ([], [.preprocessProgressor 1, .preprocessModel 1, .initializeProgressor, .initializeModel,
      .called 1, .progress 1, .called 2, .progress 2, .called 3, .ready 2, .ready 1, .progress 3, .ready 3,
      .finalizeModel, .finalizeProgressor, .postprocessModel, .postprocessProgressor]) := by decide

/-- The thread is held up: three time steps are in flight, the rate limit is 2. -/
example : ((exec (init (runStochastic 1 3 2))
    ([.main, .main, .main, .main, .main] ++ [.main, .main, .main] ++ [.main, .main, .main] ++ [.main])).bind main) = none := by
  decide

end Lue.Simulate

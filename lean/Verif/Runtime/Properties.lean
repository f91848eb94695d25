import Verif.Runtime.Lemmas

/-
C60: the runtime runs from the moment a call to start it returns until it is told to stop.
-/

namespace Lue.Runtime

theorem effect_initial {calls : List Call} {as : List Action} {s : State}
    (h : run (initial calls) as = some s) (ha : .spuriousMain ∉ as) :
    ∃ q, calls = q ++ s.calls ∧ s.seen = expected false q := by
  obtain ⟨q, h1, h2, -⟩ := effect_run (inv_initial false calls) ha h
  exact ⟨q, h1, by simpa [State.seen, initial, pending, after, App.constructs, App.destructs] using h2⟩

theorem seen_ready {s : State} (h : s.app = .ready) : s.seen = s.events := by
  simp [State.seen, h, pending, App.constructs, App.destructs]

/-- Whether the runtime runs is determined by the last call to start or stop it. -/
theorem runs_expected (b : Bool) (calls : List Call) : runs b (expected b calls) = on b calls := by
  induction calls generalizing b with
  | nil => rfl
  | cons c cs ih => cases c <;> cases b <;> simp [expected, runs, on, ih]

/-- Whatever the interleaving: each time the application is between two calls, exactly what is expected
    from the calls done so far has been observed. In particular, the runtime runs if and only if the last
    call to start or stop it was one to start it. -/
theorem between_calls {done calls : List Call} {as : List Action} {s : State}
    (h : run (initial (done ++ calls)) as = some s) (ha : .spuriousMain ∉ as) (hr : s.app = .ready)
    (hc : s.calls = calls) : s.events = expected false done ∧ runs false s.events = on false done := by
  obtain ⟨q, hq, hs⟩ := effect_initial h ha
  rw [hc] at hq
  rw [← List.append_cancel_right hq, seen_ready hr] at hs
  exact ⟨hs, by rw [hs, runs_expected]⟩

/-- Whatever the interleaving, once all calls have returned, what is expected has been observed. -/
theorem events_eq {calls : List Call} {as : List Action} {s : State}
    (h : run (initial calls) as = some s) (ha : .spuriousMain ∉ as) (hf : s.Finished) :
    s.events = expected false calls :=
  (between_calls (calls := []) (by simpa using h) ha hf.2 hf.1).1

/-- At any moment of any execution, what has been observed is the first part of what is expected. -/
theorem events_prefix {calls : List Call} {as : List Action} {s : State}
    (h : run (initial calls) as = some s) (ha : .spuriousMain ∉ as) :
    s.events <+: expected false calls := by
  obtain ⟨q, hq, hs⟩ := effect_initial h ha
  rw [hq, expected_append, ← hs, State.seen, List.append_assoc]
  exact List.prefix_append _ _

/-- No execution uses members of an instance which has been destroyed, also not with spurious wakeups. -/
theorem no_fault {calls : List Call} {as : List Action} {s : State}
    (h : run (initial calls) as = some s) : s.fault = false :=
  (inv_run (inv_initial true calls) (fun _ => rfl) h).fault

/-- The number of steps is bounded: no execution goes on forever, unless a condition variable keeps on
    waking up threads. -/
theorem bounded {calls : List Call} {as : List Action} {s : State}
    (h : run (initial calls) as = some s) : as.length ≤ 30 * calls.length + 5 * spurious as := by
  have key : ∀ (as : List Action) (u : State), Inv true u → run u as = some s →
      s.work + as.length ≤ u.work + 5 * spurious as := by
    intro as
    induction as with
    | nil => intro u _ hu; simp only [run, Option.some.injEq] at hu; simp [hu, spurious]
    | cons a as ih =>
      intro u hi hu
      simp only [run, Option.bind_eq_some_iff] at hu
      obtain ⟨v, hv, hr⟩ := hu
      have h1 := work_step hi hv
      have h2 := ih v (inv_step hi (fun _ => rfl) hv) hr
      have h3 : spurious (a :: as) = spurious [a] + spurious as := by cases a <;> simp [spurious] <;> omega
      simp only [List.length_cons, h3]
      omega
  have h1 := key as (initial calls) (inv_initial true calls) h
  have h2 : (initial calls).work = 30 * calls.length := by
    simp [State.work, initial, App.rank, Main.rank, App.notifies, App.constructs]
  omega

/-- As long as calls have to be done or are being executed, one of the threads can do a step: there is no
    deadlock, and no notification is missed. -/
theorem no_deadlock {calls : List Call} {as : List Action} {s : State}
    (h : run (initial calls) as = some s) (hf : ¬ s.Finished) :
    (step s .app).isSome = true ∨ (step s .main).isSome = true := by
  have hi := inv_run (inv_initial true calls) (fun _ => rfl) h
  obtain ⟨calls, events, pointer, app, main, running, runtime, startup, shutdown, alive, fault⟩ := s
  obtain ⟨h1, h2, h3, h4, h5, h6, h7, h8⟩ := hi
  dsimp only at h1 h2 h3 h4 h5 h6 h7 h8
  subst h1 h4 h5 h6
  cases app
  case ready =>
    cases calls with
    | nil => exact absurd ⟨rfl, rfl⟩ hf
    | cons c cs => left; cases c <;> rfl
  all_goals
    cases main <;> first
    | (exfalso; revert h3; cases pointer <;> decide)
    | (left; rfl)
    | (right; rfl)

/-- Every execution can be completed, and if no thread can do a step anymore, all calls have returned. -/
theorem completes {calls : List Call} {as : List Action} {s : State}
    (h : run (initial calls) as = some s) :
    ∃ bs t, .spuriousMain ∉ bs ∧ run s bs = some t ∧ t.Finished := by
  obtain ⟨n, hn⟩ : ∃ n, s.work ≤ n := ⟨_, Nat.le_refl _⟩
  induction n generalizing as s with
  | zero =>
    by_cases hf : s.Finished
    · exact ⟨[], s, by simp, rfl, hf⟩
    · have hi := inv_run (inv_initial true calls) (fun _ => rfl) h
      rcases no_deadlock h hf with hs | hs
      · obtain ⟨t, ht⟩ := Option.isSome_iff_exists.1 hs
        have := work_step hi ht
        simp [spurious] at this; omega
      · obtain ⟨t, ht⟩ := Option.isSome_iff_exists.1 hs
        have := work_step hi ht
        simp [spurious] at this; omega
  | succ n ih =>
    by_cases hf : s.Finished
    · exact ⟨[], s, by simp, rfl, hf⟩
    · have hi := inv_run (inv_initial true calls) (fun _ => rfl) h
      have : ∃ a t, a ≠ Action.spuriousMain ∧ spurious [a] = 0 ∧ step s a = some t := by
        rcases no_deadlock h hf with hs | hs
        · obtain ⟨t, ht⟩ := Option.isSome_iff_exists.1 hs
          exact ⟨.app, t, by decide, rfl, ht⟩
        · obtain ⟨t, ht⟩ := Option.isSome_iff_exists.1 hs
          exact ⟨.main, t, by decide, rfl, ht⟩
      obtain ⟨a, t, ha, hsp, ht⟩ := this
      have hw := work_step hi ht
      have hrun : ∀ (as : List Action) (u : State), run u as = some s → run u (as ++ [a]) = some t := by
        intro as
        induction as with
        | nil => intro u hu; simp only [run, Option.some.injEq] at hu; simp [run, hu, ht]
        | cons b as ih2 =>
          intro u hu
          simp only [run, Option.bind_eq_some_iff] at hu
          obtain ⟨v, hv, hr⟩ := hu
          simp only [List.cons_append, run, hv, Option.bind_some]
          exact ih2 v hr
      obtain ⟨bs, u, hb, hu, hfin⟩ := ih (hrun as _ h) (by omega)
      refine ⟨a :: bs, u, ?_, ?_, hfin⟩
      · simp only [List.mem_cons, not_or]; exact ⟨Ne.symm ha, hb⟩
      · simp [run, ht, hu]

/-- Once everything has returned and the runtime has been stopped, the thread executing `hpx_main` has
    ended, and the members of the instance have been destroyed. -/
theorem stopped {calls : List Call} {as : List Action} {s : State}
    (h : run (initial calls) as = some s) (ha : .spuriousMain ∉ as) (hf : s.Finished)
    (ho : on false calls = false) : s.main = .absent ∧ s.alive = false := by
  have hi := inv_run (inv_initial false calls) (fun e => absurd e ha) h
  obtain ⟨q, h1, h2, h3⟩ := effect_run (inv_initial false calls) ha h
  have hp : s.pointer = false := by
    rw [hf.1, List.append_nil] at h1
    have : q = calls := h1.symm
    subst this
    simpa [after, hf.2, initial, ho] using h3
  have hc := hi.compat
  rw [hf.2, hp] at hc
  simp only [compatible, Bool.false_eq_true, if_false, decide_eq_true_eq] at hc
  refine ⟨hc, ?_⟩
  rw [hi.alive, hc]; rfl

/-- A Python script stops the runtime, also if it doesn't call `stop_hpx_runtime`: it is stopped as often
    as it was started. -/
theorem script_stops (calls : List Call) : on false (script calls) = false := by
  simp [script, on_append, on]

theorem expected_uses (b : Bool) (n : Nat) (calls : List Call) :
    expected b (List.replicate n .use ++ calls) = List.replicate n .used ++ expected b calls := by
  induction n with
  | zero => rfl
  | succ n ih => cases b <;> simp [List.replicate_succ, expected, ih]

/-- A function decorated by `runtime_scope` uses the runtime while it runs, in every execution of the
    script. -/
theorem scope_runs {n : Nat} {as : List Action} {s : State}
    (h : run (initial (script (scope n))) as = some s) (ha : .spuriousMain ∉ as) (hf : s.Finished) :
    s.events = .began :: (List.replicate n .used ++ [.finalized]) ∧ s.main = .absent ∧ s.alive = false := by
  refine ⟨?_, stopped h ha hf (script_stops _)⟩
  rw [events_eq h ha hf]
  simp only [script, scope, List.cons_append, List.append_assoc, expected]
  rw [expected_uses]
  rfl

/-- The same if the function raises. -/
theorem scope_raises {n : Nat} {as : List Action} {s : State}
    (h : run (initial (script (scopeRaised n))) as = some s) (ha : .spuriousMain ∉ as) (hf : s.Finished) :
    s.events = .began :: (List.replicate n .used ++ [.finalized]) ∧ s.main = .absent ∧ s.alive = false := by
  refine ⟨?_, stopped h ha hf (script_stops _)⟩
  rw [events_eq h ha hf]
  simp only [script, scopeRaised, List.cons_append, expected]
  rw [expected_uses]
  rfl

/-- Finding: waiting for the destructor is not done in a loop. If the condition variable wakes up
    `hpx_main` without being notified, which is allowed, the runtime is finalized while the application
    uses it. -/
theorem spurious_finalizes : ∃ as s, run (initial (scope 1)) as = some s ∧
    s.events = [.began, .finalized, .used] ∧ s.pointer = true := by
  refine ⟨[.app, .main, .main, .main, .main, .app, .app, .main, .main, .spuriousMain, .main, .main, .main,
    .app], _, rfl, rfl, rfl⟩

/-- Finding: `start_hpx_runtime` releases Python's global interpreter lock, and tests and sets the pointer
    without a lock. Two threads calling it at the same time both start the HPX runtime, in a process in
    which it can be started only once. -/
theorem concurrent_start : ∃ order, (Starters.run Starters.initial order).started = 2 :=
  ⟨[false, true, false, true], rfl⟩

/-- If the calls do not overlap, whatever their number, the runtime is started once. -/
theorem sequential_start (calls : List Bool) (h : calls ≠ []) :
    (Starters.run Starters.initial (calls.flatMap fun t => [t, t])).started = 1 := by
  have key : ∀ (calls : List Bool) (s : Starters), s.pointer = true → s.first = false → s.second = false →
      (Starters.run s (calls.flatMap fun t => [t, t])).started = s.started := by
    intro calls
    induction calls with
    | nil => intro s _ _ _; rfl
    | cons t ts ih =>
      intro s hp h1 h2
      obtain ⟨p, a, b, n⟩ := s
      subst hp h1 h2
      cases t <;> exact ih ⟨true, false, false, n⟩ rfl rfl rfl
  cases calls with
  | nil => exact absurd rfl h
  | cons t ts => cases t <;> exact key ts ⟨true, false, false, 1⟩ rfl rfl rfl

/-- Two schedules of the same script: the application waits, or doesn't have to. -/
example : (run (initial (script (scope 2))) ([.app, .app, .app, .main, .main, .main, .main, .main, .app,
    .app, .main, .app, .app, .app, .app, .app, .app, .main, .main, .main, .app, .app])).map
    (fun s => (s.events, s.calls, s.app)) = some ([.began, .used, .used, .finalized], [], .ready) := by
  decide

end Lue.Runtime

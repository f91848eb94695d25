import Verif.Runtime.Spec

namespace Lue.Runtime

/-- Whether `hpx_main` has set `_running`. -/
def Main.ran : Main → Bool
  | .absent | .storePointer | .lockStartup | .setRunning => false
  | _ => true

/-- Whether there is a thread executing `hpx_main`. -/
def Main.present : Main → Bool
  | .absent => false
  | _ => true

/-- Whether the destructor has not reset the pointer. -/
def App.keeps : App → Bool
  | .notifyShutdown | .stopping => false
  | _ => true

/-- Whether the constructor is being executed. -/
def App.constructs : App → Bool
  | .lockStartup | .testRunning | .waiting => true
  | _ => false

/-- Whether the destructor is being executed. -/
def App.destructs : App → Bool
  | .lockShutdown | .resetPointer | .notifyShutdown | .stopping => true
  | _ => false

def ownerStartup (a : App) (m : Main) : Option Thread :=
  if a = .testRunning then some .app else if m = .setRunning then some .main else none

def ownerShutdown (a : App) (m : Main) : Option Thread :=
  if a = .resetPointer then some .app else if m = .testPointer ∨ m = .unlock then some .main else none

/-- Whether `hpx_main` has stopped waiting. -/
def Main.woken : Main → Bool
  | .relock | .unlock | .finalize | .returned => true
  | _ => false

/-- Combinations of places of both threads. `b` tells whether `hpx_main` may be woken up spuriously. -/
def compatible (b : Bool) (p : Bool) : App → Main → Bool
  | .ready, m => if p then m.ran && (b || !m.woken) else decide (m = .absent)
  | .lockStartup, m => decide (m ≠ .absent) && (b || !m.woken)
  | .testRunning, m => decide (m ≠ .absent) && decide (m ≠ .setRunning) && (b || !m.woken)
  | .waiting, m => decide (m = .storePointer) || decide (m = .lockStartup) || decide (m = .setRunning) || decide (m = .notifyStartup)
  | .lockShutdown, m => m.ran && (b || !m.woken)
  | .resetPointer, m => m.ran && (b || !m.woken) && decide (m ≠ .testPointer) && decide (m ≠ .unlock)
  | .notifyShutdown, m => m.ran
  | .stopping, m => m.ran && decide (m ≠ .waiting)

structure Inv (b : Bool) (s : State) : Prop where
  fault : s.fault = false
  pointer : s.app ≠ .ready → s.pointer = false
  compat : compatible b s.pointer s.app s.main = true
  startup : s.startup = ownerStartup s.app s.main
  shutdown : s.shutdown = ownerShutdown s.app s.main
  alive : s.alive = s.main.present
  running : s.main ≠ .absent → s.running = s.main.ran
  runtime : s.main ≠ .absent → s.main ≠ .storePointer →
    s.runtime = s.app.keeps

theorem inv_initial (b : Bool) (calls : List Call) : Inv b (initial calls) := by
  constructor <;> simp [initial, compatible, ownerStartup, ownerShutdown, Main.present]

local macro "invt" : tactic => `(tactic|
  (simp (config := { failIfUnchanged := false }) [compatible, Main.ran, Main.present, App.keeps,
      Main.woken, ownerStartup, ownerShutdown, App.constructs, App.destructs] at *))

local macro "stept" hs:ident : tactic => `(tactic|
  (simp (config := { failIfUnchanged := false }) [step, appStep, mainStep, call, start, stop, touch,
      testRunning, testPointer, wakeMain, wakeApp, ownerStartup, ownerShutdown, App.keeps, Main.ran,
      Main.present] at $hs:ident))

set_option maxHeartbeats 4000000 in
/-- A step preserves the invariant. -/
theorem inv_step {b : Bool} {s t : State} {a : Action} (h : Inv b s) (hb : a = .spuriousMain → b = true)
    (hs : step s a = some t) : Inv b t := by
  obtain ⟨calls, events, pointer, app, main, running, runtime, startup, shutdown, alive, fault⟩ := s
  obtain ⟨h1, h2, h3, h4, h5, h6, h7, h8⟩ := h
  dsimp only at h1 h2 h3 h4 h5 h6 h7 h8
  subst h1 h4 h5 h6
  cases app <;> cases main <;> cases b <;> cases pointer <;>
    first
    | (exfalso; revert h3; decide)
    | (exfalso; exact absurd (h2 (by decide)) (by decide))
    | skip
  all_goals
    cases a <;> first
    | (exfalso; exact absurd (hb rfl) (by decide))
    | skip
  all_goals
    first
    | (stept hs; done)
    | (cases calls with
       | nil => stept hs; done
       | cons c cs => cases c <;> stept hs <;> subst hs <;> constructor <;> invt <;> assumption)
    | (have h7' := h7 (by decide); have h8' := h8 (by decide) (by decide); subst h7' h8'; stept hs; subst hs; constructor <;> invt)
    | (have h7' := h7 (by decide); subst h7'; stept hs; subst hs; constructor <;> invt)
  all_goals skip

theorem inv_run {b : Bool} {s t : State} {as : List Action} (h : Inv b s)
    (hb : .spuriousMain ∈ as → b = true) (hs : run s as = some t) : Inv b t := by
  induction as generalizing s with
  | nil => simp [run] at hs; exact hs ▸ h
  | cons a as ih =>
    simp only [run, Option.bind_eq_some_iff] at hs
    obtain ⟨u, hu, ht⟩ := hs
    exact ih (inv_step h (fun e => hb (by simp [e])) hu) (fun e => hb (by simp [e])) ht

/-- Events which are about to happen. -/
def pending (a : App) (m : Main) : List Event :=
  if a.constructs = true ∧ m = .storePointer then [.began]
  else if a.destructs = true ∧ m ≠ .returned then [.finalized] else []

/-- Whether the runtime runs once the current call has returned. -/
def after (p : Bool) (a : App) : Bool := if a = .ready then p else a.constructs

/-- What has been observed, and is about to be observed. -/
def State.seen (s : State) : List Event := s.events ++ pending s.app s.main

/-- Whether the runtime runs after a list of calls. -/
def on : Bool → List Call → Bool
  | b, [] => b
  | _, .start :: calls => on true calls
  | _, .stop :: calls => on false calls
  | b, .use :: calls => on b calls

theorem on_append (b : Bool) (p q : List Call) : on b (p ++ q) = on (on b p) q := by
  induction p generalizing b with
  | nil => rfl
  | cons c p ih => cases c <;> simp [on, ih]

theorem expected_append (b : Bool) (p q : List Call) :
    expected b (p ++ q) = expected b p ++ expected (on b p) q := by
  induction p generalizing b with
  | nil => rfl
  | cons c p ih => cases c <;> cases b <;> simp [expected, on, ih]

/-- `t` is reached from `s` while the application does the calls `q`. -/
def Effect (s t : State) (q : List Call) : Prop :=
  s.calls = q ++ t.calls ∧ t.seen = s.seen ++ expected (after s.pointer s.app) q ∧
    after t.pointer t.app = on (after s.pointer s.app) q

set_option maxHeartbeats 4000000 in
theorem effect_step {s t : State} {a : Action} (h : Inv false s) (ha : a ≠ .spuriousMain)
    (hs : step s a = some t) : Effect s t [] ∨ ∃ c, Effect s t [c] := by
  obtain ⟨calls, events, pointer, app, main, running, runtime, startup, shutdown, alive, fault⟩ := s
  obtain ⟨h1, h2, h3, h4, h5, h6, h7, h8⟩ := h
  dsimp only at h1 h2 h3 h4 h5 h6 h7 h8
  subst h1 h4 h5 h6
  cases app <;> cases main <;> cases pointer <;>
    first
    | (exfalso; revert h3; decide)
    | (exfalso; exact absurd (h2 (by decide)) (by decide))
    | skip
  all_goals
    cases a <;> first
    | (exfalso; exact absurd rfl ha)
    | skip
  all_goals
    first
    | (stept hs; done)
    | (cases calls with
       | nil => stept hs; done
       | cons c cs =>
         refine Or.inr ⟨c, ?_⟩
         cases c <;> stept hs <;> subst hs <;>
           simp [Effect, State.seen, pending, after, App.constructs, App.destructs, expected, on])
    | (refine Or.inl ?_; have h7' := h7 (by decide); have h8' := h8 (by decide) (by decide); subst h7' h8'
       stept hs; subst hs
       simp [Effect, State.seen, pending, after, App.constructs, App.destructs, expected, on])
    | (refine Or.inl ?_; have h7' := h7 (by decide); subst h7'; stept hs; subst hs
       simp [Effect, State.seen, pending, after, App.constructs, App.destructs, expected, on])

theorem effect_run {s t : State} {as : List Action} (h : Inv false s) (ha : .spuriousMain ∉ as)
    (hs : run s as = some t) : ∃ q, Effect s t q := by
  induction as generalizing s with
  | nil => simp only [run, Option.some.injEq] at hs; exact ⟨[], by simp [Effect, hs, expected, on]⟩
  | cons a as ih =>
    simp only [run, Option.bind_eq_some_iff] at hs
    obtain ⟨u, hu, ht⟩ := hs
    simp only [List.mem_cons, not_or] at ha
    obtain ⟨q, hq1, hq2, hq3⟩ := ih (inv_step h (fun e => absurd e.symm ha.1) hu) ha.2 ht
    have : ∃ p, Effect s u p := by
      rcases effect_step h (Ne.symm ha.1) hu with h | ⟨c, h⟩
      · exact ⟨_, h⟩
      · exact ⟨_, h⟩
    obtain ⟨p, hp1, hp2, hp3⟩ := this
    refine ⟨p ++ q, ?_, ?_, ?_⟩
    · rw [hp1, hq1, List.append_assoc]
    · rw [hq2, hp2, hp3, expected_append, List.append_assoc]
    · rw [hq3, hp3, on_append]

/-- Bounds the number of steps of a thread before it waits or is done. -/
def App.rank : App → Nat
  | .ready => 0
  | .testRunning => 1
  | .waiting => 0
  | .lockStartup => 2
  | .lockShutdown => 4
  | .resetPointer => 3
  | .notifyShutdown => 2
  | .stopping => 1

def Main.rank : Main → Nat
  | .absent => 0
  | .storePointer => 12
  | .lockStartup => 11
  | .setRunning => 10
  | .notifyStartup => 9
  | .lockShutdown => 6
  | .testPointer => 5
  | .waiting => 0
  | .relock => 4
  | .unlock => 3
  | .finalize => 2
  | .returned => 1

/-- Notifying `hpx_main` allows it to do five more steps. -/
def App.notifies : App → Nat
  | .lockStartup | .testRunning | .waiting | .lockShutdown | .resetPointer | .notifyShutdown => 5
  | _ => 0

def State.work (s : State) : Nat :=
  30 * s.calls.length + s.app.rank + s.main.rank + s.app.notifies +
    (if s.app = .ready ∧ s.pointer = true then 10 else if s.app.constructs = true then 10 else 0)

set_option maxHeartbeats 4000000 in
theorem work_step {b : Bool} {s t : State} {a : Action} (h : Inv b s) (hs : step s a = some t) :
    t.work < s.work + 5 * spurious [a] := by
  obtain ⟨calls, events, pointer, app, main, running, runtime, startup, shutdown, alive, fault⟩ := s
  obtain ⟨h1, h2, h3, h4, h5, h6, h7, h8⟩ := h
  dsimp only at h1 h2 h3 h4 h5 h6 h7 h8
  subst h1 h4 h5 h6
  cases app <;> cases main <;> cases b <;> cases pointer <;>
    first
    | (exfalso; revert h3; decide)
    | (exfalso; exact absurd (h2 (by decide)) (by decide))
    | skip
  all_goals cases a
  all_goals
    first
    | (stept hs; done)
    | (cases calls with
       | nil => stept hs; done
       | cons c cs => cases c <;> stept hs <;> subst hs <;> (simp [State.work, App.rank, Main.rank, App.notifies, App.constructs, spurious]; try omega))
    | (have h7' := h7 (by decide); have h8' := h8 (by decide) (by decide); subst h7' h8'; stept hs; subst hs; (simp [State.work, App.rank, Main.rank, App.notifies, App.constructs, spurious]; try omega))
    | (have h7' := h7 (by decide); subst h7'; stept hs; subst hs; (simp [State.work, App.rank, Main.rank, App.notifies, App.constructs, spurious]; try omega))

end Lue.Runtime

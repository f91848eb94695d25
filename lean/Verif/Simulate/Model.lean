/-!
# Model of running a model: `simulate`, `run_deterministic`, `run_stochastic`

Models `source/framework/model/include/lue/framework/model/simulate.hpp`.

The functions are executed by one thread. It is modelled as a list of instructions, generated by the functions below, which
follow the code. The model passed in by the user returns a future for each time step. It becomes ready at any moment after
the call, in any order. The continuations attached to these futures run asynchronously with the thread.

`hpx::sliding_semaphore` is part of HPX. Its documented behaviour is modelled: `wait(upper)` blocks as long as
`upper - max_difference > lower_limit`, `signal(lower)` sets the lower limit to the maximum of the current one and `lower`.

Simplifications: time step numbers and rate limits are natural numbers without an upper bound; user callbacks do not throw.
-/
namespace Lue.Simulate

/-- What a user can observe. `ready t` is the state of time step `t` becoming ready, all others are calls of the model and
the progressor (the callbacks in model.hpp and progressor.hpp). -/
inductive Event where
  | preprocessProgressor (sample : Nat)
  | preprocessModel (sample : Nat)
  | initializeProgressor
  | initializeModel
  | called (t : Nat)
  | progress (t : Nat)
  | ready (t : Nat)
  | finalizeModel
  | finalizeProgressor
  | postprocessModel
  | postprocessProgressor
  deriving DecidableEq, Repr

/-- What the thread does. -/
inductive Instr where
  /-- Call a callback -/
  | emit (e : Event)
  /-- Construct the semaphore and the initial (ready) `previous_state`: simulate.hpp:78-87 -/
  | construct (maxDifference lower : Int)
  /-- Call the model and attach the signaller: simulate.hpp:91-96 -/
  | call (t : Nat)
  /-- `semaphore.wait(t)`: simulate.hpp:100 -/
  | wait (t : Nat)
  /-- `previous_state.wait()`: simulate.hpp:104-111 -/
  | join
  /-- Leaving the scope of the semaphore: simulate.hpp:113-114 -/
  | destroy
  deriving DecidableEq, Repr

/-- The body of the loop in `simulate`: simulate.hpp:89-112 -/
def iteration (last t : Nat) : List Instr :=
  [.call t, .wait t, .emit (.progress t)] ++ (if t = last then [.join] else [])

/-- The rate limit used: simulate.hpp:70-73 -/
def effectiveRate (nrTimeSteps rateLimit : Nat) : Nat := if rateLimit > 0 then rateLimit else nrTimeSteps

/-- `simulate`: simulate.hpp:59-114 -/
def simulate (first last rateLimit : Nat) : List Instr :=
  let nrTimeSteps := last - first + 1
  let rate : Int := (effectiveRate nrTimeSteps rateLimit : Nat) - 1
  [.construct rate first] ++ (List.range nrTimeSteps).flatMap (fun i => iteration last (first + i)) ++ [.destroy]

/-- `run_deterministic`: simulate.hpp:117-131 -/
def runDeterministic (nrTimeSteps rateLimit : Nat) : List Instr :=
  [.emit .initializeProgressor, .emit .initializeModel] ++
    (if nrTimeSteps > 0 then simulate 1 nrTimeSteps rateLimit else []) ++
    [.emit .finalizeModel, .emit .finalizeProgressor]

/-- The body of the loop in `run_stochastic`: simulate.hpp:144-150 -/
def sample (nrTimeSteps rateLimit sampleNr : Nat) : List Instr :=
  [.emit (.preprocessProgressor sampleNr), .emit (.preprocessModel sampleNr)] ++ runDeterministic nrTimeSteps rateLimit ++
    [.emit .postprocessModel, .emit .postprocessProgressor]

/-- `run_stochastic`: simulate.hpp:134-152 -/
def runStochastic (nrSamples nrTimeSteps rateLimit : Nat) : List Instr :=
  (List.range nrSamples).flatMap fun i => sample nrTimeSteps rateLimit (i + 1)

/-- `hpx::sliding_semaphore` -/
structure Semaphore where
  maxDifference : Int
  lower : Int
  deriving DecidableEq, Repr

/-- `sliding_semaphore::wait` returns -/
def Semaphore.passes (s : Semaphore) (upper : Int) : Bool := !(decide (upper - s.maxDifference > s.lower))

/-- `sliding_semaphore::signal` -/
def Semaphore.signal (s : Semaphore) (lower : Int) : Semaphore := { s with lower := max lower s.lower }

/-- State of a run. -/
structure State where
  /-- What the thread still has to do -/
  prog : List Instr
  /-- The semaphore, as long as it exists -/
  sem : Option Semaphore
  /-- Time steps for which the model has been called and the signaller has been attached, in this order -/
  steps : List Nat
  /-- Time steps whose states are ready -/
  readySteps : List Nat
  /-- Number of signallers that have signalled the semaphore -/
  signalled : Nat
  /-- Number of signallers that have finished: these make `previous_state` ready -/
  finished : Nat
  /-- A signaller used, or is going to use, a semaphore which does not exist anymore -/
  dangling : Bool
  trace : List Event
  deriving DecidableEq

/-- Start of a run -/
def init (prog : List Instr) : State := ⟨prog, none, [], [], 0, 0, false, []⟩

/-- The thread executes its next instruction, if it is not blocked. -/
def main (s : State) : Option State :=
  match s.prog with
  | [] => none
  | .emit e :: p => some { s with prog := p, trace := s.trace ++ [e] }
  | .construct d l :: p =>
    some { s with prog := p, sem := some ⟨d, l⟩, steps := [], readySteps := [], signalled := 0, finished := 0 }
  | .call t :: p => some { s with prog := p, steps := s.steps ++ [t], trace := s.trace ++ [.called t] }
  | .wait t :: p =>
    match s.sem with
    | none => none
    | some sem => if sem.passes t then some { s with prog := p } else none
  | .join :: p => if s.finished = s.steps.length then some { s with prog := p } else none
  | .destroy :: p =>
    some { s with prog := p, sem := none, dangling := s.dangling || decide (s.finished < s.steps.length) }

/-- The state of time step `t`, returned by the model, becomes ready. -/
def ready (s : State) (t : Nat) : Option State :=
  if t ∈ s.steps ∧ t ∉ s.readySteps then
    some { s with readySteps := t :: s.readySteps, trace := s.trace ++ [.ready t] }
  else none

/-- The next signaller, whose predecessor has finished and whose state is ready, signals the semaphore:
`attach_signaller`, simulate.hpp:11-38 -/
def signal (s : State) : Option State :=
  match s.steps[s.signalled]? with
  | none => none
  | some t =>
    if s.signalled = s.finished ∧ t ∈ s.readySteps then
      match s.sem with
      | none => some { s with signalled := s.signalled + 1, dangling := true }
      | some sem => some { s with signalled := s.signalled + 1, sem := some (sem.signal t) }
    else none

/-- The future of a signaller that has signalled becomes ready: simulate.hpp:17-37 -/
def finish (s : State) : Option State :=
  if s.finished < s.signalled then some { s with finished := s.finished + 1 } else none

/-- The things that can happen -/
inductive Action where
  | main
  | ready (t : Nat)
  | signal
  | finish
  deriving DecidableEq, Repr

/-- One step of a run -/
def step (s : State) : Action → Option State
  | .main => main s
  | .ready t => ready s t
  | .signal => signal s
  | .finish => finish s

/-- A run: a sequence of steps, in any order. -/
inductive Run : State → List Action → State → Prop where
  | nil {s} : Run s [] s
  | cons {s a s' as s''} : step s a = some s' → Run s' as s'' → Run s (a :: as) s''

end Lue.Simulate

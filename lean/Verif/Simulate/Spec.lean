import Verif.Simulate.Model
import Mathlib.Data.List.Count

/-!
# Specification of running a model
-/
namespace Lue.Simulate

/-- The calls of the model and the progressor. -/
def Event.isCall : Event → Bool
  | .ready _ => false
  | _ => true

/-- The calls, in the order in which they have been made. -/
def calls (tr : List Event) : List Event := tr.filter Event.isCall

/-- What one deterministic run of `n` time steps must do: for every time step, call the model and report progress. -/
def expectedRun (n : Nat) : List Event :=
  [.initializeProgressor, .initializeModel] ++ (List.range' 1 n).flatMap (fun t => [.called t, .progress t]) ++
    [.finalizeModel, .finalizeProgressor]

/-- What a Monte Carlo run must do. -/
def expectedRuns (nrSamples n : Nat) : List Event :=
  (List.range' 1 nrSamples).flatMap fun s =>
    [.preprocessProgressor s, .preprocessModel s] ++ expectedRun n ++ [.postprocessModel, .postprocessProgressor]

/-- The number of time steps that have been started. -/
def nrCalled (tr : List Event) : Nat := tr.countP fun e => match e with | .called _ => true | _ => false

/-- The number of time steps that have become ready. -/
def nrReady (tr : List Event) : Nat := tr.countP fun e => match e with | .ready _ => true | _ => false

/-- Step `t` has been started and is not ready yet. -/
def StepInFlight (t : Nat) (tr : List Event) : Prop := tr.count (.ready t) < tr.count (.called t)

/-- Events between which nothing is allowed to be in flight: everything except for the calls made for time steps. -/
def Event.isOuter : Event → Bool
  | .called _ | .progress _ | .ready _ => false
  | _ => true

/-- A state that can be reached by the program -/
def Reachable (prog : List Instr) (s : State) : Prop := ∃ as, Run (init prog) as s

end Lue.Simulate

import Verif.Runtime.Model

/-
What users of the runtime expect, without reference to threads, mutexes and condition variables.
-/

namespace Lue.Runtime

/-- What is observed if the calls are done one after the other, `on` tells whether the runtime runs. Only
    the first of a number of calls starting the runtime has an effect, likewise for stopping it. -/
def expected : Bool → List Call → List Event
  | _, [] => []
  | false, .start :: calls => .began :: expected true calls
  | true, .start :: calls => expected true calls
  | false, .stop :: calls => expected false calls
  | true, .stop :: calls => .finalized :: expected false calls
  | on, .use :: calls => .used :: expected on calls

/-- Whether the runtime runs, given what has been observed. -/
def runs : Bool → List Event → Bool
  | on, [] => on
  | _, .began :: es => runs true es
  | _, .finalized :: es => runs false es
  | on, .used :: es => runs on es

/-- All calls have returned. -/
def State.Finished (s : State) : Prop := s.calls = [] ∧ s.app = .ready

instance (s : State) : Decidable s.Finished := inferInstanceAs (Decidable (_ ∧ _))

/-- Number of times a condition variable wakes up a thread by itself. -/
def spurious : List Action → Nat
  | [] => 0
  | .spuriousApp :: as => spurious as + 1
  | .spuriousMain :: as => spurious as + 1
  | .app :: as => spurious as
  | .main :: as => spurious as

end Lue.Runtime

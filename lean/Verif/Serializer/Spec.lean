import Verif.Serializer.Model

/-!
# Specification of serializing tasks
-/
namespace Lue.Serializer

variable {K : Type} [DecidableEq K]

/-- A state that can be reached -/
def Reachable (tasks : List (K × Nat)) (s : State K) : Prop := ∃ as, Run tasks (init K) as s

def Event.key : Event K → K
  | .start k _ => k
  | .finish k _ => k

/-- What happened to the tasks of a key -/
def eventsOf (k : K) (tr : List (Event K)) : List (Event K) := tr.filter fun e => decide (e.key = k)

/-- The events of the first `n` generations, one after the other -/
def serial (k : K) (n : Nat) : List (Event K) := (List.range' 1 n).flatMap fun g => [.start k g, .finish k g]

/-- All generations up to and including `g` have a task. -/
def Complete (tasks : List (K × Nat)) (k : K) (g : Nat) : Prop := ∀ h, 1 ≤ h → h ≤ g → (k, h) ∈ tasks

/-- Tasks are requested once per key and generation, generations start at 1. -/
structure Tasks (tasks : List (K × Nat)) : Prop where
  nodup : tasks.Nodup
  pos : ∀ t ∈ tasks, 1 ≤ t.2

end Lue.Serializer

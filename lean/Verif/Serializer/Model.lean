/-!
# Model of serializing tasks: `Serializer`

Models `source/framework/io/include/lue/framework/io/serializer.hpp` and the way it is used by the tasks in
`source/framework/io/include/lue/framework/io/{from,to}_lue.hpp`: obtain a promise for the own generation, obtain the
future of the predecessor, attach a continuation to it which does the work and sets the value of the promise.

Simplifications: a key without map and a key with an empty map are the same thing (the code never leaves an empty map
behind: an assertion fails or elements are added). Failing assertions and exceptions set the `error` flag.
-/
namespace Lue.Serializer

/-- A (promise, future) tuple: serializer.hpp:205. `promise` is false once the promise has been moved out of the
collection. `ready` is the state shared by the promise and all copies of the future. -/
structure Entry where
  promise : Bool
  ready : Bool
  deriving DecidableEq, Repr

/-- `boost::container::flat_map<Generation, FutureTuple>`, elements ordered by generation: serializer.hpp:207 -/
abbrev TupleByGeneration := List (Nat × Entry)

/-- `map.contains(generation)` -/
def contains (m : TupleByGeneration) (g : Nat) : Bool := m.any fun e => e.1 == g

/-- The element for a generation -/
def get (m : TupleByGeneration) (g : Nat) : Option Entry := (m.find? fun e => e.1 == g).map (·.2)

/-- `map[generation] = entry` -/
def set : TupleByGeneration → Nat → Entry → TupleByGeneration
  | [], g, e => [(g, e)]
  | (h, f) :: m, g, e =>
    if g < h then (g, e) :: (h, f) :: m else if g = h then (g, e) :: m else (h, f) :: set m g e

/-- The local function `add_tuple`: serializer.hpp:97-103 -/
def addTuple (m : TupleByGeneration) (g : Nat) : TupleByGeneration := set m g ⟨true, false⟩

/-- Add the first tuple, for generation 0, whose future is ready: serializer.hpp:108-115 -/
def addFirst (m : TupleByGeneration) : TupleByGeneration :=
  if m.isEmpty then set (addTuple m 0) 0 ⟨true, true⟩ else m

/-- `map.nth(map.size() - 1)->first` -/
def lastGeneration (m : TupleByGeneration) : Nat := ((m.map (·.1)).getLast?).getD 0

/-- Add missing tuples, up to and including the generation passed in: serializer.hpp:95-124 -/
def addMissing (m : TupleByGeneration) (g : Nat) : TupleByGeneration :=
  if contains m g then m
  else
    let m := addFirst m
    (List.range' (lastGeneration m + 1) (g - lastGeneration m)).foldl addTuple m

/-- `promise_for`: serializer.hpp:86-132. Returns whether the promise returned refers to the shared state, and the new
collection. No result if an assertion fails. -/
def promiseFor (m : TupleByGeneration) (g : Nat) : Option (Bool × TupleByGeneration) :=
  if g = 0 then none
  else
    let m := addMissing m g
    if m.length ≤ 1 then none
    else
      match get m g with
      | none => none
      | some e => some (e.promise, set m g { e with promise := false })

/-- `when_done`: serializer.hpp:185-197. The future returned is represented by the generation. No result if an assertion
fails. -/
def whenDone (m : TupleByGeneration) (g : Nat) : Option Nat := if contains m g then some g else none

/-- `when_predecessor_done`: serializer.hpp:149-155 -/
def whenPredecessorDone (m : TupleByGeneration) (g : Nat) : Option Nat := if g = 0 then none else whenDone m (g - 1)

/-- What happened to a task. `valid` is whether its promise is usable. -/
inductive Phase where
  | idle
  | promised (valid : Bool)
  | waiting (valid : Bool) (predecessor : Nat)
  | running (valid : Bool)
  | done
  deriving DecidableEq, Repr

/-- Observable: a task starts to run, and is finished. -/
inductive Event (K : Type) where
  | start (key : K) (generation : Nat)
  | finish (key : K) (generation : Nat)
  deriving DecidableEq, Repr

structure State (K : Type) where
  maps : K → TupleByGeneration
  phase : Nat → Phase
  error : Bool
  trace : List (Event K)

def init (K : Type) : State K := ⟨fun _ => [], fun _ => .idle, false, []⟩

variable {K : Type} [DecidableEq K]

def update {A B : Type} [DecidableEq A] (f : A → B) (a : A) (b : B) : A → B := fun x => if x = a then b else f x

/-- A task calls `promise_for` (e.g. to_lue.hpp:209-210) -/
def request (s : State K) (i : Nat) (k : K) (g : Nat) : Option (State K) :=
  match s.phase i with
  | .idle =>
    match promiseFor (s.maps k) g with
    | none => some { s with error := true }
    | some (v, m) => some { s with maps := update s.maps k m, phase := update s.phase i (.promised v) }
  | _ => none

/-- A task calls `when_predecessor_done` and attaches a continuation (e.g. to_lue.hpp:211-212) -/
def attach (s : State K) (i : Nat) (k : K) (g : Nat) : Option (State K) :=
  match s.phase i with
  | .promised v =>
    match whenPredecessorDone (s.maps k) g with
    | none => some { s with error := true }
    | some p => some { s with phase := update s.phase i (.waiting v p) }
  | _ => none

/-- The continuation starts, because the future of the predecessor is ready. -/
def start (s : State K) (i : Nat) (k : K) (g : Nat) : Option (State K) :=
  match s.phase i with
  | .waiting v p =>
    match get (s.maps k) p with
    | none => none
    | some e =>
      if e.ready then some { s with phase := update s.phase i (.running v), trace := s.trace ++ [.start k g] } else none
  | _ => none

/-- The continuation sets the value of its promise (e.g. to_lue.hpp:294, 319). Using a promise that has been moved from, or
whose value is set already, is an error. -/
def finish (s : State K) (i : Nat) (k : K) (g : Nat) : Option (State K) :=
  match s.phase i with
  | .running v =>
    match get (s.maps k) g with
    | none => some { s with error := true }
    | some e =>
      if v && !e.ready then
        some
          { s with
            maps := update s.maps k (set (s.maps k) g { e with ready := true })
            phase := update s.phase i .done
            trace := s.trace ++ [.finish k g] }
      else some { s with error := true }
  | _ => none

/-- What can happen to the task with the given number. -/
inductive Action where
  | request (i : Nat)
  | attach (i : Nat)
  | start (i : Nat)
  | finish (i : Nat)
  deriving DecidableEq, Repr

/-- One step, given the tasks' keys and generations -/
def step (tasks : List (K × Nat)) (s : State K) : Action → Option (State K)
  | .request i => (tasks[i]?).bind fun t => request s i t.1 t.2
  | .attach i => (tasks[i]?).bind fun t => attach s i t.1 t.2
  | .start i => (tasks[i]?).bind fun t => start s i t.1 t.2
  | .finish i => (tasks[i]?).bind fun t => finish s i t.1 t.2

inductive Run (tasks : List (K × Nat)) : State K → List Action → State K → Prop where
  | nil {s} : Run tasks s [] s
  | cons {s a s' as s''} : step tasks s a = some s' → Run tasks s' as s'' → Run tasks s (a :: as) s''

end Lue.Serializer

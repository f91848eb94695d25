import Verif.Util.AMap

/-!
# Model of when datasets are opened and closed by calls to `to_lue` and `from_lue`

Models the order in which tasks spawned by calls to `to_lue` and `from_lue`, for the same dataset, open and close this
dataset, in case of serial I/O (`LUE_FRAMEWORK_WITH_PARALLEL_IO` is not defined).
Below, `to_lue`, `from_lue` are `source/framework/io/include/lue/framework/io/{to,from}_lue.hpp`, `lue.cpp` is
`source/framework/io/source/lue.cpp`.

* The calls are done by the main thread in the root locality. A call does not wait for anything, it only determines which
  previous calls must be finished first, and returns. These are the `deps` of a call.
* Each call spawns a task in each of the localities which contain partitions of the array. Such a task is launched when its
  dependencies are finished. It opens the dataset, writes or reads, and closes the dataset.
* In each locality, tasks obtain promises and futures from four serializers: for opening and closing, when reading and
  writing. What these do is modelled in `Verif.Serializer`: the future for a generation becomes ready when the promise for the
  generation is set, and the promise and future of a generation exist once those for that generation or a later one have been
  requested.

Simplifications: which elements are read and written is modelled in `Verif.LueIO`, here a task updates the file by some
function (which depends on the task). A task which reads can do that at all moments while it has opened the dataset. Waiting
for the partitions that are passed in (when_any, when_all) is left out: tasks can be delayed at all moments. Failing
assertions set a flag, after which the program continues.
-/
namespace Lue.LueCalls

/-- A call to `to_lue` (`write`) or `from_lue`. `temporal`: the overload for a time step (`*_variable`) instead of the one for
constant arrays. `localities`: the localities containing partitions (`partition_idxs_by_locality`). -/
structure Call where
  write : Bool
  temporal : Bool
  localities : List Nat
  deriving DecidableEq, Repr

/-! ### Dependencies, determined in the root locality -/

/-- The counts and futures maintained in the root locality. Futures are represented by the (index of the) call which makes these
ready: lue.cpp:42-55 (counts), 116-150 (futures), for one path. -/
structure Root where
  toCount : Nat
  fromCount : Nat
  toFinished : AMap Nat Nat
  fromFinished : AMap Nat Nat

/-- Nothing has been called yet: lue.cpp:44, 52, 130, 147 -/
def Root.init : Root := ⟨0, 0, [], []⟩

/-- `call_finished`: lue.cpp:193-206. Nothing has to be waited for if `count` is zero. No result: an exception is thrown. -/
def callFinished (m : AMap Nat Nat) (count : Nat) : Option (List Nat) :=
  if count > 0 then (m.get count).map fun c => [c] else some []

/-- What a call has determined: the calls that must have finished before its tasks can be launched, the own order (count), and the
current order of calls of the other kind. -/
structure Info where
  deps : List Nat
  order : Nat
  other : Nat
  deriving DecidableEq, Repr

/-- The start of `to_lue`: to_lue:640-652, 783-795, 711-714, 862-865; lue.cpp:32-39, 80-96, 162-184, 216-254. -/
def registerTo (r : Root) (idx : Nat) : Option (Info × Root) := do
  let order := r.toCount + 1
  let other := r.fromCount
  let a ← callFinished r.toFinished (order - 1)
  let b ← callFinished r.fromFinished other
  some (⟨a ++ b, order, other⟩, { r with toCount := order, toFinished := r.toFinished.put order idx })

/-- The start of `from_lue`: from_lue:516-541, 670-705, 630-636, 811-815; lue.cpp:32-39, 67-70, 104-109, 162-184, 227-254. -/
def registerFrom (threadSafe : Bool) (r : Root) (idx : Nat) : Option (Info × Root) := do
  let order := r.fromCount + 1
  let other := r.toCount
  let a ← if threadSafe then some [] else callFinished r.fromFinished (order - 1)
  let b ← callFinished r.toFinished other
  some (⟨a ++ b, order, other⟩, { r with fromCount := order, fromFinished := r.fromFinished.put order idx })

/-- The main thread does a call. -/
def register (threadSafe : Bool) (r : Root) (idx : Nat) (c : Call) : Option (Info × Root) :=
  if c.write then registerTo r idx else registerFrom threadSafe r idx

/-- The main thread does all calls. The outcome does not depend on what happens in between. -/
def registerAll (threadSafe : Bool) : Root → Nat → List Call → Option (List Info)
  | _, _, [] => some []
  | r, idx, c :: cs => do
    let (info, r) ← register threadSafe r idx c
    let infos ← registerAll threadSafe r (idx + 1) cs
    some (info :: infos)

/-! ### Tasks -/

/-- State of a task. `closing`: finished reading or writing, and requested a promise for closing the dataset, but the dataset is
still open. -/
inductive Phase where
  | idle
  | launched
  | opened
  | closing
  | closed
  deriving DecidableEq, Repr

/-- The dataset is open. -/
def Phase.isOpen : Phase → Bool
  | .opened => true
  | .closing => true
  | _ => false

/-- The dataset has been opened, so the promise for this has been set. -/
def Phase.hasOpened : Phase → Bool
  | .opened => true
  | .closing => true
  | .closed => true
  | _ => false

/-- A promise for closing has been requested. -/
def Phase.closeRequested : Phase → Bool
  | .closing => true
  | .closed => true
  | _ => false

/-- A program: the calls and what these have determined. `effect c i` is what task `i` of call `c` does to the contents of the
dataset. -/
structure Program (F : Type) where
  threadSafe : Bool
  calls : List Call
  infos : List Info
  effect : Nat → Nat → F → F

/-- `made` is the number of calls done by the main thread. `phase c i` is the state of task `i` of call `c`. -/
structure State (F : Type) where
  made : Nat
  phase : Nat → Nat → Phase
  file : F
  error : Bool

variable {F : Type}

def init (file : F) : State F := ⟨0, fun _ _ => .idle, file, false⟩

def State.setPhase (s : State F) (c i : Nat) (p : Phase) : State F :=
  { s with phase := fun c' i' => if c' = c ∧ i' = i then p else s.phase c' i' }

/-- The tasks in a locality, of calls of some kind and with an order, for which something holds. -/
def Program.anyTask (p : Program F) (write : Bool) (locality : Nat) (order : Nat → Bool) (f : Nat → Nat → Bool) : Bool :=
  (List.range p.calls.length).any fun c =>
    match p.calls[c]?, p.infos[c]? with
    | some call, some info =>
      call.write == write && order info.order &&
        (List.range call.localities.length).any fun i => call.localities[i]? == some locality && f c i
    | _, _ => false

/-- The future of the serializer for opening, in a locality, is ready: serializer.hpp:108-115, 149-155, 185-197 -/
def openReady (p : Program F) (s : State F) (write : Bool) (locality order : Nat) : Bool :=
  order == 0 || p.anyTask write locality (· == order) fun c i => (s.phase c i).hasOpened

/-- The future of the serializer for closing, in a locality, is ready. -/
def closeReady (p : Program F) (s : State F) (write : Bool) (locality order : Nat) : Bool :=
  order == 0 || p.anyTask write locality (· == order) fun c i => s.phase c i == .closed

/-- `from_lue_close_dataset_done_available`, `to_lue_close_dataset_done_available`: lue.cpp:394-399, 422-427 -/
def closeAvailable (p : Program F) (s : State F) (write : Bool) (locality order : Nat) : Bool :=
  p.anyTask write locality (order ≤ ·) fun c i => (s.phase c i).closeRequested

/-- The future stored by a call (`add_to_lue_finished`, `add_from_lue_finished`) is ready. Writing: the task in the last locality
is finished (to_lue:711-714, 862-865). Reading: all tasks are finished (from_lue:630-636, 811-815). -/
def finished (p : Program F) (s : State F) (c : Nat) : Bool :=
  match p.calls[c]? with
  | none => false
  | some call =>
    if call.write then s.phase c (call.localities.length - 1) == .closed
    else (List.range call.localities.length).all fun i => s.phase c i == .closed

/-- What must be finished before the task in locality `i` is launched. Writing: one locality after the other (to_lue:667-692,
812-841). Reading: all at the same time (from_lue:559-586, 733-760). -/
def mayLaunch (p : Program F) (s : State F) (c i : Nat) (call : Call) (info : Info) : Bool :=
  info.deps.all (finished p s) && (!call.write || i == 0 || s.phase c (i - 1) == .closed)

/-- Assertions at the start of a task, that a previous call has closed the dataset (`order` is zero if there is no such call). -/
def closedBefore (p : Program F) (s : State F) (write : Bool) (locality order : Nat) : Bool :=
  order == 0 || (closeAvailable p s write locality order && closeReady p s write locality order)

/-- Assertions at the start of a task: to_lue:230-234 (constant), 395-408 (variable), from_lue:171-176 (constant), 324-330 and
332-336 (variable). -/
def launchAsserts (p : Program F) (s : State F) (locality : Nat) (call : Call) (info : Info) : Bool :=
  match call.write, call.temporal with
  | true, false => closedBefore p s false locality info.other
  | true, true => closedBefore p s false locality info.other && closedBefore p s true locality (info.order - 1)
  | false, false => closedBefore p s true locality info.other
  | false, true =>
    closedBefore p s true locality info.other && (p.threadSafe || openReady p s false locality (info.order - 1))

/-- What must be ready before a task opens the dataset: to_lue:322-324 (constant), 410-422 and 564-565 (variable),
from_lue:255-257 (constant), 332-345 and 466-467 (variable). -/
def mayOpen (p : Program F) (s : State F) (locality : Nat) (call : Call) (info : Info) : Bool :=
  match call.write, call.temporal with
  | true, false => closeReady p s false locality info.other && openReady p s true locality (info.order - 1)
  | true, true => true
  | false, false => closeReady p s true locality info.other && openReady p s false locality (info.order - 1)
  | false, true => !p.threadSafe || openReady p s false locality (info.order - 1)

/-- Assertions before a task closes the dataset: to_lue:518, from_lue:418 (both variable). -/
def closeAsserts (p : Program F) (s : State F) (locality : Nat) (call : Call) (info : Info) : Bool :=
  !call.temporal || closeReady p s call.write locality (info.order - 1)

/-- What must be ready before a task closes the dataset: to_lue:303-320, from_lue:236-253 (constant). Nothing in case of arrays
with time steps: to_lue:515-534, from_lue:415-434. -/
def mayClose (p : Program F) (s : State F) (locality : Nat) (call : Call) (info : Info) : Bool :=
  call.temporal || closeReady p s call.write locality (info.order - 1)

/-- What can happen. -/
inductive Action where
  | call
  | launch (c i : Nat)
  | «open» (c i : Nat)
  | work (c i : Nat)
  | close (c i : Nat)
  deriving DecidableEq, Repr

/-- The call and what it has determined, and the locality of a task, if the call has been made. -/
def task (p : Program F) (s : State F) (c i : Nat) : Option (Call × Info × Nat) := do
  let call ← p.calls[c]?
  let info ← p.infos[c]?
  let locality ← call.localities[i]?
  if c < s.made then some (call, info, locality) else none

/-- A task is launched: the action starts to run in its locality. -/
def launch (p : Program F) (s : State F) (c i : Nat) : Option (State F) := do
  let (call, info, locality) ← task p s c i
  if s.phase c i = .idle ∧ mayLaunch p s c i call info then
    some { s.setPhase c i .launched with error := s.error || !launchAsserts p s locality call info }
  else none

/-- A task opens the dataset. -/
def openDataset (p : Program F) (s : State F) (c i : Nat) : Option (State F) := do
  let (call, info, locality) ← task p s c i
  if s.phase c i = .launched ∧ mayOpen p s locality call info then some (s.setPhase c i .opened) else none

/-- A task has read or written its partitions, and requests a promise for closing the dataset. -/
def work (p : Program F) (s : State F) (c i : Nat) : Option (State F) := do
  let (call, info, locality) ← task p s c i
  if s.phase c i = .opened then
    some { s.setPhase c i .closing with
      file := if call.write then p.effect c i s.file else s.file
      error := s.error || !closeAsserts p s locality call info }
  else none

/-- A task closes the dataset. -/
def close (p : Program F) (s : State F) (c i : Nat) : Option (State F) := do
  let (call, info, locality) ← task p s c i
  if s.phase c i = .closing ∧ mayClose p s locality call info then some (s.setPhase c i .closed) else none

/-- One step -/
def step (p : Program F) (s : State F) : Action → Option (State F)
  | .call => if s.made < p.calls.length then some { s with made := s.made + 1 } else none
  | .launch c i => launch p s c i
  | .open c i => openDataset p s c i
  | .work c i => work p s c i
  | .close c i => close p s c i

/-- A run: steps in any order. -/
inductive Run (p : Program F) : State F → List Action → State F → Prop where
  | nil {s} : Run p s [] s
  | cons {s a s' as s''} : step p s a = some s' → Run p s' as s'' → Run p s (a :: as) s''

/-- A program which does these calls. -/
def Program.Does (p : Program F) (threadSafe : Bool) (calls : List Call) (effect : Nat → Nat → F → F) : Prop :=
  p.threadSafe = threadSafe ∧ p.calls = calls ∧ registerAll threadSafe Root.init 0 calls = some p.infos ∧ p.effect = effect

end Lue.LueCalls

/-
Starting and stopping the HPX runtime, from Python (`start_hpx_runtime`, `stop_hpx_runtime`) and C++
(`lue::Runtime`).

source/framework/python/source/hpx_runtime.cpp and source/framework/core/source/runtime.cpp contain the
same algorithm: the constructor starts HPX, which schedules `hpx_main` as an HPX thread, and waits
until `hpx_main` has started running. The destructor tells `hpx_main` to finish and waits for that.

Modelled: the two threads (application thread and the thread executing `hpx_main`), both mutexes,
both condition variables (including notifications while nobody waits, which are lost, and spurious
wakeups), the two shared members, and the life time of the instance. The threads interleave
arbitrarily: every access to something shared is a separate step.

Not modelled: failure of `hpx::start` (the process is aborted then), the configuration.
-/

namespace Lue.Runtime

/-- A call by the application. -/
inductive Call where
  /-- `start_hpx_runtime`, python/source/submodule.cpp:20-28 -/
  | start
  /-- `stop_hpx_runtime`, python/source/submodule.cpp:31-41 -/
  | stop
  /-- Any use of the runtime, like creating a partitioned array. -/
  | use
  deriving DecidableEq, Repr

/-- What can be observed. -/
inductive Event where
  /-- `hpx_main` starts running: HPX executes tasks -/
  | began
  /-- The application uses the runtime. -/
  | used
  /-- `hpx::finalize` is called: HPX is shut down -/
  | finalized
  deriving DecidableEq, Repr

/-- Where the application thread is. -/
inductive App where
  /-- Between calls -/
  | ready
  /-- About to lock the startup mutex, hpx_runtime.cpp:31 -/
  | lockStartup
  /-- Startup mutex locked, about to test `_running`, hpx_runtime.cpp:33 -/
  | testRunning
  /-- Waiting for the startup condition variable, hpx_runtime.cpp:35 -/
  | waiting
  /-- In the destructor, about to lock the shutdown mutex, hpx_runtime.cpp:44 -/
  | lockShutdown
  /-- Shutdown mutex locked, about to reset the pointer and unlock, hpx_runtime.cpp:45-46 -/
  | resetPointer
  /-- About to notify, hpx_runtime.cpp:48 -/
  | notifyShutdown
  /-- In `hpx::stop`, waiting for the runtime to exit, hpx_runtime.cpp:51 -/
  | stopping
  deriving DecidableEq, Repr

/-- Where the thread executing `hpx_main` is. -/
inductive Main where
  /-- There is no such thread -/
  | absent
  /-- About to store the pointer, hpx_runtime.cpp:59 -/
  | storePointer
  /-- About to lock the startup mutex, hpx_runtime.cpp:63 -/
  | lockStartup
  /-- Startup mutex locked, about to set `_running` and unlock, hpx_runtime.cpp:64-65 -/
  | setRunning
  /-- About to notify, hpx_runtime.cpp:67 -/
  | notifyStartup
  /-- About to lock the shutdown mutex, hpx_runtime.cpp:71 -/
  | lockShutdown
  /-- Shutdown mutex locked, about to test the pointer, hpx_runtime.cpp:72 -/
  | testPointer
  /-- Waiting for the shutdown condition variable, hpx_runtime.cpp:74 -/
  | waiting
  /-- Woken up, about to lock the shutdown mutex again, hpx_runtime.cpp:74 -/
  | relock
  /-- Shutdown mutex locked, about to unlock it, hpx_runtime.cpp:76 -/
  | unlock
  /-- About to finalize, hpx_runtime.cpp:79 -/
  | finalize
  /-- `hpx_main` has returned -/
  | returned
  deriving DecidableEq, Repr

inductive Thread where
  | app | main
  deriving DecidableEq, Repr

structure State where
  /-- Calls the application still has to do -/
  calls : List Call
  /-- What has been observed -/
  events : List Event
  /-- Whether the pointer in python/source/submodule.cpp:17 points to an instance -/
  pointer : Bool
  app : App
  main : Main
  /-- `_running`, hpx_runtime.hpp:37 -/
  running : Bool
  /-- Whether `_runtime` is not null, hpx_runtime.hpp:41 -/
  runtime : Bool
  /-- `_startup_mutex`, hpx_runtime.hpp:35 -/
  startup : Option Thread
  /-- `_mutex`, hpx_runtime.hpp:32 -/
  shutdown : Option Thread
  /-- Whether the members of the instance exist -/
  alive : Bool
  /-- Whether members have been used which do not exist -/
  fault : Bool
  deriving DecidableEq, Repr

/-- Nothing has been called yet. -/
def initial (calls : List Call) : State :=
  ⟨calls, [], false, .ready, .absent, false, false, none, none, false, false⟩

/-- `start_hpx_runtime`: python/source/submodule.cpp:20-28, hpx_runtime.cpp:8-27. `hpx::start` schedules
    the thread executing `hpx_main`. -/
def start (s : State) : State :=
  if s.pointer then s
  else { s with app := .lockStartup, main := .storePointer, running := false, runtime := false,
                startup := none, shutdown := none, alive := true }

/-- `stop_hpx_runtime`: python/source/submodule.cpp:31-41. -/
def stop (s : State) : State :=
  if s.pointer then { s with pointer := false, app := .lockShutdown } else s

/-- The application does the next call. -/
def call (s : State) : Option State :=
  match s.calls with
  | [] => none
  | .start :: calls => some (start { s with calls := calls })
  | .stop :: calls => some (stop { s with calls := calls })
  | .use :: calls => some { s with calls := calls, events := s.events ++ [.used] }

/-- Notify the application thread: hpx_runtime.cpp:67. A woken up thread locks the mutex again. -/
def wakeApp (s : State) : State :=
  if s.app = .waiting then { s with app := .lockStartup } else s

/-- Notify `hpx_main`: hpx_runtime.cpp:48. -/
def wakeMain (s : State) : State :=
  if s.main = .waiting then { s with main := .relock } else s

/-- A step by a thread which uses members of the instance. -/
def touch (s : State) : State := { s with fault := s.fault || !s.alive }

/-- hpx_runtime.cpp:33: with the mutex locked, return from the constructor (unlocking the mutex) if
    `_running` is set, otherwise unlock the mutex and wait. The pointer in submodule.cpp is set once the
    constructor has returned (submodule.cpp:26). -/
def testRunning (s : State) : State :=
  if s.running then { s with app := .ready, startup := none, pointer := true }
  else { s with app := .waiting, startup := none }

/-- The constructor and destructor, hpx_runtime.cpp:8-52. A thread can't do a step (`none`) if it has to
    wait. -/
def appStep (s : State) : Option State :=
  match s.app with
  | .ready => call s
  | .lockStartup =>
    if s.startup = none then some (touch { s with app := .testRunning, startup := some .app }) else none
  | .testRunning => some (touch (testRunning s))
  | .waiting => none
  | .lockShutdown =>
    if s.shutdown = none then some (touch { s with app := .resetPointer, shutdown := some .app }) else none
  | .resetPointer => some (touch { s with app := .notifyShutdown, runtime := false, shutdown := none })
  | .notifyShutdown => some (touch (wakeMain { s with app := .stopping }))
  | .stopping =>
    if s.main = .returned then some { s with app := .ready, main := .absent, alive := false } else none

/-- hpx_runtime.cpp:72: with the mutex locked, wait if the pointer is set. This is not a loop. -/
def testPointer (s : State) : State :=
  if s.runtime then { s with main := .waiting, shutdown := none } else { s with main := .unlock }

/-- `hpx_main`, hpx_runtime.cpp:56-80. -/
def mainStep (s : State) : Option State :=
  match s.main with
  | .absent => none
  | .storePointer =>
    some (touch { s with main := .lockStartup, runtime := true, events := s.events ++ [.began] })
  | .lockStartup =>
    if s.startup = none then some (touch { s with main := .setRunning, startup := some .main }) else none
  | .setRunning => some (touch { s with main := .notifyStartup, running := true, startup := none })
  | .notifyStartup => some (touch (wakeApp { s with main := .lockShutdown }))
  | .lockShutdown =>
    if s.shutdown = none then some (touch { s with main := .testPointer, shutdown := some .main }) else none
  | .testPointer => some (touch (testPointer s))
  | .waiting => none
  | .relock =>
    if s.shutdown = none then some (touch { s with main := .unlock, shutdown := some .main }) else none
  | .unlock => some (touch { s with main := .finalize, shutdown := none })
  | .finalize => some { s with main := .returned, events := s.events ++ [.finalized] }
  | .returned => none

/-- Who does the next step. Condition variables are allowed to wake up threads without being notified. -/
inductive Action where
  | app | main | spuriousApp | spuriousMain
  deriving DecidableEq, Repr

def step (s : State) : Action → Option State
  | .app => appStep s
  | .main => mainStep s
  | .spuriousApp => if s.app = .waiting then some (wakeApp s) else none
  | .spuriousMain => if s.main = .waiting then some (wakeMain s) else none

/-- An execution, in the order given. -/
def run (s : State) : List Action → Option State
  | [] => some s
  | a :: as => (step s a).bind fun t => run t as

/-- `runtime_scope` around a function which uses the runtime `n` times: python/framework/__init__.py:48-65 -/
def scope (n : Nat) : List Call := .start :: (List.replicate n .use ++ [.stop])

/-- `runtime_scope` around a function which raises after using the runtime `n` times: the call to
    `stop_hpx_runtime` is skipped. -/
def scopeRaised (n : Nat) : List Call := .start :: List.replicate n .use

/-- A Python process: what the script does, and the call registered to happen at exit
    (python/source/submodule.cpp:180-183). -/
def script (calls : List Call) : List Call := calls ++ [.stop]

/-- Two threads of a Python process calling `start_hpx_runtime`, without holding the global interpreter
    lock (python/source/submodule.cpp:114-115). -/
structure Starters where
  /-- Whether the pointer in python/source/submodule.cpp:17 points to an instance -/
  pointer : Bool
  /-- Whether the first thread has seen that it doesn't, and is executing submodule.cpp:26 -/
  first : Bool
  /-- The same for the second thread -/
  second : Bool
  /-- Number of times an instance was created -/
  started : Nat
  deriving DecidableEq, Repr

namespace Starters

def initial : Starters := ⟨false, false, false, 0⟩

/-- A step by a thread: test the pointer (submodule.cpp:24), or create the instance and set the pointer
    (submodule.cpp:26). -/
def step (s : Starters) : Bool → Starters
  | false =>
    if s.first then { s with first := false, pointer := true, started := s.started + 1 }
    else { s with first := !s.pointer }
  | true =>
    if s.second then { s with second := false, pointer := true, started := s.started + 1 }
    else { s with second := !s.pointer }

def run (s : Starters) (order : List Bool) : Starters := order.foldl step s

end Starters

end Lue.Runtime

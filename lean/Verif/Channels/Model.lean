import Verif.InflowCount.Model
import Verif.DataModel.Model

/-!
# Channels between partitions

A routing operation (`accu`, `accu_threshold`, …, and `inflow_count`) starts a task for each partition. These tasks exchange
values with the tasks of the neighbouring partitions, over HPX channels. For each operation, arrays of *communicators* are
created: a communicator per partition, which holds a send channel and a receive channel for each of the neighbours. A send
channel is created by the communicator itself and registered in the table of names of HPX (AGAS); a receive channel is
looked up in this table, using the name under which the neighbour registers its send channel. Nothing else relates the two
sides: if two operations use the same name, then the values of the one end up in the other.

In the comments, `A` is `/repo/source/framework/algorithm/include/lue/framework/algorithm` and `K` is
`/repo/source/framework/core/include/lue/framework/core`.

HPX is modelled by its documented contract:

- `register_with_basename(name, client, idx)`, `unregister_with_basename(name, idx)`: asynchronous requests, each of them
  handled at some later moment, in any order. Registering a (name, index) that is registered already has no effect.
- `find_from_basename(name, idx)`: a client that becomes ready once something is registered under the (name, index): some
  arbitrary moment at which this is the case.
- `channel`: a queue. `set` adds a value, `get` obtains the first one, waiting for it if there is none. After `close` the
  remaining values can still be obtained, and after these a `get` reports the end.

Not modelled: on which locality a channel lives (`locality_id`), reference counts of clients, and the wrapping of the
`std::size_t` counter after 2^64 operations.
-/

namespace Lue.Channels

open Lue.InflowCount (Dir hasNeighbour directions)

abbrev Str := List Char

/-- `K/type_traits.hpp:215-290`: element types -/
inductive Elem where
  | uint8 | int8 | uint16 | int16 | uint32 | int32 | uint64 | int64 | float32 | float64
  deriving DecidableEq, Repr

/-- `K/type_traits.hpp:215-297` (TypeTraits::name, as_string) -/
def Elem.name : Elem → Str
  | .uint8 => "uint8".toList
  | .int8 => "int8".toList
  | .uint16 => "uint16".toList
  | .int16 => "int16".toList
  | .uint32 => "uint32".toList
  | .int32 => "int32".toList
  | .uint64 => "uint64".toList
  | .int64 => "int64".toList
  | .float32 => "float32".toList
  | .float64 => "float64".toList

/-- The type of the communicators of an array of communicators: `InflowCountCommunicator<2>`
(`A/definition/inflow_count.hpp:14-37`) or `MaterialCommunicator<Element, 2>` (`A/definition/accumulating_router.hpp:347-372`).
There is one counter of invocations for each of these types (`A/detail/communicator_array.hpp:75`). -/
inductive Kind where
  | inflow
  | material (e : Elem)
  deriving DecidableEq, Repr

/-- What an array of communicators is created for: the operation `inflow_count` (`A/definition/inflow_count.hpp:683`), or
the inflow counts and the material of a routing operation, given the name of its functor
(`A/definition/accumulating_router.hpp:657-667`). -/
inductive Use where
  | inflowCount
  | inflowOf (functor : Str)
  | materialOf (functor : Str) (e : Elem)
  deriving DecidableEq, Repr

/-- The type of the communicators of an array of communicators -/
def Use.kind : Use → Kind
  | .inflowCount => .inflow
  | .inflowOf _ => .inflow
  | .materialOf _ e => .material e

/-- The base names passed in `A/definition/inflow_count.hpp:683` and `A/definition/accumulating_router.hpp:663, 665` -/
def Use.basename : Use → Str
  | .inflowCount => "/lue/inflow_count/".toList
  | .inflowOf f => "/lue/".toList ++ f ++ "/inflow_count/".toList
  | .materialOf f e => "/lue/".toList ++ f ++ "/".toList ++ e.name ++ "/".toList

/-- What a channel is registered under: a name and a sequence number -/
structure Key where
  name : Str
  idx : Nat
  deriving DecidableEq, Repr

/-- A receive channel: the client returned by `find_from_basename`. Channels are numbered in the order in which they are
created. -/
inductive Client where
  /-- Waiting for something to be registered under the key -/
  | waiting (key : Key)
  | ready (c : Nat)
  deriving DecidableEq, Repr

/-- `A/detail/communicator.hpp:412-421`: a communicator -/
structure Comm where
  m0 : Nat
  m1 : Nat
  k0 : Nat
  k1 : Nat
  idx : Nat
  send : Dir → Option Nat
  recv : Dir → Option Client

/-- `A/detail/communicator.hpp:39-50`: the numeric values of the directions -/
def Dir.num : Dir → Nat
  | .n => 0
  | .ne => 1
  | .e => 2
  | .se => 3
  | .s => 4
  | .sw => 5
  | .w => 6
  | .nw => 7

/-- `A/detail/communicator.hpp:307-313` (linear_idx). The conversion to `std::size_t` is modelled by `Int.toNat`. -/
def linearIdx (m1 : Nat) (i j : Int) : Nat := (i * m1 + j).toNat

/-- `A/detail/communicator.hpp:316-320` (channel_name) -/
def channelName (basename : Str) (d : Dir) : Str := basename ++ "/".toList ++ DataModel.name (Dir.num d) ++ "/".toList

/-- `A/detail/communicator.hpp:335-354` (neighbour_idx) -/
def Comm.neighbourIdx (c : Comm) (d : Dir) : Nat :=
  linearIdx c.m1 ((c.k0 : Int) + d.offset.1) ((c.k1 : Int) + d.offset.2)

/-- A request to AGAS that is not handled yet -/
inductive Req where
  | register (key : Key) (c : Nat)
  | unregister (key : Key)
  deriving DecidableEq, Repr

/-- The part of the process that is touched when constructing communicators: the number of channels created up to now, and
the requests sent to AGAS -/
structure Setup where
  next : Nat
  reqs : List Req

/-- Replace what is stored for one direction -/
def put {α : Type} (f : Dir → α) (d : Dir) (a : α) : Dir → α := fun x => if x = d then a else f x

/-- `A/detail/communicator.hpp:357-378` (setup_send_channel) -/
def setupSend (basename : Str) (d : Dir) (x : Comm × Setup) : Comm × Setup :=
  ({ x.1 with send := put x.1.send d (some x.2.next) },
   { next := x.2.next + 1, reqs := x.2.reqs ++ [.register ⟨channelName basename d, x.1.idx⟩ x.2.next] })

/-- `A/detail/communicator.hpp:381-402` (setup_receive_channel) -/
def setupRecv (basename : Str) (d : Dir) (x : Comm × Setup) : Comm × Setup :=
  ({ x.1 with recv := put x.1.recv d (some (.waiting ⟨channelName basename d.sender, x.1.neighbourIdx d⟩)) }, x.2)

/-- `A/detail/communicator.hpp:405-410` (setup_channels) -/
def setup (basename : Str) (d : Dir) (x : Comm × Setup) : Comm × Setup := setupRecv basename d (setupSend basename d x)

/-- `A/detail/communicator.hpp:90-181` (constructor) -/
def construct (basename : Str) (m0 m1 k0 k1 : Nat) (s : Setup) : Comm × Setup :=
  let x : Comm × Setup := (⟨m0, m1, k0, k1, linearIdx m1 k0 k1, fun _ => none, fun _ => none⟩, s)
  if m0 > 1 ∨ m1 > 1 then
    let x := if k0 > 0 then
        let x := setup basename .n x
        let x := if k1 > 0 then setup basename .nw x else x
        if k1 + 1 < m1 then setup basename .ne x else x
      else x
    let x := if k0 + 1 < m0 then
        let x := setup basename .s x
        let x := if k1 > 0 then setup basename .sw x else x
        if k1 + 1 < m1 then setup basename .se x else x
      else x
    let x := if k1 > 0 then setup basename .w x else x
    if k1 + 1 < m1 then setup basename .e x else x
  else x

/-- An array of communicators (`A/detail/communicator_array.hpp:9-78`). `comms` lists the communicators in row-major order.
`tasks` are the copies passed to the tasks (`A/definition/inflow_count.hpp:703`, `A/definition/accumulating_router.hpp:1407`):
these have their own channel clients, to the same channels. -/
structure CommArray where
  use : Use
  basename : Str
  m0 : Nat
  m1 : Nat
  comms : List Comm
  tasks : List Comm

/-- Construct the communicators one after the other (`A/detail/communicator_array.hpp:35-44`), given their indices -/
def constructAll (basename : Str) (m0 m1 : Nat) : List (Nat × Nat) → Setup → List Comm × Setup
  | [], s => ([], s)
  | k :: ks, s =>
    let x := construct basename m0 m1 k.1 k.2 s
    let y := constructAll basename m0 m1 ks x.2
    (x.1 :: y.1, y.2)

/-- The indices visited by `A/detail/communicator_array.hpp:37-39` -/
def positions (m0 m1 : Nat) : List (Nat × Nat) := (List.range m0).flatMap fun k0 => (List.range m1).map fun k1 => (k0, k1)

/-- What is visible of the exchange of values: a task sends a value to a neighbour, a task closes the channel to a
neighbour, a task obtains a value from a neighbour, and a task is told that no values will follow. A task is identified by
the array of communicators (numbered in the order in which they are created) and the number of the partition. Besides, the
names of an array of communicators are unregistered. -/
inductive Event (V : Type) where
  | sent (a p : Nat) (d : Dir) (v : V)
  | closed (a p : Nat) (d : Dir)
  | got (a p : Nat) (d : Dir) (v : V)
  | ended (a p : Nat) (d : Dir)
  | unregistered (a : Nat)

/-- The state of the process -/
structure State (V : Type) where
  /-- `A/detail/communicator_array.hpp:75` (invocation_id) -/
  counter : Kind → Nat
  /-- Arrays of communicators created up to now -/
  arrays : List CommArray
  setup : Setup
  /-- AGAS -/
  table : Key → Option Nat
  /-- Values sent and not obtained yet -/
  queue : Nat → List V
  closed : Nat → Bool
  log : List (Event V)

/-- At the start of the process -/
def State.init (V : Type) : State V :=
  ⟨fun _ => 0, [], ⟨0, []⟩, fun _ => none, fun _ => [], fun _ => false, []⟩

variable {V : Type}

/-- `A/detail/communicator_array.hpp:28-45` (constructor). The copies for the tasks are made in the loops that start the
tasks, right after this. -/
def createArray (use : Use) (m0 m1 : Nat) (s : State V) : State V :=
  let id := s.counter use.kind
  let basename := use.basename ++ DataModel.name id
  let x := constructAll basename m0 m1 (positions m0 m1) s.setup
  { s with
    counter := fun k => if k = use.kind then id + 1 else s.counter k
    arrays := s.arrays ++ [⟨use, basename, m0, m1, x.1, x.1⟩]
    setup := x.2 }

/-- `A/definition/accumulating_router.hpp:657-667` (create_communicators) -/
def createCommunicators (functor : Str) (e : Elem) (m0 m1 : Nat) (s : State V) : State V :=
  createArray (.materialOf functor e) m0 m1 (createArray (.inflowOf functor) m0 m1 s)

/-- `A/detail/communicator.hpp:234-258` (unregister, for one direction) -/
def unregister1 (basename : Str) (d : Dir) (x : Comm × List Req) : Comm × List Req :=
  ({ x.1 with send := put x.1.send d none }, x.2 ++ [.unregister ⟨channelName basename d, x.1.idx⟩])

/-- `A/detail/communicator.hpp:261-277` (unregister): one step of the loop over the directions -/
def unregisterStep (basename : Str) (x : Comm × List Req) (d : Dir) : Comm × List Req :=
  if (x.1.send d).isSome then unregister1 basename d x else x

/-- `A/detail/communicator.hpp:261-277` (unregister) -/
def unregister (basename : Str) (c : Comm) (reqs : List Req) : Comm × List Req :=
  directions.foldl (unregisterStep basename) (c, reqs)

/-- `A/detail/communicator_array.hpp:55-70` (unregister) -/
def unregisterAll (basename : Str) : List Comm → List Req → List Comm × List Req
  | [], reqs => ([], reqs)
  | c :: cs, reqs =>
    let x := unregister basename c reqs
    let y := unregisterAll basename cs x.2
    (x.1 :: y.1, y.2)

/-- AGAS handles a request -/
def handle (r : Req) (table : Key → Option Nat) : Key → Option Nat :=
  match r with
  | .register key c => if (table key).isSome then table else fun k => if k = key then some c else table k
  | .unregister key => fun k => if k = key then none else table k

/-- A receive channel becomes ready -/
def Comm.resolve (c : Comm) (d : Dir) (ch : Nat) : Comm := { c with recv := put c.recv d (some (.ready ch)) }

/-- The steps of the process. Any of these can be taken at any moment. -/
inductive Step : State V → State V → Prop
  /-- `A/definition/inflow_count.hpp:660-735` (inflow_count) is called -/
  | inflowCount (s : State V) (m0 m1 : Nat) : Step s (createArray .inflowCount m0 m1 s)
  /-- `A/definition/accumulating_router.hpp:1375-1418` (accumulating_router) is called -/
  | route (s : State V) (functor : Str) (e : Elem) (m0 m1 : Nat) : Step s (createCommunicators functor e m0 m1 s)
  /-- AGAS handles one of the pending requests -/
  | agas (s : State V) (r : Req) (before after : List Req) (h : s.setup.reqs = before ++ r :: after) :
      Step s { s with setup := { s.setup with reqs := before ++ after }, table := handle r s.table }
  /-- A receive channel of a task becomes ready -/
  | resolve (s : State V) (a p : Nat) (x : CommArray) (c : Comm) (d : Dir) (key : Key) (ch : Nat)
      (hx : s.arrays[a]? = some x) (hc : x.tasks[p]? = some c) (hw : c.recv d = some (.waiting key))
      (hk : s.table key = some ch) :
      Step s { s with arrays := s.arrays.set a { x with tasks := x.tasks.set p (c.resolve d ch) } }
  /-- `A/detail/communicator.hpp:190-197` (send): a task sends a value. The channel is not closed
  (`A/definition/accumulating_router.hpp:498-504`, `A/definition/inflow_count.hpp:407-418`). -/
  | send (s : State V) (a p : Nat) (x : CommArray) (c : Comm) (d : Dir) (ch : Nat) (v : V)
      (hx : s.arrays[a]? = some x) (hc : x.tasks[p]? = some c) (hs : c.send d = some ch) (ho : s.closed ch = false) :
      Step s { s with
        queue := fun k => if k = ch then s.queue ch ++ [v] else s.queue k
        log := s.log ++ [.sent a p d v] }
  /-- `A/detail/communicator.hpp:280-302` (close) -/
  | close (s : State V) (a p : Nat) (x : CommArray) (c : Comm) (d : Dir) (ch : Nat)
      (hx : s.arrays[a]? = some x) (hc : x.tasks[p]? = some c) (hs : c.send d = some ch) :
      Step s { s with
        closed := fun k => if k = ch then true else s.closed k
        log := s.log ++ [.closed a p d] }
  /-- `A/detail/communicator.hpp:213-231` (get, receive_channel): a task obtains a value -/
  | get (s : State V) (a p : Nat) (x : CommArray) (c : Comm) (d : Dir) (ch : Nat) (v : V) (rest : List V)
      (hx : s.arrays[a]? = some x) (hc : x.tasks[p]? = some c) (hr : c.recv d = some (.ready ch))
      (hq : s.queue ch = v :: rest) :
      Step s { s with
        queue := fun k => if k = ch then rest else s.queue k
        log := s.log ++ [.got a p d v] }
  /-- A task is told that no values will follow -/
  | ended (s : State V) (a p : Nat) (x : CommArray) (c : Comm) (d : Dir) (ch : Nat)
      (hx : s.arrays[a]? = some x) (hc : x.tasks[p]? = some c) (hr : c.recv d = some (.ready ch))
      (hq : s.queue ch = []) (ho : s.closed ch = true) :
      Step s { s with log := s.log ++ [.ended a p d] }
  /-- `A/definition/inflow_count.hpp:719`, `A/definition/accumulating_router.hpp:688-689`: the names are unregistered. The
  code does this once the results are ready; here it is possible at any moment. -/
  | unregister (s : State V) (a : Nat) (x : CommArray) (hx : s.arrays[a]? = some x) :
      Step s { s with
        arrays := s.arrays.set a { x with comms := (unregisterAll x.basename x.comms s.setup.reqs).1 }
        setup := { s.setup with reqs := (unregisterAll x.basename x.comms s.setup.reqs).2 }
        log := s.log ++ [.unregistered a] }

/-- The states in which the process can be, whatever operations are called, and however the work of these is scheduled -/
inductive Reachable : State V → Prop
  | init : Reachable (State.init V)
  | step {s t : State V} : Reachable s → Step s t → Reachable t

end Lue.Channels

/-!
Model of `lue::hdf5::Identifier`, the class through which LUE's data model owns everything it opens in HDF5
(files, groups, datasets, attributes, property lists, dataspaces, datatypes).

Sources: `data_model/hdf5/source/identifier.cpp`, `include/lue/hdf5/identifier.hpp`.
-/
namespace Lue.Identifier

/-- The part of the HDF5 library that hands out identifiers (`hid_t`). Not LUE code: documented behaviour of `H5I*`.
`count i` is the application's reference count of identifier `i`: zero if it does not exist (yet, or anymore), and for identifiers
of the library itself, like those of the predefined data types. Identifiers below `base` are the library's own; `next` is the one
which is handed out next. `closed` lists the identifiers of which the count dropped to zero, at which point HDF5 closes the object. -/
structure H5 where
  count : Int → Nat
  base : Int
  next : Int
  closed : List Int

/-- What went wrong: HDF5 reports an error, a function object without target is called, or a C++ object is used outside its life time. -/
inductive Err
  | h5 | badFunctionCall | notAlive
  deriving DecidableEq, Repr

/-- `H5Iis_valid`: the identifier is known and referenced by the application. -/
def H5.isValid (s : H5) (i : Int) : Bool := decide (0 < s.count i)

/-- `H5Iinc_ref` -/
def H5.incRef (s : H5) (i : Int) : Except Err H5 :=
  if 0 < s.count i then .ok { s with count := fun j => if j = i then s.count j + 1 else s.count j } else .error .h5

/-- `H5Gclose`, `H5Dclose`, ...: decrements the reference count, and closes the object when it becomes zero. -/
def H5.close (s : H5) (i : Int) : Except Err H5 :=
  if 0 < s.count i then
    .ok { s with
      count := fun j => if j = i then s.count j - 1 else s.count j
      closed := if s.count i = 1 then s.closed ++ [i] else s.closed }
  else .error .h5

/-- `H5Gopen`, `H5Dcreate`, ..., successful: a new identifier, with a count of one. -/
def H5.open_ (s : H5) : H5 × Int :=
  ({ s with count := fun j => if j = s.next then 1 else s.count j, next := s.next + 1 }, s.next)

/-- `Close`, identifier.hpp:31: no target (`nullptr`), one of the `H5*close` functions, or the lambda which does nothing
(datatype.cpp:142, error_stack.cpp:47). -/
inductive Close
  | null | h5 | nothing
  deriving DecidableEq, Repr

/-- Calling the function object, identifier.cpp:222. A `std::function` without target throws. -/
def Close.call (c : Close) (s : H5) (i : Int) : Except Err H5 :=
  match c with
  | .null => .error .badFunctionCall
  | .h5 => s.close i
  | .nothing => .ok s

/-- The data members, identifier.hpp:76-80. -/
structure Handle where
  id : Int
  close : Close
  deriving DecidableEq, Repr

/-- identifier.cpp:243-262 `is_valid`. -/
def isValid (s : H5) (h : Handle) : Bool := if 0 ≤ h.id then s.isValid h.id else false

/-- identifier.cpp:188-201 `increment_reference_count`. -/
def incrementReferenceCount (s : H5) (h : Handle) : Except Err H5 := s.incRef h.id

/-- identifier.cpp:211-228 `close_if_valid` (without the assertions of debug builds). -/
def closeIfValid (s : H5) (h : Handle) : Except Err H5 :=
  if isValid s h then h.close.call s h.id else .ok s

/-- identifier.cpp:17-25: the default constructor. -/
def default_ : Handle := ⟨-1, .null⟩

/-- identifier.cpp:31-38: construction from an identifier and a function. -/
def construct (i : Int) (c : Close) : Handle := ⟨i, c⟩

/-- identifier.cpp:46-58: copy construction. -/
def copyConstruct (s : H5) (other : Handle) : Except Err (H5 × Handle) :=
  let this : Handle := ⟨other.id, other.close⟩
  if isValid s this then (incrementReferenceCount s this).map fun s => (s, this) else .ok (s, this)

/-- All instances of the class: those that exist now, and gaps for those which have been destructed. -/
structure State where
  h5 : H5
  handles : List (Option Handle)

/-- A member function is called on instance `i`. -/
def State.handle (s : State) (i : Nat) : Except Err Handle :=
  match s.handles[i]? with
  | some (some h) => .ok h
  | _ => .error .notAlive

/-- Store the data members of instance `i`. -/
def State.store (s : State) (i : Nat) (h : Handle) : State := { s with handles := s.handles.set i (some h) }

/-- A new instance. -/
def State.new (s : State) (h : Handle) : State := { s with handles := s.handles ++ [some h] }

/-- What a program can do with instances, and what HDF5 can do in the mean time. -/
inductive Op
  /-- `Identifier{}` -/
  | default_
  /-- `Identifier{H5Xopen(..), H5Xclose}`, and HDF5 opens the object -/
  | open_
  /-- `Identifier{H5Xopen(..), H5Xclose}`, and HDF5 fails -/
  | openFails
  /-- `Identifier{H5Iget_file_id(..), H5Fclose}` (identifier.cpp:367-379), where the file has identifier `i` already:
      HDF5 increments its count -/
  | reopen (i : Int)
  /-- `Identifier{H5T_NATIVE_INT, [](hid_t) { return 0; }}`: one of the library's own identifiers -/
  | predefined (i : Int)
  /-- `Identifier{instance j}` -/
  | copy (j : Nat)
  /-- `Identifier{std::move(instance j)}` -/
  | move (j : Nat)
  /-- `instance i = instance j` -/
  | copyAssign (i j : Nat)
  /-- `instance i = std::move(instance j)` -/
  | moveAssign (i j : Nat)
  /-- `~Identifier()` -/
  | destruct (i : Nat)
  /-- HDF5 closes everything in a file that was opened with H5F_CLOSE_STRONG (file.cpp:72-80): the identifier becomes invalid -/
  | invalidate (i : Int)
  deriving DecidableEq, Repr

/-- identifier.cpp:60-89: move construction; `other` is made invalid afterwards. -/
def moveConstruct (s : State) (j : Nat) : Except Err State := do
  let other ← s.handle j
  let this : Handle := ⟨other.id, other.close⟩
  let s := s.store j ⟨-1, .null⟩
  return s.new this

/-- identifier.cpp:92-107: destructor. An exception would end in `assert(false)`; here it is the result. -/
def destruct (s : State) (i : Nat) : Except Err State := do
  let this ← s.handle i
  let h5 ← closeIfValid s.h5 this
  return { h5 := h5, handles := s.handles.set i none }

/-- identifier.cpp:115-140: copy assignment. -/
def copyAssign (s : State) (i j : Nat) : Except Err State := do
  let this ← s.handle i
  let other ← s.handle j
  if j ≠ i then
    let h5 ← closeIfValid s.h5 this
    let this : Handle := { this with id := other.id }
    let h5 ← if isValid h5 this then incrementReferenceCount h5 this else .ok h5
    let this : Handle := { this with close := other.close }
    return ({ s with h5 := h5 }.store i this)
  else
    return s

/-- identifier.cpp:149-173: move assignment, statement by statement, since `other` can be `this`. -/
def moveAssign (s : State) (i j : Nat) : Except Err State := do
  let this ← s.handle i
  let h5 ← closeIfValid s.h5 this
  let s := { s with h5 := h5 }
  -- _id = other._id; other._id = -1;
  let other ← s.handle j
  let s := s.store i { this with id := other.id }
  let other ← s.handle j
  let s := s.store j { other with id := -1 }
  -- _close = std::move(other._close); other._close = nullptr;
  let other ← s.handle j
  let this ← s.handle i
  let s := s.store i { this with close := other.close }
  let other ← s.handle j
  return s.store j { other with close := .null }

/-- One step. -/
def step (s : State) : Op → Except Err State
  | .default_ => .ok (s.new default_)
  | .open_ => let r := s.h5.open_; .ok ({ s with h5 := r.1 }.new (construct r.2 .h5))
  | .openFails => .ok (s.new (construct (-1) .h5))
  | .reopen i => (s.h5.incRef i).map fun h5 => ({ s with h5 := h5 }.new (construct i .h5))
  | .predefined i => .ok (s.new (construct i .nothing))
  | .copy j => do
      let other ← s.handle j
      let r ← copyConstruct s.h5 other
      return ({ s with h5 := r.1 }.new r.2)
  | .move j => moveConstruct s j
  | .copyAssign i j => copyAssign s i j
  | .moveAssign i j => moveAssign s i j
  | .destruct i => destruct s i
  | .invalidate i => .ok { s with h5 := { s.h5 with count := fun j => if j = i then 0 else s.h5.count j } }

/-- A history. -/
def run (s : State) (l : List Op) : Except Err State := l.foldlM step s

/-- No instances, nothing opened. The library's own identifiers are those below `base`. -/
def initial (base : Nat) : State := { h5 := { count := fun _ => 0, base := base, next := base, closed := [] }, handles := [] }

end Lue.Identifier

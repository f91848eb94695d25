import Verif.Memory.ArrayStep

/-!
C30: partition data: handles to shared buffers.
`S` below is `source/framework/partitioned_array/include/lue/framework/partitioned_array/shared_buffer.hpp`, `P` is
`source/framework/partitioned_array/include/lue/framework/partitioned_array/array_partition_data.hpp`.

The collection of elements which is shared is an `Array` of rank 1 (`S:18`), for which `Mem` is used. The number of
references administrated by `std::shared_ptr` is the number of handles pointing to the collection. Not modelled: `slice`,
`erase`, serialisation, comparison, scalars (rank 0), and concurrent use of handles by multiple threads.
-/
namespace Lue.Memory

open Lue.Index

/-- `P:165-170`: the data members of `ArrayPartitionData`. `ptr` is the `std::shared_ptr` in `SharedBuffer` (`S:309`). -/
structure Handle where
  shape : List Nat
  ptr : Nat
  spanPtr : Option Nat
  spanShape : List Nat

/-- Memory, and instances of `ArrayPartitionData`, referred to by number -/
structure Shared (E : Type) where
  mem : Mem E := {}
  nextObj : Nat := 0
  handles : Nat → Option Handle := fun _ => none

variable {E : Type}

/-- Use an instance which exists. -/
def Shared.handle (s : Shared E) (h : Nat) : M Handle :=
  match s.handles h with
  | some x => .ok x
  | none => .error .thrown

/-- Replace an instance. -/
def Shared.setHandle (s : Shared E) (h : Nat) (x : Option Handle) : Shared E :=
  { s with handles := Function.update s.handles h x }

/-- `S:287-297`: allocate: `std::make_shared<Elements>(Shape{size})` -/
def Shared.allocate (s : Shared E) (zero : E) (size : Nat) : M (Nat × Shared E) := do
  let m ← s.mem.construct zero s.nextObj [size]
  return (s.nextObj, { s with mem := m, nextObj := s.nextObj + 1 })

/-- `std::shared_ptr`: the pointer does not point to the collection anymore. The last pointer destroys it. -/
noncomputable def Shared.release (s : Shared E) (ptr : Nat) : M (Shared E) :=
  open Classical in
  if ∃ h x, s.handles h = some x ∧ x.ptr = ptr then .ok s
  else do return { s with mem := ← s.mem.destroy ptr }

/-- `S:114-130`: data -/
def Shared.data (s : Shared E) (ptr : Nat) : M (Option Nat) := do return (← s.mem.obj ptr).elements

/-- `P:203-212`: the constructor taking a shape. The default constructor (`P:179-194`) does the same with a shape with
extents of zero. -/
def Shared.construct (s : Shared E) (zero : E) (h : Nat) (shape : List Nat) : M (Shared E) :=
  match s.handles h with
  | some _ => .error .thrown
  | none => do
    let (ptr, s) ← s.allocate zero (nrElements shape)
    return s.setHandle h (some ⟨shape, ptr, ← s.data ptr, shape⟩)

/-- `P:60`: the copy constructor: members are copied -/
def Shared.copyConstruct (s : Shared E) (h other : Nat) : M (Shared E) := do
  let x ← s.handle other
  match s.handles h with
  | some _ => .error .thrown
  | none => return s.setHandle h (some x)

/-- `P:272-289`, `S:66-79`: the move constructor -/
def Shared.moveConstruct (s : Shared E) (zero : E) (h other : Nat) : M (Shared E) := do
  let x ← s.handle other
  match s.handles h with
  | some _ => .error .thrown
  | none => do
    let (ptr, s) ← s.allocate zero 0
    let s := s.setHandle h (some ⟨x.shape, x.ptr, ← s.data x.ptr, x.shape⟩)
    let shape := List.replicate x.shape.length 0
    return s.setHandle other (some ⟨shape, ptr, ← s.data ptr, shape⟩)

/-- `P:66`, `S:90`: copy-assignment: members are copied -/
noncomputable def Shared.copyAssign (s : Shared E) (h other : Nat) : M (Shared E) := do
  let x ← s.handle other
  let this ← s.handle h
  (s.setHandle h (some x)).release this.ptr

/-- `P:295-317`, `S:96-108`: move-assignment -/
def Shared.moveAssign (s : Shared E) (h other : Nat) : M (Shared E) := do
  let x ← s.handle other
  let this ← s.handle h
  if h = other then return s
  else do
    let m ← s.mem.clear this.ptr
    let s := { s with mem := m }
    let s := s.setHandle h (some ⟨x.shape, x.ptr, ← s.data x.ptr, x.shape⟩)
    let shape := List.replicate x.shape.length 0
    return s.setHandle other (some ⟨shape, this.ptr, ← s.data this.ptr, shape⟩)

/-- `P:348-367`, `S:226-233`: reshape. The assertion that the buffer is not shared is not modelled here. -/
def Shared.reshape (s : Shared E) (zero : E) (h : Nat) (shape : List Nat) : M (Shared E) := do
  let x ← s.handle h
  if x.shape ≠ shape then
    let m ← s.mem.reshape zero x.ptr [nrElements shape]
    let s := { s with mem := m }
    return s.setHandle h (some ⟨shape, x.ptr, ← s.data x.ptr, shape⟩)
  else return s

/-- `P:91`, `S:202-208`: assign to an element, given its linear index -/
def Shared.write (s : Shared E) (h i : Nat) (e : E) : M (Shared E) := do
  let x ← s.handle h
  return { s with mem := ← s.mem.write x.ptr i e }

/-- `P:108-117`: assign to an element, given its indices -/
def Shared.writeAt (s : Shared E) (h : Nat) (idxs : List Nat) (e : E) : M (Shared E) := do
  let x ← s.handle h
  return { s with mem := ← s.mem.store x.spanPtr (idxsToLinearIdx idxs x.spanShape) e }

/-- `P:93`, `S:214-220`: an element, given its linear index -/
def Shared.read (s : Shared E) (h i : Nat) : M E := do
  let x ← s.handle h
  s.mem.load (← s.mem.obj x.ptr).elements i

/-- `P:97-106`: an element, given its indices -/
def Shared.readAt (s : Shared E) (h : Nat) (idxs : List Nat) : M E := do
  let x ← s.handle h
  s.mem.load x.spanPtr (idxsToLinearIdx idxs x.spanShape)

/-- `S:136-141`: the number of elements in the buffer -/
def Shared.size (s : Shared E) (h : Nat) : M Nat := do
  let x ← s.handle h
  return (← s.mem.obj x.ptr).nrElements

/-- `P:64`, `S:82`: the destructor -/
noncomputable def Shared.destroy (s : Shared E) (h : Nat) : M (Shared E) := do
  let x ← s.handle h
  (s.setHandle h none).release x.ptr

/-- What can be done with partition data -/
inductive HOp (E : Type) where
  | construct (h : Nat) (shape : List Nat)
  | copyConstruct (h other : Nat)
  | moveConstruct (h other : Nat)
  | copyAssign (h other : Nat)
  | moveAssign (h other : Nat)
  | reshape (h : Nat) (shape : List Nat)
  | write (h i : Nat) (e : E)
  | writeAt (h : Nat) (idxs : List Nat) (e : E)
  | destroy (h : Nat)

/-- The effect of an operation -/
noncomputable def Shared.step (zero : E) (s : Shared E) : HOp E → M (Shared E)
  | .construct h shape => s.construct zero h shape
  | .copyConstruct h other => s.copyConstruct h other
  | .moveConstruct h other => s.moveConstruct zero h other
  | .copyAssign h other => s.copyAssign h other
  | .moveAssign h other => s.moveAssign h other
  | .reshape h shape => s.reshape zero h shape
  | .write h i e => s.write h i e
  | .writeAt h idxs e => s.writeAt h idxs e
  | .destroy h => s.destroy h

/-- A history of operations -/
noncomputable def Shared.run (zero : E) (ops : List (HOp E)) (s : Shared E) : M (Shared E) := ops.foldlM (Shared.step zero) s

/-! ### Specification -/

/-- What partition data is: handles refer to collections of elements. A handle has a shape and tells which collection it
refers to. Collections are arrays (values, see `Spec.Val`). -/
structure SState (E : Type) where
  handle : Nat → Option (List Nat × Nat) := fun _ => none
  content : Nat → Spec.Val E := fun _ => ⟨[0], 0, []⟩
  next : Nat := 0

/-- No other handle refers to collection `c`. -/
def SState.OnlyRef (S : SState E) (h c : Nat) : Prop := ∀ g sh c', g ≠ h → S.handle g = some (sh, c') → c' ≠ c

/-- What the operations must do. The result is none if an operation is used wrongly. Reshaping a shared collection is
wrong use (the code asserts that this is not done). `moveAssign` is considered wrong use if the collection of the handle
which is assigned to is shared. -/
noncomputable def SState.step (rank : Nat) (zero : E) (S : SState E) : HOp E → Option (SState E)
  | .construct h shape => if S.handle h = none ∧ shape.length = rank then
      some { handle := Function.update S.handle h (some (shape, S.next))
             content := Function.update S.content S.next ⟨[shape.prod], shape.prod, List.replicate shape.prod zero⟩
             next := S.next + 1 }
    else none
  | .copyConstruct h other =>
    match S.handle h, S.handle other with
    | none, some x => some { S with handle := Function.update S.handle h (some x) }
    | _, _ => none
  | .moveConstruct h other =>
    match S.handle h, S.handle other with
    | none, some x =>
      some { handle := Function.update (Function.update S.handle h (some x)) other (some (List.replicate rank 0, S.next))
             content := Function.update S.content S.next ⟨[0], 0, []⟩
             next := S.next + 1 }
    | _, _ => none
  | .copyAssign h other =>
    match S.handle h, S.handle other with
    | some _, some x => some { S with handle := Function.update S.handle h (some x) }
    | _, _ => none
  | .moveAssign h other =>
    open Classical in
    match S.handle h, S.handle other with
    | some y, some x =>
      if h = other then some S
      else if S.OnlyRef h y.2 then
        some { S with handle := Function.update (Function.update S.handle h (some x)) other (some (List.replicate rank 0, y.2))
                      content := Function.update S.content y.2 ⟨[0], 0, []⟩ }
      else none
    | _, _ => none
  | .reshape h shape =>
    open Classical in
    match S.handle h with
    | some y =>
      if shape.length = rank ∧ S.OnlyRef h y.2 then
        some { S with handle := Function.update S.handle h (some (shape, y.2))
                      content := Function.update S.content y.2 ((S.content y.2).reshape zero [shape.prod]) }
      else none
    | none => none
  | .write h i e =>
    match S.handle h with
    | some y =>
      if i < y.1.prod then
        let v := S.content y.2
        some { S with content := Function.update S.content y.2 { v with buf := v.buf.set i e } }
      else none
    | none => none
  | .writeAt h idxs e =>
    open Classical in
    match S.handle h with
    | some y =>
      if InShape idxs y.1 then
        let v := S.content y.2
        some { S with content := Function.update S.content y.2 { v with buf := v.buf.set (idxsToLinearIdx idxs y.1) e } }
      else none
    | none => none
  | .destroy h =>
    match S.handle h with
    | some _ => some { S with handle := Function.update S.handle h none }
    | none => none

/-- A history of operations -/
noncomputable def SState.run (rank : Nat) (zero : E) (ops : List (HOp E)) (S : SState E) : Option (SState E) :=
  ops.foldlM (SState.step rank zero) S

end Lue.Memory

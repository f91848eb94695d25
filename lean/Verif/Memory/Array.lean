import Verif.Partitioned.Store
import Verif.Index.Properties
import Mathlib.Logic.Function.Basic

/-!
C32: class `Array`, the owner of the elements of a partition, and its memory.
`H` below is `source/framework/core/include/lue/framework/core/array.hpp`.

The memory consists of buffers. Array objects are variables, referred to by number. Addresses of buffers are numbers, which
are not reused. Using memory outside of a buffer, or a buffer which does not exist anymore, is an error.
Assertions are not modelled as errors: `assertInvariants` tells whether they hold.
-/
namespace Lue.Memory

open Lue.Index

/-- `H:446-461`: the data members. `_span` consists of a pointer and a shape. -/
structure Obj where
  shape : List Nat
  nrElements : Nat
  bufferSize : Nat
  elements : Option Nat
  spanPtr : Option Nat
  spanShape : List Nat

/-- Memory and objects. -/
structure Mem (E : Type) where
  heap : Nat → Option (List E) := fun _ => none
  next : Nat := 0
  objs : Nat → Option Obj := fun _ => none

variable {E : Type}

/-- Use an object which exists. -/
def Mem.obj (m : Mem E) (a : Nat) : M Obj :=
  match m.objs a with
  | some o => .ok o
  | none => .error .thrown

/-- Replace an object. -/
def Mem.setObj (m : Mem E) (a : Nat) (o : Option Obj) : Mem E := { m with objs := Function.update m.objs a o }

/-- `std::make_unique<Element[]>(size)`: the elements are value-initialised. -/
def Mem.makeUnique (m : Mem E) (zero : E) (size : Nat) : Nat × Mem E :=
  (m.next, { m with heap := Function.update m.heap m.next (some (List.replicate size zero)), next := m.next + 1 })

/-- `std::unique_ptr::reset()`, or the deletion of the current buffer when a pointer is assigned to. -/
def Mem.reset (m : Mem E) (p : Option Nat) : M (Mem E) :=
  match p with
  | none => .ok m
  | some p =>
    match m.heap p with
    | none => .error .outOfBounds
    | some _ => .ok { m with heap := Function.update m.heap p none }

/-- Read an element, given the pointer to the buffer. -/
def Mem.load (m : Mem E) (p : Option Nat) (i : Nat) : M E :=
  match p with
  | none => .error .outOfBounds
  | some p =>
    match m.heap p with
    | none => .error .outOfBounds
    | some buf => rd buf i

/-- Write an element, given the pointer to the buffer. -/
def Mem.store (m : Mem E) (p : Option Nat) (i : Nat) (v : E) : M (Mem E) :=
  match p with
  | none => .error .outOfBounds
  | some p =>
    match m.heap p with
    | none => .error .outOfBounds
    | some buf => do return { m with heap := Function.update m.heap p (some (← wr buf i v)) }

/-- `H:41-56`: the default constructor, for arrays of the given rank (a template parameter) -/
def Mem.constructDefault (m : Mem E) (rank a : Nat) : M (Mem E) :=
  match m.objs a with
  | some _ => .error .thrown
  | none => .ok (m.setObj a (some ⟨List.replicate rank 0, 0, 0, none, none, List.replicate rank 0⟩))

/-- `H:66-76`: the constructor taking a shape -/
def Mem.construct (m : Mem E) (zero : E) (a : Nat) (shape : List Nat) : M (Mem E) :=
  match m.objs a with
  | some _ => .error .thrown
  | none =>
    let n := nrElements shape
    if n = 0 then .ok (m.setObj a (some ⟨shape, n, n, none, none, shape⟩))
    else
      let (p, m) := m.makeUnique zero n
      .ok (m.setObj a (some ⟨shape, n, n, some p, some p, shape⟩))

/-- `H:84-90`: the constructor taking a shape and a value -/
def Mem.constructFill (m : Mem E) (zero : E) (a : Nat) (shape : List Nat) (value : E) : M (Mem E) := do
  let m ← m.construct zero a shape
  let o ← m.obj a
  forLoop o.nrElements (fun i m => m.store o.elements i value) m

/-- `H:98-106`: the constructor taking a shape and values. It is an error to pass a wrong number of values (the code
asserts this). -/
def Mem.constructList (m : Mem E) (zero : E) (a : Nat) (shape : List Nat) (values : List E) : M (Mem E) := do
  let m ← m.construct zero a shape
  let o ← m.obj a
  if values.length ≠ o.nrElements then .error .thrown
  else forLoop values.length (fun i m => do m.store o.elements i (← rd values i)) m

/-- `std::copy(begin, begin + n, destination)` -/
def Mem.copyElements (m : Mem E) (n : Nat) (source destination : Option Nat) : M (Mem E) :=
  forLoop n (fun i m => do m.store destination i (← m.load source i)) m

/-- `H:129-135`: the copy constructor -/
def Mem.copyConstruct (m : Mem E) (zero : E) (a other : Nat) : M (Mem E) := do
  let o ← m.obj other
  let m ← m.construct zero a o.shape
  m.copyElements o.nrElements o.elements (← m.obj a).elements

/-- `H:295-305`: clear -/
def Mem.clear (m : Mem E) (a : Nat) : M (Mem E) := do
  let o ← m.obj a
  let shape := List.replicate o.shape.length 0
  let m ← m.reset o.elements
  return m.setObj a (some ⟨shape, 0, 0, none, none, shape⟩)

/-- `H:141-153`: the move constructor. The pointer of a moved-from `std::unique_ptr` is null. -/
def Mem.moveConstruct (m : Mem E) (a other : Nat) : M (Mem E) := do
  let o ← m.obj other
  match m.objs a with
  | some _ => .error .thrown
  | none =>
    let m := m.setObj a (some ⟨o.shape, o.nrElements, o.bufferSize, o.elements, o.elements, o.shape⟩)
    let m := m.setObj other (some { o with elements := none })
    m.clear other

/-- `H:314-345`: reshape -/
def Mem.reshape (m : Mem E) (zero : E) (a : Nat) (shape : List Nat) : M (Mem E) := do
  let o ← m.obj a
  if o.shape ≠ shape then
    let n := Lue.Index.nrElements shape
    if o.nrElements ≠ n then
      if o.bufferSize < n then
        if n = 0 then do
          let m ← m.reset o.elements
          return m.setObj a (some ⟨shape, n, n, none, none, shape⟩)
        else do
          let (p, m) := m.makeUnique zero n
          let m ← m.reset o.elements
          return m.setObj a (some ⟨shape, n, n, some p, some p, shape⟩)
      else return m.setObj a (some ⟨shape, n, o.bufferSize, o.elements, o.elements, shape⟩)
    else return m.setObj a (some ⟨shape, o.nrElements, o.bufferSize, o.elements, o.elements, shape⟩)
  else return m

/-- `H:162-173`: copy-assignment -/
def Mem.copyAssign (m : Mem E) (zero : E) (a other : Nat) : M (Mem E) := do
  let o ← m.obj other
  let _ ← m.obj a
  if a = other then return m
  else do
    let m ← m.reshape zero a o.shape
    m.copyElements o.nrElements o.elements (← m.obj a).elements

/-- `H:179-197`: move-assignment -/
def Mem.moveAssign (m : Mem E) (a other : Nat) : M (Mem E) := do
  let o ← m.obj other
  let this ← m.obj a
  if a = other then return m
  else do
    let m ← m.reset this.elements
    let m := m.setObj a (some ⟨o.shape, o.nrElements, o.bufferSize, o.elements, o.elements, o.shape⟩)
    let m := m.setObj other (some { o with elements := none })
    m.clear other

/-- `H:281-287`: remove the elements [first, last) -/
def Mem.remove (m : Mem E) (a first last : Nat) : M (Mem E) := do
  let o ← m.obj a
  let m ← forLoop (o.nrElements - last) (fun i m => do m.store o.elements (first + i) (← m.load o.elements (last + i))) m
  return m.setObj a (some { o with nrElements := o.nrElements - (last - first) })

/-- `H:405-421`: assign to an element, given its linear index. -/
def Mem.write (m : Mem E) (a i : Nat) (v : E) : M (Mem E) := do
  let o ← m.obj a
  m.store o.elements i v

/-- `H:388-398`: assign to an element, given its indices: the span (row-major layout) is used. -/
def Mem.writeAt (m : Mem E) (a : Nat) (idxs : List Nat) (v : E) : M (Mem E) := do
  let o ← m.obj a
  m.store o.spanPtr (idxsToLinearIdx idxs o.spanShape) v

/-- `H:371-381`: an element, given its indices -/
def Mem.readAt (m : Mem E) (a : Nat) (idxs : List Nat) : M E := do
  let o ← m.obj a
  m.load o.spanPtr (idxsToLinearIdx idxs o.spanShape)

/-- `H:156`: the destructor -/
def Mem.destroy (m : Mem E) (a : Nat) : M (Mem E) := do
  let o ← m.obj a
  let m ← m.reset o.elements
  return m.setObj a none

/-- `H:435-443`: assert_invariants -/
def Obj.assertInvariants (o : Obj) : Bool :=
  decide (Lue.Index.nrElements o.shape = o.nrElements) && decide (Lue.Index.nrElements o.spanShape = o.nrElements) &&
    decide (o.spanPtr = o.elements) &&
    (decide (o.nrElements = 0) && o.elements.isNone || decide (o.nrElements > 0) && o.elements.isSome) &&
    decide (o.nrElements ≤ o.bufferSize)

/-- What can be done with arrays. -/
inductive Op (E : Type) where
  | constructDefault (a : Nat)
  | construct (a : Nat) (shape : List Nat)
  | constructFill (a : Nat) (shape : List Nat) (value : E)
  | constructList (a : Nat) (shape : List Nat) (values : List E)
  | copyConstruct (a other : Nat)
  | moveConstruct (a other : Nat)
  | copyAssign (a other : Nat)
  | moveAssign (a other : Nat)
  | reshape (a : Nat) (shape : List Nat)
  | clear (a : Nat)
  | remove (a first last : Nat)
  | write (a i : Nat) (v : E)
  | writeAt (a : Nat) (idxs : List Nat) (v : E)
  | destroy (a : Nat)

/-- The effect of an operation on arrays of rank `rank`. `zero` is the value of value-initialised elements. -/
def Mem.step (rank : Nat) (zero : E) (m : Mem E) : Op E → M (Mem E)
  | .constructDefault a => m.constructDefault rank a
  | .construct a shape => m.construct zero a shape
  | .constructFill a shape value => m.constructFill zero a shape value
  | .constructList a shape values => m.constructList zero a shape values
  | .copyConstruct a other => m.copyConstruct zero a other
  | .moveConstruct a other => m.moveConstruct a other
  | .copyAssign a other => m.copyAssign zero a other
  | .moveAssign a other => m.moveAssign a other
  | .reshape a shape => m.reshape zero a shape
  | .clear a => m.clear a
  | .remove a first last => m.remove a first last
  | .write a i v => m.write a i v
  | .writeAt a idxs v => m.writeAt a idxs v
  | .destroy a => m.destroy a

/-- A history of operations. -/
def Mem.run (rank : Nat) (zero : E) (ops : List (Op E)) (m : Mem E) : M (Mem E) := ops.foldlM (Mem.step rank zero) m

end Lue.Memory

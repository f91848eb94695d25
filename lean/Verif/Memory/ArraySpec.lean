import Verif.Memory.Array

/-!
C32: what arrays are, without pointers and without memory. Objects are values: operations on one object do not influence
another one.
-/
namespace Lue.Memory.Spec

open Lue.Index

/-- The value of an array: its shape, the number of elements and the storage, of which the first `nr` elements are the
elements of the array. -/
structure Val (E : Type) where
  shape : List Nat
  nr : Nat
  buf : List E

variable {E : Type}

/-- The elements of an array. -/
def Val.elems (v : Val E) : List E := v.buf.take v.nr

/-- The empty array. -/
def empty (rank : Nat) : Val E := ⟨List.replicate rank 0, 0, []⟩

/-- Set the shape. The storage is kept if it is large enough. -/
def Val.reshape (zero : E) (v : Val E) (shape : List Nat) : Val E :=
  if v.shape = shape then v
  else if v.nr ≠ shape.prod ∧ v.buf.length < shape.prod then ⟨shape, shape.prod, List.replicate shape.prod zero⟩
  else ⟨shape, shape.prod, v.buf⟩

/-- Values of variables. -/
abbrev State (E : Type) := Nat → Option (Val E)

/-- The effect of an operation. The result is none if the operation is used wrongly: a variable is constructed twice or
does not exist, the rank is wrong, or an index lies outside of the array. -/
noncomputable def step (rank : Nat) (zero : E) (A : State E) : Op E → Option (State E)
  | .constructDefault a => if A a = none then some (Function.update A a (some (empty rank))) else none
  | .construct a shape => if A a = none ∧ shape.length = rank then
      some (Function.update A a (some ⟨shape, shape.prod, List.replicate shape.prod zero⟩)) else none
  | .constructFill a shape value => if A a = none ∧ shape.length = rank then
      some (Function.update A a (some ⟨shape, shape.prod, List.replicate shape.prod value⟩)) else none
  | .constructList a shape values => if A a = none ∧ shape.length = rank ∧ values.length = shape.prod then
      some (Function.update A a (some ⟨shape, shape.prod, values⟩)) else none
  | .copyConstruct a other =>
    match A a, A other with
    | none, some v =>
      some (Function.update A a (some ⟨v.shape, v.shape.prod, v.elems ++ List.replicate (v.shape.prod - v.nr) zero⟩))
    | _, _ => none
  | .moveConstruct a other =>
    match A a, A other with
    | none, some v => some (Function.update (Function.update A a (some v)) other (some (empty rank)))
    | _, _ => none
  | .copyAssign a other =>
    match A a, A other with
    | some w, some v =>
      if a = other then some A
      else
        let w := w.reshape zero v.shape
        some (Function.update A a (some ⟨w.shape, w.nr, v.elems ++ w.buf.drop v.nr⟩))
    | _, _ => none
  | .moveAssign a other =>
    match A a, A other with
    | some _, some v =>
      if a = other then some A else some (Function.update (Function.update A a (some v)) other (some (empty rank)))
    | _, _ => none
  | .reshape a shape =>
    match A a with
    | some w => if shape.length = rank then some (Function.update A a (some (w.reshape zero shape))) else none
    | none => none
  | .clear a =>
    match A a with
    | some _ => some (Function.update A a (some (empty rank)))
    | none => none
  | .remove a first last =>
    match A a with
    | some v =>
      if first ≤ last ∧ last ≤ v.nr then
        some (Function.update A a (some ⟨v.shape, v.nr - (last - first),
          v.buf.take first ++ v.elems.drop last ++ v.buf.drop (v.nr - (last - first))⟩))
      else none
    | none => none
  | .write a i e =>
    match A a with
    | some v => if i < v.nr then some (Function.update A a (some { v with buf := v.buf.set i e })) else none
    | none => none
  | .writeAt a idxs e =>
    match A a with
    | some v =>
      open Classical in
      if InShape idxs v.shape then
        some (Function.update A a (some { v with buf := v.buf.set (idxsToLinearIdx idxs v.shape) e }))
      else none
    | none => none
  | .destroy a =>
    match A a with
    | some _ => some (Function.update A a none)
    | none => none

/-- A history of operations. -/
noncomputable def run (rank : Nat) (zero : E) (ops : List (Op E)) (A : State E) : Option (State E) :=
  ops.foldlM (step rank zero) A

end Lue.Memory.Spec

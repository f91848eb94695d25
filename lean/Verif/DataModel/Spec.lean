import Verif.DataModel.Model

/-!
Specification of the value arrays of the LUE data model, in terms of lists of elements.
-/
namespace Lue.DataModel

open Lue.Index

/-- A dataset contains an array with a certain shape and elements `xs`, in row-major order. -/
structure HoldsArray {α : Type} (d : Dataset α) (shape : List Nat) (xs : List α) : Prop where
  shape_eq : d.shape = shape
  length_eq : xs.length = nrElements shape
  data_eq : ∀ k < nrElements shape, xs[k]? = some (d.data (linearIdxToIdxs k shape))

/-- A dataset contains, for each object, an array with shape `shape` and elements `xss[i]`, in row-major order: the
element at index `i :: idxs` is the element of the array of object `i` at `idxs`. -/
structure Holds {α : Type} (d : Dataset α) (fill : α) (shape : List Nat) (xss : List (List α)) : Prop where
  shape_eq : d.shape = xss.length :: shape
  fill_eq : d.fill = fill
  length_eq : ∀ xs ∈ xss, xs.length = nrElements shape
  data_eq : ∀ (i : Nat) (xs : List α), xss[i]? = some xs → ∀ k < nrElements shape,
    xs[k]? = some (d.data (i :: linearIdxToIdxs k shape))

namespace SameShape

/-- What can be done with a value with arrays of the same shape: adding arrays, and writing a number of consecutive
arrays. -/
inductive Op (α : Type) where
  | expand (n : Nat)
  | write (b : Nat) (arrays : List (List α))

/-- The effect of an operation on the arrays, as expected by a user. `size` is the number of elements in an array. Writing
past the last array is refused. -/
def Op.expected {α : Type} (fill : α) (size : Nat) (xss : List (List α)) : Op α → List (List α)
  | .expand n => xss ++ List.replicate n (List.replicate size fill)
  | .write b arrays => if b + arrays.length ≤ xss.length then xss.take b ++ arrays ++ xss.drop (b + arrays.length) else xss

/-- The arrays written have the right number of elements. -/
def Op.Ok {α : Type} (size : Nat) : Op α → Prop
  | .expand _ => True
  | .write _ arrays => ∀ xs ∈ arrays, xs.length = size

/-- Doing an operation with the code. An exception is caught by the caller: the dataset is as it was. -/
def Op.run {α : Type} (d : Dataset α) : Op α → Dataset α
  | .expand n => SameShape.expand d n
  | .write b arrays =>
    match SameShape.write d b (b + arrays.length) arrays.flatten with
    | .ok d' => d'
    | .error _ => d

end SameShape

/-- A group contains, for each id in `m`, an item related to `m id`, and nothing else. -/
def GroupHolds {χ σ : Type} (R : χ → σ → Prop) (g : Group χ) (m : Nat → Option σ) : Prop :=
  ∀ id, match g.child (name id), m id with
    | none, none => True
    | some c, some s => R c s
    | _, _ => False

/-- The number of items in a map. -/
def CountOk {σ : Type} (n : Nat) (m : Nat → Option σ) : Prop :=
  ∃ ids : List Nat, ids.Nodup ∧ ids.length = n ∧ ∀ id, id ∈ ids ↔ (m id).isSome

/-- Adding items to a map, up to the first one whose id is already in use: the new map and the number of items added. -/
def addItems {σ : Type} (m : Nat → Option σ) : List (Nat × σ) → (Nat → Option σ) × Nat
  | [] => (m, 0)
  | (id, s) :: items =>
    if (m id).isSome then (m, 0)
    else
      let r := addItems (Function.update m id (some s)) items
      (r.1, r.2 + 1)

/-- What a user sees of a group of items: the items, by id; the number of items according to the API; and the number of
items which have been added by calls which threw an exception. -/
structure GState (σ : Type) where
  items : Nat → Option σ
  nr : Nat
  lost : Nat

/-- Nothing is stored yet. -/
def GState.empty {σ : Type} : GState σ := ⟨fun _ => none, 0, 0⟩

/-- Items are added, all or up to the first whose id is in use. In the latter case an exception is thrown. -/
def GState.add {σ : Type} (st : GState σ) (items : List (Nat × σ)) : GState σ :=
  let r := addItems st.items items
  if r.2 = items.length then ⟨r.1, st.nr + items.length, st.lost⟩ else ⟨r.1, st.nr, st.lost + r.2⟩

/-- Changing an item. -/
def GState.set {σ : Type} (st : GState σ) (id : Nat) (s : σ) : GState σ :=
  { st with items := Function.update st.items id (some s) }

/-- The C++ object and the group represent the items. -/
structure Represents {χ σ : Type} (R : χ → σ → Prop) (h : Handle) (g : Group χ) (st : GState σ) : Prop where
  holds : GroupHolds R g st.items
  handle : h.nr = st.nr
  attr : g.nrAttr = st.nr
  count : CountOk (st.nr + st.lost) st.items

namespace DifferentShape

/-- What can be done with a value with arrays of different shapes: adding arrays, given the id and shape of each of
them, and writing the array of an object. -/
inductive Op (α : Type) where
  | expand (items : List (Nat × List Nat))
  | write (id : Nat) (array : List α)

/-- For each object: the shape of the array and its elements. -/
abbrev State (α : Type) := GState (List Nat × List α)

/-- The effect of an operation, as expected by a user. Writing the array of an object which does not exist is refused. -/
def Op.expected {α : Type} (fill : α) (st : State α) : Op α → State α
  | .expand items => st.add (items.map fun e => (e.1, e.2, List.replicate (nrElements e.2) fill))
  | .write id array =>
    match st.items id with
    | none => st
    | some (shape, _) => st.set id (shape, array)

/-- The array written has the right number of elements. -/
def Op.Ok {α : Type} (st : State α) : Op α → Prop
  | .expand _ => True
  | .write id array => ∀ shape xs, st.items id = some (shape, xs) → array.length = nrElements shape

/-- Doing an operation with the code. Exceptions are caught by the caller. -/
def Op.run {α : Type} (fill : α) (s : Handle × Group (Dataset α)) : Op α → Handle × Group (Dataset α)
  | .expand items => (DifferentShape.expand fill s.1 s.2 (items.map (·.1)) (items.map (·.2))).2
  | .write id array =>
    match DifferentShape.write s.2 id array with
    | .ok g => (s.1, g)
    | .error _ => s

/-- A sequence of operations -/
inductive History {α : Type} (fill : α) : State α → Handle × Group (Dataset α) → Prop where
  | create : History fill .empty (openGroup (createGroup (χ := Dataset α)), createGroup)
  | reopen {st : State α} {s : Handle × Group (Dataset α)} (p : History fill st s) : History fill st (openGroup s.2, s.2)
  | op {st : State α} {s : Handle × Group (Dataset α)} (p : History fill st s) (o : Op α) (ok : o.Ok st) :
      History fill (o.expected fill st) (o.run fill s)

end DifferentShape

namespace DifferentShapeConstantShape

/-- Adding objects: id, shape of the arrays and number of locations in time of each of them; and, for an object, adding
and writing arrays. -/
inductive Op (α : Type) where
  | expand (items : List (Nat × List Nat × Nat))
  | expandItem (id : Nat) (n : Nat)
  | write (id : Nat) (b : Nat) (arrays : List (List α))

/-- For each object: the shape of the arrays and, for each location in time, the elements of the array. -/
abbrev State (α : Type) := GState (List Nat × List (List α))

/-- The effect of an operation on an object -/
def item {α : Type} (fill : α) (st : State α) (id : Nat) (o : SameShape.Op α) : State α :=
  match st.items id with
  | none => st
  | some (shape, xss) => st.set id (shape, o.expected fill (nrElements shape) xss)

/-- The effect of an operation, as expected by a user. -/
def Op.expected {α : Type} (fill : α) (st : State α) : Op α → State α
  | .expand items => st.add (items.map fun e => (e.1, e.2.1,
      List.replicate e.2.2 (List.replicate (nrElements e.2.1) fill)))
  | .expandItem id n => item fill st id (.expand n)
  | .write id b arrays => item fill st id (.write b arrays)

/-- The arrays written have the right number of elements. -/
def Op.Ok {α : Type} (st : State α) : Op α → Prop
  | .write id _ arrays => ∀ shape xss, st.items id = some (shape, xss) → ∀ xs ∈ arrays, xs.length = nrElements shape
  | _ => True

/-- Doing an operation with the code. Exceptions are caught by the caller. -/
def Op.run {α : Type} (fill : α) (s : Handle × Group (Dataset α)) : Op α → Handle × Group (Dataset α)
  | .expand items => (DifferentShapeConstantShape.expand fill s.1 s.2 items).2
  | .expandItem id n =>
    match DifferentShapeConstantShape.expandItem s.2 id n with
    | .ok g => (s.1, g)
    | .error _ => s
  | .write id b arrays =>
    match DifferentShapeConstantShape.write s.2 id b (b + arrays.length) arrays.flatten with
    | .ok g => (s.1, g)
    | .error _ => s

/-- A sequence of operations -/
inductive History {α : Type} (fill : α) : State α → Handle × Group (Dataset α) → Prop where
  | create : History fill .empty (openGroup (createGroup (χ := Dataset α)), createGroup)
  | reopen {st : State α} {s : Handle × Group (Dataset α)} (p : History fill st s) : History fill st (openGroup s.2, s.2)
  | op {st : State α} {s : Handle × Group (Dataset α)} (p : History fill st s) (o : Op α) (ok : o.Ok st) :
      History fill (o.expected fill st) (o.run fill s)

end DifferentShapeConstantShape

end Lue.DataModel

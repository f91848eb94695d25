import Verif.Numpy.Properties
import Verif.FieldApi.Model
import Verif.LocalOp.Properties

/-!
# Model of arrays with random values

Models `uniform`, `normal` and `open_simplex_noise`, in
`source/framework/algorithm/include/lue/framework/algorithm` (`A` below), their Python bindings in
`source/framework/python/source/algorithm/miscellaneous_operation` (`P` below), and those of fields in
`source/framework/api/cxx/source/local` (`X` below).

The distributions and the random number engine are those of the C++ standard library: parameters of the model. Whatever
`std::random_device` returns is a parameter too. What happens if the requirements of the standard library are not met is
undefined: the model then ends with `undefinedBehaviour`.

Simplification: 2D arrays. The arguments of the distributions are values instead of futures.
-/
namespace Lue.Random

open Lue.Create Lue.LocalOp Lue.Numpy

/-- Undefined behaviour -/
def undefinedBehaviour : Err := .outOfBounds

/-- A distribution together with a random number engine: `std::mt19937`, `std::uniform_int_distribution`,
`std::uniform_real_distribution`, `std::normal_distribution`. -/
structure Dist (ε : Type) where
  /-- The state of the engine and the distribution -/
  τ : Type
  /-- Requirements on the arguments of the distribution -/
  usable : ε → ε → Bool
  /-- A distribution, given its arguments, and an engine, given its seed -/
  start : ε → ε → Nat → τ
  /-- `distribution(engine)` -/
  next : τ → ε × τ

variable {α ε : Type}

/-- `std::generate(begin, end, ...)`: `A/definition/uniform.hpp:83-90`, `302-309`, `A/definition/normal.hpp:84-91`, `252-259` -/
def generate (d : Dist ε) : List ε → d.τ → List ε
  | [], _ => []
  | _ :: l, s => (d.next s).1 :: generate d l (d.next s).2

/-- Fill with random numbers, using a new engine seeded with a number from `std::random_device`:
`A/definition/uniform.hpp:64-90` and `281-309`, `A/definition/normal.hpp:75-91` and `243-259` -/
def fillRandom (d : Dist ε) (a b : ε) (seed : Nat) (data : List ε) : M (List ε) :=
  if d.usable a b then .ok (generate d data (d.start a b seed)) else .error undefinedBehaviour

/-- The policies used -/
structure Policies (ε : Type) where
  /-- `is_no_data`, for both arguments of the distribution -/
  isNoData : ε → Bool
  /-- `within_domain`: `stddev > 0` in the value policies of `normal` (`A/value_policies/normal.hpp:8-19`), `true` otherwise
  (`A/value_policies/uniform.hpp:10-14`, `A/default_policies/*.hpp`) -/
  within : ε → ε → Bool
  /-- What `mark_no_data` writes -/
  mark : ε

/-- `A/definition/uniform.hpp:21-97` (`54-61`: mark all elements). `data` is the partition of the array passed in. Only its shape is used. -/
def uniformPartition (P : Policies ε) (d : Dist ε) (garbage : Nat → ε) (a b : ε) (seed : Nat) (data : List α) : M (List ε) :=
  if P.isNoData a || P.isNoData b then markAll P.mark data.length (uninitialised data.length garbage)
  else fillRandom d a b seed (uninitialised data.length garbage)

/-- `A/definition/normal.hpp:19-98`, idem. -/
def normalPartition (P : Policies ε) (d : Dist ε) (garbage : Nat → ε) (a b : ε) (seed : Nat) (data : List α) : M (List ε) :=
  if P.isNoData a || P.isNoData b then markAll P.mark data.length (uninitialised data.length garbage)
  else if ! P.within a b then markAll P.mark data.length (uninitialised data.length garbage)
  else fillRandom d a b seed (uninitialised data.length garbage)

/-- One task for each of the partitions of an array. `device k` is what `std::random_device` returns in task `k`. -/
def perPartition (op : Nat → List α → M (List ε)) (device : Nat → Nat) (order : List Nat) (x : PArr α) : M (PArr ε) := do
  let parts ← runTasks (x.grid.n0 * x.grid.n1) (fun k => do op (device k) (← rd x.parts k)) order
  .ok ⟨x.grid, parts⟩

/-- `uniform(policies, array, min_value, max_value)`: `A/definition/uniform.hpp:121-175` -/
def uniformArray (P : Policies ε) (d : Dist ε) (garbage : Nat → ε) (a b : ε) (device : Nat → Nat) (order : List Nat)
    (x : PArr α) : M (PArr ε) :=
  perPartition (uniformPartition P d garbage a b) device order x

/-- `normal(policies, array, mean, stddev)`: `A/definition/normal.hpp:113-163` -/
def normalArray (P : Policies ε) (d : Dist ε) (garbage : Nat → ε) (a b : ε) (device : Nat → Nat) (order : List Nat)
    (x : PArr α) : M (PArr ε) :=
  perPartition (normalPartition P d garbage a b) device order x

/-- `uniform(policies, min_value, max_value)`, `A/definition/uniform.hpp:188-245`, and `normal(policies, mean, stddev)`,
`A/definition/normal.hpp:170-218`: these are the same, the domain is not verified. -/
def randomScalar (P : Policies ε) (d : Dist ε) (a b : ε) (seed : Nat) : M ε :=
  if P.isNoData a || P.isNoData b then .ok P.mark
  else if d.usable a b then .ok (d.next (d.start a b seed)).1 else .error undefinedBehaviour

/-- `uniform(policies, array_shape, partition_shape, min_value, max_value)`, `A/definition/uniform.hpp:254-411`, and
`normal(policies, array_shape, partition_shape, mean, stddev)`, `A/definition/normal.hpp:226-358`: these are the same. The
policies are not used. -/
def randomShape (d : Dist ε) (garbage : Nat → Nat → ε) (a b : ε) (device : Nat → Nat) (arrayShape partitionShape : Nat × Nat)
    (nrLocalities : Nat) : M (Created ε) :=
  createEach arrayShape partitionShape nrLocalities fun _ _ _ _ k offset shape => do
    let data ← fillRandom d a b (device k) (uninitialised (shape.1 * shape.2) (garbage k))
    .ok ⟨offset, shape, data⟩

/-! ### Python -/

/-- The switch on the data type in `uniform`: `P/uniform-2.cpp:58-144`. The element types with a single byte are not
supported. `supported` are the element types for which LUE was built. -/
def uniformElement (supported : DType → Bool) (dtype : DType) : Option DType :=
  match dtype.kind with
  | 'i' =>
    match dtype.itemsize with
    | 2 | 4 | 8 => if supported ⟨'i', dtype.itemsize⟩ then some ⟨'i', dtype.itemsize⟩ else none
    | _ => none
  | 'u' =>
    match dtype.itemsize with
    | 2 | 4 | 8 => if supported ⟨'u', dtype.itemsize⟩ then some ⟨'u', dtype.itemsize⟩ else none
    | _ => none
  | 'f' =>
    match dtype.itemsize with
    | 4 | 8 => if supported ⟨'f', dtype.itemsize⟩ then some ⟨'f', dtype.itemsize⟩ else none
    | _ => none
  | _ => none

/-- The switch on the data type in `normal`: `P/normal.cpp:116-172` -/
def normalElement (supported : DType → Bool) (dtype : DType) : Option DType :=
  match dtype.kind with
  | 'f' =>
    match dtype.itemsize with
    | 4 | 8 => if supported ⟨'f', dtype.itemsize⟩ then some ⟨'f', dtype.itemsize⟩ else none
    | _ => none
  | _ => none

/-- An item or an exception -/
def orUnsupported {β : Type} : Option β → M β
  | some x => .ok x
  | none => .error .thrown

/-- `uniform(array_shape, dtype, min_value, max_value, partition_shape)`, `P/uniform-2.cpp:38-236`, and
`normal(array_shape, dtype, mean, stddev, partition_shape)`, `P/normal.cpp:99-252`. `select` is the switch on the data type,
`cast` is `pybind11::cast<Element>`, which fails if the value is not representable. The result consists of the element type and
the array. -/
def randomPy {β : Type} (select : DType → Option DType) (cast : DType → β → M ε) (dist : DType → Dist ε)
    (garbage : Nat → Nat → ε) (arrayShape : List Nat) (dtype : DType) (a b : β) (partitionShape : Option (List Nat))
    (device : Nat → Nat) (nrLocalities nrThreads : Nat) : M (DType × Created ε) := do
  let shape ← twoExtents arrayShape
  let partitionShape ← selectPartitionShape shape nrThreads partitionShape
  let element ← orUnsupported (select dtype)
  let a ← cast element a
  let b ← cast element b
  let array ← randomShape (dist element) garbage a b device shape partitionShape nrLocalities
  .ok (element, array)

/-! ### Fields -/

/-- Overloads of `uniform` given a shape: two scalars or two values, but not of type `std::uint8_t` or `std::int8_t`:
`A/value_policies/uniform.hpp:61-114` -/
def uniformOverloads : List FieldApi.Overload :=
  [FieldApi.Kind.scalar, .literal].map fun k => ⟨[⟨k, none⟩, ⟨k, none⟩], fun t => t ≠ .uint8 && t ≠ .int8⟩

/-- The value of a field -/
def valueOf {V : Type} : FieldApi.Fld V → Option V
  | .array _ _ => none
  | .scalar _ v => some v
  | .literal _ v => some v

/-- `api::uniform(array_shape, partition_shape, min_value, max_value)`: `X/uniform.cpp:38-52` -/
def uniformField {V : Type} (dist : PyOps.Ty → Dist V) (garbage : Nat → Nat → V) (arrayShape partitionShape : Nat × Nat)
    (a b : FieldApi.Fld V) (device : Nat → Nat) (nrLocalities : Nat) :
    Except FieldApi.ApiErr (PyOps.Ty × Created V) :=
  match FieldApi.resolve uniformOverloads [a.type, b.type] with
  | .error e => .error e
  | .ok t =>
    match valueOf a, valueOf b with
    | some x, some y =>
      match randomShape (dist t) garbage x y device arrayShape partitionShape nrLocalities with
      | .ok r => .ok (t, r)
      | .error _ => .error .failed
    | _, _ => .error .failed

/-! ### Noise -/

/-- `A/definition/open_simplex_noise.hpp:14-75`. `noise` is `FastNoiseLite::GetNoise`, for a certain seed. -/
def noisePartition (P : Policies2 ε ε ε) (noise : ε → ε → ε) (garbage : Nat → ε) (xs ys : List ε) : M (List ε) :=
  forLoop xs.length (fun i out => do
    let x ← rd xs i
    let y ← rd ys i
    if P.indp1 x || P.indp2 y then wr out i P.mark
    else if ! P.dp x y then wr out i P.mark
    else do
      let out ← wr out i (noise x y)
      let z ← rd out i
      if ! P.rp x y z then wr out i P.mark else .ok out) (uninitialised xs.length garbage)

/-- `A/definition/open_simplex_noise.hpp:90-130`. Contrary to other operations, it is not verified that both arrays are
partitioned in the same way. -/
def noiseArray (P : Policies2 ε ε ε) (noise : ε → ε → ε) (garbage : Nat → ε) (order : List Nat) (x y : PArr ε) : M (PArr ε) := do
  let parts ← runTasks (x.grid.n0 * x.grid.n1) (fun k => do noisePartition P noise garbage (← rd x.parts k) (← rd y.parts k)) order
  .ok ⟨x.grid, parts⟩

end Lue.Random

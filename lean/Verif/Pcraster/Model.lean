import Verif.PyOps.Model
import Verif.Numpy.Model
import Verif.CellIndex.Model
import Verif.UniqueId.Model
import Mathlib.Algebra.Order.Floor.Defs
import Mathlib.Algebra.Field.Defs

/-!
# Model of the PCRaster-compatible operations

Models `source/framework/python/pcraster/__init__.py` (`P` below), the Python package `lue.pcraster`: operations which
behave as those of PCRaster, in terms of LUE's own operations. Next to that, `where`, `valid`, `cast`, `cell_index` and
`unique_id` of `source/framework/python/source/algorithm/local_operation` (`L` below): which overloads exist, and what
they call. Objects, operators, and the selection of overloads are those of C48, arrays and local operations those of
C07, C11, C12 and C47.

Simplifications: the values of all element types are in a single type `V`. Names of files as arguments
(`read_if_necessary`) are not modelled. Exceptions other than `TypeError` and `ValueError`, like failed assertions, are not
distinguished.
-/
namespace Lue.Pcraster

open Lue.LocalOp Lue.PyOps

/-- All that is not defined in the files modelled. -/
structure Lib (V Num : Type) extends PyOps.Lib V Num where
  /-- Default input no-data policy -/
  noData : Ty → V → Bool
  /-- Default output no-data policy: what is written -/
  mark : Ty → V
  /-- Conversion of a boolean element to `bool` -/
  isTrue : V → Bool
  /-- The boolean element 1 -/
  one : V
  /-- The boolean element 0 -/
  zero : V
  /-- `static_cast`, from the first to the second type -/
  cast : Ty → Ty → V → V
  /-- Range policy of `cast` -/
  castInRange : Ty → Ty → V → Bool
  /-- `numpy_scalar_type` of a number, P:150-168. `none`: `KeyError` -/
  numberType : Num → Option Ty
  /-- The numbers 0 and 1 -/
  number0 : Num
  number1 : Num
  /-- `ArithmeticElements`: the element types LUE is built for -/
  types : List Ty
  /-- `IndexElement` -/
  indexType : Ty
  /-- The element for an integer -/
  integer : Nat → V
  /-- The integer corresponding with the no-data value of an integral type -/
  integerMark : Nat

/-- `Configuration`, P:54-74, as set by `setclone`, P:82-116: P:98-103, 105-112. The geo-transform of the raster
consists of the coordinates of the upper left corner and the (equal) extents of a cell. -/
structure Configuration (Num : Type) where
  /-- `array_shape` -/
  rows : Nat
  cols : Nat
  /-- `partition_shape` -/
  partitionShape : Option (List Nat)
  /-- `bounding_box` -/
  north : Num
  west : Num
  south : Num
  east : Num
  /-- `cell_size` -/
  cellSize : Num
  /-- Number of localities and threads of the process -/
  nrLocalities : Nat
  nrThreads : Nat

variable {V Num : Type}

/-! ### LUE's operations -/

/-- `create_scalar(dtype, value)`: `source/framework/python/source/core/scalar.cpp:13-107`. A number which can't be
converted results in a `RuntimeError`. -/
def createScalar (lib : Lib V Num) (t : Ty) (n : Num) : Except PyErr (Obj V Num) :=
  match lib.convert t n with
  | some v => .ok (.scalar t v)
  | none => .error .other

/-- `create_array(array_shape, fill_value, partition_shape)`:
`source/framework/python/source/core/create_partitioned_array.cpp:285-298, 476-550`, with
`InstantiateFilled::instantiate`. The fill value must be a scalar. -/
def createArray (cfg : Configuration Num) (shape : Nat × Nat) : Obj V Num → Except PyErr (Obj V Num)
  | .scalar t v => do
    let p ← raised (Numpy.selectPartitionShape shape cfg.nrThreads cfg.partitionShape)
    let array ← raised (Create.createEach shape p cfg.nrLocalities fun _ _ _ _ _ offset pshape =>
      .ok ⟨offset, pshape, List.replicate (pshape.1 * pshape.2) v⟩)
    .ok (.array t ⟨⟨shape.1, shape.2, p.1, p.2⟩, array.partitions.map (·.data)⟩)
  | _ => .error .other

/-- `valid(array)`, `valid(scalar)`, `valid(value)`: `L/valid.cpp:22-24`, with the policies of
`value_policies/valid.hpp:9-43`. For a value, the first element type it can be converted to is used. -/
def valid (lib : Lib V Num) (order : List Nat) (garbage : Nat → V) : Obj V Num → Except PyErr (Obj V Num)
  | .array t x => do
    let r ← raised (unaryArray ⟨lib.noData t, fun _ => true, fun _ _ => true, lib.zero⟩ (fun _ => lib.one) garbage order x)
    .ok (.array .uint8 r)
  | .scalar t v =>
    .ok (.scalar .uint8 (unaryScalar ⟨lib.noData t, fun _ => true, fun _ _ => true, lib.zero⟩ (fun _ => lib.one) v))
  | .number n =>
    match lib.types.findSome? fun t => (lib.convert t n).map fun v => (t, v) with
    | some (t, v) =>
      .ok (.scalar .uint8 (unaryScalar ⟨lib.noData t, fun _ => true, fun _ _ => true, lib.zero⟩ (fun _ => lib.one) v))
    | none => .error .typeError

/-- Policies of `cast`: `value_policies/cast.hpp:120-127` -/
def castPolicies (lib : Lib V Num) (t t' : Ty) : Policies1 V V :=
  ⟨lib.noData t, fun _ => true, fun x _ => lib.castInRange t t' x, lib.mark t'⟩

/-- `cast(array, dtype)`, `cast(scalar, dtype)`: `L/cast.cpp:11-160, 175-186`. The overload for values is not used. -/
def cast (lib : Lib V Num) (order : List Nat) (garbage : Nat → V) (t' : Ty) : Obj V Num → Except PyErr (Obj V Num)
  | .array t x => do
    let r ← raised (unaryArray (castPolicies lib t t') (lib.cast t t') garbage order x)
    .ok (.array t' r)
  | .scalar t v => .ok (.scalar t' (unaryScalar (castPolicies lib t t') (lib.cast t t') v))
  | .number _ => .error .typeError

/-- Policies of `where` with a true and a false expression: `value_policies/where.hpp:8-13`, `where.hpp:11-34` -/
def wherePolicies (lib : Lib V Num) (t : Ty) : Policies3 V V V V :=
  ⟨lib.noData .uint8, lib.noData t, lib.noData t, fun _ _ _ => true, lib.mark t⟩

/-- Policies of `where` with a true expression only: false conditions are not within the domain. -/
def wherePolicies2 (lib : Lib V Num) (t : Ty) : Policies2 V V V :=
  ⟨lib.noData .uint8, lib.noData t, fun c _ => lib.isTrue c, fun _ _ _ => true, lib.mark t⟩

/-- The overloads of `where` with a true and a false expression, for elements of some type: `L/where.cpp:39-86`, in the
same order. -/
def where3Kinds : List (Kind × Kind) :=
  [(.array, .array), (.scalar, .array), (.element, .array), (.array, .array), (.array, .scalar), (.array, .element),
    (.scalar, .scalar), (.element, .element)]

/-- The overloads of `where` with a true expression: `L/where.cpp:26-37` -/
def where2Kinds : List Kind := [.array, .scalar, .element]

/-- pybind11: whether two objects can be passed as arguments of certain types. -/
def matchTwo (lib : Lib V Num) (t : Ty) (x y : Obj V Num) (κ : Kind × Kind) : Option (Arg V × Arg V) :=
  match matchArg lib.toLib t κ.1 x, matchArg lib.toLib t κ.2 y with
  | some a, some b => some (a, b)
  | _, _ => none

/-- pybind11: the first overload whose arguments match. The overloads are defined per element type, `L/where.cpp:92-95`. -/
def pick3 (lib : Lib V Num) (x y : Obj V Num) : Option (Ty × Arg V × Arg V) :=
  lib.types.findSome? fun t => (where3Kinds.findSome? (matchTwo lib t x y)).map fun a => (t, a)

/-- pybind11: the first overload whose argument matches. -/
def pick2 (lib : Lib V Num) (x : Obj V Num) : Option (Ty × Arg V) :=
  lib.types.findSome? fun t => (where2Kinds.findSome? fun κ => matchArg lib.toLib t κ x).map fun a => (t, a)

/-- `where(condition, true_expression, false_expression)`, the overloads of
`source/framework/algorithm/include/lue/framework/algorithm/definition/where.hpp`. -/
def callWhere3 (lib : Lib V Num) (t : Ty) (order : List Nat) (garbage : Nat → V) (c : PArr V) :
    Arg V → Arg V → M (PArr V)
  | .array x, .array y => array3 (wherePartition (wherePolicies lib t) lib.isTrue garbage) order c x y
  | .array x, .value y => array2 (fun c x => wherePartitionAAS (wherePolicies lib t) lib.isTrue garbage c x y) order c x
  | .value x, .array y => array2 (fun c y => wherePartitionASA (wherePolicies lib t) lib.isTrue garbage c x y) order c y
  | .value x, .value y => array1 (fun c => wherePartitionASS (wherePolicies lib t) lib.isTrue garbage c x y) order c

/-- `where(condition, true_expression)` -/
def callWhere2 (lib : Lib V Num) (t : Ty) (order : List Nat) (garbage : Nat → V) (c : PArr V) : Arg V → M (PArr V)
  | .array x => binaryArray (wherePolicies2 lib t) whereFunctor garbage order c x
  | .value x => binaryArrayAS (wherePolicies2 lib t) whereFunctor garbage order c x

/-- `where(condition, true_expression, false_expression)` in Python. The condition must be an array of booleans. -/
def where3 (lib : Lib V Num) (order : List Nat) (garbage : Nat → V) (condition x y : Obj V Num) :
    Except PyErr (Obj V Num) :=
  match condition with
  | .array .uint8 c =>
    match pick3 lib x y with
    | some (t, a, b) => do
      let r ← raised (callWhere3 lib t order garbage c a b)
      .ok (.array t r)
    | none => .error .typeError
  | _ => .error .typeError

/-- `where(condition, true_expression)` in Python. -/
def where2 (lib : Lib V Num) (order : List Nat) (garbage : Nat → V) (condition x : Obj V Num) :
    Except PyErr (Obj V Num) :=
  match condition with
  | .array .uint8 c =>
    match pick2 lib x with
    | some (t, a) => do
      let r ← raised (callWhere2 lib t order garbage c a)
      .ok (.array t r)
    | none => .error .typeError
  | _ => .error .typeError

/-- The array with the elements for the integers in an array. -/
def integers (lib : Lib V Num) (r : PArr Nat) : PArr V := ⟨r.grid, r.parts.map fun p => p.map lib.integer⟩

/-- `cell_index(condition, dimension_idx)`: `L/cell_index.cpp:10-13`. `isZero`: `!isTrue`. -/
def cellIndex (lib : Lib V Num) (order : List Nat) (garbage : Nat → Nat) (dimensionIdx : Nat) :
    Obj V Num → Except PyErr (Obj V Num)
  | .array .uint8 c => do
    let r ← raised (CellIndex.cellIndex (lib.noData .uint8) (fun x => !lib.isTrue x) lib.integerMark garbage order c
      dimensionIdx)
    .ok (.array lib.indexType (integers lib r))
  | _ => .error .typeError

/-- `unique_id(condition, dtype)`: `L/unique_id.cpp` -/
def uniqueId (lib : Lib V Num) (picks order : List Nat) (garbage : Nat → Nat) (t : Ty) :
    Obj V Num → Except PyErr (Obj V Num)
  | .array .uint8 c => do
    let r ← raised (UniqueId.uniqueId (lib.noData .uint8) lib.isTrue lib.integerMark garbage picks order c)
    .ok (.array t (integers lib r))
  | _ => .error .typeError

/-! ### Kinds of arguments -/

/-- Element types used by PCRaster. -/
def pcrasterTypes : List Ty := [.uint8, .int32, .float32]

/-- `is_spatial`: P:291-301 -/
def isSpatial : Obj V Num → Bool
  | .array t _ => t ∈ pcrasterTypes
  | _ => false

/-- `is_non_spatial`: P:304-315 -/
def isNonSpatial : Obj V Num → Bool
  | .scalar t _ => t ∈ pcrasterTypes
  | _ => false

/-- `lue_is_value`: P:318-338. Numbers of other types than the ones listed there are not modelled. -/
def isValue : Obj V Num → Bool
  | .number _ => true
  | _ => false

/-- `numpy_scalar_type`: P:150-168 -/
def numpyScalarType (lib : Lib V Num) : Obj V Num → Except PyErr Ty
  | .array t _ => if t ∈ pcrasterTypes then .ok t else .error .other
  | .scalar t _ => if t ∈ pcrasterTypes then .ok t else .error .other
  | .number n =>
    match lib.numberType n with
    | some t => .ok t
    | none => .error .other

/-- `dtype` of an array or scalar. -/
def dtype : Obj V Num → Option Ty
  | .array t _ => some t
  | .scalar t _ => some t
  | .number _ => none

/-- `create_scalar`, for an object which is a value. -/
def valueToScalar (lib : Lib V Num) (t : Ty) : Obj V Num → Except PyErr (Obj V Num)
  | .number n => createScalar lib t n
  | _ => .error .other

/-- If the object is a value, it is converted to a scalar of its own type: P:341-343, 748-750. -/
def fixValue (lib : Lib V Num) (x : Obj V Num) : Except PyErr (Obj V Num) :=
  if isValue x then do
    let t ← numpyScalarType lib x
    valueToScalar lib t x
  else .ok x

/-- `fixValue`, if the condition holds. -/
def fixIf (lib : Lib V Num) (condition : Bool) (x : Obj V Num) : Except PyErr (Obj V Num) :=
  if condition then fixValue lib x else .ok x

/-- `create_scalar`, if the object is a value. -/
def scalarIfValue (lib : Lib V Num) (t : Ty) (x : Obj V Num) : Except PyErr (Obj V Num) :=
  if isValue x then valueToScalar lib t x else .ok x

/-- `non_spatial_to_spatial(fill_value)`: P:341-352, without a template. -/
def nonSpatialToSpatial (lib : Lib V Num) (cfg : Configuration Num) (x : Obj V Num) : Except PyErr (Obj V Num) := do
  let x ← fixValue lib x
  createArray cfg (cfg.rows, cfg.cols) x

/-- `non_spatial_to_spatial`, if the condition holds. -/
def spatialIf (lib : Lib V Num) (cfg : Configuration Num) (condition : Bool) (x : Obj V Num) :
    Except PyErr (Obj V Num) :=
  if condition then nonSpatialToSpatial lib cfg x else .ok x

/-- If the condition holds, the first object is converted to a scalar with the element type of the second one. -/
def toScalarIf (lib : Lib V Num) (condition : Bool) (x other : Obj V Num) : Except PyErr (Obj V Num) :=
  if condition then do
    let t ← numpyScalarType lib other
    valueToScalar lib t x
  else .ok x

/-- `harmonize_types`: P:355-388 -/
def harmonizeTypes (lib : Lib V Num) (x y : Obj V Num) : Except PyErr (Obj V Num × Obj V Num) := do
  let x ← fixIf lib (isValue x && isValue y) x
  let toScalar1 := (isSpatial y || isNonSpatial y) && isValue x
  let toScalar2 := (isSpatial x || isNonSpatial x) && isValue y
  let y ← toScalarIf lib toScalar2 y x
  let x ← toScalarIf lib toScalar1 x y
  if isValue x || isValue y then .error .other
  else if dtype x = dtype y then .ok (x, y)
  else .error .other

/-! ### Conversions -/

/-- `boolean`: P:608-624 -/
def boolean (lib : Lib V Num) (s : Sched V) (x : Obj V Num) : Except PyErr (Obj V Num) :=
  if dtype x = some .uint8 then .ok x
  else if isSpatial x then do
    let c ← binary lib.toLib s .ne x (.number lib.number0)
    let r ← where3 lib (s.order 1) (s.garbage 1) c (.number lib.number1) (.number lib.number0)
    cast lib (s.order 2) (s.garbage 2) .uint8 r
  else if isNonSpatial x then binary lib.toLib s .ne x (.number lib.number0)
  else if isValue x then do
    let c ← binary lib.toLib s .ne x (.number lib.number0)
    valueToScalar lib .uint8 c
  else .error .other

/-- The conversions to the other value scales: `directional` P:679-689, `ldd` P:824-834, `nominal` P:983-993, `ordinal`
P:1022-1032, `scalar` P:1067-1077. `already` tells whether the object has the value scale already. -/
def convertTo (lib : Lib V Num) (s : Sched V) (t : Ty) (already : Obj V Num → Bool) (x : Obj V Num) :
    Except PyErr (Obj V Num) :=
  if already x then .ok x
  else if isSpatial x || isNonSpatial x then cast lib (s.order 0) (s.garbage 0) t x
  else if isValue x then valueToScalar lib t x
  else .error .other

/-- Whether the object is an array with elements of a certain type: `is_ldd` P:254-258, `is_directional` P:282-286 -/
def isArrayOf (t : Ty) : Obj V Num → Bool
  | .array t' _ => t' = t
  | _ => false

/-- Whether the object is an array or scalar with elements of a certain type: `is_nominal` P:261-265, `is_ordinal`
P:268-272, `is_scalar` P:275-279 -/
def isOf (t : Ty) (x : Obj V Num) : Bool := dtype x = some t

def directional (lib : Lib V Num) (s : Sched V) : Obj V Num → Except PyErr (Obj V Num) :=
  convertTo lib s .float32 (isArrayOf .float32)
def ldd (lib : Lib V Num) (s : Sched V) : Obj V Num → Except PyErr (Obj V Num) :=
  convertTo lib s .uint8 (isArrayOf .uint8)
def nominal (lib : Lib V Num) (s : Sched V) : Obj V Num → Except PyErr (Obj V Num) :=
  convertTo lib s .int32 (isOf .int32)
def ordinal (lib : Lib V Num) (s : Sched V) : Obj V Num → Except PyErr (Obj V Num) :=
  convertTo lib s .int32 (isOf .int32)
def scalar (lib : Lib V Num) (s : Sched V) : Obj V Num → Except PyErr (Obj V Num) :=
  convertTo lib s .float32 (isOf .float32)

/-- `spatial`: P:1094-1098 -/
def spatial (lib : Lib V Num) (cfg : Configuration Num) (x : Obj V Num) : Except PyErr (Obj V Num) :=
  if !isSpatial x then nonSpatialToSpatial lib cfg x else .ok x

/-! ### Conditional operations -/

/-- The condition as an array: P:741-745, 757-761 -/
def spatialCondition (lib : Lib V Num) (cfg : Configuration Num) (condition : Obj V Num) : Except PyErr (Obj V Num) :=
  if !isSpatial condition then do
    let condition ← scalarIfValue lib .uint8 condition
    nonSpatialToSpatial lib cfg condition
  else .ok condition

/-- `ifthen`: P:739-752 -/
def ifthen (lib : Lib V Num) (cfg : Configuration Num) (s : Sched V) (condition x : Obj V Num) :
    Except PyErr (Obj V Num) := do
  let condition ← spatialCondition lib cfg condition
  let x ← fixValue lib x
  where2 lib (s.order 0) (s.garbage 0) condition x

/-- `ifthenelse`: P:755-773 -/
def ifthenelse (lib : Lib V Num) (cfg : Configuration Num) (s : Sched V) (condition x y : Obj V Num) :
    Except PyErr (Obj V Num) := do
  let condition ← spatialCondition lib cfg condition
  let x ← fixValue lib x
  let y ← fixValue lib y
  where3 lib (s.order 0) (s.garbage 0) condition x y

/-- `defined`: P:673-676 -/
def defined (lib : Lib V Num) (s : Sched V) (x : Obj V Num) : Except PyErr (Obj V Num) :=
  valid lib (s.order 0) (s.garbage 0) x

/-- An iteration of the loop of `cover`: P:667-668 -/
def coverStep (lib : Lib V Num) (s : Sched V) (result x : Obj V Num) : Except PyErr (Obj V Num) := do
  let c ← valid lib (s.order 0) (s.garbage 0) result
  where3 lib (s.order 1) (s.garbage 1) c result x

/-- The loop of `cover`. The schedule of the iterations is that at the index. -/
def coverLoop (lib : Lib V Num) (s : Nat → Sched V) : Nat → Obj V Num → List (Obj V Num) → Except PyErr (Obj V Num)
  | _, result, [] => .ok result
  | n, result, x :: xs => do
    let result ← coverStep lib (s n) result x
    coverLoop lib s (n + 1) result xs

/-- `cover`: P:656-670 -/
def cover (lib : Lib V Num) (cfg : Configuration Num) (s : Nat → Sched V) (x y : Obj V Num) (rest : List (Obj V Num)) :
    Except PyErr (Obj V Num) := do
  let (x, y) ← harmonizeTypes lib x y
  let x ← spatialIf lib cfg (isNonSpatial x) x
  if !isSpatial x then .error .other
  else do
    let result ← coverStep lib (s 0) x y
    coverLoop lib s 1 result rest

/-- `max` and `min` with two arguments: P:937-945, 958-966 -/
def select (lib : Lib V Num) (cfg : Configuration Num) (s : Sched V) (op : BinOp) (x y : Obj V Num) :
    Except PyErr (Obj V Num) := do
  let (x, y) ← harmonizeTypes lib x y
  let condition ← binary lib.toLib s op x y
  let condition ← spatialIf lib cfg (isNonSpatial condition) condition
  where3 lib (s.order 2) (s.garbage 2) condition x y

/-- `max` (P:931-945) and `min` (P:952-966): with three or more arguments, the first one is combined with the result for
the other ones. Without arguments, two arguments are missing in the call of `harmonize_types`. -/
def extreme (lib : Lib V Num) (cfg : Configuration Num) (s : Nat → Sched V) (op : BinOp) :
    Nat → List (Obj V Num) → Except PyErr (Obj V Num)
  | _, [] => .error .typeError
  | _, [x] => .ok x
  | n, [x, y] => select lib cfg (s n) op x y
  | n, x :: y :: z :: rest => do
    let r ← extreme lib cfg s op (n + 1) (y :: z :: rest)
    select lib cfg (s n) op x r

/-- `max`: P:931-945 -/
def max (lib : Lib V Num) (cfg : Configuration Num) (s : Nat → Sched V) (args : List (Obj V Num)) :
    Except PyErr (Obj V Num) := extreme lib cfg s .ge 0 args

/-- `min`: P:952-966 -/
def min (lib : Lib V Num) (cfg : Configuration Num) (s : Nat → Sched V) (args : List (Obj V Num)) :
    Except PyErr (Obj V Num) := extreme lib cfg s .le 0 args

/-- The condition of `uniqueid`, P:1251-1255: a non-spatial or value is converted to an array. -/
def uniqueidCondition (lib : Lib V Num) (cfg : Configuration Num) (x : Obj V Num) : Except PyErr (Obj V Num) :=
  if isNonSpatial x || isValue x then do
    let x ← scalarIfValue lib .uint8 x
    nonSpatialToSpatial lib cfg x
  else .ok x

/-- `uniqueid`: P:1249-1257 -/
def uniqueid (lib : Lib V Num) (cfg : Configuration Num) (s : Sched V) (picks : List Nat) (garbage : Nat → Nat)
    (x : Obj V Num) : Except PyErr (Obj V Num) := do
  let x ← uniqueidCondition lib cfg x
  let ids ← uniqueId lib picks (s.order 0) garbage .int32 x
  where3 lib (s.order 1) (s.garbage 1) x ids (.number lib.number0)

/-! ### Coordinates -/

/-- The column or row index of the defined cells, as floating point numbers: P:1332, 1350 -/
def cellIndices (lib : Lib V Num) (cfg : Configuration Num) (s : Sched V) (garbage : Nat → Nat) (dimensionIdx : Nat)
    (x : Obj V Num) : Except PyErr (Obj V Num) := do
  let x ← spatialIf lib cfg (isNonSpatial x || isValue x) x
  let c ← defined lib s x
  let r ← cellIndex lib (s.order 1) garbage dimensionIdx c
  cast lib (s.order 2) (s.garbage 2) .float32 r

/-- The expression returned by `xcoordinate`: P:1328-1335. `half` is the number 0.5. -/
def xExpr (cfg : Configuration Num) (half : Num) (indices : Obj V Num) : Expr V Num :=
  .binary .add
    (.binary .add (.obj (.number cfg.west)) (.binary .mul (.obj (.number half)) (.obj (.number cfg.cellSize))))
    (.binary .mul (.obj indices) (.obj (.number cfg.cellSize)))

/-- `xcoordinate`: P:1323-1335 -/
def xcoordinate (lib : Lib V Num) (cfg : Configuration Num) (half : Num) (s : Sched V) (garbage : Nat → Nat)
    (s' : List Nat → Sched V) (x : Obj V Num) : Except PyErr (Obj V Num) := do
  let indices ← cellIndices lib cfg s garbage 1 x
  eval lib.toLib s' (xExpr cfg half indices)

/-- The expression returned by `ycoordinate`: P:1347-1356. `lastRow` is the number `array_shape[0] - 1`. -/
def yExpr (cfg : Configuration Num) (half lastRow : Num) (indices : Obj V Num) : Expr V Num :=
  .binary .add
    (.binary .add (.obj (.number cfg.south)) (.binary .mul (.obj (.number half)) (.obj (.number cfg.cellSize))))
    (.binary .mul (.binary .add (.unary .neg (.obj indices)) (.obj (.number lastRow))) (.obj (.number cfg.cellSize)))

/-- `ycoordinate`: P:1342-1356 -/
def ycoordinate (lib : Lib V Num) (cfg : Configuration Num) (half lastRow : Num) (s : Sched V) (garbage : Nat → Nat)
    (s' : List Nat → Sched V) (x : Obj V Num) : Except PyErr (Obj V Num) := do
  let indices ← cellIndices lib cfg s garbage 0 x
  eval lib.toLib s' (yExpr cfg half lastRow indices)

/-! ### Windows -/

/-- `translate_window_length`: P:394-417. The assertions are those of P:409-411: an integral, odd and positive number of
cells. Simplification: floating point numbers are those of an ordered field. -/
def translateWindowLength {K : Type} [_root_.Field K] [LinearOrder K] [FloorRing K] (cellSize length : K) : Except PyErr Nat :=
  let windowLength := length / cellSize
  if ((⌊windowLength⌋ : Int) : K) ≠ windowLength then .error .other
  else if ⌊windowLength⌋ % 2 ≠ 1 then .error .other
  else if ¬ 0 < windowLength then .error .other
  else .ok ⌊windowLength⌋.toNat

end Lue.Pcraster

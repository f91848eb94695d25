import Verif.Partitioned.Store

/-!
Model of the local operations. `A` below is `source/framework/algorithm/include/lue/framework/algorithm`.

All definitions take `garbage`, the unspecified initial contents of the output partitions, and the ones for arrays take
`order`, the order in which the tasks for the partitions complete. The offset of the partitions, which is only copied,
and localities are not modelled.
-/
namespace Lue.LocalOp

variable {α β δ γ : Type}

/-- Policies of a unary operation, `A/policy/policies.hpp`, `input_policies.hpp`, `output_policies.hpp`: input no-data
policy, domain policy, range policy, and the value used by the output no-data policy to mark no-data. -/
structure Policies1 (α γ : Type) where
  indp : α → Bool
  dp : α → Bool
  rp : α → γ → Bool
  mark : γ

/-- Policies of a binary operation. -/
structure Policies2 (α β γ : Type) where
  indp1 : α → Bool
  indp2 : β → Bool
  dp : α → β → Bool
  rp : α → β → γ → Bool
  mark : γ

/-- Policies of a ternary operation. The range policy is not used by the code. -/
structure Policies3 (α β δ γ : Type) where
  indp1 : α → Bool
  indp2 : β → Bool
  indp3 : δ → Bool
  dp : α → β → δ → Bool
  mark : γ

/-- The loop marking all elements as no-data, e.g. `A/definition/binary_local_operation.hpp:190-196`. -/
def markAll (mark : γ) (n : Nat) (out : List γ) : M (List γ) := forLoop n (fun i out => wr out i mark) out

/-! ### From partitions to arrays -/

/-- Shared by all overloads with three arrays: compatibility checks and one task per partition, e.g.
`A/definition/ternary_local_operation.hpp` `ternary_local_operation(array, array, array)`,
`A/definition/where.hpp:490-530`. -/
def array3 (op : List α → List β → List δ → M (List γ)) (order : List Nat) (x : PArr α) (y : PArr β) (z : PArr δ) :
    M (PArr γ) := do
  verifyCompatible x y
  verifyCompatible x z
  let parts ← runTasks (x.grid.n0 * x.grid.n1)
    (fun k => do op (← rd x.parts k) (← rd y.parts k) (← rd z.parts k)) order
  .ok ⟨x.grid, parts⟩

/-- Shared by the overloads with two arrays, e.g. `A/definition/binary_local_operation.hpp:394-455`. -/
def array2 (op : List α → List β → M (List γ)) (order : List Nat) (x : PArr α) (y : PArr β) : M (PArr γ) := do
  verifyCompatible x y
  let parts ← runTasks (x.grid.n0 * x.grid.n1) (fun k => do op (← rd x.parts k) (← rd y.parts k)) order
  .ok ⟨x.grid, parts⟩

/-- Shared by the overloads with one array, e.g. `A/definition/unary_local_operation.hpp:86-120`. -/
def array1 (op : List α → M (List γ)) (order : List Nat) (x : PArr α) : M (PArr γ) := do
  let parts ← runTasks (x.grid.n0 * x.grid.n1) (fun k => do op (← rd x.parts k)) order
  .ok ⟨x.grid, parts⟩

/-! ### Unary -/

/-- `A/definition/unary_local_operation.hpp:25-63` -/
def unaryPartition (P : Policies1 α γ) (f : α → γ) (garbage : Nat → γ) (data : List α) : M (List γ) := do
  let n := data.length
  forLoop n (fun i out => do
    let x ← rd data i
    if P.indp x then wr out i P.mark
    else if !P.dp x then wr out i P.mark
    else
      let out ← wr out i (f x)
      if !P.rp x (← rd out i) then wr out i P.mark else .ok out) (uninitialised n garbage)

/-- `A/definition/unary_local_operation.hpp:86-120` -/
def unaryArray (P : Policies1 α γ) (f : α → γ) (garbage : Nat → γ) (order : List Nat) (x : PArr α) : M (PArr γ) :=
  array1 (unaryPartition P f garbage) order x

/-- `A/definition/unary_local_operation.hpp:123-160` -/
def unaryScalar (P : Policies1 α γ) (f : α → γ) (x : α) : γ :=
  if P.indp x || !P.dp x then P.mark
  else
    let r := f x
    if !P.rp x r then P.mark else r

/-! ### Binary -/

/-- `A/definition/binary_local_operation.hpp:60-122` -/
def binaryPartition (P : Policies2 α β γ) (f : α → β → γ) (garbage : Nat → γ) (data1 : List α) (data2 : List β) :
    M (List γ) := do
  let n := data1.length
  forLoop n (fun i out => do
    let x ← rd data1 i
    let y ← rd data2 i
    if P.indp1 x || P.indp2 y then wr out i P.mark
    else if !P.dp x y then wr out i P.mark
    else
      let out ← wr out i (f x y)
      if !P.rp x y (← rd out i) then wr out i P.mark else .ok out) (uninitialised n garbage)

/-- `A/definition/binary_local_operation.hpp:163-230`: array partition and scalar -/
def binaryPartitionAS (P : Policies2 α β γ) (f : α → β → γ) (garbage : Nat → γ) (data : List α) (value : β) :
    M (List γ) := do
  let n := data.length
  if P.indp2 value then markAll P.mark n (uninitialised n garbage)
  else
    forLoop n (fun i out => do
      let x ← rd data i
      if P.indp1 x then wr out i P.mark
      else if !P.dp x value then wr out i P.mark
      else
        let out ← wr out i (f x value)
        if !P.rp x value (← rd out i) then wr out i P.mark else .ok out) (uninitialised n garbage)

/-- `A/definition/binary_local_operation.hpp:272-340`: scalar and array partition -/
def binaryPartitionSA (P : Policies2 α β γ) (f : α → β → γ) (garbage : Nat → γ) (value : α) (data : List β) :
    M (List γ) := do
  let n := data.length
  if P.indp1 value then markAll P.mark n (uninitialised n garbage)
  else
    forLoop n (fun i out => do
      let y ← rd data i
      if P.indp2 y then wr out i P.mark
      else if !P.dp value y then wr out i P.mark
      else
        let out ← wr out i (f value y)
        if !P.rp value y (← rd out i) then wr out i P.mark else .ok out) (uninitialised n garbage)

/-- `A/definition/binary_local_operation.hpp:394-455`: array, array -/
def binaryArray (P : Policies2 α β γ) (f : α → β → γ) (garbage : Nat → γ) (order : List Nat) (x : PArr α)
    (y : PArr β) : M (PArr γ) :=
  array2 (binaryPartition P f garbage) order x y

/-- `A/definition/binary_local_operation.hpp:458-508`: array, scalar -/
def binaryArrayAS (P : Policies2 α β γ) (f : α → β → γ) (garbage : Nat → γ) (order : List Nat) (x : PArr α)
    (value : β) : M (PArr γ) :=
  array1 (fun data => binaryPartitionAS P f garbage data value) order x

/-- `A/definition/binary_local_operation.hpp:511-561`: scalar, array -/
def binaryArraySA (P : Policies2 α β γ) (f : α → β → γ) (garbage : Nat → γ) (order : List Nat) (value : α)
    (y : PArr β) : M (PArr γ) :=
  array1 (fun data => binaryPartitionSA P f garbage value data) order y

/-- `A/definition/binary_local_operation.hpp:564-606`: scalar, scalar -/
def binaryScalar (P : Policies2 α β γ) (f : α → β → γ) (x : α) (y : β) : γ :=
  if (P.indp1 x || P.indp2 y) || !P.dp x y then P.mark
  else
    let r := f x y
    if !P.rp x y r then P.mark else r

/-! ### Ternary -/

/-- `A/definition/ternary_local_operation.hpp:60-125` -/
def ternaryPartition (P : Policies3 α β δ γ) (f : α → β → δ → γ) (garbage : Nat → γ) (data1 : List α)
    (data2 : List β) (data3 : List δ) : M (List γ) := do
  let n := data1.length
  forLoop n (fun i out => do
    let x ← rd data1 i
    let y ← rd data2 i
    let z ← rd data3 i
    if P.indp1 x || P.indp2 y || P.indp3 z then wr out i P.mark
    else if !P.dp x y z then wr out i P.mark
    else wr out i (f x y z)) (uninitialised n garbage)

/-- `A/definition/ternary_local_operation.hpp:170-240`: array, array, scalar. The local named `input_partition` used at
line 187 is not declared; the model uses `input_partition1`, as in the other overloads. -/
def ternaryPartitionAAS (P : Policies3 α β δ γ) (f : α → β → δ → γ) (garbage : Nat → γ) (data1 : List α)
    (data2 : List β) (value : δ) : M (List γ) := do
  let n := data1.length
  if P.indp3 value then markAll P.mark n (uninitialised n garbage)
  else
    forLoop n (fun i out => do
      let x ← rd data1 i
      let y ← rd data2 i
      if P.indp1 x || P.indp2 y then wr out i P.mark
      else if !P.dp x y value then wr out i P.mark
      else wr out i (f x y value)) (uninitialised n garbage)

/-- `A/definition/ternary_local_operation.hpp:290-355`: array, scalar, array -/
def ternaryPartitionASA (P : Policies3 α β δ γ) (f : α → β → δ → γ) (garbage : Nat → γ) (data1 : List α)
    (value : β) (data2 : List δ) : M (List γ) := do
  let n := data1.length
  if P.indp2 value then markAll P.mark n (uninitialised n garbage)
  else
    forLoop n (fun i out => do
      let x ← rd data1 i
      let z ← rd data2 i
      if P.indp1 x || P.indp3 z then wr out i P.mark
      else if !P.dp x value z then wr out i P.mark
      else wr out i (f x value z)) (uninitialised n garbage)

/-- `A/definition/ternary_local_operation.hpp:405-465`: array, scalar, scalar -/
def ternaryPartitionASS (P : Policies3 α β δ γ) (f : α → β → δ → γ) (garbage : Nat → γ) (data : List α)
    (value1 : β) (value2 : δ) : M (List γ) := do
  let n := data.length
  if P.indp2 value1 || P.indp3 value2 then markAll P.mark n (uninitialised n garbage)
  else
    forLoop n (fun i out => do
      let x ← rd data i
      if P.indp1 x then wr out i P.mark
      else if !P.dp x value1 value2 then wr out i P.mark
      else wr out i (f x value1 value2)) (uninitialised n garbage)

/-! ### Where. The condition is `Bool`: in the code any integral value, of which only the truth value is used. -/

/-- `A/definition/where.hpp:60-140`: array, array, array -/
def wherePartition (P : Policies3 α β β β) (truth : α → Bool) (garbage : Nat → β) (condition : List α)
    (trueData falseData : List β) : M (List β) := do
  let n := condition.length
  forLoop n (fun i out => do
    let c ← rd condition i
    if P.indp1 c then wr out i P.mark
    else
      let t ← rd trueData i
      let e ← rd falseData i
      if !P.dp c t e then wr out i P.mark
      else if truth c then
        if P.indp2 t then wr out i P.mark else wr out i t
      else
        if P.indp3 e then wr out i P.mark else wr out i e) (uninitialised n garbage)

/-- `A/definition/where.hpp:165-250`: array, array, scalar -/
def wherePartitionAAS (P : Policies3 α β β β) (truth : α → Bool) (garbage : Nat → β) (condition : List α)
    (trueData : List β) (falseValue : β) : M (List β) := do
  let n := condition.length
  forLoop n (fun i out => do
    let c ← rd condition i
    if P.indp1 c then wr out i P.mark
    else
      let t ← rd trueData i
      if !P.dp c t falseValue then wr out i P.mark
      else if truth c then
        if P.indp2 t then wr out i P.mark else wr out i t
      else
        if P.indp3 falseValue then wr out i P.mark else wr out i falseValue) (uninitialised n garbage)

/-- `A/definition/where.hpp:275-355`: array, scalar, array. The code tests the true value with the policy of the third
argument, and the false values with the policy of the second argument. -/
def wherePartitionASA (P : Policies3 α β β β) (truth : α → Bool) (garbage : Nat → β) (condition : List α)
    (trueValue : β) (falseData : List β) : M (List β) := do
  let n := condition.length
  forLoop n (fun i out => do
    let c ← rd condition i
    if P.indp1 c then wr out i P.mark
    else
      let e ← rd falseData i
      if !P.dp c trueValue e then wr out i P.mark
      else if truth c then
        if P.indp3 trueValue then wr out i P.mark else wr out i trueValue
      else
        if P.indp2 e then wr out i P.mark else wr out i e) (uninitialised n garbage)

/-- `A/definition/where.hpp:380-462`: array, scalar, scalar. Same remark as for the previous overload. -/
def wherePartitionASS (P : Policies3 α β β β) (truth : α → Bool) (garbage : Nat → β) (condition : List α)
    (trueValue falseValue : β) : M (List β) := do
  let n := condition.length
  forLoop n (fun i out => do
    let c ← rd condition i
    if P.indp1 c then wr out i P.mark
    else if !P.dp c trueValue falseValue then wr out i P.mark
    else if truth c then
      if P.indp3 trueValue then wr out i P.mark else wr out i trueValue
    else
      if P.indp2 falseValue then wr out i P.mark else wr out i falseValue) (uninitialised n garbage)

/-- The functor of the two-argument version of where, `A/definition/where.hpp:11-33`. -/
def whereFunctor (_condition : α) (trueValue : β) : β := trueValue

end Lue.LocalOp

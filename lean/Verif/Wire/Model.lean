import Verif.Wire.Codec
import Verif.Memory.ArraySpec

/-!
# What is sent from one process to another

Models the `serialize` functions of the classes whose instances are passed to tasks, or are returned by tasks. `A/` below is
`source/framework/algorithm/include/lue/framework/algorithm`.

Elements are scalars of some number of bytes. Identifiers of components and channels are modelled as scalars of sixteen bytes
(`hpx::id_type`; the management of credits is the task of HPX). A future is written as its value, once it is ready. Objects are read into
default-constructed instances. Template parameters are known at both sides: these are part of the type that is read.

Partition data (`ArrayPartitionData`) is in `Verif.Wire.Data`, where the memory is modelled as well.
-/
namespace Lue.Wire
open Lue.Memory

/-- `hpx::id_type`, clients of components, channels -/
abbrev Id := Word 16

/-- `lue::Index`: `std::ptrdiff_t` -/
abbrev Idx := Word 8

/-! ## Arrays and kernels -/

/-- Contents of a buffer are overwritten: `hpx::serialization::make_array(data, n)`. -/
def overwrite {E : Type} (v : Spec.Val E) (es : List E) : Spec.Val E := { v with buf := es ++ v.buf.drop v.nr }

/-- `lue::Array`: `source/framework/core/include/lue/framework/core/serialize/array.hpp:9-38`. Arrays are modelled as values: C32
(`Verif.Memory`) is about their memory. -/
def array {E : Type} (c : Codec E) (zero : E) (rank : Nat) : Codec (Spec.Val E) where
  put x := (fixed count).put x.shape ++ (x.buf.take x.nr).flatMap c.put
  get d b :=
    ((fixed count).get (List.replicate rank 0) b).bind fun r =>
      (getMany c zero (d.reshape zero r.1).nr r.2).map fun q => (overwrite (d.reshape zero r.1) q.1, q.2)

/-- `lue::Kernel`: `A/kernel.hpp:8-50` -/
structure Kernel (E : Type) where
  weights : Spec.Val E
  radius : Nat

/-- `A/kernel.hpp:92-103`: the constructor taking an array. The array is copied (`core/array.hpp:124-130`). -/
def Kernel.ofArray {E : Type} (zero : E) (v : Spec.Val E) : Kernel E :=
  ⟨⟨v.shape, v.shape.prod, v.elems ++ List.replicate (v.shape.prod - v.nr) zero⟩, (v.shape.headD 0 - 1) / 2⟩

/-- `A/serialize/kernel.hpp:9-31` -/
def kernel {E : Type} (c : Codec E) (zero : E) (rank : Nat) : Codec (Kernel E) where
  put x := (array c zero rank).put x.weights
  get _ b := ((array c zero rank).get (Spec.empty rank) b).map fun r => (Kernel.ofArray zero r.1, r.2)

/-! ## Policies -/

/-- Policies for detecting or marking no-data: `A/policy/skip_no_data.hpp`, `dont_mark_no_data.hpp`, `detect_no_data_by_nan.hpp`,
`mark_no_data_by_nan.hpp`, `detect_no_data_by_value.hpp`, `mark_no_data_by_value.hpp` -/
inductive NoDataPolicy
  | none
  | nan
  | value (size : Nat) (v : Word size)

/-- `A/policy/skip_no_data.hpp:51-55`, `detect_no_data_by_value.hpp:139-145` -/
def noDataPolicy : Codec NoDataPolicy where
  put x :=
    match x with
    | .none => []
    | .nan => []
    | .value n v => (word n).put v
  get d b :=
    match d with
    | .none => some (.none, b)
    | .nan => some (.nan, b)
    | .value n v => ((word n).get v b).map fun r => (.value n r.1, r.2)

/-- Values in the halo: `A/policy/fill_halo_with_constant_value.hpp`, `flow_direction_halo.hpp` -/
inductive HaloPolicy
  | flowDirection
  | constant (size : Nat) (v : Word size)

/-- `A/policy/fill_halo_with_constant_value.hpp:84-88` -/
def haloPolicy : Codec HaloPolicy where
  put x :=
    match x with
    | .flowDirection => []
    | .constant n v => (word n).put v
  get d b :=
    match d with
    | .flowDirection => some (.flowDirection, b)
    | .constant n v => ((word n).get v b).map fun r => (.constant n r.1, r.2)

/-- `A/policy/input_policies.hpp:8-47`: `InputPolicies` -/
structure InputPolicies where
  noData : NoDataPolicy

/-- `A/policy/input_policies.hpp:39-43` -/
def inputPolicies : Codec InputPolicies := members [member noDataPolicy (·.noData) fun x v => { x with noData := v }]

/-- `A/policy/input_policies.hpp:68-125`: `SpatialOperationInputPolicies` -/
structure SpatialInputPolicies extends InputPolicies where
  halo : HaloPolicy

/-- `A/policy/input_policies.hpp:117-122` -/
def spatialInputPolicies : Codec SpatialInputPolicies :=
  members [member inputPolicies (·.toInputPolicies) (fun x v => { x with toInputPolicies := v }),
    member haloPolicy (·.halo) (fun x v => { x with halo := v })]

/-- The policies for an input: for a local operation or for a spatial one -/
inductive InputPolicy
  | local (p : InputPolicies)
  | spatial (p : SpatialInputPolicies)

def inputPolicy : Codec InputPolicy where
  put x :=
    match x with
    | .local p => inputPolicies.put p
    | .spatial p => spatialInputPolicies.put p
  get d b :=
    match d with
    | .local p => (inputPolicies.get p b).map fun r => (.local r.1, r.2)
    | .spatial p => (spatialInputPolicies.get p b).map fun r => (.spatial r.1, r.2)

/-- `A/policy/output_policies.hpp:8-59`. The range policies of the library don't have a state. -/
structure OutputPolicies where
  noData : NoDataPolicy
  range : Unit

/-- `A/policy/output_policies.hpp:49-53` -/
def outputPolicies : Codec OutputPolicies :=
  members [member noDataPolicy (·.noData) (fun x v => { x with noData := v }), member nothing (·.range) (fun x v => { x with range := v })]

/-- `A/policy/policies.hpp:73-130`. `D` is the domain policy, which can be provided by the caller. -/
structure Policies (D : Type) where
  domain : D
  outputs : List OutputPolicies
  inputs : List InputPolicy

/-- `A/policy/policies.hpp:119-123` -/
def policies {D : Type} : Codec (Policies D) :=
  members [member (fixed outputPolicies) (·.outputs) (fun x v => { x with outputs := v }),
    member (fixed inputPolicy) (·.inputs) (fun x v => { x with inputs := v })]

/-! ## Functors -/

/-- `A/close_to.hpp:20-63` -/
structure CloseTo (n : Nat) where
  relative : Word n
  absolute : Word n

/-- `A/close_to.hpp:46-55` -/
def closeTo (n : Nat) : Codec (CloseTo n) :=
  members [member (word n) (·.relative) (fun x v => { x with relative := v }),
    member (word n) (·.absolute) (fun x v => { x with absolute := v })]

/-- `A/definition/downstream_distance.hpp:20-78` -/
structure DownstreamDistance (n : Nat) where
  cellSize : Word n
  cellSizeDiagonal : Word n

/-- `A/definition/downstream_distance.hpp:68-72` -/
def downstreamDistance (n : Nat) : Codec (DownstreamDistance n) :=
  members [member (word n) (·.cellSize) (fun x v => { x with cellSize := v }),
    member (word n) (·.cellSizeDiagonal) (fun x v => { x with cellSizeDiagonal := v })]

/-- `A/definition/partial_accu.hpp:220-264` -/
structure PartialAccu where
  nrSteps : Idx

/-- `A/definition/partial_accu.hpp:255-261` -/
def partialAccu : Codec PartialAccu := members [member (word 8) (·.nrSteps) fun x v => { x with nrSteps := v }]

/-- `A/partition_count_unique.hpp:13-58` -/
structure CountUnique (n : Nat) where
  values : List (Word n)

/-- `A/partition_count_unique.hpp:42-55`. The assertions in these functions are that there are no values yet. -/
def countUnique (n : Nat) : Codec (CountUnique n) :=
  members [member (set (word n) ⟨0, Nat.pow_pos (by decide)⟩) (·.values) fun x v => { x with values := v }]

/-- `A/scalar.hpp`: the future is written as its value. -/
structure Scalar (n : Nat) where
  value : Word n

/-- `A/scalar.hpp:180-186` -/
def scalar (n : Nat) : Codec (Scalar n) := members [member (word n) (·.value) fun x v => { x with value := v }]

/-! ## Results per zone -/

/-- A default-constructed scalar -/
def zero (n : Nat) : Word n := ⟨0, Nat.pow_pos (by decide)⟩

/-- `A/definition/zonal_minimum.hpp:72-79`, `zonal_maximum.hpp:72-79`, `zonal_sum.hpp:77-84`: a value per zone -/
structure ZonalValue (z n : Nat) where
  byZone : AMap (Word z) (Word n)

def zonalValue (z n : Nat) : Codec (ZonalValue z n) :=
  members [member (map (word z) (word n) (zero z) (zero n)) (·.byZone) fun x v => { x with byZone := v }]

/-- `A/definition/zonal_mean.hpp:97-104`: the sum and the number of values per zone -/
structure ZonalMean (z n : Nat) where
  byZone : AMap (Word z) (Word n × Idx)

def zonalMean (z n : Nat) : Codec (ZonalMean z n) :=
  members [member (map (word z) (pair (word n) (word 8)) (zero z) (zero n, zero 8)) (·.byZone) fun x v => { x with byZone := v }]

/-- `A/definition/zonal_diversity.hpp:79-86`: the values per zone -/
structure ZonalDiversity (z n : Nat) where
  byZone : AMap (Word z) (List (Word n))

def zonalDiversity (z n : Nat) : Codec (ZonalDiversity z n) :=
  members [member (map (word z) (set (word n) (zero n)) (zero z) []) (·.byZone) fun x v => { x with byZone := v }]

/-- `A/definition/zonal_majority.hpp:134-141`: the number of occurrences of values, per zone -/
structure ZonalMajority (z n : Nat) where
  byZone : AMap (Word z) (AMap (Word n) Idx)

def zonalMajority (z n : Nat) : Codec (ZonalMajority z n) :=
  members [member (map (word z) (map (word n) (word 8) (zero n) (zero 8)) (zero z) []) (·.byZone) fun x v => { x with byZone := v }]

/-! ## Routing -/

/-- `A/definition/accumulating_router.hpp:298-344`: material for a cell in another partition -/
structure Material (n : Nat) where
  cellIdx : Idx
  value : Word n

/-- `A/definition/accumulating_router.hpp:334-338` -/
def material (n : Nat) : Codec (Material n) :=
  members [member (word 8) (·.cellIdx) (fun x v => { x with cellIdx := v }),
    member (word n) (·.value) (fun x v => { x with value := v })]

/-- `A/detail/communicator.hpp:413-421`. The channels are arrays of eight channels. -/
structure Communicator where
  shape : List Idx
  idxs : List Idx
  idx : Idx
  send : List Id
  receive : List Id

/-- `A/detail/communicator.hpp:304-308` -/
def communicator : Codec Communicator :=
  members [member (fixed (word 8)) (·.shape) (fun x v => { x with shape := v }),
    member (fixed (word 8)) (·.idxs) (fun x v => { x with idxs := v }),
    member (word 8) (·.idx) (fun x v => { x with idx := v }),
    member (fixed (word 16)) (·.send) (fun x v => { x with send := v }),
    member (fixed (word 16)) (·.receive) (fun x v => { x with receive := v })]

/-- `A/detail/array_partition_io.hpp:616-624`, for arrays of rank 2. `Offset` consists of integers of one byte. -/
structure PartitionIO (n : Nat) where
  shape : Idx × Idx
  inputs : List (Idx × Idx)
  offsets : AMap (Idx × Idx) (Word 1 × Word 1)
  values : AMap (Idx × Idx) (Word n)

/-- `A/detail/array_partition_io.hpp:426-441`, `A/component/server/array_partition_io.hpp:131-137` -/
def partitionIO (n : Nat) : Codec (PartitionIO n) :=
  members [member (pair (word 8) (word 8)) (·.shape) (fun x v => { x with shape := v }),
    member (vector (pair (word 8) (word 8)) (zero 8, zero 8)) (·.inputs) (fun x v => { x with inputs := v }),
    member (map (pair (word 8) (word 8)) (pair (word 1) (word 1)) (zero 8, zero 8) (zero 1, zero 1)) (·.offsets)
      (fun x v => { x with offsets := v }),
    member (map (pair (word 8) (word 8)) (word n) (zero 8, zero 8) (zero n)) (·.values) (fun x v => { x with values := v })]

/-- `source/framework/partitioned_route/include/lue/framework/partitioned_route/serial_route_fragment.hpp:119-125` -/
structure Fragment where
  idxs : List Idx
  next : Option Id

/-- `source/framework/partitioned_route/include/lue/framework/partitioned_route/serialize/serial_route_fragment.hpp:9-66` -/
def fragment : Codec Fragment where
  put x :=
    (vector (word 8) (zero 8)).put x.idxs ++
      match x.next with
      | none => boolean.put true
      | some l => boolean.put false ++ (word 16).put l
  get _ b :=
    ((vector (word 8) (zero 8)).get [] b).bind fun r =>
      (boolean.get false r.2).bind fun q =>
        if q.1 then some (⟨r.1, none⟩, q.2)
        else ((word 16).get (zero 16) q.2).map fun l => (⟨r.1, some l.1⟩, l.2)

/-- `A/routing/walk/cell_counter.hpp:10-39` -/
structure CellCounter where
  visited : Idx
  limit : Idx

/-- `A/routing/walk/cell_counter.hpp:26-32` -/
def cellCounter : Codec CellCounter :=
  members [member (word 8) (·.visited) (fun x v => { x with visited := v }),
    member (word 8) (·.limit) (fun x v => { x with limit := v })]

/-- `A/routing/walk/accumulator.hpp:9-39` -/
structure Accumulator (z n : Nat) where
  values : AMap (Word z) (Word n)

/-- `A/routing/walk/accumulator.hpp:28-34` -/
def accumulator (z n : Nat) : Codec (Accumulator z n) :=
  members [member (map (word z) (word n) (zero z) (zero n)) (·.values) fun x v => { x with values := v }]

/-- `source/framework/image_land/include/lue/framework/algorithm/definition/integrate.hpp:21-52` -/
structure Integrate (z n : Nat) where
  counter : CellCounter
  accumulator : Accumulator z n

/-- `.../definition/integrate.hpp:46-51` -/
def integrate (z n : Nat) : Codec (Integrate z n) :=
  members [member cellCounter (·.counter) (fun x v => { x with counter := v }),
    member (accumulator z n) (·.accumulator) (fun x v => { x with accumulator := v })]

/-- `source/framework/image_land/include/lue/framework/algorithm/definition/integrate_and_allocate.hpp:62-215` -/
structure Allocate (z n : Nat) where
  demand : AMap (Word z) (List (Word n))
  production : AMap (Word z) (List (Word n))
  demandMet : AMap (Word z) (List Bool)

/-- `.../definition/integrate_and_allocate.hpp:202-208` -/
def allocate (z n : Nat) : Codec (Allocate z n) :=
  members [member (map (word z) (vector (word n) (zero n)) (zero z) []) (·.demand) (fun x v => { x with demand := v }),
    member (map (word z) (vector (word n) (zero n)) (zero z) []) (·.production) (fun x v => { x with production := v }),
    member (map (word z) (vector boolean false) (zero z) []) (·.demandMet) (fun x v => { x with demandMet := v })]

/-! ## Clumps -/

/-- Partition data as a value: the shape and the elements. See `Verif.Wire.Data`. -/
structure DataValue (n : Nat) where
  shape : Nat × Nat
  elems : List (Word n)

/-- What is written for partition data of rank 2: `Verif.Wire.Data.save`. -/
def dataValue (n : Nat) : Codec (DataValue n) :=
  members [member (pair count count) (·.shape) (fun x v => { x with shape := v }),
    member (vector (word n) (zero n)) (·.elems) (fun x v => { x with elems := v })]

/-- `A/definition/clump.hpp:569-794`: `LocalResult`. Both arrays of sides contain two arrays with the data of two sides. -/
structure ClumpResult (n : Nat) where
  partition : Id
  zoneSides : List (List (DataValue n))
  clumpSides : List (List (DataValue n))
  lut : AMap (Word n) (Word n)

/-- `A/definition/clump.hpp:773-784` -/
def clumpResult (n : Nat) : Codec (ClumpResult n) :=
  members [member (word 16) (·.partition) (fun x v => { x with partition := v }),
    member (fixed (fixed (dataValue n))) (·.zoneSides) (fun x v => { x with zoneSides := v }),
    member (fixed (fixed (dataValue n))) (·.clumpSides) (fun x v => { x with clumpSides := v }),
    member (map (word n) (word n) (zero n) (zero n)) (·.lut) (fun x v => { x with lut := v })]

end Lue.Wire

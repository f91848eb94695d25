import Verif.Localities.Hilbert

/-
Model of assigning partitions to localities.
-/
namespace Lue.Localities

/-- `source/framework/core/include/lue/framework/core/math.hpp:125-159` `map_to_range`. Simplification: the
double precision computation `floor(output_range / input_range * (from_value - from_min))` is done exactly. -/
def mapToRange (fromMin fromMax toMin toMax fromValue : Nat) : Nat :=
  if fromMin < fromMax then
    let inputRange := (fromMax - fromMin) + 1
    let outputRange := (toMax - toMin) + 1
    toMin + outputRange * (fromValue - fromMin) / inputRange
  else
    toMin

/-- `source/framework/algorithm/include/lue/framework/algorithm/create_partitioned_array.hpp:19-47`
`LocalityIdxByPartitionIdx` -/
def localityIdx (nrPartitions nrLocalities partitionIdx : Nat) : Nat :=
  mapToRange 0 (nrPartitions - 1) 0 (nrLocalities - 1) partitionIdx

/-- State of `InstantiatePartitions`, `create_partitioned_array.hpp:391-397`; `requests` are the calls to
`_partition_creator.instantiate` done until now (357-362): a locality and the partitions to create on it. -/
structure Instantiator (Cell : Type) where
  current : Nat
  cached : List Cell
  requests : List (Nat × List Cell)

/-- `create_partitioned_array.hpp:283-316` `InstantiatePartitions::operator()`; `loc` maps the index along the
curve to a locality, `n` is the number of partitions. Of the information about a partition that is cached (offset, shape, indices) only
the indices are modelled, the others are functions of these. -/
def Instantiator.visit {Cell : Type} (loc : Nat → Nat) (n : Nat) (s : Instantiator Cell) (k : Nat) (cell : Cell) :
    Instantiator Cell :=
  let s := if k = 0 then { s with current := loc k, cached := [] } else s
  let s := if loc k = s.current then { s with cached := s.cached ++ [cell] }
    else { current := loc k, cached := [cell], requests := s.requests ++ [(s.current, s.cached)] }
  if k = n - 1 then { s with requests := s.requests ++ [(s.current, s.cached)] } else s

/-- Visiting the partitions along the curve, starting at index `k`. -/
def Instantiator.run {Cell : Type} (loc : Nat → Nat) (n : Nat) : Instantiator Cell → Nat → List Cell →
    Instantiator Cell
  | s, _, [] => s
  | s, k, cell :: cells => Instantiator.run loc n (s.visit loc n k cell) (k + 1) cells

/-- `create_partitioned_array.hpp:445-537` `instantiate_partitions`, for functors which instantiate all partitions of a
locality in one go: the requests done. `curve` are the partitions in the order in which the curve visits them.
Throws when there are fewer partitions than localities (482-489). -/
def instantiatePartitions {Cell : Type} (nrLocalities : Nat) (curve : List Cell) :
    Except String (List (Nat × List Cell)) :=
  if curve.length < nrLocalities then
    .error "Not enough partitions to use all localities"
  else
    .ok (Instantiator.run (localityIdx curve.length nrLocalities) curve.length ⟨0, [], []⟩ 0 curve).requests

end Lue.Localities

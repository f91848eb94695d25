import Verif.Accu.Model

/-!
C67: the classes of cells, given their position in the network of streams and in the partitions.
`A` below is `source/framework/algorithm/include/lue/framework/algorithm`.
-/
namespace Lue.AccuInfo

open Lue.Routing Lue.InflowCount Lue.Router

/-! `A/accu_info.hpp:24-65` -/

/-- Cells without upstream neighbours -/
def ridgeCell : Nat := 11

def intraPartitionStreamCell : Nat := 12

def partitionOutputCell : Nat := 13

def partitionInputCell : Nat := 14

def partitionInputOutputCell : Nat := 15

def interPartitionStreamCell : Nat := 16

def sinkCell : Nat := 17

def confluenceCell : Nat := 18

/-- What marks no-data in arrays of unsigned integers:
`source/framework/algorithm/include/lue/framework/algorithm/policy/default_value_policies.hpp`. With the default policies,
nothing is marked and nothing is no-data. -/
def noData : Nat := 255

/-- `A/definition/accu_info.hpp:100-124` (leave_cell) -/
def infoLeaveCell (upstream downstream : Nat) : Nat :=
  if downstream ≠ noData then
    if upstream = noData then noData else upstream
  else downstream

/-- `A/definition/accu_info.hpp:79-93` (leave_inter_partition_stream) -/
def infoLeaveInter (s : Nat) : Nat := if s ≠ partitionOutputCell then partitionInputCell else partitionInputOutputCell

/-- `A/definition/accu_info.hpp:26-160` (CellAccumulator) -/
def infoCells : CellAccumulator Nat Nat where
  init := 0
  enterInter := fun _ _ => interPartitionStreamCell
  enterCell := fun _ _ s => .ok s
  leaveCell := infoLeaveCell
  outflow := id
  markNoData := fun _ => noData
  enterIntra := fun _ => intraPartitionStreamCell
  leaveIntra := fun _ => ridgeCell
  leaveInter := infoLeaveInter
  stopSink := fun _ => sinkCell
  stopConfluence := fun _ => confluenceCell
  stopOutput := fun _ => partitionOutputCell

/-- `y` is a possible outcome of `accu_info(flow_direction)`: `A/definition/accu_info.hpp:188-196` -/
def InfoYields (isNoData : Nat → Bool) (fd : PArr Nat) (y : PArr Nat) : Prop := Accu.Routed infoCells isNoData fd y

end Lue.AccuInfo

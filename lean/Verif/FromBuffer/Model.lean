/-
Model of creating a partition from (a part of) a buffer.
-/
namespace Lue.FromBuffer

/-- `std::copy_n(source, n, destination)`: reading `n` consecutive elements starting at `source`. `none` is
undefined behaviour: an element outside of the buffer is read. -/
def readN {α : Type} (buffer : List α) (source n : Nat) : Option (List α) :=
  (List.range n).mapM fun i => buffer[source + i]?

/-- Marking of no-data, `source/framework/algorithm/include/lue/framework/algorithm/create_partitioned_array.hpp:817-827`;
`mark` is the value written by the output no-data policy. -/
def markNoData {α : Type} [DecidableEq α] (noDataValue : Option α) (mark : α) (x : α) : α :=
  if noDataValue = some x then mark else x

/-- The loop over the rows, `create_partitioned_array.hpp:810-830`. `stride` is `array_shape[1]`. -/
def copyRows {α : Type} [DecidableEq α] (buffer : List α) (stride cols : Nat) (noDataValue : Option α) (mark : α) :
    Nat → Nat → Option (List (List α))
  | 0, _ => some []
  | rows + 1, source => do
    let row ← readN buffer source cols
    let rest ← copyRows buffer stride cols noDataValue mark rows (source + stride)
    some (row.map (markNoData noDataValue mark) :: rest)

/-- `create_partitioned_array.hpp:766-836` `InstantiateFromBuffer::instantiate`: the elements of the partition with
the given offset and shape, as a list of rows. -/
def instantiate {α : Type} [DecidableEq α] (buffer : List α) (arrayShape1 : Nat) (offset0 offset1 : Nat)
    (rows cols : Nat) (noDataValue : Option α) (mark : α) : Option (List (List α)) :=
  copyRows buffer arrayShape1 cols noDataValue mark rows (offset0 * arrayShape1 + offset1)

end Lue.FromBuffer

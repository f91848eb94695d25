import Verif.LocalOp.Model

/-!
C13: downscale.
`A` below is `source/framework/algorithm/include/lue/framework/algorithm`.
-/
namespace Lue.Resample

variable {α : Type}

/-- `A/detail/resample.hpp:19-49` (target_idx_to_source_idx), the conversion along one dimension. The division is done
with doubles in the code; this is exact for partition indices below 2^53. -/
def targetToSource (idx count sourceExtent : Nat) : Nat := min (idx / count) (sourceExtent - 1)

/-- `A/definition/resample.hpp:229-252`: the offset of the source area in the source partition, along one dimension. -/
def sourceAreaOffset (targetOffset count partitionExtent targetExtent : Nat) : Nat :=
  let offset := targetOffset / count % partitionExtent
  if targetExtent ≠ partitionExtent ∧ offset = 0 then partitionExtent else offset

/-- `A/definition/resample.hpp:125-147`: assign a value to the cells in a block of the target partition. -/
def copyBlock (value : α) (nrTarget1 target0 target1 nrCopies0 nrCopies1 : Nat) (out : List α) : M (List α) :=
  forLoop nrCopies0 (fun idx0 out => forLoop nrCopies1 (fun idx1 out =>
    wr out ((target0 + idx0) * nrTarget1 + (target1 + idx1)) value) out) out

/-- `A/definition/resample.hpp:106-158`: fill a target partition. `source1` is the second extent of the source
partition. The state of the loops is (source idx, target idx, number of copies to make, output). -/
def assignPartition (isNoData : α → Bool) (mark : α) (garbage : Nat → α) (source : List α) (source1 : Nat)
    (areaOffset0 areaOffset1 count targetOffset0 targetOffset1 nrTarget0 nrTarget1 : Nat) : M (List α) := do
  let remaining0 := targetOffset0 % count
  let remaining1 := targetOffset1 % count
  let s ← whileLoop (nrTarget0 + 1) (fun s : Nat × Nat × Nat × List α => decide (s.2.1 < nrTarget0))
    (fun s : Nat × Nat × Nat × List α => do
      let (sourceIdx0, targetIdx0, nrCopies0, out) := s
      let nrCopies0 := min nrCopies0 (nrTarget0 - targetIdx0)
      let s1 ← whileLoop (nrTarget1 + 1) (fun s : Nat × Nat × Nat × List α => decide (s.2.1 < nrTarget1))
        (fun s : Nat × Nat × Nat × List α => do
          let (sourceIdx1, targetIdx1, nrCopies1, out) := s
          let nrCopies1 := min nrCopies1 (nrTarget1 - targetIdx1)
          let x ← rd source (sourceIdx0 * source1 + sourceIdx1)
          let out ← copyBlock (if isNoData x then mark else x) nrTarget1 targetIdx0 targetIdx1 nrCopies0 nrCopies1 out
          return (sourceIdx1 + 1, targetIdx1 + nrCopies1, count, out))
        (areaOffset1, 0, count - remaining1, out)
      return (sourceIdx0 + 1, targetIdx0 + nrCopies0, count, s1.2.2.2))
    (areaOffset0, 0, count - remaining0, uninitialised (nrTarget0 * nrTarget1) garbage)
  return s.2.2.2

/-- `A/copy.hpp:20-60` -/
def copyPartition (isNoData : α → Bool) (mark : α) (garbage : Nat → α) (data : List α) : M (List α) :=
  forLoop data.length (fun i out => do
    let x ← rd data i
    if isNoData x then wr out i mark else wr out i x) (uninitialised data.length garbage)

/-- The grid of the array returned by downscale: `A/definition/resample.hpp:307-325`. -/
def targetGrid (g : Grid) (count : Nat) : Grid := ⟨count * g.a0, count * g.a1, g.rows 0, g.cols 0⟩

/-- `A/definition/resample.hpp:202-270` and `277-326` (downscale with strategy assign). The second extent of a source
partition follows from its position. -/
def downscale (isNoData : α → Bool) (mark : α) (garbage : Nat → α) (order : List Nat) (x : PArr α) (count : Nat) :
    M (PArr α) := do
  if count = 0 then throw .thrown
  if count = 1 then
    return ← LocalOp.array1 (copyPartition isNoData mark garbage) order x
  let g := x.grid
  let t := targetGrid g count
  let parts ← runTasks (t.n0 * t.n1) (fun k => do
    let k0 := k / t.n1
    let k1 := k % t.n1
    let s0 := targetToSource k0 count g.n0
    let s1 := targetToSource k1 count g.n1
    let source ← rd x.parts (s0 * g.n1 + s1)
    let offset0 := k0 * t.p0
    let offset1 := k1 * t.p1
    assignPartition isNoData mark garbage source (g.cols s1)
      (sourceAreaOffset offset0 count t.p0 (t.rows k0)) (sourceAreaOffset offset1 count t.p1 (t.cols k1))
      count offset0 offset1 (t.rows k0) (t.cols k1)) order
  return ⟨t, parts⟩

end Lue.Resample

import Verif.Partitioned.Store

/-!
C12: cell_index.
`A` below is `source/framework/algorithm/include/lue/framework/algorithm`.
-/
namespace Lue.CellIndex

variable {α : Type}

/-- `A/definition/cell_index.hpp:41-106`: the task for one partition of shape `shape0` × `shape1`. Returns the elements
and the count. `isZero x` is `x == 0`. The mark, the indices and the garbage are integers. -/
def cellIndexPartition (isNoData isZero : α → Bool) (mark : Nat) (garbage : Nat → Nat) (shape0 shape1 : Nat)
    (data : List α) (dimensionIdx partitionIdx partitionExtent : Nat) : M (List Nat × Nat) := do
  let idxOffset := partitionIdx * partitionExtent
  let indexData := uninitialised data.length garbage
  if dimensionIdx = 0 then
    let r ← forLoop shape0 (fun idx0 s => forLoop shape1 (fun _idx1 (s : List Nat × Nat) => do
      let x ← rd data s.2
      if isNoData x || isZero x then
        return (← wr s.1 s.2 mark, s.2 + 1)
      else if !isZero x then
        return (← wr s.1 s.2 (idxOffset + idx0), s.2 + 1)
      else
        return (s.1, s.2 + 1)) s) (indexData, 0)
    return (r.1, shape1)
  else if dimensionIdx = 1 then
    let r ← forLoop shape0 (fun _idx0 s => forLoop shape1 (fun idx1 (s : List Nat × Nat) => do
      let x ← rd data s.2
      if isNoData x || isZero x then
        return (← wr s.1 s.2 mark, s.2 + 1)
      else
        return (← wr s.1 s.2 (idxOffset + idx1), s.2 + 1)) s) (indexData, 0)
    return (r.1, shape0)
  else
    return (indexData, 0)

/-- `A/definition/cell_index.hpp:132-257`. The partitions first along the dimension are passed an extent of zero. The
other ones are passed the (future to) the count returned by the task of the first partition. -/
def cellIndex (isNoData isZero : α → Bool) (mark : Nat) (garbage : Nat → Nat) (order : List Nat)
    (x : PArr α) (dimensionIdx : Nat) : M (PArr Nat) := do
  let g := x.grid
  let n1 := g.n1
  let first ← cellIndexPartition isNoData isZero mark garbage (g.rows 0) (g.cols 0) (← rd x.parts 0) dimensionIdx 0 0
  let parts ← runTasks (g.n0 * n1) (fun k => do
    let k0 := k / n1
    let k1 := k % n1
    let partitionIdx := if dimensionIdx = 0 then k0 else k1
    let extent := if partitionIdx = 0 then 0 else first.2
    let r ← cellIndexPartition isNoData isZero mark garbage (g.rows k0) (g.cols k1) (← rd x.parts k) dimensionIdx
      partitionIdx extent
    return r.1) order
  return ⟨g, parts⟩

end Lue.CellIndex

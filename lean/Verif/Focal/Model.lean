import Verif.Partitioned.Store

/-!
C14: focal operations.
`A` below is `source/framework/algorithm/include/lue/framework/algorithm`.
-/
namespace Lue.Focal

variable {α β γ : Type}

/-- A 2D array of elements in row-major order: partition data, collection of partitions. -/
structure Blk (α : Type) where
  e0 : Nat
  e1 : Nat
  data : List α

/-- Element access: `operator()(idx0, idx1)`. Accesses outside of the shape are errors (`array.hpp` and the spans do not
check this in release builds). -/
def Blk.get (b : Blk α) (i j : Nat) : M α :=
  if i < b.e0 ∧ j < b.e1 then rd b.data (i * b.e1 + j) else .error .outOfBounds

/-- A partition filled with a value. `A/detail/halo_partition.hpp:13-85`. -/
def Blk.const (e0 e1 : Nat) (x : α) : Blk α := ⟨e0, e1, List.replicate (e0 * e1) x⟩

/-- Values of the cells surrounding the array: `halo_policy()`; `A/policy/fill_halo_with_constant_value.hpp`,
`A/policy/flow_direction_halo.hpp`. -/
structure Halo (α : Type) where
  nw : α
  n : α
  ne : α
  w : α
  e : α
  sw : α
  s : α
  se : α

/-- The partitions of an array, with their shapes. -/
def partitions (x : PArr α) : Blk (Blk α) :=
  ⟨x.grid.n0, x.grid.n1, x.parts.mapIdx fun k p => ⟨x.grid.rows (k / x.grid.n1), x.grid.cols (k % x.grid.n1), p⟩⟩

/-- `A/detail/halo_partition.hpp:114-240`: halo partitions for the corners, the north and south sides, and the west and
east sides. The extents of these are those of the adjacent partitions. -/
def haloCorner (h : Halo α) (r : Nat) : Blk (Blk α) :=
  ⟨2, 2, [.const r r h.nw, .const r r h.ne, .const r r h.sw, .const r r h.se]⟩

def haloLongitudinal (h : Halo α) (r : Nat) (g : Grid) : Blk (Blk α) :=
  ⟨2, g.n1, (List.range g.n1).map (fun cp => .const r (g.cols cp) h.n) ++
    (List.range g.n1).map (fun cp => .const r (g.cols cp) h.s)⟩

def haloLatitudinal (h : Halo α) (r : Nat) (g : Grid) : Blk (Blk α) :=
  ⟨g.n0, 2, (List.range g.n0).flatMap fun rp => [.const (g.rows rp) r h.w, .const (g.rows rp) r h.e]⟩

/-- A 3 × 3 collection of partitions. -/
def collect33 (l : List (M (Blk α))) : M (Blk (Blk α)) := do
  let data ← l.mapM id
  return ⟨3, 3, data⟩

section neighbourhoods

variable (p corner long lat : Blk (Blk α))

/-- `A/detail/halo_partition.hpp:310-349` -/
def northWestCorner : M (Blk (Blk α)) := collect33 [
  corner.get 0 0, long.get 0 0, if p.e1 = 1 then corner.get 0 1 else long.get 0 1,
  lat.get 0 0, p.get 0 0, if p.e1 = 1 then lat.get 0 1 else p.get 0 1,
  if p.e0 = 1 then corner.get 1 0 else lat.get 1 0,
  if p.e0 = 1 then long.get 1 0 else p.get 1 0,
  if p.e0 = 1 then (if p.e1 = 1 then corner.get 1 1 else long.get 1 1)
  else (if p.e1 = 1 then lat.get 1 1 else p.get 1 1)]

/-- `A/detail/halo_partition.hpp:364-411` -/
def northEastCorner : M (Blk (Blk α)) := collect33 ([
  long.get 0 (p.e1 - 2), long.get 0 (p.e1 - 1), corner.get 0 1,
  p.get 0 (p.e1 - 2), p.get 0 (p.e1 - 1), lat.get 0 1] ++
  if p.e0 = 1 then [long.get 1 (p.e1 - 2), long.get 1 (p.e1 - 1), corner.get 1 1]
  else [p.get 1 (p.e1 - 2), p.get 1 (p.e1 - 1), lat.get 1 1])

/-- `A/detail/halo_partition.hpp:426-462` -/
def southWestCorner : M (Blk (Blk α)) := collect33 [
  lat.get (p.e0 - 2) 0, p.get (p.e0 - 2) 0, if p.e1 = 1 then lat.get (p.e0 - 2) 1 else p.get (p.e0 - 2) 1,
  lat.get (p.e0 - 1) 0, p.get (p.e0 - 1) 0, if p.e1 = 1 then lat.get (p.e0 - 1) 1 else p.get (p.e0 - 1) 1,
  corner.get 1 0, long.get 1 0, if p.e1 = 1 then corner.get 1 1 else long.get 1 1]

/-- `A/detail/halo_partition.hpp:477-504` -/
def southEastCorner : M (Blk (Blk α)) := collect33 [
  p.get (p.e0 - 2) (p.e1 - 2), p.get (p.e0 - 2) (p.e1 - 1), lat.get (p.e0 - 2) 1,
  p.get (p.e0 - 1) (p.e1 - 2), p.get (p.e0 - 1) (p.e1 - 1), lat.get (p.e0 - 1) 1,
  long.get 1 (p.e1 - 2), long.get 1 (p.e1 - 1), corner.get 1 1]

/-- `A/detail/halo_partition.hpp:519-564` -/
def northSide (c : Nat) : M (Blk (Blk α)) := collect33 ([
  long.get 0 (c - 1), long.get 0 c, long.get 0 (c + 1),
  p.get 0 (c - 1), p.get 0 c, p.get 0 (c + 1)] ++
  if p.e0 = 1 then [long.get 1 (c - 1), long.get 1 c, long.get 1 (c + 1)]
  else [p.get 1 (c - 1), p.get 1 c, p.get 1 (c + 1)])

/-- `A/detail/halo_partition.hpp:580-608` -/
def southSide (c : Nat) : M (Blk (Blk α)) := collect33 [
  p.get (p.e0 - 2) (c - 1), p.get (p.e0 - 2) c, p.get (p.e0 - 2) (c + 1),
  p.get (p.e0 - 1) (c - 1), p.get (p.e0 - 1) c, p.get (p.e0 - 1) (c + 1),
  long.get 1 (c - 1), long.get 1 c, long.get 1 (c + 1)]

/-- `A/detail/halo_partition.hpp:624-660` -/
def westSide (r : Nat) : M (Blk (Blk α)) := collect33 [
  lat.get (r - 1) 0, p.get (r - 1) 0, if p.e1 = 1 then lat.get (r - 1) 1 else p.get (r - 1) 1,
  lat.get r 0, p.get r 0, if p.e1 = 1 then lat.get r 1 else p.get r 1,
  lat.get (r + 1) 0, p.get (r + 1) 0, if p.e1 = 1 then lat.get (r + 1) 1 else p.get (r + 1) 1]

/-- `A/detail/halo_partition.hpp:676-704` -/
def eastSide (r : Nat) : M (Blk (Blk α)) := collect33 [
  p.get (r - 1) (p.e1 - 2), p.get (r - 1) (p.e1 - 1), lat.get (r - 1) 1,
  p.get r (p.e1 - 2), p.get r (p.e1 - 1), lat.get r 1,
  p.get (r + 1) (p.e1 - 2), p.get (r + 1) (p.e1 - 1), lat.get (r + 1) 1]

/-- `A/detail/halo_partition.hpp:720-752` -/
def inner (r c : Nat) : M (Blk (Blk α)) := collect33 [
  p.get (r - 1) (c - 1), p.get (r - 1) c, p.get (r - 1) (c + 1),
  p.get r (c - 1), p.get r c, p.get r (c + 1),
  p.get (r + 1) (c - 1), p.get (r + 1) c, p.get (r + 1) (c + 1)]

end neighbourhoods

/-- The kinds of neighbourhoods of partitions. -/
inductive Kind where
  | nwCorner | neCorner | swCorner | seCorner
  | nSide | sSide | wSide | eSide
  | inner
  deriving DecidableEq, Repr

/-- The neighbourhood of a partition: for each input array, the members of `WrappedPartitionedArray`,
`A/definition/focal_operation.hpp:1640-1740`. -/
def neighbourhood (h : Halo α) (r : Nat) (x : PArr α) (kind : Kind) (k0 k1 : Nat) : M (Blk (Blk α)) :=
  let p := partitions x
  let corner := haloCorner h r
  let long := haloLongitudinal h r x.grid
  let lat := haloLatitudinal h r x.grid
  match kind with
  | .nwCorner => northWestCorner p corner long lat
  | .neCorner => northEastCorner p corner long lat
  | .swCorner => southWestCorner p corner long lat
  | .seCorner => southEastCorner p corner long lat
  | .nSide => northSide p long k1
  | .sSide => southSide p long k1
  | .wSide => westSide p lat k0
  | .eSide => eastSide p lat k0
  | .inner => inner p k0 k1

/-- `A/definition/focal_operation.hpp:1880-1996`: the tasks spawned, in order: for which output partition, and using
which neighbourhood. -/
def launches (n0 n1 : Nat) : List (Nat × Nat × Kind) :=
  [(0, 0, .nwCorner)] ++
  (if n1 > 1 then [(0, n1 - 1, .neCorner)] else []) ++
  (if n0 > 1 then [(n0 - 1, 0, .swCorner)] else []) ++
  (if n0 > 1 ∧ n1 > 1 then [(n0 - 1, n1 - 1, .seCorner)] else []) ++
  (List.range (n1 - 2)).map (fun t => (0, 1 + t, .nSide)) ++
  (if n0 > 1 then (List.range (n1 - 2)).map (fun t => (n0 - 1, 1 + t, .sSide)) else []) ++
  (List.range (n0 - 2)).map (fun t => (1 + t, 0, .wSide)) ++
  (if n1 > 1 then (List.range (n0 - 2)).map (fun t => (1 + t, n1 - 1, .eSide)) else []) ++
  (List.range (n0 - 2)).flatMap fun t0 => (List.range (n1 - 2)).map fun t1 => (1 + t0, 1 + t1, .inner)

/-- The output partitions, once all tasks have been spawned: `output_partitions(k0, k1) = spawn...`. Slots which are not
assigned to hold an invalid partition. -/
def spawn (n0 n1 : Nat) (l : List (Nat × Nat × Kind)) : M (List (Option Kind)) :=
  l.foldlM (fun slots (k0, k1, kind) =>
    if k0 < n0 ∧ k1 < n1 then wr slots (k0 * n1 + k1) (some kind) else .error .outOfBounds)
    (List.replicate (n0 * n1) none)

/-- `source/framework/partitioned_array/include/lue/framework/partitioned_array/array_partition_data.hpp:490-525`. The
row-wise copies are written as a list of reads. -/
def slice (b : Blk α) (s0 s1 : Nat × Nat) : M (Blk α) := do
  let h := s0.2 - s0.1
  let w := s1.2 - s1.1
  let data ← (List.range (h * w)).mapM fun e => b.get (s0.1 + e / w) (s1.1 + e % w)
  return ⟨h, w, data⟩

/-- `A/definition/focal_operation.hpp:265-273` (verify_border_partition_large_enough) followed by a request for a slice. -/
def borderSlice (r : Nat) (p : Blk α) (s0 s1 : Nat × Nat) : M (Blk α) := do
  if p.e0 < r ∨ p.e1 < r then throw .thrown
  slice p s0 s1

/-- `A/definition/focal_operation.hpp:342-565` (read_data): only the data needed is requested. -/
def readData (r : Nat) (parts : Blk (Blk α)) : M (Blk (Blk α)) := do
  let nw ← parts.get 0 0
  let nw ← borderSlice r nw (nw.e0 - r, nw.e0) (nw.e1 - r, nw.e1)
  let n ← parts.get 0 1
  let n ← borderSlice r n (n.e0 - r, n.e0) (0, n.e1)
  let ne ← parts.get 0 2
  let ne ← borderSlice r ne (ne.e0 - r, ne.e0) (0, r)
  let w ← parts.get 1 0
  let w ← borderSlice r w (0, w.e0) (w.e1 - r, w.e1)
  let c ← parts.get 1 1
  let e ← parts.get 1 2
  let e ← borderSlice r e (0, e.e0) (0, r)
  let sw ← parts.get 2 0
  let sw ← borderSlice r sw (0, r) (sw.e1 - r, sw.e1)
  let s ← parts.get 2 1
  let s ← borderSlice r s (0, r) (0, s.e1)
  let se ← parts.get 2 2
  let se ← borderSlice r se (0, r) (0, r)
  return ⟨3, 3, [nw, n, ne, w, c, e, sw, s, se]⟩

/-- A view into one of the 3 × 3 partitions: indices of the partition, slices. -/
structure View where
  i : Nat
  j : Nat
  s0 : Nat × Nat
  s1 : Nat × Nat

/-- A view into an array. -/
structure Sub (α : Type) where
  b : Blk α
  s0 : Nat × Nat
  s1 : Nat × Nat

def Sub.h (s : Sub α) : Nat := s.s0.2 - s.s0.1
def Sub.w (s : Sub α) : Nat := s.s1.2 - s.s1.1
def Sub.get (s : Sub α) (i j : Nat) : M α := s.b.get (s.s0.1 + i) (s.s1.1 + j)

/-- `A/definition/focal_operation.hpp:84-187` (copy_to_array). `rk` is written as its value at the start of a row of
windows plus the row in the window, similar for `ck`. -/
def copyToArray (garbage : Nat → α) (size : Nat) (windows : Blk (Sub α)) : M (List α) := do
  let s ← forLoop windows.e0 (fun rw (s : Nat × List α) => do
    let (rk, out) := s
    let s1 ← forLoop windows.e1 (fun cw (s : Nat × List α) => do
      let (ck, out) := s
      let window ← windows.get rw cw
      let out ← forLoop window.h (fun idx0 out => forLoop window.w (fun idx1 out => do
        let x ← window.get idx0 idx1
        if rk + idx0 < size ∧ ck + idx1 < size then wr out ((rk + idx0) * size + (ck + idx1)) x
        else .error .outOfBounds) out) out
      return (ck + window.w, out)) (0, out)
    let first ← windows.get rw 0
    return (rk + first.h, s1.2)) (0, uninitialised (size * size) garbage)
  return s.2

/-- The window around a focal cell: `A/definition/focal_operation.hpp:190-217` (border), `627-645` (subspans), or `616-624`
(subspan) in case of a single view. In the latter case the code does not copy the elements: the functor uses the view. -/
def window (garbage : Nat → α) (size : Nat) (data : Blk (Blk α)) (views : Blk View) : M (List α) := do
  let windows ← views.data.mapM fun v => do
    let b ← data.get v.i v.j
    return (⟨b, v.s0, v.s1⟩ : Sub α)
  copyToArray garbage size ⟨views.e0, views.e1, windows⟩

/-- Assign the results for a rectangle of focal cells: two nested loops. `views` is given the iteration numbers. -/
def region (n1 : Nat) (cell : Blk View → M γ) (start0 count0 start1 count1 : Nat) (views : Nat → Nat → Blk View)
    (out : List γ) : M (List γ) :=
  forLoop count0 (fun t0 out => forLoop count1 (fun t1 out => do
    let y ← cell (views t0 t1)
    if start1 + t1 < n1 then wr out ((start0 + t0) * n1 + (start1 + t1)) y else .error .outOfBounds) out) out

section views

variable (r : Nat) (shape : Nat → Nat → Nat × Nat)

local notation "size" => 2 * r + 1

/-- Four views: north-west, north-east, south-west, south-east. -/
def views22 (i j : Nat) (nw0 nw1 ne0 ne1 sw0 sw1 se0 se1 : Nat × Nat) : Blk View :=
  ⟨2, 2, [⟨i, j, nw0, nw1⟩, ⟨i, j + 1, ne0, ne1⟩, ⟨i + 1, j, sw0, sw1⟩, ⟨i + 1, j + 1, se0, se1⟩]⟩

/-- `A/definition/focal_operation.hpp:921-945`, and 894-912 for the loops. -/
def innerViews (t0 t1 : Nat) : Blk View := ⟨1, 1, [⟨1, 1, (t0, t0 + size), (t1, t1 + size)⟩]⟩

/-- `A/definition/focal_operation.hpp:1014-1095`. The shape of the north-east view is taken from partition (0, 2), the one
of the south-west view from partition (2, 0). -/
def nwViews (t0 t1 : Nat) : Blk View :=
  let nw := shape 0 0
  let ne := shape 0 2
  let sw := shape 2 0
  views22 0 0 (nw.1 - r + t0, nw.1) (nw.2 - r + t1, nw.2) (ne.1 - r + t0, ne.1) (0, r + 1 + t1)
    (0, r + 1 + t0) (sw.2 - r + t1, sw.2) (0, r + 1 + t0) (0, r + 1 + t1)

/-- `A/definition/focal_operation.hpp:1097-1175` -/
def neViews (t0 t1 : Nat) : Blk View :=
  let nw := shape 0 1
  let ne := shape 0 2
  let sw := shape 1 1
  views22 0 1 (nw.1 - r + t0, nw.1) (nw.2 - (size - 1) + t1, nw.2) (ne.1 - r + t0, ne.1) (0, 1 + t1)
    (0, r + 1 + t0) (sw.2 - (size - 1) + t1, sw.2) (0, r + 1 + t0) (0, 1 + t1)

/-- `A/definition/focal_operation.hpp:1177-1242` -/
def swViews (t0 t1 : Nat) : Blk View :=
  let nw := shape 1 0
  let ne := shape 1 1
  let sw := shape 2 0
  views22 1 0 (nw.1 - (size - 1) + t0, nw.1) (nw.2 - r + t1, nw.2) (ne.1 - (size - 1) + t0, ne.1) (0, r + 1 + t1)
    (0, 1 + t0) (sw.2 - r + t1, sw.2) (0, 1 + t0) (0, r + 1 + t1)

/-- `A/definition/focal_operation.hpp:1244-1312` -/
def seViews (t0 t1 : Nat) : Blk View :=
  let nw := shape 1 1
  let ne := shape 1 2
  let sw := shape 2 1
  views22 1 1 (nw.1 - (size - 1) + t0, nw.1) (nw.2 - (size - 1) + t1, nw.2) (ne.1 - (size - 1) + t0, ne.1) (0, 1 + t1)
    (0, 1 + t0) (sw.2 - (size - 1) + t1, sw.2) (0, 1 + t0) (0, 1 + t1)

/-- `A/definition/focal_operation.hpp:1318-1364` -/
def nViews (t0 t1 : Nat) : Blk View :=
  let n := shape 0 1
  ⟨2, 1, [⟨0, 1, (n.1 - r + t0, n.1), (t1, t1 + size)⟩, ⟨1, 1, (0, r + 1 + t0), (t1, t1 + size)⟩]⟩

/-- `A/definition/focal_operation.hpp:1366-1408` -/
def wViews (t0 t1 : Nat) : Blk View :=
  let w := shape 1 0
  ⟨1, 2, [⟨1, 0, (t0, t0 + size), (w.2 - r + t1, w.2)⟩, ⟨1, 1, (t0, t0 + size), (0, r + 1 + t1)⟩]⟩

/-- `A/definition/focal_operation.hpp:1410-1452` -/
def eViews (t0 t1 : Nat) : Blk View :=
  let w := shape 1 1
  ⟨1, 2, [⟨1, 1, (t0, t0 + size), (w.2 - (size - 1) + t1, w.2)⟩, ⟨1, 2, (t0, t0 + size), (0, 1 + t1)⟩]⟩

/-- `A/definition/focal_operation.hpp:1454-1498` -/
def sViews (t0 t1 : Nat) : Blk View :=
  let n := shape 1 1
  ⟨2, 1, [⟨1, 1, (n.1 - (size - 1) + t0, n.1), (t1, t1 + size)⟩, ⟨2, 1, (0, 1 + t0), (t1, t1 + size)⟩]⟩

end views

/-- `A/definition/focal_operation.hpp:856-1510` (focal_operation_partition). `shape` are the shapes of the data of the
3 × 3 partitions (of the first input array), `cell` computes the result for a focal cell, given the views on the data
which is visible from the kernel. -/
def focalPartition (garbage : Nat → γ) (r : Nat) (shape : Nat → Nat → Nat × Nat) (cell : Blk View → M γ) : M (List γ) := do
  let n0 := (shape 1 1).1
  let n1 := (shape 1 1).2
  -- verify_partition_large_enough, 275-283
  if n0 < 2 * r + 1 ∨ n1 < 2 * r + 1 then throw .thrown
  let out := uninitialised (n0 * n1) garbage
  let out ← region n1 cell r (n0 - r - r) r (n1 - r - r) (innerViews r) out
  let out ← region n1 cell 0 r 0 r (nwViews r shape) out
  let out ← region n1 cell 0 r (n1 - r) r (neViews r shape) out
  let out ← region n1 cell (n0 - r) r 0 r (swViews r shape) out
  let out ← region n1 cell (n0 - r) r (n1 - r) r (seViews r shape) out
  let out ← region n1 cell 0 r r (n1 - r - r) (nViews r shape) out
  let out ← region n1 cell r (n0 - r - r) 0 r (wViews r shape) out
  let out ← region n1 cell r (n0 - r - r) (n1 - r) r (eViews r shape) out
  region n1 cell (n0 - r) r r (n1 - r - r) (sViews r shape) out

/-- Shapes of data. -/
def shapes (data : Blk (Blk α)) (i j : Nat) : Nat × Nat :=
  match data.get i j with
  | .ok b => (b.e0, b.e1)
  | .error _ => (0, 0)

/-- The task for one output partition: `A/definition/focal_operation.hpp:1513-1535`, and 1600-1630 for the spawning of it.
`functor` is given the values in the window, row by row. -/
def task1 (h : Halo α) (garbage : Nat → α) (garbage' : Nat → γ) (r : Nat) (functor : List α → M γ) (x : PArr α)
    (slots : List (Option Kind)) (k : Nat) : M (List γ) := do
  let slot ← rd slots k
  match slot with
  | none => .error .outOfBounds
  | some kind => do
    let hood ← neighbourhood h r x kind (k / x.grid.n1) (k % x.grid.n1)
    let data ← readData r hood
    focalPartition garbage' r (shapes data) fun views => do
      let w ← window garbage (2 * r + 1) data views
      functor w

/-- `A/definition/focal_operation.hpp:1840-2000` and `2027-2040`: a focal operation with one input array. -/
def focal1 (h : Halo α) (garbage : Nat → α) (garbage' : Nat → γ) (r : Nat) (functor : List α → M γ) (order : List Nat)
    (x : PArr α) : M (PArr γ) := do
  let g := x.grid
  let slots ← spawn g.n0 g.n1 (launches g.n0 g.n1)
  let parts ← runTasks (g.n0 * g.n1) (task1 h garbage garbage' r functor x slots) order
  return ⟨g, parts⟩

/-- The same, with two input arrays. -/
def task2 (hx : Halo α) (hy : Halo β) (garbage : Nat → α) (garbage' : Nat → β) (garbage'' : Nat → γ) (r : Nat)
    (functor : List α → List β → M γ) (x : PArr α) (y : PArr β) (slots : List (Option Kind)) (k : Nat) : M (List γ) := do
  let slot ← rd slots k
  match slot with
  | none => .error .outOfBounds
  | some kind => do
    let hood ← neighbourhood hx r x kind (k / x.grid.n1) (k % x.grid.n1)
    let data ← readData r hood
    let hood' ← neighbourhood hy r y kind (k / x.grid.n1) (k % x.grid.n1)
    let data' ← readData r hood'
    focalPartition garbage'' r (shapes data) fun views => do
      let w ← window garbage (2 * r + 1) data views
      let w' ← window garbage' (2 * r + 1) data' views
      functor w w'

def focal2 (hx : Halo α) (hy : Halo β) (garbage : Nat → α) (garbage' : Nat → β) (garbage'' : Nat → γ) (r : Nat)
    (functor : List α → List β → M γ) (order : List Nat) (x : PArr α) (y : PArr β) : M (PArr γ) := do
  verifyCompatible x y
  let g := x.grid
  let slots ← spawn g.n0 g.n1 (launches g.n0 g.n1)
  let parts ← runTasks (g.n0 * g.n1) (task2 hx hy garbage garbage' garbage'' r functor x y slots) order
  return ⟨g, parts⟩

/-! ### Specification -/

/-- The array, extended on all sides with cells with the halo values. -/
def extended (h : Halo α) (a0 a1 : Nat) (v : Arr α) (i j : Int) : α :=
  if i < 0 then (if j < 0 then h.nw else if j < a1 then h.n else h.ne)
  else if i < a0 then (if j < 0 then h.w else if j < a1 then v i.toNat j.toNat else h.e)
  else (if j < 0 then h.sw else if j < a1 then h.s else h.se)

/-- The values in the square window with radius `r` around a cell, row by row. -/
def windowAt (f : Int → Int → α) (r : Nat) (i j : Nat) : List α :=
  (List.range ((2 * r + 1) * (2 * r + 1))).map fun e =>
    f ((i : Int) - r + (e / (2 * r + 1) : Nat)) ((j : Int) - r + (e % (2 * r + 1) : Nat))

end Lue.Focal

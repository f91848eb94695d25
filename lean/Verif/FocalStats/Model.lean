import Verif.Focal.Model
import Verif.Util.AMap
import Mathlib.Order.Lattice
import Mathlib.Order.Defs.LinearOrder
import Mathlib.Algebra.Field.Defs
import Mathlib.Data.Finset.Sort

/-!
C15, C16: kernels, and the functors of the focal operations.
`A` below is `source/framework/algorithm/include/lue/framework/algorithm`.
-/
namespace Lue.FocalStats

open Lue.Focal

variable {α β γ W : Type}

/-! ### Kernels -/

/-- `A/kernel.hpp:8-52`: the shape of the (square) array of weights, and the weights in row-major order. -/
structure Kernel (W : Type) where
  extent : Nat
  data : List W

/-- `A/kernel.hpp:55-64, 105-117`: the radius is derived from the extent. -/
def Kernel.radius (k : Kernel W) : Nat := (k.extent - 1) / 2

/-- `A/kernel.hpp:113-117` -/
def Kernel.size (k : Kernel W) : Nat := 2 * k.radius + 1

/-- `kernel(idx0, idx1)` -/
def Kernel.get (k : Kernel W) (i j : Nat) : M W :=
  if i < k.extent ∧ j < k.extent then rd k.data (i * k.extent + j) else .error .outOfBounds

/-- `A/kernel.hpp:120-131`, rank 2 -/
def boxKernel (radius : Nat) (value : W) : Kernel W :=
  ⟨2 * radius + 1, List.replicate ((2 * radius + 1) * (2 * radius + 1)) value⟩

/-- `A/kernel.hpp:134-178`, rank 2. Indices are signed. -/
def circleKernel [Zero W] (radius : Nat) (value : W) : M (Kernel W) := do
  let extent := 2 * radius + 1
  let distanceMeasure : Int := radius * radius
  let data ← forLoop extent (fun idx0 data => do
    let dist0 : Int := ((idx0 : Int) - radius) * ((idx0 : Int) - radius)
    forLoop extent (fun idx1 data => do
      let dist1 : Int := ((idx1 : Int) - radius) * ((idx1 : Int) - radius)
      if dist0 + dist1 ≤ distanceMeasure then
        if idx0 < extent ∧ idx1 < extent then wr data (idx0 * extent + idx1) value else .error .outOfBounds
      else return data) data) (List.replicate (extent * extent) (0 : W))
  return ⟨extent, data⟩

/-! ### Functors -/

/-- `window[idx0, idx1]`: the window is a span of `size` × `size` elements. -/
def windowGet (size : Nat) (window : List α) (i j : Nat) : M α :=
  if i < size ∧ j < size then rd window (i * size + j) else .error .outOfBounds

/-- The two nested loops over the cells in the window. -/
def cellLoop {σ : Type} (size : Nat) (body : Nat → Nat → σ → M σ) (s : σ) : M σ :=
  forLoop size (fun idx0 s => forLoop size (fun idx1 s => body idx0 idx1 s) s) s

section
variable [DecidableEq W] [Zero W] (isNoData : α → Bool) (mark : γ) (k : Kernel W)

/-- `A/definition/focal_sum.hpp:38-71` -/
def focalSum [Add α] [Zero α] (mark : α) (window : List α) : M α := do
  let (sum, initialized) ← cellLoop k.size (fun idx0 idx1 (s : α × Bool) => do
    let weight ← k.get idx0 idx1
    let value ← windowGet k.size window idx0 idx1
    if !isNoData value then
      if weight ≠ 0 then return (s.1 + value, true) else return s
    else return s) (0, false)
  if !initialized then return mark else return sum

/-- `A/definition/focal_mean.hpp:37-68`. `div` is the division of an element by a count. -/
def focalMean [Add α] [Zero α] (div : α → Nat → α) (mark : α) (window : List α) : M α := do
  let (sum, sumOfWeights) ← cellLoop k.size (fun idx0 idx1 (s : α × Nat) => do
    let value ← windowGet k.size window idx0 idx1
    if !isNoData value then
      let weight ← k.get idx0 idx1
      if weight ≠ 0 then return (s.1 + value, s.2 + 1) else return s
    else return s) (0, 0)
  if sumOfWeights = 0 then return mark else return div sum sumOfWeights

/-- `A/definition/focal_minimum.hpp:37-70`. `zero` is the value of `OutputElement{}`. -/
def focalMinimum [LinearOrder α] (zero : α) (mark : α) (window : List α) : M α := do
  let (result, initialized) ← cellLoop k.size (fun idx0 idx1 (s : α × Bool) => do
    let weight ← k.get idx0 idx1
    let value ← windowGet k.size window idx0 idx1
    if !isNoData value then
      if weight ≠ 0 then
        if !s.2 then return (value, true) else return (min s.1 value, s.2)
      else return s
    else return s) (zero, false)
  if !initialized then return mark else return result

/-- `A/definition/focal_maximum.hpp:37-70` -/
def focalMaximum [LinearOrder α] (zero : α) (mark : α) (window : List α) : M α := do
  let (result, initialized) ← cellLoop k.size (fun idx0 idx1 (s : α × Bool) => do
    let weight ← k.get idx0 idx1
    let value ← windowGet k.size window idx0 idx1
    if !isNoData value then
      if weight ≠ 0 then
        if !s.2 then return (value, true) else return (max s.1 value, s.2)
      else return s
    else return s) (zero, false)
  if !initialized then return mark else return result

/-- `std::map<K, V>`: iteration visits the keys in increasing order. -/
def sortedMap [LinearOrder α] (m : AMap α Nat) : AMap α Nat :=
  m.mergeSort (fun a b => a.1 ≤ b.1)

/-- `A/definition/focal_majority.hpp:40-86` -/
def focalMajority [LinearOrder α] (zero : α) (mark : α) (window : List α) : M α := do
  let frequencies ← cellLoop k.size (fun idx0 idx1 (s : AMap α Nat) => do
    let value ← windowGet k.size window idx0 idx1
    if !isNoData value then
      let weight ← k.get idx0 idx1
      if weight ≠ 0 then return s.put value ((s.get value).getD 0 + 1) else return s
    else return s) []
  if frequencies.isEmpty then return mark
  else return ((sortedMap frequencies).foldl (fun (s : α × Nat) e => if e.2 > s.2 then (e.1, e.2) else s) (zero, 0)).1

/-- `std::unique`: only the first one of each group of equal consecutive values is kept. -/
def stdUnique [DecidableEq α] : List α → List α
  | [] => []
  | [x] => [x]
  | x :: y :: l => if x = y then stdUnique (y :: l) else x :: stdUnique (y :: l)

/-- `A/definition/focal_diversity.hpp:42-86` -/
def focalDiversity [LinearOrder α] (mark : Nat) (window : List α) : M Nat := do
  let values ← cellLoop k.size (fun idx0 idx1 (s : List α) => do
    let weight ← k.get idx0 idx1
    let value ← windowGet k.size window idx0 idx1
    if !isNoData value then
      if weight ≠ 0 then return s ++ [value] else return s
    else return s) []
  if values.isEmpty then return mark
  else return (stdUnique (values.mergeSort (fun a b => a ≤ b))).length

/-- `A/definition/focal_high_pass.hpp:31-83`. Elements are numbers: a no-data focal value is an ordinary number here. -/
def focalHighPass [Add α] [_root_.Sub α] [Mul α] [Zero α] [NatCast α] (mark : α) (window : List α) : M α := do
  let (focalValue, sumOfNeighbours, nrNeighbours) ← cellLoop k.size (fun idx0 idx1 (s : α × α × Nat) => do
    let value ← windowGet k.size window idx0 idx1
    if idx0 = k.radius ∧ idx1 = k.radius then return (value, s.2)
    else if !isNoData value then
      let weight ← k.get idx0 idx1
      if weight ≠ 0 then return (s.1, s.2.1 + value, s.2.2 + 1) else return s
    else return s) (0, 0, 0)
  if nrNeighbours = 0 then return mark
  else return ((2 : Nat) : α) * focalValue * (nrNeighbours : α) - sumOfNeighbours

end

/-- `A/definition/convolve.hpp:37-73`, floating point weights. -/
def convolve [Add α] [Mul α] [Zero α] (isNoData : α → Bool) (k : Kernel α) (mark : α) (window : List α) : M α := do
  let (sum, initialized) ← cellLoop k.size (fun idx0 idx1 (s : α × Bool) => do
    let value ← windowGet k.size window idx0 idx1
    if !isNoData value then
      let weight ← k.get idx0 idx1
      return (s.1 + weight * value, true)
    else return s) (0, false)
  if !initialized then return mark else return sum

/-! ### Specification -/

/-- The kernel with radius `r` which has weight `wt i j` in row `i` and column `j`. -/
structure IsKernel (k : Kernel W) (r : Nat) (wt : Nat → Nat → W) : Prop where
  extent_eq : k.extent = 2 * r + 1
  get_eq : ∀ i j, i < 2 * r + 1 → j < 2 * r + 1 → k.get i j = .ok (wt i j)

/-- The offsets, with respect to the focal cell, of the cells in the window, row by row. The focal cell has offset
(`r`, `r`). -/
def offsets (r : Nat) : List (Nat × Nat) :=
  (List.range (2 * r + 1)).flatMap fun d0 => (List.range (2 * r + 1)).map fun d1 => (d0, d1)

/-- The cells of the (infinite) plane which are in the neighbourhood of cell (`i`, `j`). -/
def at_ (f : Int → Int → α) (r i j : Nat) (d : Nat × Nat) : α := f ((i : Int) - r + d.1) ((j : Int) - r + d.2)

/-- The values of the valid cells in the neighbourhood of cell (`i`, `j`) which have a weight. -/
def focalValues [DecidableEq W] [Zero W] (isNoData : α → Bool) (wt : Nat → Nat → W) (f : Int → Int → α) (r i j : Nat) :
    List α :=
  ((offsets r).filter fun d => wt d.1 d.2 ≠ 0 ∧ isNoData (at_ f r i j d) = false).map (at_ f r i j)

end Lue.FocalStats

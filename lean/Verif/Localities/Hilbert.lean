/-
Model of the space filling curve visiting all partitions of a 2D array.
-/
namespace Lue.Localities

/-- `source/framework/core/include/lue/framework/core/hilbert_curve.hpp:40-52` `offset` -/
def sgn (x : Int) : Int := if x < 0 then -1 else if x > 0 then 1 else 0

/-- The trivial fills of lines 90-114: `n` cells starting at `(x, y)`, stepping with `(dx, dy)`. The functor is called
with `(y, x)`: row index first. -/
def fill : Nat → Int → Int → Int → Int → List (Int × Int)
  | 0, _, _, _, _ => []
  | n + 1, x, y, dx, dy => (y, x) :: fill n (x + dx) (y + dy) dx dy

/-- `hilbert_curve.hpp:68-160` `HilbertCurve<2>::hilbert`: the cells for which the functor is called, in order. The
linear index passed to the functor is incremented with each call (lines 95, 108): it is the position in this list.
Simplification: C++ recursion is modelled with fuel; `none` means that the recursion did not end within the given number
of nested calls. `ax / 2` truncates towards zero (`Int.tdiv`). -/
def hilbert : Nat → Int → Int → Int → Int → Int → Int → Option (List (Int × Int))
  | 0, _, _, _, _, _, _ => none
  | fuel + 1, x, y, ax, ay, bx, by_ =>
    let w := (ax + ay).natAbs
    let h := (bx + by_).natAbs
    let dax := sgn ax
    let day := sgn ay
    let dbx := sgn bx
    let dby := sgn by_
    if h = 1 then
      some (fill w x y dax day)
    else if w = 1 then
      some (fill h x y dbx dby)
    else
      let ax2 := ax.tdiv 2
      let ay2 := ay.tdiv 2
      let bx2 := bx.tdiv 2
      let by2 := by_.tdiv 2
      let w2 := (ax2 + ay2).natAbs
      let h2 := (bx2 + by2).natAbs
      if 2 * w > 3 * h then do
        let odd := w2 % 2 > 0 ∧ w > 2
        let ax2 := if odd then ax2 + dax else ax2
        let ay2 := if odd then ay2 + day else ay2
        let l1 ← hilbert fuel x y ax2 ay2 bx by_
        let l2 ← hilbert fuel (x + ax2) (y + ay2) (ax - ax2) (ay - ay2) bx by_
        some (l1 ++ l2)
      else do
        let odd := h2 % 2 > 0 ∧ h > 2
        let bx2 := if odd then bx2 + dbx else bx2
        let by2 := if odd then by2 + dby else by2
        let l1 ← hilbert fuel x y bx2 by2 ax2 ay2
        let l2 ← hilbert fuel (x + bx2) (y + by2) ax ay (bx - bx2) (by_ - by2)
        let l3 ← hilbert fuel (x + (ax - dax) + (bx2 - dbx)) (y + (ay - day) + (by2 - dby))
          (-bx2) (-by2) (-(ax - ax2)) (-(ay - ay2))
        some (l1 ++ l2 ++ l3)

/-- `hilbert_curve.hpp:162-178, 348-357` `visit`, `hilbert_curve` for an array of `shape0` × `shape1` partitions -/
def hilbertCurve (fuel shape0 shape1 : Nat) : Option (List (Int × Int)) :=
  if shape0 * shape1 > 0 then
    if shape1 ≥ shape0 then hilbert fuel 0 0 shape1 0 0 shape0
    else hilbert fuel 0 0 0 shape0 shape1 0
  else some []

/-- `source/framework/core/include/lue/framework/core/linear_curve.hpp:37-60` `LinearCurve<2>::visit` -/
def linearCurve (shape0 shape1 : Nat) : List (Int × Int) :=
  (List.range shape0).flatMap fun (i : Nat) => (List.range shape1).map fun (j : Nat) => ((i : Int), (j : Int))

end Lue.Localities

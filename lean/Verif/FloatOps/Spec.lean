import Verif.FloatOps.Model
import Verif.LocalOp.Properties
import Mathlib.Data.EReal.Basic

/-!
C58, specification: what local operations on arrays with floating point elements must compute.
-/
namespace Lue.FloatOps

open Lue.LocalOp

/-- An element of an array: no-data (NaN), or a number of the type. Not an infinity. -/
def Element (L : Lib) (c : Fl) : Prop := c = .nan ∨ ∃ r, c = .fin r ∧ L.Rep r

/-- The number, `none` if there is no such -/
def number : Fl → Option ℝ
  | .fin r => some r
  | _ => none

/-- What a unary operation must compute for a cell, given the function on real numbers (`none` if it is not defined)
and how its values are rounded -/
def expected1 (rnd : ℝ → Fl) (g : ℝ → Option ℝ) (x : Fl) : Option ℝ := do
  let a ← number x
  let y ← g a
  number (rnd y)

/-- Same, for a binary operation -/
def expected2 (rnd : ℝ → Fl) (g : ℝ → ℝ → Option ℝ) (x y : Fl) : Option ℝ := do
  let a ← number x
  let b ← number y
  let z ← g a b
  number (rnd z)

/-- An argument for which a function is correct -/
def Good1 (L : Lib) (ok : ℝ → Prop) (x : Fl) : Prop := Element L x ∧ ∀ a, x = .fin a → ok a

def Good2 (L : Lib) (ok : ℝ → ℝ → Prop) (x y : Fl) : Prop :=
  Element L x ∧ Element L y ∧ ∀ a b, x = .fin a → y = .fin b → ok a b

/-- All overloads of a unary operation compute `g`, rounded by `rnd`, and no-data where `g` is not defined or the result is
too large for the type. The result does not contain infinities. -/
def Computes1 (L : Lib) (ok : ℝ → Prop) (P : Policies1 Fl Fl) (f : Fl → Fl) (rnd : ℝ → Fl) (g : ℝ → Option ℝ) : Prop :=
  (∀ (garbage : Nat → Fl) (x : PArr Fl) (v : Arr Fl) (order : List Nat), Represents x v →
    (∀ i j, i < x.grid.a0 → j < x.grid.a1 → Good1 L ok (v i j)) → IsOrder (x.grid.n0 * x.grid.n1) order →
    ∃ r u, unaryArray P f garbage order x = .ok r ∧ r.grid = x.grid ∧ Represents r u ∧
      ∀ i j, i < x.grid.a0 → j < x.grid.a1 → Element L (u i j) ∧ number (u i j) = expected1 rnd g (v i j)) ∧
  (∀ a : Fl, Good1 L ok a → Element L (unaryScalar P f a) ∧ number (unaryScalar P f a) = expected1 rnd g a)

/-- Same, for a binary operation -/
def Computes2 (L : Lib) (ok : ℝ → ℝ → Prop) (P : Policies2 Fl Fl Fl) (f : Fl → Fl → Fl) (rnd : ℝ → Fl)
    (g : ℝ → ℝ → Option ℝ) : Prop :=
  (∀ (garbage : Nat → Fl) (x y : PArr Fl) (v w : Arr Fl) (order : List Nat), Represents x v → Represents y w →
    y.grid = x.grid → (∀ i j, i < x.grid.a0 → j < x.grid.a1 → Good2 L ok (v i j) (w i j)) →
    IsOrder (x.grid.n0 * x.grid.n1) order →
    ∃ r u, binaryArray P f garbage order x y = .ok r ∧ r.grid = x.grid ∧ Represents r u ∧
      ∀ i j, i < x.grid.a0 → j < x.grid.a1 →
        Element L (u i j) ∧ number (u i j) = expected2 rnd g (v i j) (w i j)) ∧
  (∀ (garbage : Nat → Fl) (x : PArr Fl) (v : Arr Fl) (b : Fl) (order : List Nat), Represents x v →
    (∀ i j, i < x.grid.a0 → j < x.grid.a1 → Good2 L ok (v i j) b) → IsOrder (x.grid.n0 * x.grid.n1) order →
    ∃ r u, binaryArrayAS P f garbage order x b = .ok r ∧ r.grid = x.grid ∧ Represents r u ∧
      ∀ i j, i < x.grid.a0 → j < x.grid.a1 → Element L (u i j) ∧ number (u i j) = expected2 rnd g (v i j) b) ∧
  (∀ (garbage : Nat → Fl) (a : Fl) (y : PArr Fl) (w : Arr Fl) (order : List Nat), Represents y w →
    (∀ i j, i < y.grid.a0 → j < y.grid.a1 → Good2 L ok a (w i j)) → IsOrder (y.grid.n0 * y.grid.n1) order →
    ∃ r u, binaryArraySA P f garbage order a y = .ok r ∧ r.grid = y.grid ∧ Represents r u ∧
      ∀ i j, i < y.grid.a0 → j < y.grid.a1 → Element L (u i j) ∧ number (u i j) = expected2 rnd g a (w i j)) ∧
  (∀ a b : Fl, Good2 L ok a b →
    Element L (binaryScalar P f a b) ∧ number (binaryScalar P f a b) = expected2 rnd g a b)

/-- `x` is the remainder of the division of `a` by `b`: it has the sign of `a`, and is smaller than `b` -/
def IsRemainder (a b x : ℝ) : Prop := |x| < |b| ∧ 0 ≤ x * a ∧ ∃ n : ℤ, a = n * b + x

/-- `n` is the integer nearest to `a`; in case there are two of them the one furthest from zero -/
def IsNearest (a : ℝ) (n : ℤ) : Prop := |a - n| ≤ 1 / 2 ∧ (|a - n| = 1 / 2 → |a| ≤ |(n : ℝ)|)

/-- `n` is `a` without its fraction -/
def IsTruncated (a : ℝ) (n : ℤ) : Prop := |a - n| < 1 ∧ |(n : ℝ)| ≤ |a| ∧ 0 ≤ a * n

/-- The value of a floating point number, including infinities -/
noncomputable def value : Fl → Option EReal
  | .nan => none
  | .inf n => some (if n then ⊥ else ⊤)
  | .fin r => some (r : EReal)

/-- What comparing means -/
def Cmp.holds : Cmp → EReal → EReal → Prop
  | .eq, a, b => a = b
  | .ne, a, b => a ≠ b
  | .lt, a, b => a < b
  | .le, a, b => a ≤ b
  | .gt, a, b => a > b
  | .ge, a, b => a ≥ b

/-- What must be computed for a cell, by a comparison -/
def Compared (c : Cmp) (mark : Int) (x y : Fl) (r : Int) : Prop :=
  match value x, value y with
  | some a, some b => (c.holds a b → r = 1) ∧ (¬c.holds a b → r = 0)
  | _, _ => r = mark

/-- What logical operators mean -/
def Logic.holds : Logic → Prop → Prop → Prop
  | .and, p, q => p ∧ q
  | .or, p, q => p ∨ q
  | .xor, p, q => (p ∧ ¬q) ∨ (¬p ∧ q)

/-- What must be computed for a cell, by a logical operation: all values but zero are true -/
def Decided (o : Logic) (nd mark : Int) (x y r : Int) : Prop :=
  (x = nd ∨ y = nd → r = mark) ∧
  (x ≠ nd → y ≠ nd → (o.holds (x ≠ 0) (y ≠ 0) → r = 1) ∧ (¬o.holds (x ≠ 0) (y ≠ 0) → r = 0))

end Lue.FloatOps

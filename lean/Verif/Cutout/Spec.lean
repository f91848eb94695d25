import Verif.Program.Spec

/-!
C81: how far the operations look around (the radius of the kernel, `source/framework/algorithm/include/lue/framework/`
`algorithm/kernel.hpp`, `focal_operation.hpp`), and what it means that two executions work with the same data in an area.
-/
namespace Lue.Cutout

open Lue.Program

/-- How far around a cell a call looks: local operations look at the cell itself, focal operations at the cells under the
kernel, inflow counts at the cells next to it. The result of the other operations can depend on all cells. -/
def radius : Op → Option Nat
  | .fill .. => some 0
  | .unary .. => some 0
  | .binary .. => some 0
  | .binaryAS .. => some 0
  | .binarySA .. => some 0
  | .ternary .. => some 0
  | .wher .. => some 0
  | .scalar .. => some 0
  | .focal _ _ _ _ r _ _ => some r
  | .focal2 _ _ _ _ _ _ r _ _ _ => some r
  | .zonal .. => none
  | .inflowCount .. => some 1
  | .accu .. => none
  | .split .. => none
  | .aggregate .. => none

/-- Same, for the next step of a program. Branches and loops do not look at cells. -/
def nextRadius : List Stmt → Option Nat
  | .op o :: _ => radius o
  | _ => some 0

/-- The program comes to an end, and the radii of the calls which are made add up to `R`. -/
inductive Reaches (a0 a1 : Nat) : Nat → List Stmt → Whole → Whole → Prop
  | done {S} : Reaches a0 a1 0 [] S S
  | step {r R p S p' S' S''} : nextRadius p = some r → WholeStep a0 a1 p S p' S' → Reaches a0 a1 R p' S' S'' →
      Reaches a0 a1 (r + R) p S S''

/-- A cutout: an array of `b0` × `b1` cells, of which the first one is cell (`o0`, `o1`) of an array of `a0` × `a1` cells. -/
structure Cut where
  a0 : Nat
  a1 : Nat
  b0 : Nat
  b1 : Nat
  o0 : Nat
  o1 : Nat
  fit0 : o0 + b0 ≤ a0
  fit1 : o1 + b1 ≤ a1

/-- Cell (`i`, `j`) of the array is part of the cutout. -/
def Cut.Has (k : Cut) (i j : Nat) : Prop := k.o0 ≤ i ∧ i < k.o0 + k.b0 ∧ k.o1 ≤ j ∧ j < k.o1 + k.b1

/-- In the area `Q`, the arrays in the cutout hold the same values. -/
def SameIn (k : Cut) (Q : Nat → Nat → Prop) (S T : Whole) : Prop :=
  ∀ t x i j, Q i j → S.arr t x i j = T.arr t x (i - k.o0) (j - k.o1)

/-- Every cell of the array which is at most `R` rows and at most `R` columns from (`i`, `j`) is part of area `Q`. -/
def Deep (k : Cut) (Q : Nat → Nat → Prop) (R i j : Nat) : Prop :=
  i < k.a0 ∧ j < k.a1 ∧ ∀ i' j', i' < k.a0 → j' < k.a1 → i ≤ i' + R → i' ≤ i + R → j ≤ j' + R → j' ≤ j + R → Q i' j'

end Lue.Cutout

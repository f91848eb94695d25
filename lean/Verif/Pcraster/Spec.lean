import Verif.Pcraster.Model
import Verif.PyOps.Spec
import Mathlib.Algebra.Field.Defs

/-!
# PCRaster-compatible operations: specification

A cell has a value, or it is missing (`none`).
-/
namespace Lue.Pcraster

open Lue.LocalOp Lue.PyOps

variable {V Num : Type}

/-- The value of an element. -/
def Lib.value (lib : Lib V Num) (t : Ty) (x : V) : Option V := if lib.noData t x then none else some x

/-- `f` and `f'` are the same within a raster. -/
def Same (g : Grid) (f f' : Nat → Nat → Option V) : Prop := ∀ i j, i < g.a0 → j < g.a1 → f i j = f' i j

/-- Object `x` is an array or scalar with elements of type `t` and with value `f i j` in the cell at `(i, j)`. Arrays have
grid `g`. -/
inductive Field (lib : Lib V Num) (g : Grid) (t : Ty) : Rank → Obj V Num → (Nat → Nat → Option V) → Prop where
  | array (a : PArr V) (u : Nat → Nat → V) (f : Nat → Nat → Option V) (hg : a.grid = g) (hr : Represents a u)
      (hf : Same g (fun i j => lib.value t (u i j)) f) : Field lib g t .array (.array t a) f
  | scalar (v : V) (f : Nat → Nat → Option V) (hf : Same g (fun _ _ => lib.value t v) f) :
      Field lib g t .scalar (.scalar t v) f

/-- Object `x` is an array or scalar with values `f`, or a number which can be converted to an element of type `t`. -/
inductive Stands (lib : Lib V Num) (g : Grid) (t : Ty) : Obj V Num → (Nat → Nat → Option V) → Prop where
  | field {k : Rank} {x : Obj V Num} {f : Nat → Nat → Option V} (h : Field lib g t k x f) : Stands lib g t x f
  | number (n : Num) (v : V) (f : Nat → Nat → Option V) (hc : lib.convert t n = some v)
      (hf : Same g (fun _ _ => lib.value t v) f) : Stands lib g t (.number n) f

/-- If `x` is a number, then it is one PCRaster represents by elements of type `t`. -/
def OwnType (lib : Lib V Num) (t : Ty) : Obj V Num → Prop
  | .number n => lib.numberType n = some t
  | _ => True

/-- What is expected of the elements: the mark is no-data, and 0 and 1 are boolean values. -/
structure Lib.Ok (lib : Lib V Num) : Prop where
  mark : ∀ t, lib.noData t (lib.mark t) = true
  one : lib.noData .uint8 lib.one = false ∧ lib.isTrue lib.one = true
  zero : lib.noData .uint8 lib.zero = false ∧ lib.isTrue lib.zero = false

/-- Arrays created have the partitions of grid `g`, and there are enough partitions for all localities. -/
structure Configuration.Creates (cfg : Configuration Num) (g : Grid) : Prop where
  ok : g.Ok
  shape : (cfg.rows, cfg.cols) = (g.a0, g.a1)
  partition : Numpy.selectPartitionShape (g.a0, g.a1) cfg.nrThreads cfg.partitionShape = .ok (g.p0, g.p1)
  localities : 0 < cfg.nrLocalities ∧ cfg.nrLocalities ≤ g.n0 * g.n1

/-- The value of a conditional expression: missing if the condition or the value selected is missing. -/
def ifThenElse (isTrue : V → Bool) (condition x y : Option V) : Option V :=
  match condition with
  | none => none
  | some c => if isTrue c then x else y

/-- The first value which is not missing. -/
def firstDefined (l : List (Option V)) : Option V := l.findSome? id

/-- `r` is the extreme of the values: missing if one of them is missing, and otherwise one of the values, and none of the
values is beyond it. -/
def IsExtreme (le : V → V → Prop) (l : List (Option V)) (r : Option V) : Prop :=
  (none ∈ l ∧ r = none) ∨ (none ∉ l ∧ ∃ m, r = some m ∧ some m ∈ l ∧ ∀ x, some x ∈ l → le x m)

/-- What is expected of comparisons: they are those of an order `le t` of the values of type `t`, and the result is missing
if one of the arguments is missing. -/
structure Lib.Compares (lib : Lib V Num) (le : Ty → V → V → Prop) [∀ t x y, Decidable (le t x y)] : Prop where
  total : ∀ t x y, lib.noData t x = false → lib.noData t y = false → le t x y ∨ le t y x
  trans : ∀ t x y z, lib.noData t x = false → lib.noData t y = false → lib.noData t z = false →
    le t x y → le t y z → le t x z
  ge : ∀ t x y, lib.value .uint8 (lib.element2 .greaterThanEqualTo t x y) =
    (lib.value t x).bind fun a => (lib.value t y).map fun b => if le t b a then lib.one else lib.zero
  le : ∀ t x y, lib.value .uint8 (lib.element2 .lessThanEqualTo t x y) =
    (lib.value t x).bind fun a => (lib.value t y).map fun b => if le t a b then lib.one else lib.zero

/-- Converting the elements of a cell to another type: missing if the value is out of range. -/
def castValue (lib : Lib V Num) (t t' : Ty) (x : Option V) : Option V :=
  x.bind fun x => if lib.castInRange t t' x then lib.value t' (lib.cast t t' x) else none

/-- What is expected for `boolean`: comparing with 0 (`z`), and the elements for the numbers 0 and 1. -/
structure Lib.Booleans [DecidableEq V] (lib : Lib V Num) (t : Ty) (z : V) : Prop where
  zero : lib.convert t lib.number0 = some z
  ne : ∀ x, lib.value .uint8 (lib.element2 .notEqualTo t x z) =
    (lib.value t x).map fun a => if a = z then lib.zero else lib.one
  /-- Booleans are among the types, and 0 and 1 are booleans. -/
  mem : .uint8 ∈ lib.types
  uint8 : (lib.convert .uint8 lib.number1).isSome ∧ (lib.convert .uint8 lib.number0).isSome
  /-- Whatever the type selected for 0 and 1: converting them to booleans gives 0 and 1. -/
  cast1 : ∀ t v, lib.convert t lib.number1 = some v → castValue lib t .uint8 (lib.value t v) = some lib.one
  cast0 : ∀ t v, lib.convert t lib.number0 = some v → castValue lib t .uint8 (lib.value t v) = some lib.zero

/-- Converting the values of type `t` to type `t'`. -/
def convertValue (lib : Lib V Num) (t t' : Ty) (x : Option V) : Option V := if t = t' then x else castValue lib t t' x

/-- What is expected in case elements of type `float32` and numbers would represent elements of a field `K`, and
computations would be exact. `real` tells which elements of `K` they represent. -/
structure Lib.Exact {K : Type} [_root_.Field K] (lib : Lib V Num) (real : V → K) (num : Num → K) : Prop where
  number : ∀ n, ∃ v, lib.convert .float32 n = some v ∧ lib.noData .float32 v = false ∧ real v = num n
  numAdd : ∀ n m, ∃ r, lib.numeric2 .add n m = .ok r ∧ num r = num n + num m
  numMul : ∀ n m, ∃ r, lib.numeric2 .mul n m = .ok r ∧ num r = num n * num m
  add : ∀ x y, (lib.value .float32 (lib.element2 .add .float32 x y)).map real =
    (lib.value .float32 x).bind fun a => (lib.value .float32 y).map fun b => real a + real b
  mul : ∀ x y, (lib.value .float32 (lib.element2 .multiply .float32 x y)).map real =
    (lib.value .float32 x).bind fun a => (lib.value .float32 y).map fun b => real a * real b
  neg : ∀ x, (lib.value .float32 (lib.element1 .negate .float32 x)).map real =
    (lib.value .float32 x).map fun a => - real a
  /-- Indices of cells, converted to floating point -/
  index : ∀ n : Nat, (castValue lib lib.indexType .float32 (lib.value lib.indexType (lib.integer n))).map real =
    if n = lib.integerMark then none else some (n : K)

end Lue.Pcraster

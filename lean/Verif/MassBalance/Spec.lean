import Verif.MassBalance.Model
import Verif.Rounding.Spec

/-! C77: what must be true of material which is routed, split, and rounded. -/
namespace Lue.MassBalance

open Lue.FloatOps Lue.Accu Lue.Routing Lue.Rounding

/-- Differences and products are computed as accurately as possible as well. Rounding is monotone: it does not move a result
past a number which can be represented (IEEE 754). -/
structure AccurateSplit (L : Lib) (u η : ℝ) : Prop extends Accurate L u η where
  subtract : ∀ a b s, L.Rep a → L.Rep b → L.round .subtract (a - b) = .fin s → |s - (a - b)| ≤ u * |a - b|
  multiply : ∀ a b s, L.Rep a → L.Rep b → L.round .multiply (a * b) = .fin s → |s - a * b| ≤ u * |a * b| + η
  monotone_le : ∀ f y r s, L.Rep r → y ≤ r → L.round f y = .fin s → s ≤ r
  monotone_ge : ∀ f y r s, L.Rep r → r ≤ y → L.round f y = .fin s → r ≤ s

/-- What must be true of a rule which splits the total amount `t` of material in a cell into outflow `o` and remainder `r`,
given parameter `p`, apart from rounding the result of a single subtraction or multiplication -/
abbrev Rule := Fl → ℝ → ℝ → ℝ → Prop

/-- What exceeds the threshold flows out, the threshold stays behind. -/
def thresholdRule (u : ℝ) : Rule := fun p t o r =>
  (∀ a, p = .fin a → a < t → r = a ∧ |o - (t - a)| ≤ u * (t - a)) ∧
  ((∀ a, p = .fin a → t ≤ a) → o = 0 ∧ r = t)

/-- A fraction flows out, what is left stays behind. -/
def fractionRule (u η : ℝ) : Rule := fun p t o r =>
  ∀ a, p = .fin a → |o - a * t| ≤ u * (a * t) + η ∧ |r - (t - o)| ≤ u * (t - o)

/-- At most the capacity flows out, what exceeds it stays behind. -/
def capacityRule (u : ℝ) : Rule := fun p t o r =>
  (∀ a, p = .fin a → a < t → o = a ∧ |r - (t - a)| ≤ u * (t - a)) ∧
  ((∀ a, p = .fin a → t ≤ a) → o = t ∧ r = 0)

/-- Everything flows out once the trigger is reached, otherwise nothing. -/
def triggerRule : Rule := fun p t o r =>
  (∀ a, p = .fin a → a ≤ t → o = t ∧ r = 0) ∧ ((∀ a, p = .fin a → t < a) → o = 0 ∧ r = t)

/-- A parameter which is an amount of material, possibly infinite -/
def IsAmount (L : Lib) (p : Fl) : Prop := p = .inf false ∨ ∃ a, p = .fin a ∧ L.Rep a ∧ 0 ≤ a

/-- A parameter which is a fraction -/
def IsFraction (L : Lib) (p : Fl) : Prop := ∃ a, p = .fin a ∧ L.Rep a ∧ 0 ≤ a ∧ a ≤ 1

/-- Inflows and parameters which are not allowed -/
abbrev Domain := Fl → Fl → Prop

/-- Amounts must not be negative. -/
def negativeAmounts : Domain := fun x p => Negative x ∨ Negative p

/-- Inflows must not be negative, fractions must be between zero and one. -/
def badFractions : Domain := fun x p => Negative x ∨ Negative p ∨ p = .inf false ∨ ∃ r, p = .fin r ∧ 1 < r

/-- A cell whose flow direction, inflow or parameter is no-data, or not allowed -/
def Unusable (isNoDataFd : Nat → Bool) (bad : Domain) (v : Arr Nat) (f q : Arr (Option Fl)) (c : Cell) : Prop :=
  isNoDataFd (v c.1 c.2) = true ∨ f c.1 c.2 = none ∨ q c.1 c.2 = none ∨
    ∃ x p, f c.1 c.2 = some x ∧ q c.1 c.2 = some p ∧ bad x p

/-- A cell whose flow direction is not no-data, where `x` enters and whose parameter is `p` -/
def ValidCell (L : Lib) (ok : Fl → Prop) (isNoDataFd : Nat → Bool) (v : Arr Nat) (f q : Arr (Option Fl)) (x : Cell → ℝ)
    (c : Cell) : Prop :=
  isNoDataFd (v c.1 c.2) = false ∧ f c.1 c.2 = some (.fin (x c)) ∧ L.Rep (x c) ∧ 0 ≤ x c ∧ ∃ p, q c.1 c.2 = some p ∧ ok p

/-- The limit for the relative error of the material balance of a catchment of `n` cells: each cell adds what enters it and
what flows into it, and splits the result -/
def Fits (L : Lib) (u : ℝ) (xs : List ℝ) : Prop := (1 + u) ^ (2 * xs.length - 1) * xs.sum ≤ L.big

/-- What is true of the results for cell `c`, given what flows out of (`o`) and remains in (`r`) cells -/
structure Balanced (L : Lib) (u : ℝ) (rule : Rule) (a0 a1 : Nat) (v : Arr Nat) (q : Arr (Option Fl)) (x o r : Cell → ℝ)
    (c : Cell) : Prop where
  o_nonneg : 0 ≤ o c
  r_nonneg : 0 ≤ r c
  /-- The results are those of splitting the sum of what enters the cell and what flows into it. -/
  split : ∃ p t, q c.1 c.2 = some p ∧ IsSum u (x c :: ((inflowing a0 a1 v c).toList.map o)) (.fin t) ∧ 0 ≤ t ∧
    o c ≤ t ∧ r c ≤ t ∧ rule p t (o c) (r c)
  /-- What enters the catchment flows out or remains in it. -/
  mass : |(o c + (catchmentNumbers a0 a1 v r c).sum) - (catchmentNumbers a0 a1 v x c).sum| ≤
    ((1 + u) ^ (2 * (catchment a0 a1 v c).card - 1) - 1) * (catchmentNumbers a0 a1 v x c).sum

/-- What is claimed of the results of an operation: no-data, and amounts which are balanced. -/
def Correct (L : Lib) (u : ℝ) (ok : Fl → Prop) (bad : Domain) (rule : Rule) (isNoDataFd : Nat → Bool) (g : Grid)
    (v : Arr Nat) (f q : Arr (Option Fl)) (outflow remainder : PArr (Option Fl)) : Prop :=
  outflow.grid = g ∧ remainder.grid = g ∧ ∃ out rem : Arr (Option Fl), Represents outflow out ∧ Represents remainder rem ∧
    ∀ i j, i < g.a0 → j < g.a1 → ¬ OnCycle g.a0 g.a1 v (i, j) →
      ((∃ d ∈ catchment g.a0 g.a1 v (i, j), Unusable isNoDataFd bad v f q d) → out i j = none ∧ rem i j = none) ∧
      ∀ x : Cell → ℝ, (∀ d ∈ catchment g.a0 g.a1 v (i, j), ValidCell L ok isNoDataFd v f q x d) →
        Fits L u (catchmentNumbers g.a0 g.a1 v x (i, j)) →
        ∃ o r : Cell → ℝ, (∀ d ∈ catchment g.a0 g.a1 v (i, j), out d.1 d.2 = some (.fin (o d)) ∧ rem d.1 d.2 = some (.fin (r d)) ∧
          Balanced L u rule g.a0 g.a1 v q x o r d)

end Lue.MassBalance

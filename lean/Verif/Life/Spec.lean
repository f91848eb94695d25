import Mathlib.Data.Finset.Card
import Mathlib.Data.Finset.Prod
import Mathlib.Data.Int.Interval
import Mathlib.Order.Interval.Finset.Basic

/-!
# Conway's Game of Life

The rules, for cells of the infinite plane. The world is a rectangle. Nothing lives outside of it.
-/
namespace Lue.Life.Rules

/-- Which of the cells of the plane are alive -/
abbrev World := Int → Int → Bool

/-- The eight cells next to a cell -/
def neighbours (i j : Int) : Finset (Int × Int) :=
  {(i - 1, j - 1), (i - 1, j), (i - 1, j + 1), (i, j - 1), (i, j + 1), (i + 1, j - 1), (i + 1, j), (i + 1, j + 1)}

/-- The number of neighbours which are alive -/
def nrAlive (w : World) (i j : Int) : Nat := ((neighbours i j).filter fun c => w c.1 c.2 = true).card

/-- The rules of the game: a living cell with two or three living neighbours survives, a dead cell with three living
neighbours comes to life, all other cells are dead in the next generation. -/
def lives (alive : Bool) (n : Nat) : Bool := if alive then n == 2 || n == 3 else n == 3

/-- Is the cell part of the world? -/
def inside (rows cols : Nat) (i j : Int) : Bool := decide (0 ≤ i ∧ i < rows ∧ 0 ≤ j ∧ j < cols)

/-- The next generation -/
def next (rows cols : Nat) (w : World) : World := fun i j => inside rows cols i j && lives (w i j) (nrAlive w i j)

/-- The generations which follow a generation -/
def generation (rows cols : Nat) (w : World) : Nat → World
  | 0 => w
  | t + 1 => next rows cols (generation rows cols w t)

end Lue.Life.Rules

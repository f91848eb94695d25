import Verif.Partitioned.Basic

/-!
Flow directions.
`A` below is `source/framework/algorithm/include/lue/framework/algorithm`.
-/
namespace Lue.Routing

/-- `A/flow_direction.hpp:8-34`: the codes. -/
def northWest : Nat := 7
def north : Nat := 8
def northEast : Nat := 9
def west : Nat := 4
def sink : Nat := 5
def east : Nat := 6
def southWest : Nat := 1
def south : Nat := 2
def southEast : Nat := 3

/-! ### Specification -/

/-- The offset of the cell a direction points to. -/
def move (code : Nat) : Option (Int × Int) :=
  match code with
  | 7 => some (-1, -1)
  | 8 => some (-1, 0)
  | 9 => some (-1, 1)
  | 4 => some (0, -1)
  | 6 => some (0, 1)
  | 1 => some (1, -1)
  | 2 => some (1, 0)
  | 3 => some (1, 1)
  | _ => none

/-- Cells of an array. -/
abbrev Cell := Nat × Nat

/-- Material flows from cell `c` to cell `c'`, both in the array. -/
def Drains (a0 a1 : Nat) (fd : Arr Nat) (c c' : Cell) : Prop :=
  c.1 < a0 ∧ c.2 < a1 ∧ c'.1 < a0 ∧ c'.2 < a1 ∧
    ∃ d, move (fd c.1 c.2) = some d ∧ (c'.1 : Int) = c.1 + d.1 ∧ (c'.2 : Int) = c.2 + d.2

/-- There is at most one downstream cell. -/
theorem Drains.unique {a0 a1 : Nat} {fd : Arr Nat} {c x y : Cell} (hx : Drains a0 a1 fd c x) (hy : Drains a0 a1 fd c y) :
    x = y := by
  obtain ⟨_, _, _, _, d, hd, h1, h2⟩ := hx
  obtain ⟨_, _, _, _, d', hd', h1', h2'⟩ := hy
  rw [hd, Option.some.injEq] at hd'
  subst hd'
  exact Prod.ext (by omega) (by omega)

theorem move_bound {code : Nat} {d : Int × Int} (h : move code = some d) :
    -1 ≤ d.1 ∧ d.1 ≤ 1 ∧ -1 ≤ d.2 ∧ d.2 ≤ 1 ∧ d ≠ (0, 0) := by
  unfold move at h
  split at h <;> simp only [Option.some.injEq, reduceCtorEq] at h <;> subst h <;> decide

end Lue.Routing

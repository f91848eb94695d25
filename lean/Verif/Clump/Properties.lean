import Verif.Clump.Cells

/-!
C23: the clumps in a partition are the connected components.
-/
namespace Lue.Clump

open Relation

variable {Z : Type} [DecidableEq Z]

/-- C23. The flood fills end (for every array a number of iterations suffices which is linear in the number of cells), no
memory outside of the buffers is accessed, and the ids written are a correct numbering (`IsClumps`) of the clumps. Zones
are `none` for cells with no-data, and for locations outside of the array. -/
theorem clump_partition_components (nr nc : Nat) (diagonal : Bool) (zones : List (Option Z)) (hz : zones.length = nr * nc)
    (fuel : Nat) (hfuel : 4 * (nr * nc) + 2 < fuel) :
    ∃ clumps n, clumpCells fuel nr nc diagonal zones = .ok (clumps, n) ∧ clumps.length = nr * nc ∧
      IsClumps diagonal (fun c => cell nc zones c.1 c.2) (fun c => cell nc clumps c.1 c.2) n :=
  clumpCells_ok hz diagonal hfuel

/-- C23. A single flood fill, started from the first cell of a run of cells of a clump which has not been found yet, adds
exactly the cells connected to that cell. -/
theorem flood_fill_component (nr nc : Nat) (diagonal : Bool) (zones : List (Option Z)) (hz : zones.length = nr * nc)
    (clumps : List (Option Nat)) (hl : clumps.length = nr * nc) (clumpId row col : Nat)
    (hclosed : ∀ c c', Linked diagonal (fun c => cell nc zones c.1 c.2) c c' →
      (cell nc clumps c.1 c.2 = none ↔ cell nc clumps c'.1 c'.2 = none))
    (hzone : cell nc zones row col ≠ none) (hnew : cell nc clumps row col = none)
    (hwest : ∀ c, c + 1 = col → cell nc zones row c ≠ cell nc zones row col)
    (fuel : Nat) (hfuel : 4 * (nr * nc) + 2 < fuel) :
    ∃ clumps', floodFill fuel nr nc diagonal zones row col clumps clumpId = .ok clumps' ∧ clumps'.length = nr * nc ∧
      ∀ c, (ReflTransGen (Linked diagonal (fun c => cell nc zones c.1 c.2)) (row, col) c →
          cell nc clumps' c.1 c.2 = some clumpId) ∧
        (¬ ReflTransGen (Linked diagonal (fun c => cell nc zones c.1 c.2)) (row, col) c →
          cell nc clumps' c.1 c.2 = cell nc clumps c.1 c.2) := by
  obtain ⟨cl, h1, h2, h3⟩ := floodFill_ok (clumpId := clumpId) hz hl hclosed hzone hnew hwest hfuel
  exact ⟨cl, h1, h2, fun c => ⟨fun h => ((h3 c).1 h).2, (h3 c).2⟩⟩

/-! ### Examples -/

/-- A spiral of zone 7, a zone 8 inside of it, and no-data. -/
def spiral : List (Option Nat) :=
  [some 7, some 7, some 7, some 7, some 7,
   none,   none,   none,   none,   some 7,
   some 7, some 7, some 7, none,   some 7,
   some 7, none,   some 8, none,   some 7,
   some 7, some 7, some 7, some 7, some 7]

example : clumpCells 103 5 5 false spiral = .ok (
  [some 0, some 0, some 0, some 0, some 0,
   none,   none,   none,   none,   some 0,
   some 0, some 0, some 0, none,   some 0,
   some 0, none,   some 1, none,   some 0,
   some 0, some 0, some 0, some 0, some 0], 2) := by decide +kernel

/-- Zones touching in corners only. -/
def checkers : List (Option Nat) :=
  [some 1, some 2, some 1,
   some 2, some 1, some 2]

example : clumpCells 27 2 3 false checkers = .ok ([some 0, some 1, some 2, some 3, some 4, some 5], 6) := by decide +kernel

example : clumpCells 27 2 3 true checkers = .ok ([some 0, some 1, some 0, some 1, some 0, some 1], 2) := by decide +kernel

/-- The hypotheses of the theorems are met. -/
example : spiral.length = 5 * 5 ∧ cell 5 spiral 0 0 ≠ none := by decide

end Lue.Clump

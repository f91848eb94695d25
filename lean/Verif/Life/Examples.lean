import Verif.Life.Properties

/-!
C79: examples. A world of 3 × 6 cells, in two partitions.
-/
namespace Lue.Life

open Rules

/-- Three cells in a row, at the boundary of the two partitions -/
def blinker : World := fun i j => decide (i = 1 ∧ (j = 2 ∨ j = 3 ∨ j = 4))

def exGrid : Grid := ⟨3, 6, 3, 3⟩

theorem exGrid_ok : exGrid.Ok := ⟨by decide, by decide, by decide, by decide⟩

theorem blinker_confined : Confined 3 6 blinker := by
  intro i j h
  simp only [inside, decide_eq_false_iff_not] at h
  simp only [blinker, decide_eq_false_iff_not]
  omega

theorem blinker_shown : Shows (store exGrid fun i j => if blinker i j then 1 else 0) exGrid blinker :=
  ⟨rfl, store_represents exGrid_ok _⟩

/-- The last partition is processed first. -/
def exSched : Sched := ⟨fun _ _ => 7, fun _ => [1, 0]⟩

theorem exSched_order (n : Nat) : IsOrder (exGrid.n0 * exGrid.n1) (exSched.order n) := by
  show List.Perm [1, 0] (List.range 2)
  decide

/-- The hypotheses of `gameOfLife_correct` are met. -/
example : ∃ files, gameOfLife (fun _ => exSched) 2 (store exGrid fun i j => if blinker i j then 1 else 0) = .ok files ∧
    files.length = 2 ∧ ∀ k < 2, ∃ r, files[k]? = some (k + 1, r) ∧ Shows r exGrid (generation 3 6 blinker (k + 1)) :=
  gameOfLife_correct blinker_confined ⟨by decide, by decide⟩ (fun _ => exSched_order) 2 blinker_shown

/-- The next generation of the blinker: a column. -/
example : (List.range 3).map (fun i => (List.range 6).map fun j => generation 3 6 blinker 1 i j) =
    [[false, false, false, true, false, false], [false, false, false, true, false, false],
      [false, false, false, true, false, false]] := by decide

/-- The model, executed: the next generation, in partitions. -/
example : (nextGeneration exSched (store exGrid fun i j => if blinker i j then 1 else 0)).map (·.parts) =
    .ok [[0, 0, 0, 0, 0, 0, 0, 0, 0], [1, 0, 0, 1, 0, 0, 1, 0, 0]] := by decide

/-- A block stays as it is. -/
example : (List.range 4).map (fun i => (List.range 4).map fun j =>
    next 4 4 (fun i j => decide (1 ≤ i ∧ i ≤ 2 ∧ 1 ≤ j ∧ j ≤ 2)) i j) =
    (List.range 4).map (fun i => (List.range 4).map fun j => decide (1 ≤ (i : Int) ∧ (i : Int) ≤ 2 ∧ 1 ≤ (j : Int) ∧ (j : Int) ≤ 2)) := by
  decide

/-- Partitions of 2 × 2 cells are too small: `gameOfLife_fails` applies. -/
example : gameOfLife (fun _ => ⟨fun _ _ => 7, fun _ => [3, 1, 0, 2]⟩) 1
    (store ⟨4, 4, 2, 2⟩ fun _ _ => 1) = .error .thrown := by
  refine gameOfLife_fails (w := fun _ _ => true) (g := ⟨4, 4, 2, 2⟩) ?_ ?_ 0 ⟨rfl, ?_⟩
  · intro h
    have := (h 0 0 (by decide) (by decide)).1
    revert this
    decide
  · intro _ _
    show List.Perm [3, 1, 0, 2] (List.range 4)
    decide
  · simpa using store_represents (g := ⟨4, 4, 2, 2⟩) ⟨by decide, by decide, by decide, by decide⟩ (fun _ _ => (1 : Cell))

/-- The hypotheses of `initializeGeneration_correct` are met. -/
example : ∃ x u w, initializeGeneration (Random.lowest 1) (fun _ => 3) (fun _ _ => .nan) (fun _ => 7) [1, 0] (3, 6) (3, 3) 1 = .ok x ∧
    Shows x ⟨3, 6, 3, 3⟩ w ∧ Confined 3 6 w ∧
    Random.Drawn (Random.lowest 1) (.fin 0) (.fin 1) (fun _ => 3) ⟨3, 6, 3, 3⟩ u ∧
    ∀ i j : Nat, i < 3 → j < 6 → ∃ z : ℝ, u i j = .fin z ∧ (w i j = true ↔ z ≤ 1 / 4) :=
  initializeGeneration_correct le_rfl (Random.lowest_uniform 1) _ _ _ (by decide) (by decide) (by decide) (by decide) (by
    show List.Perm [1, 0] (List.range 2)
    decide)

end Lue.Life

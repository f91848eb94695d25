import Verif.Cutout.Catchment

/-!
C82: the hypotheses are met by part of the network used in the examples about inflow counts: the first two rows, and columns
1 and 2. The catchment of cell (1, 2) consists of cells (1, 2), (0, 2) and (0, 1).
-/
namespace Lue.Cutout.Examples

open Lue.Routing Lue.InflowCount Lue.Accu Relation

def part : Cut := ⟨4, 4, 2, 2, 0, 1, by decide, by decide⟩

def partNetwork : Arr Nat := fun i j => exampleNetwork i (j + 1)

theorem partNetwork_same : SameDirections part exampleNetwork partNetwork := by
  intro i j h
  obtain ⟨h1, h2, h3, h4⟩ := h
  simp only [part] at h1 h3
  simp only [partNetwork, part, Nat.sub_zero, Nat.sub_add_cancel h3]

theorem partNetwork_valid : Valid (· == 0) 2 2 partNetwork := by
  constructor
  · intro code h; simp only [beq_iff_eq] at h; subst h; rfl
  · rintro ⟨i, j⟩ ⟨i', j'⟩ ⟨h1, h2, h3, h4, d, hd, e1, e2⟩
    simp only at *
    interval_cases i <;> interval_cases j <;>
      simp [partNetwork, exampleNetwork, move] at hd <;>
      subst hd <;> simp only at e1 e2 <;>
      interval_cases i' <;> first | omega | (interval_cases j' <;> first | omega | rfl)

theorem upstream_cells {u : Cell} (h : u ∈ catchment 4 4 exampleNetwork (1, 2)) : u = (1, 2) ∨ u = (0, 2) ∨ u = (0, 1) := by
  replace h := (mem_catchment (by simp [mem_allCells])).1 h
  induction h using ReflTransGen.head_induction_on with
  | refl => exact .inl rfl
  | @head u x h1 _ ih =>
    obtain ⟨i, j⟩ := u
    obtain ⟨g1, g2, g3, g4, d, hd, e1, e2⟩ := h1
    simp only at *
    rcases ih with rfl | rfl | rfl <;>
    (interval_cases i <;> interval_cases j <;> simp [exampleNetwork, move] at hd <;> subst hd <;> simp at e1 e2 ⊢)

theorem part_covers : ∀ u ∈ catchment part.a0 part.a1 exampleNetwork (1, 2), part.Has u.1 u.2 := by
  intro u hu
  rcases upstream_cells hu with rfl | rfl | rfl <;> exact ⟨by decide, by decide, by decide, by decide⟩

theorem part_acyclic (c : Cell) : ¬ OnCycle 2 2 partNetwork c := by
  rintro ⟨u, _, hu⟩
  have : ∀ a b, TransGen (Drains 2 2 partNetwork) a b → a.1 < b.1 := by
    intro a b h
    have step : ∀ {a b : Cell}, Drains 2 2 partNetwork a b → a.1 < b.1 := by
      rintro ⟨i, j⟩ ⟨i', j'⟩ ⟨h1, h2, h3, h4, d, hd, e1, e2⟩
      simp only at *
      interval_cases i <;> interval_cases j <;> simp [partNetwork, exampleNetwork, move] at hd <;> subst hd <;>
        simp only at e1 e2 <;> omega
    induction h with
    | single h => exact step h
    | tail _ h ih => exact ih.trans (step h)
  exact absurd (this u u hu) (Nat.lt_irrefl _)

theorem part_flowDirections : FlowDirections (· == 0) (store ⟨2, 2, 2, 2⟩ partNetwork) partNetwork :=
  ⟨store_represents ⟨by decide, by decide, by decide, by decide⟩ _, by decide, by decide, partNetwork_valid⟩

/-- Rain, which outside of the catchment is not known in the cutout. -/
def rain : Arr (Option ℚ) := fun i j => some ((i : ℚ) + j)
def partRain : Arr (Option ℚ) := fun i j => if i = 1 ∧ j = 0 then none else some ((i : ℚ) + (j + 1 : Nat))

/-- There are results, and these are the same in cell (1, 2). -/
example : (∃ y, AccuYields (fun a => decide (0 ≤ a)) (· == 0) (store ⟨4, 4, 2, 2⟩ exampleNetwork)
      (.array (store ⟨4, 4, 2, 2⟩ rain)) y) ∧
    (∃ y, AccuYields (fun a => decide (0 ≤ a)) (· == 0) (store ⟨2, 2, 2, 2⟩ partNetwork)
      (.array (store ⟨2, 2, 2, 2⟩ partRain)) y) ∧
    ∀ y y', AccuYields (fun a => decide (0 ≤ a)) (· == 0) (store ⟨4, 4, 2, 2⟩ exampleNetwork)
        (.array (store ⟨4, 4, 2, 2⟩ rain)) y →
      AccuYields (fun a => decide (0 ≤ a)) (· == 0) (store ⟨2, 2, 2, 2⟩ partNetwork)
        (.array (store ⟨2, 2, 2, 2⟩ partRain)) y' →
      ∀ w w', Represents y w → Represents y' w' → w 1 2 = w' 1 1 := by
  have h1 : (Arg.array (store ⟨4, 4, 2, 2⟩ rain)).IsValues ⟨4, 4, 2, 2⟩ rain :=
    ⟨rfl, store_represents ⟨by decide, by decide, by decide, by decide⟩ _⟩
  have h2 : (Arg.array (store ⟨2, 2, 2, 2⟩ partRain)).IsValues ⟨2, 2, 2, 2⟩ partRain :=
    ⟨rfl, store_represents ⟨by decide, by decide, by decide, by decide⟩ _⟩
  refine ⟨(accu_yields_iff example_flowDirections h1).2 fun ⟨u, _, _, h, _⟩ => example_acyclic u h,
    (accu_yields_iff part_flowDirections h2).2 fun ⟨u, _, _, h, _⟩ => part_acyclic u h, fun y y' hy hy' w w' hw hw' => ?_⟩
  refine accu_catchment (k := part) example_flowDirections part_flowDirections rfl rfl rfl rfl h1 h2 partNetwork_same
    (by decide) (by decide) part_covers ?_ (example_acyclic _) hy hy' w w' hw hw'
  intro u hu
  rcases upstream_cells hu with rfl | rfl | rfl <;> simp [rain, partRain, part]

/-- Same, for an operation which splits the material: the hypotheses are met. -/
example : (∃ o r, SplitYields (fun a p => decide (0 ≤ a ∧ 0 ≤ p)) thresholdSplit (· == 0) (store ⟨4, 4, 2, 2⟩ exampleNetwork)
      (.array (store ⟨4, 4, 2, 2⟩ rain)) (.scalar (some (1 / 2))) o r) ∧
    (∃ o r, SplitYields (fun a p => decide (0 ≤ a ∧ 0 ≤ p)) thresholdSplit (· == 0) (store ⟨2, 2, 2, 2⟩ partNetwork)
      (.array (store ⟨2, 2, 2, 2⟩ partRain)) (.scalar (some (1 / 2))) o r) ∧
    ∀ u ∈ catchment part.a0 part.a1 exampleNetwork (1, 2), rain u.1 u.2 = partRain (u.1 - part.o0) (u.2 - part.o1) ∧
      (fun _ _ => some (1 / 2) : Arr (Option ℚ)) u.1 u.2 = (fun _ _ => some (1 / 2) : Arr (Option ℚ)) (u.1 - part.o0) (u.2 - part.o1) := by
  have h1 : (Arg.array (store ⟨4, 4, 2, 2⟩ rain)).IsValues ⟨4, 4, 2, 2⟩ rain :=
    ⟨rfl, store_represents ⟨by decide, by decide, by decide, by decide⟩ _⟩
  have h2 : (Arg.array (store ⟨2, 2, 2, 2⟩ partRain)).IsValues ⟨2, 2, 2, 2⟩ partRain :=
    ⟨rfl, store_represents ⟨by decide, by decide, by decide, by decide⟩ _⟩
  refine ⟨(split_yields_iff (parameter := .scalar (some (1 / 2))) (q := fun _ _ => some (1 / 2)) example_flowDirections h1 (fun _ _ => rfl)).2
      fun ⟨u, _, _, h, _⟩ => example_acyclic u h,
    (split_yields_iff (parameter := .scalar (some (1 / 2))) (q := fun _ _ => some (1 / 2)) part_flowDirections h2 (fun _ _ => rfl)).2
      fun ⟨u, _, _, h, _⟩ => part_acyclic u h, ?_⟩
  intro u hu
  rcases upstream_cells hu with rfl | rfl | rfl <;> simp [rain, partRain, part]

end Lue.Cutout.Examples

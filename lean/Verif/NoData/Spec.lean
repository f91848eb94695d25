import Verif.Focal.Model

/-! C80: the no-data handling described by the reference documentation, in `document/doc/reference/operation`. -/
namespace Lue.NoData

variable {α : Type}

/-- At least one valid value is found within the neighbourhood of cell (`i`, `j`) of an array with `a0` rows and `a1`
columns: the cells of the array at a distance of at most `r` rows and `r` columns which are used by the kernel. The first
row and column of the kernel are `r` rows and columns before the cell. -/
def SeesValid (isNoData : α → Bool) (used : Nat → Nat → Prop) (r a0 a1 : Nat) (v : Arr α) (i j : Nat) : Prop :=
  ∃ i' j', i' < a0 ∧ j' < a1 ∧ (i ≤ i' + r ∧ i' ≤ i + r) ∧ (j ≤ j' + r ∧ j' ≤ j + r) ∧ used (i' + r - i) (j' + r - j) ∧
    isNoData (v i' j') = false

/-- `focal_minimum.md:22-24`, and likewise for the other focal operations: as long as there is at least one valid value
found within the input neighbourhood, a valid value is written to the focal cell in the output array. Only when no such
value is found is a no-data value written. -/
def AsDocumented {β : Type} (isNoData : α → Bool) (isNoData' : β → Bool) (used : Nat → Nat → Prop) (r a0 a1 : Nat)
    (v : Arr α) (u : Arr β) : Prop :=
  ∀ i j, i < a0 → j < a1 → (isNoData' (u i j) = false ↔ SeesValid isNoData used r a0 a1 v i j)

/-- `d8_flow_direction.md:33-34`: a cell containing a no-data value in the input array results in a no-data value in the
corresponding output array. No new no-data values are generated. -/
def CellByCell {β : Type} (isNoData : α → Bool) (isNoData' : β → Bool) (a0 a1 : Nat) (v : Arr α) (u : Arr β) : Prop :=
  ∀ i j, i < a0 → j < a1 → (isNoData' (u i j) = true ↔ isNoData (v i j) = true)

/-- The halo used by the operations: `FillHaloWithConstantValue{no_data_value}` -/
def noDataHalo (mark : α) : Focal.Halo α := ⟨mark, mark, mark, mark, mark, mark, mark, mark⟩

end Lue.NoData

import Verif.Cutout.Zones

/-! C83: statistics which are determined by the values, and a case in which the hypotheses are met. -/
namespace Lue.Cutout

open Lue.Zonal

/-- `zonal_sum`, `zonal_minimum`, `zonal_maximum`, `zonal_mean` and `zonal_diversity` are determined by the values. -/
theorem statistics_determined {α : Type} [AddCommMonoid α] [LinearOrder α] (div : α → Nat → α) :
    (∀ (l : List α) (s t : α), s = l.sum → t = l.sum → (sum : Aggregator α α α).value s = (sum : Aggregator α α α).value t) ∧
    (∀ (l : List α) (s t : α), (s ∈ l ∧ ∀ y ∈ l, s ≤ y) → (t ∈ l ∧ ∀ y ∈ l, t ≤ y) →
      (minimum : Aggregator α α α).value s = (minimum : Aggregator α α α).value t) ∧
    (∀ (l : List α) (s t : α), (s ∈ l ∧ ∀ y ∈ l, y ≤ s) → (t ∈ l ∧ ∀ y ∈ l, y ≤ t) →
      (maximum : Aggregator α α α).value s = (maximum : Aggregator α α α).value t) ∧
    (∀ (l : List α) (s t : α × Nat), s = (l.sum, l.length) → t = (l.sum, l.length) → (mean div).value s = (mean div).value t) ∧
    (∀ l s t : List α, (s.Nodup ∧ ∀ y, y ∈ s ↔ y ∈ l) → (t.Nodup ∧ ∀ y, y ∈ t ↔ y ∈ l) →
      (diversity : Aggregator α (List α) Nat).value s = (diversity : Aggregator α (List α) Nat).value t) := by
  refine ⟨?_, ?_, ?_, ?_, ?_⟩
  · rintro l s t rfl rfl; rfl
  · intro l s t h h'; rw [le_antisymm (h.2 _ h'.1) (h'.2 _ h.1)]
  · intro l s t h h'; rw [le_antisymm (h'.2 _ h.1) (h.2 _ h'.1)]
  · rintro l s t rfl rfl; rfl
  · intro l s t h h'
    have : s.Perm t := (List.perm_ext_iff_of_nodup h.1 h'.1).2 fun y => (h.2 y).trans (h'.2 y).symm
    exact this.length_eq

/-- `zonal_majority` too, also when two executions iterate differently over the values and their frequencies. -/
theorem majority_determined {α : Type} [LinearOrder α] {iter iter' : AMap α Nat → AMap α Nat} (hi : IsIter iter)
    (hi' : IsIter iter') (zero : α) :
    ∀ (l : List α) (s t : AMap α Nat), l ≠ [] → Frequencies l s → Frequencies l t →
      (majority iter zero).value s = (majority iter' zero).value t := by
  intro l s t hl hs ht
  obtain ⟨a1, a2⟩ := majorityValue_spec hi zero hl hs
  obtain ⟨b1, b2⟩ := majorityValue_spec hi' zero hl ht
  show majorityValue iter zero s = majorityValue iter' zero t
  generalize majorityValue iter zero s = a at *
  generalize majorityValue iter' zero t = b at *
  have e := le_antisymm (a2.1 b b1) (b2.1 a a1)
  exact le_antisymm (b2.2 a a1 e.symm) (a2.2 b b1 e)

namespace ZonesExample

/-- Zones in an array of 4 × 4 cells: the zone of cell (1, 2) is in the first two rows and last two columns. -/
def zones : Arr Nat := fun i j => if i < 2 ∧ 2 ≤ j then 7 else i
def values : Arr Nat := fun i j => 4 * i + j
def upperRight : Cut := ⟨4, 4, 3, 3, 0, 1, by decide, by decide⟩

/-- In the cutout, values which are not in the zone are different. -/
def partZones : Arr Nat := fun i j => zones i (j + 1)
def partValues : Arr Nat := fun i j => if j = 0 ∨ i = 2 then 0 else values i (j + 1)

def policies : Policies Nat Nat Nat := ⟨fun _ => false, fun z => z == 0, fun _ _ => true, 255⟩

example : ∃ r r', zonalArray policies sum id (fun _ => 0) [2, 0, 3, 1] [1, 3, 2, 0] (store ⟨4, 4, 2, 2⟩ values)
      (store ⟨4, 4, 2, 2⟩ zones) = .ok r ∧
    zonalArray policies sum id (fun _ => 0) [0] [0] (store ⟨3, 3, 3, 3⟩ partValues) (store ⟨3, 3, 3, 3⟩ partZones) = .ok r' ∧
      ∀ u u', Represents r u → Represents r' u' → u 1 2 = u' 1 1 := by
  refine zonal_zone (k := upperRight) policies sum_summarises sum_summarises (fun l s t _ h h' => by rw [h, h']) (fun m => .refl m)
    (fun m => .refl m) _ _ (v := values) (v' := partValues) (w := zones) (w' := partZones)
    (store_represents ⟨by decide, by decide, by decide, by decide⟩ _)
    (store_represents ⟨by decide, by decide, by decide, by decide⟩ _)
    (store_represents ⟨by decide, by decide, by decide, by decide⟩ _)
    (store_represents ⟨by decide, by decide, by decide, by decide⟩ _) rfl rfl rfl rfl rfl rfl
    (by unfold IsOrder; decide) (by unfold IsOrder; decide) (by unfold IsOrder; decide) (by unfold IsOrder; decide)
    ?_ (by decide) (by decide) ?_ ?_
  · intro i j ⟨h1, h2, h3, h4⟩
    simp only [upperRight] at h1 h3
    simp only [partZones, upperRight, Nat.sub_zero, Nat.sub_add_cancel h3]
  · intro i' j' h0 h1 h
    simp only [zones, upperRight] at h h0 h1
    simp only [Cut.Has, upperRight]
    split at h <;> simp at h <;> omega
  · intro i' j' h0 h1 h
    simp only [zones, upperRight] at h h0 h1
    have hh : i' < 2 ∧ 2 ≤ j' := by split at h <;> simp at h <;> omega
    have h3 : ¬ (j' - 1 = 0 ∨ i' = 2) := by omega
    simp only [partValues, upperRight, Nat.sub_zero, if_neg h3, Nat.sub_add_cancel (show 1 ≤ j' by omega)]

end ZonesExample

end Lue.Cutout

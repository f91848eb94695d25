import Verif.Clump.Merge
import Mathlib.Data.List.Sort

/-!
C24: sets of ids.
-/
namespace Lue.Clump

/-- The elements are sorted. -/
def Sorted (s : List Nat) : Prop := s.Pairwise (· < ·)

theorem sorted_nil : Sorted [] := List.Pairwise.nil

theorem mem_setInsert {a x : Nat} : ∀ {s : List Nat}, x ∈ setInsert a s ↔ x = a ∨ x ∈ s
  | [] => by simp [setInsert]
  | b :: s => by
    unfold setInsert
    split
    · simp
    · split
      · rename_i h; subst h; simp
      · simp only [List.mem_cons, mem_setInsert (s := s)]
        constructor
        · rintro (h | h | h) <;> simp [h]
        · rintro (h | h | h) <;> simp [h]

theorem sorted_setInsert {a : Nat} : ∀ {s : List Nat}, Sorted s → Sorted (setInsert a s)
  | [], _ => by simp [setInsert, Sorted]
  | b :: s, h => by
    have hb : ∀ x ∈ s, b < x := fun x hx => (List.pairwise_cons.1 h).1 x hx
    have hs : Sorted s := (List.pairwise_cons.1 h).2
    unfold setInsert
    split
    · rename_i hab
      refine List.pairwise_cons.2 ⟨fun x hx => ?_, h⟩
      rcases List.mem_cons.1 hx with rfl | hx
      · exact hab
      · have := hb x hx; omega
    · split
      · exact h
      · refine List.pairwise_cons.2 ⟨fun x hx => ?_, sorted_setInsert hs⟩
        rcases mem_setInsert.1 hx with rfl | hx
        · omega
        · exact hb x hx

theorem mem_setUnion {x : Nat} {s t : List Nat} : x ∈ setUnion s t ↔ x ∈ s ∨ x ∈ t := by
  unfold setUnion
  induction t generalizing s with
  | nil => simp
  | cons a t ih =>
    simp only [List.foldl_cons, ih, mem_setInsert, List.mem_cons]
    constructor
    · rintro ((h | h) | h) <;> simp [h]
    · rintro (h | h | h) <;> simp [h]

theorem sorted_setUnion {s t : List Nat} (h : Sorted s) : Sorted (setUnion s t) := by
  unfold setUnion
  induction t generalizing s with
  | nil => exact h
  | cons a t ih => exact ih (sorted_setInsert h)

theorem mem_dropWhile {s : List Nat} (hs : Sorted s) {b x : Nat} : x ∈ s.dropWhile (· < b) ↔ x ∈ s ∧ b ≤ x := by
  induction s with
  | nil => simp
  | cons a s ih =>
    have ha : ∀ x ∈ s, a < x := fun x hx => (List.pairwise_cons.1 hs).1 x hx
    rw [List.dropWhile_cons]
    split
    · rename_i h
      rw [ih (List.pairwise_cons.1 hs).2]
      have : a < b := by simpa using h
      constructor
      · rintro ⟨h1, h2⟩; exact ⟨List.mem_cons_of_mem _ h1, h2⟩
      · rintro ⟨h1, h2⟩
        rcases List.mem_cons.1 h1 with rfl | h1
        · omega
        · exact ⟨h1, h2⟩
    · rename_i h
      have : b ≤ a := by simpa using h
      constructor
      · intro h1
        refine ⟨h1, ?_⟩
        rcases List.mem_cons.1 h1 with rfl | h1
        · exact this
        · have := ha x h1; omega
      · exact fun h1 => h1.1

theorem sorted_dropWhile {s : List Nat} (hs : Sorted s) (p : Nat → Bool) : Sorted (s.dropWhile p) :=
  List.Pairwise.sublist (List.dropWhile_sublist p) hs

theorem shareLoop_iff : ∀ (n : Nat) (s t : List Nat), s.length + t.length < n → Sorted s → Sorted t →
    (shareLoop n s t = true ↔ ∃ x, x ∈ s ∧ x ∈ t)
  | 0, _, _, h, _, _ => by omega
  | n + 1, [], t, _, _, _ => by simp [shareLoop]
  | n + 1, a :: s, [], _, _, _ => by simp [shareLoop]
  | n + 1, a :: s, b :: t, h, hs, ht => by
    have hs' := (List.pairwise_cons.1 hs).2
    have ht' := (List.pairwise_cons.1 ht).2
    have hsa : ∀ x ∈ s, a < x := fun x hx => (List.pairwise_cons.1 hs).1 x hx
    have htb : ∀ x ∈ t, b < x := fun x hx => (List.pairwise_cons.1 ht).1 x hx
    simp only [List.length_cons] at h
    unfold shareLoop
    split
    · rename_i hab
      rw [shareLoop_iff n _ _ (by
        have := (List.dropWhile_sublist (fun x => decide (x < b)) (l := s)).length_le
        simp only [List.length_cons]; omega) (sorted_dropWhile hs' _) ht]
      constructor
      · rintro ⟨x, h1, h2⟩
        exact ⟨x, List.mem_cons_of_mem _ ((mem_dropWhile hs').1 h1).1, h2⟩
      · rintro ⟨x, h1, h2⟩
        refine ⟨x, (mem_dropWhile hs').2 ?_, h2⟩
        have hx : b ≤ x := by
          rcases List.mem_cons.1 h2 with rfl | h2
          · omega
          · have := htb x h2; omega
        refine ⟨?_, hx⟩
        rcases List.mem_cons.1 h1 with rfl | h1
        · omega
        · exact h1
    · split
      · rename_i hba
        rw [shareLoop_iff n _ _ (by
          have := (List.dropWhile_sublist (fun x => decide (x < a)) (l := t)).length_le
          simp only [List.length_cons]; omega) hs (sorted_dropWhile ht' _)]
        constructor
        · rintro ⟨x, h1, h2⟩
          exact ⟨x, h1, List.mem_cons_of_mem _ ((mem_dropWhile ht').1 h2).1⟩
        · rintro ⟨x, h1, h2⟩
          refine ⟨x, h1, (mem_dropWhile ht').2 ?_⟩
          have hx : a ≤ x := by
            rcases List.mem_cons.1 h1 with rfl | h1
            · omega
            · have := hsa x h1; omega
          refine ⟨?_, hx⟩
          rcases List.mem_cons.1 h2 with rfl | h2
          · omega
          · exact h2
      · have : a = b := by omega
        subst this
        simp only [true_iff]
        exact ⟨a, by simp, by simp⟩

theorem shareElement_iff {s t : List Nat} (hs : Sorted s) (ht : Sorted t) :
    shareElement s t = true ↔ ∃ x, x ∈ s ∧ x ∈ t := by
  unfold shareElement
  split
  · rename_i h
    simp only [Bool.or_eq_true, List.isEmpty_iff] at h
    rcases h with rfl | rfl <;> simp
  · split
    · simp [List.any_eq_true]
    · split
      · simp only [List.any_eq_true, List.contains_iff_mem]
        constructor <;> rintro ⟨x, h1, h2⟩ <;> exact ⟨x, h2, h1⟩
      · exact shareLoop_iff _ s t (by omega) hs ht

end Lue.Clump

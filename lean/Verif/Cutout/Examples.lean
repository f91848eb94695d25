import Verif.Cutout.Properties
import Verif.Program.Examples

/-!
C81: the hypotheses of the theorems are met by a model which smooths an elevation `n` times, for a lake of which the
bottom is elsewhere unknown. And the distance cannot be smaller.
-/
namespace Lue.Cutout.Examples

open Lue.Program Lue.Program.Examples

/-- ```
while n > 0:
    elevation = focal_sum(elevation)
    n = n - 1
``` -/
def smooth : Stmt :=
  .loop .int 0 (fun n => decide (0 < n)) (.seq (.op (.focal .amount .amount 0 halo 1 windowSum 0))
    (.op (.scalar .int .int .int 0 (fun n _ => n - 1) 0 0)))

/-- The effect of a time step. -/
def after (a0 a1 : Nat) (S : Whole) : Whole :=
  (S.setArr .amount 0 fun i j =>
    (Focal.windowAt (Focal.extended halo a0 a1 (S.arr .amount 0)) 1 i j).foldl addAmount (some 0)).setSc .int 0 (S.sc .int 0 - 1)

theorem smooth_reaches (a0 a1 : Nat) (n : Nat) : ∀ S : Whole, S.sc .int 0 = (n : Int) →
    ∃ S', Reaches a0 a1 n [smooth] S S' := by
  induction n with
  | zero =>
    intro S hS
    refine ⟨S, .step (r := 0) (R := 0) rfl .loop ?_⟩
    rw [hS]
    exact .done
  | succ n ih =>
    intro S hS
    obtain ⟨S', h⟩ := ih (after a0 a1 S) (by simp [after, Whole.setSc, assign, hS])
    refine ⟨S', ?_⟩
    have e : n + 1 = 0 + (0 + (1 + (0 + n))) := by omega
    rw [e]
    refine .step (r := 0) rfl .loop ?_
    rw [hS, if_pos (by simp)]
    exact .step (r := 0) rfl .seq (.step (r := 1) rfl (.op ⟨_, rfl, fun i j _ _ => rfl⟩)
      (.step (r := 0) rfl (.op rfl) h))

/-- An area, and another one in which something is different far away. -/
def elevation (far : Option ℚ) (n : Nat) : Whole where
  arr := fun t => match t with
    | .code => fun _ _ _ => 0
    | .int => fun _ _ _ => 0
    | .amount => fun _ i j => if i = 8 ∧ j = 8 then far else some (i * 9 + j : Nat)
  sc := fun t => match t with
    | .code => fun _ => 0
    | .int => fun _ => n
    | .amount => fun _ => some 0

/-- A cutout of it: starting at row 2, column 3. -/
def cut : Cut := ⟨9, 9, 6, 6, 2, 3, by decide, by decide⟩

def cutOf (S : Whole) : Whole := ⟨fun t x i j => S.arr t x (i + 2) (j + 3), S.sc⟩

/-- Smoothing twice: cell (5, 6) has the same value in the cutout, for partitions of 9 × 9, 3 × 3 and 6 × 3 cells. -/
example : smooth.need = 3 ∧ (∃ S', Reaches 9 9 2 [smooth] (elevation none 2) S') ∧
    (∃ T', Computes 6 6 smooth (cutOf (elevation none 2)) T') ∧
    (∀ i j, cut.Has i j → cut.Has i j) ∧ (elevation none 2).sc = (cutOf (elevation none 2)).sc ∧
    SameIn cut cut.Has (elevation none 2) (cutOf (elevation none 2)) ∧ Deep cut cut.Has 2 5 6 ∧
    -- at the border of the area nothing is missing in the cutout
    Deep cut cut.Has 2 5 8 ∧ ¬ Deep cut cut.Has 2 3 6 := by
  refine ⟨rfl, smooth_reaches 9 9 2 _ rfl, ?_, fun _ _ h => h, rfl, ?_, ?_, ?_, ?_⟩
  · obtain ⟨T', h⟩ := smooth_reaches 6 6 2 (cutOf (elevation none 2)) rfl
    exact ⟨T', h.computes⟩
  · intro t x i j ⟨h1, h2, h3, h4⟩
    simp only [cut] at h1 h2 h3 h4
    simp only [cutOf, cut, Nat.sub_add_cancel h1, Nat.sub_add_cancel h3]
  · refine ⟨by decide, by decide, fun i' j' h0 h1 e1 e2 e3 e4 => ?_⟩
    simp only [cut] at *
    exact ⟨by simp only; omega, by simp only; omega, by simp only; omega, by simp only; omega⟩
  · refine ⟨by decide, by decide, fun i' j' h0 h1 e1 e2 e3 e4 => ?_⟩
    simp only [cut] at *
    exact ⟨by simp only; omega, by simp only; omega, by simp only; omega, by simp only; omega⟩
  · intro h
    have := (h.2.2 1 6 (by decide) (by decide) (by omega) (by omega) (by omega) (by omega)).1
    simp only [cut] at this
    omega

/-- The two executions, partitioned. -/
example : ∀ g ∈ [(⟨9, 9, 9, 9⟩ : Grid), ⟨9, 9, 3, 3⟩, ⟨9, 9, 4, 3⟩], ∀ g' ∈ [(⟨6, 6, 6, 6⟩ : Grid), ⟨6, 6, 3, 3⟩],
    ∀ r r', Outcome g smooth (load g (elevation none 2)) r → Outcome g' smooth (load g' (cutOf (elevation none 2))) r' →
      ∃ z z', r = .ok z ∧ r' = .ok z' ∧ ∀ v w, Represents (z.arr .amount 0) v → Represents (z'.arr .amount 0) w →
        v 5 6 = w 3 3 := by
  intro g hmem g' hmem' r r' hr hr'
  have hg : g.Ok ∧ g.a0 = 9 ∧ g.a1 = 9 ∧ (smooth.need ≤ g.p0 ∧ smooth.need ≤ g.p1) := by
    simp only [List.mem_cons, List.not_mem_nil, or_false] at hmem
    rcases hmem with rfl | rfl | rfl <;> exact ⟨⟨by decide, by decide, by decide, by decide⟩, rfl, rfl, by decide, by decide⟩
  have hg' : g'.Ok ∧ g'.a0 = 6 ∧ g'.a1 = 6 ∧ (smooth.need ≤ g'.p0 ∧ smooth.need ≤ g'.p1) := by
    simp only [List.mem_cons, List.not_mem_nil, or_false] at hmem'
    rcases hmem' with rfl | rfl <;> exact ⟨⟨by decide, by decide, by decide, by decide⟩, rfl, rfl, by decide, by decide⟩
  obtain ⟨S', hS'⟩ := smooth_reaches 9 9 2 (elevation none 2) rfl
  obtain ⟨T', hT'⟩ := smooth_reaches 6 6 2 (cutOf (elevation none 2)) rfl
  obtain ⟨h1, h2, h3, h4⟩ := hg
  obtain ⟨h1', h2', h3', h4'⟩ := hg'
  obtain ⟨z, z', e, e', -, H⟩ := cutout_correct (k := cut) (Q := cut.Has) (R := 2) (S := elevation none 2) (T := cutOf (elevation none 2)) (S' := S') (T' := T') h1 h1' h2 h3 h2' h3'
    h4 h4' (load_agrees h1 _) (load_agrees h1' (cutOf (elevation none 2))) (by rw [h2, h3]; exact hS') (by rw [h2', h3']; exact hT'.computes)
    (fun _ _ h => h) rfl (fun t x i j ⟨c1, c2, c3, c4⟩ => by
      simp only [cut] at c1 c2 c3 c4
      simp only [cutOf, cut, Nat.sub_add_cancel c1, Nat.sub_add_cancel c3]) hr hr'
  refine ⟨z, z', e, e', fun v w hv hw => H .amount 0 v w hv hw 5 6 ⟨by decide, by decide, fun i' j' q0 q1 e1 e2 e3 e4 => ?_⟩⟩
  simp only [cut] at *
  exact ⟨by simp only; omega, by simp only; omega, by simp only; omega, by simp only; omega⟩

/-- The distance cannot be smaller: after smoothing once, a difference in cell (8, 8) is seen in cell (7, 7), but not in
cell (6, 8). -/
example : (after 9 9 (elevation none 1)).arr .amount 0 7 7 ≠ (after 9 9 (elevation (some 1) 1)).arr .amount 0 7 7 ∧
    (after 9 9 (elevation none 1)).arr .amount 0 6 8 = (after 9 9 (elevation (some 1) 1)).arr .amount 0 6 8 := by
  constructor
  · simp [after, Whole.setSc, Whole.setArr, assign, Focal.windowAt, Focal.extended, elevation, List.range_succ, addAmount, halo]
  · simp [after, Whole.setSc, Whole.setArr, assign, Focal.windowAt, Focal.extended, elevation, List.range_succ, addAmount, halo]

end Lue.Cutout.Examples

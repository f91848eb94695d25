import Verif.Router.Model
import Verif.InflowCount.Properties

/-! Where the material of a cell goes. -/
namespace Lue.Router

open Lue.Routing Lue.InflowCount

section
set_option linter.unusedTactic false
set_option linter.unreachableTactic false
set_option linter.unusedSimpArgs false

theorem downstreamCell_none {n0 n1 code : Nat} {i j : Int} (h : move code = none) :
    downstreamCell n0 n1 code i j = ((0, 0), true) := by
  unfold downstreamCell
  unfold move at h
  split at h <;> first | (simp at h; done) | skip
  simp_all [northWest, north, northEast, west, east, southWest, south, southEast]

theorem downstreamCell_some {n0 n1 code : Nat} {i j : Int} {o : Int × Int} (h : move code = some o)
    (hc : InRange n0 n1 (i, j)) :
    downstreamCell n0 n1 code i j = (o, decide (InRange n0 n1 (i + o.1, j + o.2))) := by
  obtain ⟨h1, h2, h3, h4⟩ := hc
  simp only at h1 h2 h3 h4
  unfold move at h
  split at h <;> simp only [Option.some.injEq, reduceCtorEq] at h <;> subst h <;>
    simp only [downstreamCell, northWest, north, northEast, west, east, southWest, south, southEast] <;>
    simp only [Nat.reduceEqDiff, if_false, if_true, Prod.mk.injEq, true_and] <;>
    rw [Bool.eq_iff_iff] <;> simp only [InRange, Bool.not_eq_true', decide_eq_false_iff_not, decide_eq_true_eq] <;> omega

set_option maxHeartbeats 2000000 in
theorem destinationCell_ok {n0 n1 code : Nat} (h0 : 2 ≤ n0) (h1 : 2 ≤ n1) {c o : Int × Int} (hm : move code = some o)
    (hc : InRange n0 n1 c) (ho : ¬ InRange n0 n1 (c.1 + o.1, c.2 + o.2)) :
    ∃ d idx idx', leave n0 n1 c.1 c.2 code = some (d, idx) ∧ destinationCell n0 n1 c.1 c.2 o.1 o.2 = .ok (d, idx') ∧
      ∀ m0 m1, convert m0 m1 d.sender idx' = convert m0 m1 d.sender idx := by
  obtain ⟨a1, a2, a3, a4⟩ := hc
  have hb := move_bound hm
  obtain ⟨i, j⟩ := c
  obtain ⟨p, q⟩ := o
  simp only at *
  have hp : p = -1 ∨ p = 0 ∨ p = 1 := by omega
  have hq : q = -1 ∨ q = 0 ∨ q = 1 := by omega
  have hi : i = 0 ∨ i = n0 - 1 ∨ (0 < i ∧ i < n0 - 1) := by omega
  have hj : j = 0 ∨ j = n1 - 1 ∨ (0 < j ∧ j < n1 - 1) := by omega
  simp only [leave, hm, Option.bind_some]
  simp only [InRange] at ho
  have hchk : ∀ (P : Prop) [Decidable P], P → check (decide P) = .ok () := fun P _ hP => by simp [check, hP]
  unfold destinationCell
  rw [hchk _ (by omega), M.bind_ok]
  split_ifs <;> first
    | (exfalso; omega)
    | (refine ⟨_, _, _, rfl, by
         repeat rw [hchk _ (by omega), M.bind_ok]
         rfl, ?_⟩
       intro m0 m1
       first | rfl | (simp only [Dir.sender, convert]; done) | (simp only [Dir.sender, convert, Prod.mk.injEq]; omega))
end

end Lue.Router

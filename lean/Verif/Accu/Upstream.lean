import Verif.Accu.Spec
import Mathlib.Algebra.Order.BigOperators.Group.Finset

/-! Catchments. -/
namespace Lue.Accu

open Lue.Routing Relation

variable {a0 a1 : Nat} {fd : Arr Nat}

theorem mem_allCells {c : Cell} : c ∈ allCells a0 a1 ↔ c.1 < a0 ∧ c.2 < a1 := by simp [allCells]

theorem mem_inflowing {c u : Cell} : u ∈ inflowing a0 a1 fd c ↔ Drains a0 a1 fd u c := by
  simp only [inflowing, Finset.mem_filter, mem_allCells]
  exact ⟨fun h => h.2, fun h => ⟨⟨h.1, h.2.1⟩, h⟩⟩

theorem mem_catchment {c u : Cell} (hc : c ∈ allCells a0 a1) :
    u ∈ catchment a0 a1 fd c ↔ ReflTransGen (Drains a0 a1 fd) u c := by
  simp only [catchment, Finset.mem_filter]
  refine ⟨fun h => h.2, fun h => ⟨?_, h⟩⟩
  rcases ReflTransGen.cases_head h with rfl | ⟨b, hb, _⟩
  · exact hc
  · exact mem_allCells.2 ⟨hb.1, hb.2.1⟩

theorem mem_allCells_of_upstream {c u : Cell} (hc : c ∈ allCells a0 a1) (h : ReflTransGen (Drains a0 a1 fd) u c) :
    u ∈ allCells a0 a1 := by
  rcases ReflTransGen.cases_head h with rfl | ⟨b, hb, _⟩
  · exact hc
  · exact mem_allCells.2 ⟨hb.1, hb.2.1⟩

theorem acc_transGen {D : Cell → Cell → Prop} {c : Cell} (h : Acc D c) : ¬ TransGen D c c := by
  have h' : Acc (TransGen D) c := h.transGen
  clear h
  induction h' with
  | intro c _ ih => exact fun hc => ih c hc hc

theorem acc_upstream {D : Cell → Cell → Prop} {c u : Cell} (h : Acc D c) (hu : ReflTransGen D u c) : Acc D u := by
  induction hu using ReflTransGen.head_induction_on with
  | refl => exact h
  | head hab _ ih => exact ih.inv hab

/-- There is no cycle upstream of a cell if and only if all recursions along its upstream cells end. -/
theorem acc_iff {c : Cell} : Acc (Drains a0 a1 fd) c ↔ ¬ OnCycle a0 a1 fd c := by
  constructor
  · rintro h ⟨u, hu, hc⟩
    exact acc_transGen (acc_upstream h hu) hc
  · intro h
    -- The set of cells is finite
    by_contra hacc
    have key : ∀ n, ∀ c, ¬ OnCycle a0 a1 fd c → (catchment a0 a1 fd c).card ≤ n → Acc (Drains a0 a1 fd) c := by
      intro n
      induction n with
      | zero =>
        intro c hc hn
        by_cases hm : c ∈ allCells a0 a1
        · have : c ∈ catchment a0 a1 fd c := (mem_catchment hm).2 .refl
          rw [Nat.le_zero, Finset.card_eq_zero] at hn
          rw [hn] at this; simp at this
        · exact Acc.intro _ fun u hu => absurd (mem_allCells.2 ⟨hu.2.2.1, hu.2.2.2.1⟩) hm
      | succ n ih =>
        intro c hc hn
        refine Acc.intro _ fun u hu => ih u ?_ ?_
        · rintro ⟨w, hw, hww⟩
          exact hc ⟨w, hw.tail hu, hww⟩
        · have hm : c ∈ allCells a0 a1 := mem_allCells.2 ⟨hu.2.2.1, hu.2.2.2.1⟩
          have hmu : u ∈ allCells a0 a1 := mem_allCells.2 ⟨hu.1, hu.2.1⟩
          have : catchment a0 a1 fd u ⊂ catchment a0 a1 fd c := by
            refine (Finset.ssubset_iff_of_subset ?_).2 ⟨c, (mem_catchment hm).2 .refl, ?_⟩
            · intro w hw
              exact (mem_catchment hm).2 (((mem_catchment hmu).1 hw).tail hu)
            · intro hw
              exact hc ⟨c, .refl, TransGen.tail' ((mem_catchment hmu).1 hw) hu⟩
          have := Finset.card_lt_card this
          omega
    exact hacc (key _ c h (Nat.le_refl _))

theorem catchment_eq {c : Cell} (hc : c ∈ allCells a0 a1) [DecidableEq Cell] :
    catchment a0 a1 fd c = insert c ((inflowing a0 a1 fd c).biUnion fun u => catchment a0 a1 fd u) := by
  ext w
  rw [mem_catchment hc, Finset.mem_insert, Finset.mem_biUnion]
  constructor
  · intro h
    rcases ReflTransGen.cases_tail h with h1 | ⟨b, h1, h2⟩
    · exact Or.inl h1.symm
    · exact Or.inr ⟨b, mem_inflowing.2 h2, (mem_catchment (mem_allCells.2 ⟨h2.1, h2.2.1⟩)).2 h1⟩
  · rintro (rfl | ⟨b, h1, h2⟩)
    · exact .refl
    · have h1 := mem_inflowing.1 h1
      exact ((mem_catchment (mem_allCells.2 ⟨h1.1, h1.2.1⟩)).1 h2).tail h1

/-- If each value is the sum of what enters the cell itself and the values of the cells draining into it, it is the sum of
what enters the cells in the catchment. -/
theorem sum_catchment {A : Type} [AddCommMonoid A] {e val : Cell → A} {c : Cell} (hc : c ∈ allCells a0 a1)
    (hacc : Acc (Drains a0 a1 fd) c)
    (h : ∀ u ∈ catchment a0 a1 fd c, val u = e u + ∑ w ∈ inflowing a0 a1 fd u, val w) :
    val c = ∑ u ∈ catchment a0 a1 fd c, e u := by
  classical
  induction hacc with
  | intro c hacc ih =>
    have hacc' : Acc (Drains a0 a1 fd) c := Acc.intro c hacc
    have hin : ∀ u, u ∈ inflowing a0 a1 fd c → u ∈ allCells a0 a1 := fun u hu =>
      have := mem_inflowing.1 hu; mem_allCells.2 ⟨this.1, this.2.1⟩
    rw [h c ((mem_catchment hc).2 .refl), catchment_eq hc, Finset.sum_insert, Finset.sum_biUnion]
    · congr 1
      refine Finset.sum_congr rfl fun u hu => ?_
      have hD := mem_inflowing.1 hu
      refine ih u hD (hin u hu) fun w hw => ?_
      exact h w ((mem_catchment hc).2 (((mem_catchment (hin u hu)).1 hw).tail hD))
    · intro u hu u' hu' hne
      simp only [Finset.mem_coe] at hu hu'
      have hD := mem_inflowing.1 hu
      have hD' := mem_inflowing.1 hu'
      show Disjoint (catchment a0 a1 fd u) (catchment a0 a1 fd u')
      rw [Finset.disjoint_left]
      intro w hw hw'
      rw [mem_catchment (hin u hu)] at hw
      rw [mem_catchment (hin u' hu')] at hw'
      have key : ∀ u u', Drains a0 a1 fd u c → Drains a0 a1 fd u' c → u ≠ u' →
          ReflTransGen (Drains a0 a1 fd) u u' → False := by
        intro u u' hD hD' hne hr
        rcases ReflTransGen.cases_head hr with h1 | ⟨b, hb, hr⟩
        · exact hne h1
        · have := hb.unique hD
          subst this
          exact acc_transGen hacc' (TransGen.tail' hr hD')
      rcases ReflTransGen.total_of_right_unique (fun a b c h h' => h.unique h') hw hw' with h1 | h1
      · exact key u u' hD hD' hne h1
      · exact key u' u hD' hD hne.symm h1
    · intro hm
      rw [Finset.mem_biUnion] at hm
      obtain ⟨u, hu, hcu⟩ := hm
      have hD := mem_inflowing.1 hu
      rw [mem_catchment (hin u hu)] at hcu
      exact acc_transGen hacc' (TransGen.tail' hcu hD)

end Lue.Accu

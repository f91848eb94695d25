import Verif.Program.Theorems

/-!
C73: aggregations and zonal statistics which can be used in programs.
-/
namespace Lue.Program

open Lue.Routing

/-- Adding amounts. -/
def addAmount (a b : Option ℚ) : Option ℚ := a.bind fun x => b.map fun y => x + y

/-- `sum(array)`: `A/definition/sum.hpp:13-48`, with the no-data and domain policies of the default value policies -/
def sumAmount : Aggregation .amount .amount where
  P := ⟨Option.isNone, fun _ => true, fun _ => none, Option.isNone⟩
  F := ⟨some 0, id, addAmount, id, addAmount⟩
  φ := id
  op := addAmount

theorem sumAmount_lawful : sumAmount.Lawful := by
  refine ⟨⟨?_, ?_, fun _ => rfl, fun _ _ => rfl, fun _ => rfl, fun _ _ => rfl⟩, fun _ => rfl⟩
  · intro a b c
    cases a <;> cases b <;> cases c <;> simp [sumAmount, addAmount, add_assoc]
  · intro a b
    cases a <;> cases b <;> simp [sumAmount, addAmount, add_comm]

/-- The sum of amounts which are not no-data is not no-data. -/
theorem sumAmount_valid (l : List (Option ℚ)) (hl : ∀ x ∈ l, x.isNone = false) (r : Option ℚ)
    (h : Aggregate.total sumAmount.op (l.map sumAmount.φ) = some r) : sumAmount.P.isNoData r = false := by
  have key : ∀ (l : List (Option ℚ)) (a : Option ℚ), a.isNone = false → (∀ x ∈ l, x.isNone = false) →
      (l.foldl addAmount a).isNone = false := by
    intro l
    induction l with
    | nil => intro a ha _; exact ha
    | cons b l ih =>
      intro a ha hl
      rw [List.foldl_cons]
      refine ih _ ?_ fun x hx => hl x (by simp [hx])
      have hb := hl b (by simp)
      cases a <;> cases b <;> simp_all [addAmount]
  have e : l.map sumAmount.φ = l := List.map_id l
  rw [e] at h
  cases l with
  | nil => exact absurd h (by simp [Aggregate.total])
  | cons a l =>
    have := Option.some.inj h
    rw [← this]
    exact key l a (hl a (by simp)) fun x hx => hl x (by simp [hx])

/-- `all(array)`: `A/all.hpp:12-50`, for integers used as truth values -/
def allInt (noData : Int → Bool) (mark : Int) : Aggregation .int .int where
  P := ⟨noData, fun _ => true, fun _ => mark, noData⟩
  F := Aggregate.all
  φ := id
  op := fun r x => if r ≠ 0 ∧ x ≠ 0 then 1 else 0

theorem allInt_lawful (noData : Int → Bool) (mark : Int) (h : noData mark = true) : (allInt noData mark).Lawful := by
  refine ⟨⟨?_, ?_, fun _ => rfl, fun _ _ => rfl, fun _ => rfl, fun _ _ => rfl⟩, fun _ => h⟩
  · intro a b c
    simp only [allInt]
    by_cases ha : a = 0 <;> by_cases hb : b = 0 <;> by_cases hc : c = 0 <;> simp [ha, hb, hc]
  · intro a b
    simp only [allInt]
    by_cases ha : a = 0 <;> by_cases hb : b = 0 <;> simp [ha, hb]

/-- `zonal_sum(values, zones)`: `A/definition/zonal_sum.hpp`, for integers -/
def zonalSum : Statistic .int .int where
  σ := Int
  G := Zonal.sum
  Is := fun l a => a = l.sum

theorem zonalSum_lawful : zonalSum.Lawful := by
  refine ⟨fun l s => s = l.sum, Zonal.sum_summarises, ?_, ?_⟩
  · intro l s h; exact h
  · intro l a b ha hb
    have ha : a = l.sum := ha
    have hb : b = l.sum := hb
    rw [ha, hb]

open Classical in
/-- What `accu_threshold` etc. mean is defined for all networks without cycles. -/
theorem split_total {isNoData : Nat → Bool} {within : ℚ → ℚ → Bool} {rule : ℚ → ℚ → ℚ × ℚ} {a0 a1 : Nat} {v : Arr Nat}
    {f q : Arr (Option ℚ)} (hv : InflowCount.Valid isNoData a0 a1 v) (hc : ∀ c, ¬ Relation.TransGen (Drains a0 a1 v) c c)
    (h0 : 2 ≤ a0) (h1 : 2 ≤ a1) :
    ∃ out rem : Arr (Option ℚ), ∀ i j, i < a0 → j < a1 →
      if ∃ u ∈ Accu.catchment a0 a1 v (i, j), Accu.Invalid₂ isNoData within v f q u
      then out i j = none ∧ rem i j = none
      else ∃ x p, f i j = some x ∧ q i j = some p ∧
        let material := (∑ u ∈ Accu.inflowing a0 a1 v (i, j), (out u.1 u.2).getD 0) + x
        out i j = some (rule p material).1 ∧ rem i j = some (rule p material).2 := by
  let g : Grid := ⟨a0, a1, a0, a1⟩
  have hg : g.Ok := ⟨by show 0 < a0; omega, by show 0 < a1; omega, Nat.le_refl _, Nat.le_refl _⟩
  have hfd : Accu.FlowDirections isNoData (store g v) v := ⟨store_represents hg v, h0, h1, hv⟩
  have hin : (Accu.Arg.array (store g f)).IsValues (store g v).grid f := ⟨rfl, store_represents hg f⟩
  have hpa : (Accu.Arg.array (store g q)).IsValues (store g v).grid q := ⟨rfl, store_represents hg q⟩
  obtain ⟨y, y', hy⟩ := (Accu.split_yields_iff (within := within) (split := rule) hfd hin hpa).2 (by
    rintro ⟨u, c, _, ho, _⟩
    exact not_onCycle hc u ho)
  obtain ⟨out, rem, _, _, _, _, hval⟩ := Accu.split_correct hfd hin hpa hy
  refine ⟨out, rem, fun i j hi hj => ?_⟩
  obtain ⟨v1, v2, v3⟩ := hval i j hi hj (not_onCycle hc _)
  split_ifs with hinv
  · exact ⟨v1.2 hinv, v2.2 hinv⟩
  · obtain ⟨o, hoe⟩ := Option.ne_none_iff_exists'.1 (fun e => hinv (v1.1 e))
    obtain ⟨r, hre⟩ := Option.ne_none_iff_exists'.1 (fun e => hinv (v2.1 e))
    obtain ⟨x, p, f1, f2, _, f4⟩ := v3 o r hoe hre
    refine ⟨x, p, f1, f2, ?_⟩
    have f4' : (o, r) = rule p ((∑ u ∈ Accu.inflowing a0 a1 v (i, j), (out u.1 u.2).getD 0) + x) := f4
    simp only
    rw [← f4', hoe, hre]
    exact ⟨rfl, rfl⟩

end Lue.Program

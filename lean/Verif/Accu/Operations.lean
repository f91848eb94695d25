import Verif.Accu.Split
import Mathlib.Data.Rat.Defs
import Mathlib.Algebra.Order.Ring.Rat
import Mathlib.Tactic.IntervalCases
import Mathlib.Algebra.Field.Rat
import Mathlib.Algebra.Order.Field.Basic

/-! C20, C21: `accu_threshold`, `accu_fraction`, `accu_capacity` and `accu_trigger`; and examples. -/
namespace Lue.Accu

open Lue.Routing Lue.InflowCount Lue.Router Relation

variable {K : Type} [Field K] [LinearOrder K] [IsStrictOrderedRing K]
variable {isNoData : Nat → Bool} {fd : PArr Nat} {v : Arr Nat}
variable {within : K → K → Bool} {split : K → K → K × K} {inflow parameter : Arg (Option K)}
variable {f q : Arr (Option K)} {outflow remainder : PArr (Option K)}

/-- The outflow and the remainder are not negative, given an external inflow which is not negative and a valid parameter. -/
theorem split_nonneg (hfd : FlowDirections isNoData fd v) (hin : inflow.IsValues fd.grid f)
    (hpa : parameter.IsValues fd.grid q) (hy : SplitYields within split isNoData fd inflow parameter outflow remainder)
    {Valid : K → Prop} (hsplit : ∀ p a, Valid p → 0 ≤ a → 0 ≤ (split p a).1 ∧ 0 ≤ (split p a).2)
    (hvalid : ∀ i j x p, f i j = some x → q i j = some p → within x p = true → 0 ≤ x ∧ Valid p) :
    ∃ out rem : Arr (Option K), Represents outflow out ∧ Represents remainder rem ∧
      ∀ i j, i < fd.grid.a0 → j < fd.grid.a1 → ¬ OnCycle fd.grid.a0 fd.grid.a1 v (i, j) →
        ∀ o r, out i j = some o → rem i j = some r → 0 ≤ o ∧ 0 ≤ r := by
  obtain ⟨out, rem, h1, h2, _, _, h3⟩ := split_correct hfd hin hpa hy
  refine ⟨out, rem, h1, h2, ?_⟩
  have key : ∀ c : Cell, Acc (Drains fd.grid.a0 fd.grid.a1 v) c → c ∈ allCells fd.grid.a0 fd.grid.a1 →
      ∀ o r, out c.1 c.2 = some o → rem c.1 c.2 = some r → 0 ≤ o ∧ 0 ≤ r := by
    intro c hacc
    induction hacc with
    | intro c hacc ih =>
      intro hcell o r ho hr
      have hb := mem_allCells.1 hcell
      have hc := acc_iff.1 (Acc.intro c hacc)
      obtain ⟨x, p, e1, e2, e3, e4⟩ := (h3 c.1 c.2 hb.1 hb.2 hc).2.2 o r ho hr
      obtain ⟨hx, hp⟩ := hvalid _ _ _ _ e1 e2 e3
      have hs : 0 ≤ ∑ u ∈ inflowing fd.grid.a0 fd.grid.a1 v (c.1, c.2), (out u.1 u.2).getD 0 := by
        refine Finset.sum_nonneg fun u hu => ?_
        have hD : Drains fd.grid.a0 fd.grid.a1 v u c := mem_inflowing.1 hu
        have hu' := acc_iff.1 (hacc u hD)
        obtain ⟨n1, n2, _⟩ := h3 u.1 u.2 hD.1 hD.2.1 hu'
        cases hou : out u.1 u.2 with
        | none => simp
        | some o' =>
          cases hru : rem u.1 u.2 with
          | none => rw [n1.2 (n2.1 hru)] at hou; exact absurd hou (by simp)
          | some r' => exact (ih u hD (mem_allCells.2 ⟨hD.1, hD.2.1⟩) o' r' hou hru).1
      have := hsplit p ((∑ u ∈ inflowing fd.grid.a0 fd.grid.a1 v (c.1, c.2), (out u.1 u.2).getD 0) + x) hp
        (add_nonneg hs hx)
      rw [← e4] at this
      exact this
  intro i j hi hj hc
  exact key (i, j) (acc_iff.2 hc) (mem_allCells.2 ⟨hi, hj⟩)

/-! ### Splitting -/

/-- Up to the threshold everything remains, only the surplus flows out. -/
theorem thresholdSplit_eq (p a : K) : thresholdSplit p a = (max (a - p) 0, min a p) := by
  unfold thresholdSplit
  split_ifs with h
  · rw [max_eq_left (sub_nonneg.2 h.le), min_eq_right h.le]
  · push_neg at h
    rw [max_eq_right (sub_nonpos.2 h), min_eq_left h]

omit [LinearOrder K] [IsStrictOrderedRing K] in
/-- A fraction flows out, the rest remains. -/
theorem fractionSplit_eq (p a : K) : fractionSplit p a = (p * a, (1 - p) * a) := by
  unfold fractionSplit
  rw [sub_mul, one_mul]

/-- Up to the capacity everything flows out, only the surplus remains. -/
theorem capacitySplit_eq (p a : K) : capacitySplit p a = (min a p, max (a - p) 0) := by
  unfold capacitySplit
  simp only
  split_ifs with h
  · rw [max_eq_left (sub_nonneg.2 h.le), min_eq_right h.le]
  · push_neg at h
    rw [max_eq_right (sub_nonpos.2 h), min_eq_left h]

omit [IsStrictOrderedRing K] in
/-- Once the trigger is reached everything flows out, otherwise everything remains. -/
theorem triggerSplit_eq (p a : K) : triggerSplit p a = if p ≤ a then (a, 0) else (0, a) := by
  unfold triggerSplit
  simp only
  by_cases h : a < p
  · rw [if_pos h, if_neg (not_le.2 h)]
  · rw [if_neg h, if_pos (not_lt.1 h)]

theorem thresholdSplit_conserves (p a : K) : (thresholdSplit p a).1 + (thresholdSplit p a).2 = a := by
  unfold thresholdSplit; split_ifs <;> simp

omit [LinearOrder K] [IsStrictOrderedRing K] in
theorem fractionSplit_conserves (p a : K) : (fractionSplit p a).1 + (fractionSplit p a).2 = a := by
  simp [fractionSplit]

theorem capacitySplit_conserves (p a : K) : (capacitySplit p a).1 + (capacitySplit p a).2 = a := by
  unfold capacitySplit; simp only; split_ifs <;> simp

omit [IsStrictOrderedRing K] in
theorem triggerSplit_conserves (p a : K) : (triggerSplit p a).1 + (triggerSplit p a).2 = a := by
  unfold triggerSplit; simp only; split_ifs <;> simp

/-! ### The operations

`total` is the amount of material in the cell: the sum of the external inflow and the outflow of the cells draining into
the cell. -/

/-- What is true of the results of an operation: no-data, the rule used for splitting, bounds, conservation of mass per
cell and conservation of mass for the whole array. -/
structure Splits (isNoData : Nat → Bool) (within : K → K → Bool) (rule : K → K → K → K → Prop) (g : Grid) (v : Arr Nat)
    (f q out rem : Arr (Option K)) : Prop where
  /-- C20 -/
  noData : ∀ i j, i < g.a0 → j < g.a1 → ¬ OnCycle g.a0 g.a1 v (i, j) →
    (out i j = none ↔ ∃ u ∈ catchment g.a0 g.a1 v (i, j), Invalid₂ isNoData within v f q u) ∧
    (rem i j = none ↔ ∃ u ∈ catchment g.a0 g.a1 v (i, j), Invalid₂ isNoData within v f q u)
  /-- Parameter, amount of material, outflow, remainder -/
  rule : ∀ i j, i < g.a0 → j < g.a1 → ¬ OnCycle g.a0 g.a1 v (i, j) → ∀ o r, out i j = some o → rem i j = some r →
    ∃ x p, f i j = some x ∧ q i j = some p ∧ rule p (x + ∑ u ∈ inflowing g.a0 g.a1 v (i, j), (out u.1 u.2).getD 0) o r
  /-- C21, per cell -/
  cell : ∀ i j, i < g.a0 → j < g.a1 → ¬ OnCycle g.a0 g.a1 v (i, j) → ∀ o r, out i j = some o → rem i j = some r →
    ∃ x, f i j = some x ∧ o + r = x + ∑ u ∈ inflowing g.a0 g.a1 v (i, j), (out u.1 u.2).getD 0
  /-- C21, whole array: `V` are the cells with a valid result. -/
  mass : ∀ V : Finset Cell,
    (∀ c, c ∈ V ↔ c ∈ allCells g.a0 g.a1 ∧ ¬ OnCycle g.a0 g.a1 v c ∧ out c.1 c.2 ≠ none) →
    ∀ S : Finset Cell, (∀ c, c ∈ S ↔ c ∈ V ∧ ¬ ∃ c' ∈ V, Drains g.a0 g.a1 v c c') →
    ∑ c ∈ V, (f c.1 c.2).getD 0 = ∑ c ∈ V, (rem c.1 c.2).getD 0 + ∑ c ∈ S, (out c.1 c.2).getD 0

/-- The combination of `split_correct` and `split_conserves`. -/
theorem split_splits {rule : K → K → K → K → Prop} (hrule : ∀ p a, rule p a (split p a).1 (split p a).2)
    (hsplit : ∀ p a, (split p a).1 + (split p a).2 = a) (hfd : FlowDirections isNoData fd v)
    (hin : inflow.IsValues fd.grid f) (hpa : parameter.IsValues fd.grid q)
    (hy : SplitYields within split isNoData fd inflow parameter outflow remainder) :
    ∃ out rem : Arr (Option K), Represents outflow out ∧ Represents remainder rem ∧ outflow.grid = fd.grid ∧
      remainder.grid = fd.grid ∧ Splits isNoData within rule fd.grid v f q out rem := by
  classical
  obtain ⟨out, rem, h1, h2, g1, g2, h3⟩ := split_correct hfd hin hpa hy
  obtain ⟨out', rem', h1', h2', h3', h4'⟩ := split_conserves hfd hin hpa hy hsplit
  have eo : ∀ i j, i < fd.grid.a0 → j < fd.grid.a1 → out' i j = out i j := fun i j hi hj =>
    h1'.unique h1 (by rw [g1]; exact hi) (by rw [g1]; exact hj)
  have er : ∀ i j, i < fd.grid.a0 → j < fd.grid.a1 → rem' i j = rem i j := fun i j hi hj =>
    h2'.unique h2 (by rw [g2]; exact hi) (by rw [g2]; exact hj)
  refine ⟨out, rem, h1, h2, g1, g2, fun i j hi hj hc => ⟨(h3 i j hi hj hc).1, (h3 i j hi hj hc).2.1⟩, ?_, ?_, ?_⟩
  · intro i j hi hj hc o r ho hr
    obtain ⟨x, p, e1, e2, _, e4⟩ := (h3 i j hi hj hc).2.2 o r ho hr
    refine ⟨x, p, e1, e2, ?_⟩
    have := hrule p ((∑ u ∈ inflowing fd.grid.a0 fd.grid.a1 v (i, j), (out u.1 u.2).getD 0) + x)
    rw [← e4, add_comm _ x] at this
    exact this
  · intro i j hi hj hc o r ho hr
    obtain ⟨x, e1, e2⟩ := h3' i j hi hj hc o r (by rw [eo i j hi hj, ho]) (by rw [er i j hi hj, hr])
    refine ⟨x, e1, ?_⟩
    rw [e2]
    congr 1
    refine Finset.sum_congr rfl fun u hu => ?_
    have hD := mem_inflowing.1 hu
    rw [eo u.1 u.2 hD.1 hD.2.1]
  · intro V hV S hS
    have hb : ∀ c ∈ V, c.1 < fd.grid.a0 ∧ c.2 < fd.grid.a1 := fun c hc => mem_allCells.1 ((hV c).1 hc).1
    have := h4' V (by
      ext c
      rw [hV, Finset.mem_filter]
      constructor
      · rintro ⟨a, b, c⟩; have := mem_allCells.1 a; exact ⟨a, b, by rw [eo _ _ this.1 this.2]; exact c⟩
      · rintro ⟨a, b, c⟩; have := mem_allCells.1 a; exact ⟨a, b, by rw [← eo _ _ this.1 this.2]; exact c⟩)
    rw [this]
    have hSe : S = V.filter (fun u => ¬ ∃ c ∈ V, Drains fd.grid.a0 fd.grid.a1 v u c) := by
      ext c; rw [hS, Finset.mem_filter]
    rw [← hSe]
    congr 1
    · exact Finset.sum_congr rfl fun c hc => by rw [er _ _ (hb c hc).1 (hb c hc).2]
    · exact Finset.sum_congr rfl fun c hc => by
        have hc' := ((hS c).1 hc).1
        rw [eo _ _ (hb c hc').1 (hb c hc').2]

/-- C20, C21: `accu_threshold` -/
theorem accuThreshold_correct (hfd : FlowDirections isNoData fd v) (hin : inflow.IsValues fd.grid f)
    (hpa : parameter.IsValues fd.grid q)
    (hy : SplitYields within thresholdSplit isNoData fd inflow parameter outflow remainder) :
    ∃ out rem : Arr (Option K), Represents outflow out ∧ Represents remainder rem ∧ outflow.grid = fd.grid ∧
      remainder.grid = fd.grid ∧ Splits isNoData within
        (fun threshold total o r => o = max (total - threshold) 0 ∧ r = min total threshold) fd.grid v f q out rem :=
  split_splits (fun p a => by rw [thresholdSplit_eq]; exact ⟨rfl, rfl⟩) thresholdSplit_conserves hfd hin hpa hy

/-- C20, C21: `accu_fraction` -/
theorem accuFraction_correct (hfd : FlowDirections isNoData fd v) (hin : inflow.IsValues fd.grid f)
    (hpa : parameter.IsValues fd.grid q)
    (hy : SplitYields within fractionSplit isNoData fd inflow parameter outflow remainder) :
    ∃ out rem : Arr (Option K), Represents outflow out ∧ Represents remainder rem ∧ outflow.grid = fd.grid ∧
      remainder.grid = fd.grid ∧ Splits isNoData within
        (fun fraction total o r => o = fraction * total ∧ r = (1 - fraction) * total) fd.grid v f q out rem :=
  split_splits (fun p a => by rw [fractionSplit_eq]; exact ⟨rfl, rfl⟩) fractionSplit_conserves hfd hin hpa hy

/-- C20, C21: `accu_capacity` -/
theorem accuCapacity_correct (hfd : FlowDirections isNoData fd v) (hin : inflow.IsValues fd.grid f)
    (hpa : parameter.IsValues fd.grid q)
    (hy : SplitYields within capacitySplit isNoData fd inflow parameter outflow remainder) :
    ∃ out rem : Arr (Option K), Represents outflow out ∧ Represents remainder rem ∧ outflow.grid = fd.grid ∧
      remainder.grid = fd.grid ∧ Splits isNoData within
        (fun capacity total o r => o = min total capacity ∧ r = max (total - capacity) 0) fd.grid v f q out rem :=
  split_splits (fun p a => by rw [capacitySplit_eq]; exact ⟨rfl, rfl⟩) capacitySplit_conserves hfd hin hpa hy

/-- C20, C21: `accu_trigger` -/
theorem accuTrigger_correct (hfd : FlowDirections isNoData fd v) (hin : inflow.IsValues fd.grid f)
    (hpa : parameter.IsValues fd.grid q)
    (hy : SplitYields within triggerSplit isNoData fd inflow parameter outflow remainder) :
    ∃ out rem : Arr (Option K), Represents outflow out ∧ Represents remainder rem ∧ outflow.grid = fd.grid ∧
      remainder.grid = fd.grid ∧ Splits isNoData within
        (fun trigger total o r => (trigger ≤ total → o = total ∧ r = 0) ∧ (total < trigger → o = 0 ∧ r = total))
        fd.grid v f q out rem :=
  split_splits (fun p a => by
    rw [triggerSplit_eq]
    refine ⟨fun h => ?_, fun h => ?_⟩
    · rw [if_pos h]; exact ⟨rfl, rfl⟩
    · rw [if_neg (not_le.2 h)]; exact ⟨rfl, rfl⟩) triggerSplit_conserves hfd hin hpa hy

/-- C21: the outflow and the remainder of the operations are not negative, given an external inflow which is not negative
and a parameter which is not negative, and not larger than one in case of `accu_fraction`. -/
theorem operations_nonneg (p a : K) (hp : 0 ≤ p) (ha : 0 ≤ a) :
    (0 ≤ (thresholdSplit p a).1 ∧ 0 ≤ (thresholdSplit p a).2) ∧
    (p ≤ 1 → 0 ≤ (fractionSplit p a).1 ∧ 0 ≤ (fractionSplit p a).2) ∧
    (0 ≤ (capacitySplit p a).1 ∧ 0 ≤ (capacitySplit p a).2) ∧
    (0 ≤ (triggerSplit p a).1 ∧ 0 ≤ (triggerSplit p a).2) := by
  refine ⟨?_, fun h1 => ?_, ?_, ?_⟩
  · rw [thresholdSplit_eq]; exact ⟨le_max_right _ _, le_min ha hp⟩
  · rw [fractionSplit_eq]; exact ⟨mul_nonneg hp ha, mul_nonneg (sub_nonneg.2 h1) ha⟩
  · rw [capacitySplit_eq]; exact ⟨le_min ha hp, le_max_right _ _⟩
  · rw [triggerSplit_eq]; split_ifs <;> exact ⟨by simp [ha], by simp [ha]⟩

/-- C21: the bounds, for each of the operations. -/
theorem operations_bounds (hfd : FlowDirections isNoData fd v) (hin : inflow.IsValues fd.grid f)
    (hpa : parameter.IsValues fd.grid q)
    (hs : (split = thresholdSplit ∨ split = capacitySplit ∨ split = triggerSplit) ∧
        (∀ i j x p, f i j = some x → q i j = some p → within x p = true → 0 ≤ x ∧ 0 ≤ p) ∨
      split = fractionSplit ∧
        (∀ i j x p, f i j = some x → q i j = some p → within x p = true → 0 ≤ x ∧ 0 ≤ p ∧ p ≤ 1))
    (hy : SplitYields within split isNoData fd inflow parameter outflow remainder) :
    ∃ out rem : Arr (Option K), Represents outflow out ∧ Represents remainder rem ∧
      ∀ i j, i < fd.grid.a0 → j < fd.grid.a1 → ¬ OnCycle fd.grid.a0 fd.grid.a1 v (i, j) →
        ∀ o r, out i j = some o → rem i j = some r → 0 ≤ o ∧ 0 ≤ r := by
  rcases hs with ⟨hs, hv⟩ | ⟨rfl, hv⟩
  · refine split_nonneg hfd hin hpa hy (Valid := fun p => 0 ≤ p) ?_ hv
    intro p a hp ha
    obtain ⟨h1, _, h3, h4⟩ := operations_nonneg p a hp ha
    rcases hs with rfl | rfl | rfl
    · exact h1
    · exact h3
    · exact h4
  · refine split_nonneg hfd hin hpa hy (Valid := fun p => 0 ≤ p ∧ p ≤ 1) ?_ hv
    intro p a hp ha
    exact (operations_nonneg p a hp.1 ha).2.1 hp.2

/-! ### Concrete cases -/

section Examples

/-- The network used in the examples about inflow counts. -/
theorem example_flowDirections : FlowDirections (· == 0) (store ⟨4, 4, 2, 2⟩ exampleNetwork) exampleNetwork :=
  ⟨store_represents ⟨by decide, by decide, by decide, by decide⟩ _, by decide, by decide, exampleNetwork_valid⟩

/-- Material gets closer to the sink at (2, 2). -/
def exampleDistance (c : Cell) : Nat := max (max (c.1 - 2) (2 - c.1)) (max (c.2 - 2) (2 - c.2))

theorem example_closer {u c : Cell} (h : Drains 4 4 exampleNetwork u c) : exampleDistance c < exampleDistance u := by
  obtain ⟨i, j⟩ := u
  obtain ⟨i', j'⟩ := c
  obtain ⟨h1, h2, h3, h4, d, hd, e1, e2⟩ := h
  simp only at *
  interval_cases i <;> interval_cases j <;>
    simp [exampleNetwork, move] at hd <;>
    subst hd <;> simp only at e1 e2 <;>
    interval_cases i' <;> first | omega | (interval_cases j' <;> first | omega | decide)

theorem example_acyclic (c : Cell) : ¬ OnCycle 4 4 exampleNetwork c := by
  rintro ⟨u, _, hu⟩
  have : ∀ a b, TransGen (Drains 4 4 exampleNetwork) a b → exampleDistance b < exampleDistance a := by
    intro a b h
    induction h with
    | single h => exact example_closer h
    | tail _ h ih => exact (example_closer h).trans ih
  exact absurd (this u u hu) (Nat.lt_irrefl _)

/-- The hypotheses of the theorems are met by this network: there is an outcome, and there are no cycles. -/
example : ∃ y, AccuYields (K := ℚ) (fun a => decide (0 ≤ a)) (· == 0) (store ⟨4, 4, 2, 2⟩ exampleNetwork)
    (.scalar (some 1)) y :=
  (accu_yields_iff (inflow := .scalar (some 1)) (f := fun _ _ => some 1) example_flowDirections (fun _ _ => rfl)).2
    fun ⟨u, _, _, h, _⟩ => example_acyclic u h

example : ∃ o r, SplitYields (K := ℚ) (fun a p => decide (0 ≤ a ∧ 0 ≤ p)) thresholdSplit (· == 0)
    (store ⟨4, 4, 2, 2⟩ exampleNetwork) (.array (store ⟨4, 4, 2, 2⟩ fun (i j : Nat) => some ((i : ℚ) + j))) (.scalar (some (1 / 2))) o r :=
  (split_yields_iff (inflow := .array (store ⟨4, 4, 2, 2⟩ fun (i j : Nat) => some ((i : ℚ) + j))) (parameter := .scalar (some (1 / 2)))
    (f := fun (i j : Nat) => some ((i : ℚ) + j)) (q := fun _ _ => some (1 / 2)) example_flowDirections
    ⟨rfl, store_represents ⟨by decide, by decide, by decide, by decide⟩ _⟩ (fun _ _ => rfl)).2
    fun ⟨u, _, _, h, _⟩ => example_acyclic u h

/-- An execution. -/
def run {σ μ : Type} (F : CellAccumulator σ μ) (isNoData : Nat → Bool) (fd : PArr Nat) (order1 order2 : List Nat)
    (actions : List Action) : M (List (List σ)) := do
  let s ← initialise F isNoData order1 order2 fd
  let s ← actions.foldlM (perform F isNoData fd) s
  return (results fd.grid s).parts

example : run (accuCells (K := Nat) (fun _ => true) (.scalar (some 1))) (· == 0) (store ⟨4, 4, 2, 2⟩ exampleNetwork)
    [2, 0, 3, 1] [1, 3, 2, 0]
    [.intra 1 1, .intra 0 0, .intra 0 1, .receive 0 1 .w, .receive 1 1 .nw, .intra 1 0, .receive 1 1 .w, .receive 1 1 .n,
      .receive 1 0 .n, .receive 1 1 .w, .receive 1 1 .n] =
    .ok [[some 1, some 1, some 1, some 2], [some 1, none, some 3, some 1],
      [some 1, some 4, some 1, some 1], [some 15, some 1, some 1, some 1]] := by decide

/-- Two cells, in different partitions, draining into each other: nothing is returned, the operation waits forever. -/
def exampleCycle : Arr Nat := fun i j => if i = 0 ∧ j = 1 then 6 else if i = 0 ∧ j = 2 then 4 else 5

example : ¬ ∃ y, AccuYields (K := ℚ) (fun _ => true) (· == 0) (store ⟨2, 4, 2, 2⟩ exampleCycle) (.scalar (some 1)) y := by
  have hfd : FlowDirections (· == 0) (store ⟨2, 4, 2, 2⟩ exampleCycle) exampleCycle := by
    refine ⟨store_represents ⟨by decide, by decide, by decide, by decide⟩ _, by decide, by decide, ?_, ?_⟩
    · intro code h; simp only [beq_iff_eq] at h; subst h; rfl
    · intro c c' _
      unfold exampleCycle
      split_ifs <;> rfl
  rw [accu_yields_iff (inflow := .scalar (some 1)) (f := fun _ _ => some 1) hfd (fun _ _ => rfl), not_not]
  have h1 : Drains 2 4 exampleCycle (0, 1) (0, 2) := ⟨by decide, by decide, by decide, by decide, (0, 1), rfl, rfl, rfl⟩
  have h2 : Drains 2 4 exampleCycle (0, 2) (0, 1) := ⟨by decide, by decide, by decide, by decide, (0, -1), rfl, rfl, rfl⟩
  refine ⟨(0, 1), (0, 2), h1, ⟨(0, 1), .refl, .tail (.single h1) h2⟩, ?_⟩
  rintro k0 k1 _ _ ⟨⟨c, hc, e⟩, ⟨c', hc', e'⟩⟩
  have hk : k1 < 2 := by assumption
  have a := congrArg Prod.snd e
  have b := congrArg Prod.snd e'
  have hcols : ∀ k < 2, Grid.cols ⟨2, 4, 2, 2⟩ k = 2 := by decide
  have hcc := hc.2.2.2
  have hcc' := hc'.2.2.2
  have g : (store ⟨2, 4, 2, 2⟩ exampleCycle).grid = ⟨2, 4, 2, 2⟩ := rfl
  rw [g, hcols k1 hk] at hcc hcc'
  simp only [glob, g] at a b
  omega

end Examples

end Lue.Accu

import Verif.Program.Instances

/-!
C73: the hypotheses of the theorems are met by a program which accumulates rain during a number of time steps.
-/
namespace Lue.Program.Examples

open Lue.Routing

/-- Policies for which nothing is no-data, or out of domain or range. -/
def p1 : LocalOp.Policies1 (Option ℚ) (Option ℚ) := ⟨Option.isNone, fun _ => true, fun _ _ => true, none⟩

/-- The sum of the values in a window. -/
def windowSum (l : List (Option ℚ)) : M (Option ℚ) := .ok (l.foldl addAmount (some 0))

def halo : Focal.Halo (Option ℚ) := ⟨some 0, some 0, some 0, some 0, some 0, some 0, some 0, some 0⟩

/-- ```
while n > 0:
    rain = rain + 1
    discharge = accu(flow_direction, rain)
    runoff, infiltration = accu_fraction(flow_direction, discharge, fraction)
    total = sum(discharge)
    n = n - 1
if total > 0:
    smooth = focal_sum(discharge)
else:
    smooth = 0
``` -/
def body : Stmt :=
  .seq (.op (.unary .amount .amount 0 p1 (fun a => addAmount a (some 1)) 0)) <|
  .seq (.op (.accu 1 (· == 0) (fun _ => true) 0 (.array 0))) <|
  .seq (.op (.split 3 4 (· == 0) (fun _ f => decide (0 ≤ f ∧ f ≤ 1)) Accu.fractionSplit 0 (.array 1) (.scalar 2))) <|
  .seq (.op (.aggregate .amount .amount 0 sumAmount 1)) <|
  .op (.scalar .int .int .int 0 (fun n _ => n - 1) 0 0)

def program : Stmt :=
  .seq (.loop .int 0 (fun n => decide (0 < n)) body) <|
  .ite .amount 0 (fun a => decide (0 < a.getD 0)) (.op (.focal .amount .amount 2 halo 1 windowSum 1))
    (.op (.fill .amount 2 1))

/-- Partitions of at least 3 x 3 cells are required. -/
example : program.need = 3 := rfl

theorem network_acyclic (c : Cell) : ¬ Relation.TransGen (Drains 4 4 InflowCount.exampleNetwork) c c :=
  fun h => Accu.example_acyclic c ⟨c, .refl, h⟩

theorem wholeSteps_trans {a0 a1 n m : Nat} {p q r : List Stmt} {S T U : Whole} (h : WholeSteps a0 a1 n p S q T)
    (h' : WholeSteps a0 a1 m q T r U) : WholeSteps a0 a1 (n + m) p S r U := by
  induction h with
  | nil => rw [Nat.zero_add]; exact h'
  | more h1 _ ih => rw [Nat.add_right_comm]; exact .more h1 (ih h')

theorem setArr_other (S : Whole) (t t' : Ty) (x x' : Nat) (a : Arr t.El) (h : t ≠ t') :
    (S.setArr t x a).arr t' x' = S.arr t' x' := by
  simp only [Whole.setArr, assign, dif_neg h]

/-- A time step, given any rain. -/
theorem body_computes {S : Whole} (hS : S.arr .code 0 = InflowCount.exampleNetwork) (rest : List Stmt) :
    ∃ n S', WholeSteps 4 4 n (body :: rest) S rest S' ∧ S'.arr .code 0 = InflowCount.exampleNetwork ∧
      S'.sc .int 0 = S.sc .int 0 - 1 := by
  classical
  let S1 := S.setArr .amount 0 fun i j => (LocalOp.unarySpec p1 (fun a => addAmount a (some 1)) (S.arr .amount 0 i j)).getD p1.mark
  have e1 : S1.arr .code 0 = InflowCount.exampleNetwork := (setArr_other S .amount .code 0 0 _ (by decide)).trans hS
  let S2 := S1.setArr .amount 1 fun i j =>
    if ∃ u ∈ Accu.catchment 4 4 (S1.arr .code 0) (i, j), Accu.Invalid (· == 0) (fun _ => true) (S1.arr .code 0)
      ((Src.array 0 : Src .amount).values S1) u
    then none
    else some (∑ u ∈ Accu.catchment 4 4 (S1.arr .code 0) (i, j), ((Src.array 0 : Src .amount).values S1 u.1 u.2).getD 0)
  have e2 : S2.arr .code 0 = InflowCount.exampleNetwork := (setArr_other S1 .amount .code 1 0 _ (by decide)).trans e1
  obtain ⟨out, rem, hor⟩ := split_total (isNoData := (· == 0)) (within := fun _ f => decide (0 ≤ f ∧ f ≤ 1))
    (rule := Accu.fractionSplit) (v := S2.arr .code 0) (by rw [e2]; exact InflowCount.exampleNetwork_valid) (by rw [e2]; exact network_acyclic)
    (a0 := 4) (a1 := 4) (by decide) (by decide) (f := S2.arr .amount 1) (q := fun _ _ => S2.sc .amount 2)
  let S2' := (S2.setArr .amount 3 out).setArr .amount 4 rem
  have e2' : S2'.arr .code 0 = InflowCount.exampleNetwork :=
    (setArr_other _ .amount .code 4 0 _ (by decide)).trans ((setArr_other _ .amount .code 3 0 _ (by decide)).trans e2)
  -- the sum
  have hagg : ∃ r : Option ℚ, (Op.aggregate .amount .amount 0 sumAmount 1).Means 4 4 S2' (S2'.setSc .amount 0 r) := by
    let valid := ((cellIdxs 4 4).map fun c => S2'.arr .amount 1 c.1 c.2).filter fun x => !sumAmount.P.indp x && sumAmount.P.dp x
    have hv : ∀ l : List (Option ℚ), l.Subperm valid → ∀ r, Aggregate.total sumAmount.op (l.map sumAmount.φ) = some r →
        sumAmount.P.isNoData r = false := by
      intro l hl r hr
      refine sumAmount_valid l (fun x hx => ?_) r hr
      have := hl.subset hx
      have h' := (List.mem_filter.1 this).2
      simpa [sumAmount] using h'
    by_cases hemp : valid = []
    · refine ⟨sumAmount.P.mark sumAmount.F.none, sumAmount_lawful, _, rfl, hv, ?_⟩
      rw [if_pos hemp]
    · obtain ⟨r, hr⟩ : ∃ r, Aggregate.total sumAmount.op (valid.map sumAmount.φ) = some r := by
        cases hl : valid with
        | nil => exact absurd hl hemp
        | cons a l => exact ⟨_, rfl⟩
      refine ⟨r, sumAmount_lawful, _, rfl, hv, ?_⟩
      rw [if_neg hemp]
      exact hr
  obtain ⟨r, hr⟩ := hagg
  let S3 := S2'.setSc .amount 0 r
  let S4 := S3.setSc .int 0 ((fun (n : Int) (_ : Int) => n - 1) (S3.sc .int 0) (S3.sc .int 0))
  refine ⟨9, S4, ?_, e2', rfl⟩
  refine .more .seq (.more (.op (S' := S1) rfl) (.more .seq (.more (.op (S' := S2) ?_) (.more .seq
    (.more (.op (S' := S2') ?_) (.more .seq (.more (.op (S' := S3) hr) (.more (.op (S' := S4) rfl) .nil))))))))
  · refine ⟨?_, ?_, rfl⟩
    · rw [e1]; exact InflowCount.exampleNetwork_valid
    · rw [e1]; exact network_acyclic
  · refine ⟨?_, ?_, out, rem, rfl, hor⟩
    · rw [e2]; exact InflowCount.exampleNetwork_valid
    · rw [e2]; exact network_acyclic

/-- Any number of time steps. -/
theorem loop_computes (k : Nat) : ∀ {S : Whole}, S.arr .code 0 = InflowCount.exampleNetwork → S.sc .int 0 = (k : Int) →
    ∀ rest : List Stmt, ∃ n S', WholeSteps 4 4 n (.loop .int 0 (fun n => decide (0 < n)) body :: rest) S rest S' := by
  induction k with
  | zero =>
    intro S hS hk rest
    refine ⟨1, S, .more .loop ?_⟩
    rw [hk]
    exact .nil
  | succ k ih =>
    intro S hS hk rest
    obtain ⟨n, S', h1, h2, h3⟩ := body_computes hS (.loop .int 0 (fun n => decide (0 < n)) body :: rest)
    obtain ⟨m, S'', h4⟩ := ih h2 (by rw [h3, hk]; simp) rest
    refine ⟨n + m + 1, S'', .more .loop ?_⟩
    rw [hk, if_pos (by simp)]
    exact wholeSteps_trans h1 h4

theorem program_computes {S : Whole} (hS : S.arr .code 0 = InflowCount.exampleNetwork) {k : Nat} (hk : S.sc .int 0 = (k : Int)) :
    ∃ S', Computes 4 4 program S S' := by
  obtain ⟨n, T, h1⟩ := loop_computes k hS hk [.ite .amount 0 (fun a => decide (0 < a.getD 0))
    (.op (.focal .amount .amount 2 halo 1 windowSum 1)) (.op (.fill .amount 2 1))]
  by_cases hc : (fun a : Option ℚ => decide (0 < a.getD 0)) (T.sc .amount 0) = true
  · refine ⟨T.setArr .amount 2 fun i j =>
      (Focal.windowAt (Focal.extended halo 4 4 (T.arr .amount 1)) 1 i j).foldl addAmount (some 0), 1 + (n + 2),
      wholeSteps_trans (.more .seq .nil) (wholeSteps_trans h1 (.more .ite ?_))⟩
    rw [if_pos hc]
    exact .more (.op ⟨_, rfl, fun i j _ _ => rfl⟩) .nil
  · refine ⟨T.setArr .amount 2 fun _ _ => T.sc .amount 1, 1 + (n + 2),
      wholeSteps_trans (.more .seq .nil) (wholeSteps_trans h1 (.more .ite ?_))⟩
    rw [if_neg hc]
    exact .more (.op rfl) .nil

/-- The variables at the start: flow directions, rain, and the number of time steps. -/
def start : Whole where
  arr := fun t => match t with
    | .code => fun _ => InflowCount.exampleNetwork
    | .int => fun _ _ _ => 0
    | .amount => fun _ i j => if i = 3 ∧ j = 0 then none else some (i * 4 + j : Nat)
  sc := fun t => match t with
    | .code => fun _ => 0
    | .int => fun _ => 5
    | .amount => fun _ => some 0

/-- Arrays as read from a file. -/
def load (g : Grid) (S : Whole) : State := ⟨fun t x => store g (S.arr t x), S.sc⟩

theorem load_agrees {g : Grid} (hg : g.Ok) (S : Whole) : Agree g (load g S) S :=
  ⟨fun _ _ => rfl, fun _ _ => store_represents hg _, fun _ _ => rfl⟩

/-- The hypotheses of `program_correct` and `program_partitioning` are met: a single partition, and two partitions of
three rows (one row for the last one is merged). -/
example : (∃ S', Computes 4 4 program start S') ∧
    (∀ g ∈ [(⟨4, 4, 4, 4⟩ : Grid), ⟨4, 4, 3, 4⟩, ⟨4, 4, 3, 3⟩], g.Ok ∧ g.a0 = 4 ∧ g.a1 = 4 ∧
      (program.need ≤ g.p0 ∧ program.need ≤ g.p1) ∧ Agree g (load g start) start ∧ ∃ r, Outcome g program (load g start) r) := by
  have hc : ∃ S', Computes 4 4 program start S' := program_computes rfl (k := 5) rfl
  refine ⟨hc, ?_⟩
  obtain ⟨S', hS'⟩ := hc
  intro g hmem
  have hg : g.Ok ∧ g.a0 = 4 ∧ g.a1 = 4 ∧ (program.need ≤ g.p0 ∧ program.need ≤ g.p1) := by
    simp only [List.mem_cons, List.not_mem_nil, or_false] at hmem
    rcases hmem with rfl | rfl | rfl <;> exact ⟨⟨by decide, by decide, by decide, by decide⟩, rfl, rfl, by decide, by decide⟩
  obtain ⟨h1, h2, h3, h4⟩ := hg
  refine ⟨h1, h2, h3, h4, load_agrees h1 _, ?_⟩
  have := (program_correct h1 h4 (load_agrees h1 start) (S' := S') (by rw [h2, h3]; exact hS')).1
  exact this

end Lue.Program.Examples

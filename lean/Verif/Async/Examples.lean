import Verif.Async.Theorems
import Verif.Program.Examples

/-!
Examples for C75.
-/
namespace Lue.Async.Examples

open Lue.Program Lue.Dataflow

def noData (x : Int) : Bool := x == -999

def p1 : LocalOp.Policies1 Int Int := ⟨noData, fun _ => true, fun _ _ => true, -999⟩

/-- A single zonal operation is used: the sum per zone. -/
def ops : Unit → ZonalOp := fun _ => ⟨.code, .int, .int, ⟨noData, fun _ => false, fun _ _ => true, -999⟩, zonalSum⟩

def halo : Focal.Halo Int := ⟨0, 0, 0, 0, 0, 0, 0, 0⟩

/-- ```
while n > 0:
    rain = rain + 1
    n = n - 1
water = zonal_sum(rain, zones)
if all(water):
    smooth = focal_sum(water)
else:
    smooth = n
``` -/
def program : Prog Unit :=
  .seq (.loop .int 0 (fun n => decide (0 < n))
    (.seq (.call (.unary .int .int 0 p1 (· + 1) 0)) (.call (.scalar .int .int .int 0 (fun n _ => n - 1) 0 0)))) <|
  .seq (.call (.zonal () 1 0 0)) <|
  .seq (.call (.aggregate .int .int 1 (allInt noData (-999)) 1)) <|
  .ite .int 1 (fun a => decide (a ≠ 0)) (.call (.focal .int .int 2 halo 1 (fun l => .ok l.sum) 1)) (.call (.fill .int 2 0))

def rain : Arr Int := fun i j => i * 4 + j

/-- Variables at the start: the top half and the bottom half are zones, two time steps. -/
def begin : Whole where
  arr := fun t => match t with
    | .code => fun _ i _ => i / 3
    | .int => fun _ => rain
    | .amount => fun _ _ _ => none
  sc := fun t => match t with
    | .code => fun _ => 0
    | .int => fun _ => 2
    | .amount => fun _ => none

def timeStep (S : Whole) : Whole :=
  (S.setArr .int 0 fun i j => (LocalOp.unarySpec p1 (· + 1) (S.arr .int 0 i j)).getD (-999)).setSc .int 0 (S.sc .int 0 - 1)

theorem valid_not_noData (l : List Int) (h : ∀ x ∈ l, noData x = false) (r : Int)
    (hr : Aggregate.total (allInt noData (-999)).op (l.map (allInt noData (-999)).φ) = some r) : noData r = false := by
  have e : l.map (allInt noData (-999)).φ = l := List.map_id l
  rw [e] at hr
  have key : ∀ (l : List Int) (a : Int), noData a = false →
      noData (l.foldl (allInt noData (-999)).op a) = false := by
    intro l
    induction l with
    | nil => intro a ha; exact ha
    | cons b l ih =>
      intro a ha
      refine ih _ ?_
      simp only [allInt]
      split <;> rfl
  cases l with
  | nil => exact absurd hr (by simp [Aggregate.total])
  | cons a l =>
    rw [← Option.some.inj hr]
    exact key l a (h a (by simp))

open Classical in
/-- The sum per zone is defined. -/
theorem zonal_means (S : Whole) : ∃ w : Arr Int, (Op.zonal .code .int .int 1 (ops ()).P zonalSum 0 0).Means 6 4 S
    (S.setArr .int 1 w) := by
  have h : ∀ (mark : Int) (l : List Int), ∃ w, if l = [] then w = mark else zonalSum.Is l w := fun mark l => by
    by_cases e : l = []
    · exact ⟨mark, by rw [if_pos e]⟩
    · exact ⟨l.sum, by rw [if_neg e]; rfl⟩
  choose w hw using h
  exact ⟨fun i j => w _ _, zonalSum_lawful, _, rfl, fun i j _ _ => hw _ _⟩

open Classical in
/-- Whether all cells are true is defined. -/
theorem all_means (S : Whole) : ∃ r : Int, (Op.aggregate .int .int 1 (allInt noData (-999)) 1).Means 6 4 S (S.setSc .int 1 r) := by
  let valid := ((cellIdxs 6 4).map fun c => S.arr .int 1 c.1 c.2).filter fun x =>
    !(allInt noData (-999)).P.indp x && (allInt noData (-999)).P.dp x
  have hv : ∀ l : List Int, l.Subperm valid → ∀ r, Aggregate.total (allInt noData (-999)).op (l.map (allInt noData (-999)).φ) =
      some r → (allInt noData (-999)).P.isNoData r = false := by
    intro l hl r hr
    refine valid_not_noData l (fun x hx => ?_) r hr
    have h' := (List.mem_filter.1 (hl.subset hx)).2
    simpa [allInt] using h'
  by_cases hemp : valid = []
  · refine ⟨(allInt noData (-999)).P.mark (allInt noData (-999)).F.none, allInt_lawful noData (-999) rfl, _, rfl, hv, ?_⟩
    rw [if_pos hemp]
  · obtain ⟨r, hr⟩ : ∃ r, Aggregate.total (allInt noData (-999)).op (valid.map (allInt noData (-999)).φ) = some r := by
      cases hl : valid with
      | nil => exact absurd hl hemp
      | cons a l => exact ⟨_, rfl⟩
    refine ⟨r, allInt_lawful noData (-999) rfl, _, rfl, hv, ?_⟩
    rw [if_neg hemp]
    exact hr

/-- Working with whole arrays, the program comes to its end. The rain has been incremented twice. -/
theorem program_computes : ∃ S', Computes 6 4 (program.stmt ops) begin S' ∧
    S'.arr .int 0 = (timeStep (timeStep begin)).arr .int 0 := by
  obtain ⟨w, hw⟩ := zonal_means (timeStep (timeStep begin))
  obtain ⟨r, hr⟩ := all_means ((timeStep (timeStep begin)).setArr .int 1 w)
  let S1 := (timeStep (timeStep begin)).setArr .int 1 w
  let S2 := S1.setSc .int 1 r
  by_cases hc : r = 0
  · refine ⟨S2.setArr .int 2 fun _ _ => S2.sc .int 0, ⟨16, .more .seq (.more .loop (.more .seq (.more (.op rfl) (.more (.op rfl)
      (.more .loop (.more .seq (.more (.op rfl) (.more (.op rfl) (.more .loop (.more .seq (.more (.op hw) (.more .seq
      (.more (.op hr) (.more .ite ?_))))))))))))))⟩, rfl⟩
    have : (fun a : Int => decide (a ≠ 0)) (S2.sc .int 1) = false := by simp [S2, Whole.setSc, assign, hc]
    simp only [S2, S1] at this
    rw [this]
    exact .more (.op rfl) .nil
  · refine ⟨S2.setArr .int 2 fun i j => (Focal.windowAt (Focal.extended halo 6 4 (S2.arr .int 1)) 1 i j).sum,
      ⟨16, .more .seq (.more .loop (.more .seq (.more (.op rfl) (.more (.op rfl)
      (.more .loop (.more .seq (.more (.op rfl) (.more (.op rfl) (.more .loop (.more .seq (.more (.op hw) (.more .seq
      (.more (.op hr) (.more .ite ?_))))))))))))))⟩, rfl⟩
    have : (fun a : Int => decide (a ≠ 0)) (S2.sc .int 1) = true := by simp [S2, Whole.setSc, assign, hc]
    simp only [S2, S1] at this
    rw [this]
    exact .more (.op ⟨_, rfl, fun i j _ _ => rfl⟩) .nil

def g : Grid := ⟨6, 4, 3, 4⟩

def arrays : List (Σ t : Ty, Arr t.El) := [⟨.code, begin.arr .code 0⟩, ⟨.int, rain⟩, ⟨.amount, begin.arr .amount 0⟩]

def numbers : List (Σ t : Ty, t.El) := [⟨.code, (0 : Nat)⟩, ⟨.int, (2 : Int)⟩, ⟨.amount, (none : Option ℚ)⟩]

def index : Ty → Nat → Nat := fun t _ => match t with
  | .code => 0
  | .int => 1
  | .amount => 2

theorem program_started (g : Grid) :
    Started (T := ops) g ((inputs g arrays numbers).map source) ⟨index, fun t x => 3 + index t x⟩ begin :=
  started_inputs arrays numbers (fun t x => by cases t <;> rfl) (fun t x => by cases t <;> rfl)

open Classical in
/-- New memory contains rubbish, maps are visited in the reverse order. -/
noncomputable def unknown : Unknown ops where
  garbage a b t i := match t with
    | .code => a + b + i
    | .int => a * 7 + b + i
    | .amount => none
  iter _ _ m := m.reverse
  isIter _ _ m := List.reverse_perm m
  accu _ within isNoData fd inflow :=
    if h : ∃ y, Accu.AccuYields within isNoData fd inflow y then h.choose else ⟨fd.grid, []⟩
  isAccu _ within isNoData fd inflow h := by
    rw [dif_pos h]
    exact h.choose_spec
  split _ within rule isNoData fd inflow parameter :=
    if h : ∃ y : PArr (Option ℚ) × PArr (Option ℚ), Accu.SplitYields within rule isNoData fd inflow parameter y.1 y.2
    then h.choose else (⟨fd.grid, []⟩, ⟨fd.grid, []⟩)
  isSplit _ within rule isNoData fd inflow parameter h := by
    have h' : ∃ y : PArr (Option ℚ) × PArr (Option ℚ), Accu.SplitYields within rule isNoData fd inflow parameter y.1 y.2 := by
      obtain ⟨o, r, h⟩ := h
      exact ⟨(o, r), h⟩
    rw [dif_pos h']
    exact h'.choose_spec

/-- Waiting for the second of two partitions with rain: there is such an execution, and all of these find the
incremented rain. -/
example : ∃ fuel : Nat,
    let s := Async.start g unknown ((inputs g arrays numbers).map source) ⟨index, fun t x => 3 + index t x⟩ program fuel
      (expect (fun env => (env.arr .int 0, 1))
        (.part .int [14, 15, 16, 17, 18, 19, 20, 21, 22, 23, 24, 25]))
    (∃ c, Reach (Config.init s) c ∧ Stuck c) ∧ ∀ c, Reach (Config.init s) c → Stuck c → c.script = .done := by
  have hg : g.Ok := ⟨by decide, by decide, by decide, by decide⟩
  obtain ⟨S', h1, h2⟩ := program_computes
  obtain ⟨N, hN⟩ := async_correct (T := ops) (p := program) hg ⟨by decide, by decide⟩ (program_started g) h1
  refine ⟨N, ?_, ?_⟩
  · exact dataflow_completes (start_ok unknown (program_started g) program N (expect_part_ok (by decide)))
  · intro c hc hst
    refine (((hN N (Nat.le_refl _) unknown .int 0).1 1 _ ?_ c hc).2 hst).1
    rw [h2]
    decide

/-! ### A program using flow directions -/

/-- The program of `Program.Examples`: in each time step rain is accumulated, and infiltrates. -/
def flow : Prog Unit :=
  .seq (.loop .int 0 (fun n => decide (0 < n))
    (.seq (.call (.unary .amount .amount 0 Program.Examples.p1 (fun a => addAmount a (some 1)) 0)) <|
    .seq (.call (.accu 1 (· == 0) (fun _ => true) 0 (.array 0))) <|
    .seq (.call (.split 3 4 (· == 0) (fun _ f => decide (0 ≤ f ∧ f ≤ 1)) Accu.fractionSplit 0 (.array 1) (.scalar 2))) <|
    .seq (.call (.aggregate .amount .amount 0 sumAmount 1)) <|
    .call (.scalar .int .int .int 0 (fun n _ => n - 1) 0 0))) <|
  .ite .amount 0 (fun a => decide (0 < a.getD 0))
    (.call (.focal .amount .amount 2 Program.Examples.halo 1 Program.Examples.windowSum 1)) (.call (.fill .amount 2 1))

example : flow.stmt ops = Program.Examples.program := rfl

def flowArrays : List (Σ t : Ty, Arr t.El) := [⟨.code, InflowCount.exampleNetwork⟩, ⟨.int, fun _ _ => (0 : Int)⟩,
  ⟨.amount, Program.Examples.start.arr .amount 0⟩]

def flowNumbers : List (Σ t : Ty, t.El) := [⟨.code, (0 : Nat)⟩, ⟨.int, (5 : Int)⟩, ⟨.amount, (some 0 : Option ℚ)⟩]

theorem flow_started (g : Grid) : Started (T := ops) g ((inputs g flowArrays flowNumbers).map source)
    ⟨index, fun t x => 3 + index t x⟩ Program.Examples.start :=
  started_inputs flowArrays flowNumbers (fun t x => by cases t <;> rfl) (fun t x => by cases t <;> rfl)

/-- The hypotheses of `async_correct` are met by this program, and five time steps. All asynchronous executions end, and
all of these find the values computed with whole arrays. -/
example : ∃ S', Computes 4 4 (flow.stmt ops) Program.Examples.start S' ∧
    ∃ fuel : Nat, ∀ (W : Unknown ops) (t : Ty) (x k : Nat) (l : List t.El),
      (store ⟨4, 4, 3, 4⟩ (S'.arr t x)).parts[k]? = some l → Completes (Async.start ⟨4, 4, 3, 4⟩ W
        ((inputs ⟨4, 4, 3, 4⟩ flowArrays flowNumbers).map source) ⟨index, fun t x => 3 + index t x⟩ flow fuel
        (expect (fun env => (env.arr t x, k)) (.part t l))) := by
  obtain ⟨S', h1⟩ := Program.Examples.program_computes (S := Program.Examples.start) rfl (k := 5) rfl
  refine ⟨S', h1, ?_⟩
  obtain ⟨N, hN⟩ := async_correct (T := ops) (p := flow) (g := ⟨4, 4, 3, 4⟩)
    ⟨by decide, by decide, by decide, by decide⟩ ⟨by decide, by decide⟩ (flow_started _) h1
  exact ⟨N, fun W t x => (hN N (Nat.le_refl _) W t x).1⟩

/-- `inflow_count` with flow directions in two partitions. -/
example : ∃ S', Computes 4 4 ((Prog.call (.inflowCount 1 (· == 0) (fun _ => 9) 0) : Prog Unit).stmt ops)
    Program.Examples.start S' ∧ S'.arr .code 1 1 1 = InflowCount.nrInflows 4 4 InflowCount.exampleNetwork (1, 1) :=
  ⟨_, ⟨1, .more (.op ⟨InflowCount.exampleNetwork_valid, rfl⟩) .nil⟩, by
    show (if (InflowCount.exampleNetwork 1 1 == 0) = true then 9 else InflowCount.nrInflows 4 4 _ (1, 1)) = _
    rw [if_neg (by decide)]
    rfl⟩

example : (Prog.call (.inflowCount 1 (· == 0) (fun _ => 9) 0) : Prog Unit).NoRouting := trivial

end Lue.Async.Examples

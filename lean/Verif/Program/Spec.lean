import Verif.Program.Model

/-!
C73: what a program means, in terms of whole arrays. Partitions and schedules play no role here.
-/
namespace Lue.Program

open Lue.Routing

open Classical in
/-- `S'` are the values of the variables after a call, given arrays of `a0` × `a1` cells. An operation of which the
preconditions are not met does not mean anything. -/
def Op.Means (a0 a1 : Nat) : Op → Whole → Whole → Prop
  | .fill t dst x, S, S' => S' = S.setArr t dst fun _ _ => S.sc t x
  | .unary t u dst P f x, S, S' =>
      S' = S.setArr u dst fun i j => (LocalOp.unarySpec P f (S.arr t x i j)).getD P.mark
  | .binary t₁ t₂ u dst P f x y, S, S' =>
      S' = S.setArr u dst fun i j => (LocalOp.binarySpec P f (S.arr t₁ x i j) (S.arr t₂ y i j)).getD P.mark
  | .binaryAS t₁ t₂ u dst P f x y, S, S' =>
      S' = S.setArr u dst fun i j => (LocalOp.binarySpec P f (S.arr t₁ x i j) (S.sc t₂ y)).getD P.mark
  | .binarySA t₁ t₂ u dst P f x y, S, S' =>
      S' = S.setArr u dst fun i j => (LocalOp.binarySpec P f (S.sc t₁ x) (S.arr t₂ y i j)).getD P.mark
  | .ternary t₁ t₂ t₃ u dst P f x y z, S, S' =>
      S' = S.setArr u dst fun i j =>
        (LocalOp.ternarySpec P f (S.arr t₁ x i j) (S.arr t₂ y i j) (S.arr t₃ z i j)).getD P.mark
  | .wher c t dst P truth x y z, S, S' =>
      (∀ c t e, P.dp c t e = true) ∧ S' = S.setArr t dst fun i j =>
        (LocalOp.whereSpec P.indp1 P.indp2 P.indp3 truth (S.arr c x i j) (S.arr t y i j) (S.arr t z i j)).getD P.mark
  | .focal t u dst halo radius functor x, S, S' => ∃ w : Arr u.El, S' = S.setArr u dst w ∧
      ∀ i j, i < a0 → j < a1 → functor (Focal.windowAt (Focal.extended halo a0 a1 (S.arr t x)) radius i j) = .ok (w i j)
  | .focal2 t₁ t₂ u dst halo₁ halo₂ radius functor x y, S, S' => ∃ w : Arr u.El, S' = S.setArr u dst w ∧
      ∀ i j, i < a0 → j < a1 → functor (Focal.windowAt (Focal.extended halo₁ a0 a1 (S.arr t₁ x)) radius i j)
        (Focal.windowAt (Focal.extended halo₂ a0 a1 (S.arr t₂ y)) radius i j) = .ok (w i j)
  | .zonal z t u dst P Z x zones, S, S' => Z.Lawful ∧ ∃ w : Arr u.El, S' = S.setArr u dst w ∧
      ∀ i j, i < a0 → j < a1 →
        -- The values of the cells in the same zone, which are valid
        let values := ((cellIdxs a0 a1).filter fun c => decide (S.arr z zones c.1 c.2 = S.arr z zones i j) &&
          !P.indp1 (S.arr t x c.1 c.2) && !P.indp2 (S.arr z zones i j) && P.dp (S.arr z zones i j) (S.arr t x c.1 c.2)).map
            fun c => S.arr t x c.1 c.2
        if values = [] then w i j = P.mark else Z.Is values (w i j)
  | .inflowCount dst isNoData mark fd, S, S' => InflowCount.Valid isNoData a0 a1 (S.arr .code fd) ∧
      S' = S.setArr .code dst fun i j =>
        if isNoData (S.arr .code fd i j) then mark 0 else InflowCount.nrInflows a0 a1 (S.arr .code fd) (i, j)
  | .accu dst isNoData within fd inflow, S, S' => InflowCount.Valid isNoData a0 a1 (S.arr .code fd) ∧
      -- There are no cycles
      (∀ c, ¬ Relation.TransGen (Drains a0 a1 (S.arr .code fd)) c c) ∧
      S' = S.setArr .amount dst fun i j =>
        if ∃ u ∈ Accu.catchment a0 a1 (S.arr .code fd) (i, j), Accu.Invalid isNoData within (S.arr .code fd) (inflow.values S) u
        then none
        else some (∑ u ∈ Accu.catchment a0 a1 (S.arr .code fd) (i, j), (inflow.values S u.1 u.2).getD 0)
  | .split dst₁ dst₂ isNoData within rule fd inflow parameter, S, S' => InflowCount.Valid isNoData a0 a1 (S.arr .code fd) ∧
      (∀ c, ¬ Relation.TransGen (Drains a0 a1 (S.arr .code fd)) c c) ∧
      ∃ out rem : Arr (Option ℚ), S' = (S.setArr .amount dst₁ out).setArr .amount dst₂ rem ∧
      ∀ i j, i < a0 → j < a1 →
        if ∃ u ∈ Accu.catchment a0 a1 (S.arr .code fd) (i, j),
          Accu.Invalid₂ isNoData within (S.arr .code fd) (inflow.values S) (parameter.values S) u
        then out i j = none ∧ rem i j = none
        else ∃ x p, inflow.values S i j = some x ∧ parameter.values S i j = some p ∧
          let material := (∑ u ∈ Accu.inflowing a0 a1 (S.arr .code fd) (i, j), (out u.1 u.2).getD 0) + x
          out i j = some (rule p material).1 ∧ rem i j = some (rule p material).2
  | .aggregate t u dst A x, S, S' => A.Lawful ∧ ∃ r : u.El, S' = S.setSc u dst r ∧
      -- The valid cells
      let valid := ((cellIdxs a0 a1).map fun c => S.arr t x c.1 c.2).filter fun x => !A.P.indp x && A.P.dp x
      -- Whatever the selection of cells, the aggregate is not mistaken for no-data
      (∀ l : List t.El, l.Subperm valid → ∀ r, Aggregate.total A.op (l.map A.φ) = some r → A.P.isNoData r = false) ∧
      if valid = [] then r = A.P.mark A.F.none else Aggregate.total A.op (valid.map A.φ) = some r
  | .scalar t₁ t₂ u dst f x y, S, S' => S' = S.setSc u dst (f (S.sc t₁ x) (S.sc t₂ y))

/-- A step of a program. -/
inductive WholeStep (a0 a1 : Nat) : List Stmt → Whole → List Stmt → Whole → Prop
  | op {o rest S S'} : o.Means a0 a1 S S' → WholeStep a0 a1 (.op o :: rest) S rest S'
  | seq {a b rest S} : WholeStep a0 a1 (.seq a b :: rest) S (a :: b :: rest) S
  | ite {t x cond a b rest S} : WholeStep a0 a1 (.ite t x cond a b :: rest) S ((if cond (S.sc t x) then a else b) :: rest) S
  | loop {t x cond a rest S} : WholeStep a0 a1 (.loop t x cond a :: rest) S
      (if cond (S.sc t x) then a :: .loop t x cond a :: rest else rest) S

/-- `n` steps of a program. -/
inductive WholeSteps (a0 a1 : Nat) : Nat → List Stmt → Whole → List Stmt → Whole → Prop
  | nil {p S} : WholeSteps a0 a1 0 p S p S
  | more {n p S p' S' p'' S''} : WholeStep a0 a1 p S p' S' → WholeSteps a0 a1 n p' S' p'' S'' →
      WholeSteps a0 a1 (n + 1) p S p'' S''

/-- The program comes to an end, after a number of steps. -/
def Computes (a0 a1 : Nat) (p : Stmt) (S S' : Whole) : Prop := ∃ n, WholeSteps a0 a1 n [p] S [] S'

/-- The arrays of an execution are partitioned by `g` and contain the values of the whole arrays, and scalars are equal. -/
structure Agree (g : Grid) (s : State) (S : Whole) : Prop where
  grid : ∀ t x, (s.arr t x).grid = g
  arr : ∀ t x, Represents (s.arr t x) (S.arr t x)
  sc : ∀ t x, s.sc t x = S.sc t x

end Lue.Program

import Verif.Accu.Model
import Mathlib.Analysis.SpecialFunctions.Pow.Real

/-!
C38: the kinematic wave.
`A` below is `source/framework/algorithm/include/lue/framework/algorithm`.

Simplifications: floating point numbers are real numbers, computed without rounding. `boost::math::tools::newton_raphson_iterate`
is a parameter of the model. Assertions about values (`lue_hpx_assert`, not part of release builds) are left out.
-/
namespace Lue.KinematicWave

open Lue.Routing Lue.Router Lue.Accu

/-- `A/definition/kinematic_wave.hpp:13-141`: `NonLinearKinematicWave` -/
structure Wave where
  upstream : ℝ
  current : ℝ
  lateral : ℝ
  alpha : ℝ
  beta : ℝ
  dt : ℝ
  length : ℝ

/-- `_known_terms`: `A/definition/kinematic_wave.hpp:46-51` -/
noncomputable def Wave.knownTerms (w : Wave) : ℝ :=
  w.dt / w.length * w.upstream + w.alpha * w.current ^ w.beta + w.dt * w.lateral

/-- `fq`: `A/definition/kinematic_wave.hpp:101-107` -/
noncomputable def Wave.fq (w : Wave) (q : ℝ) : ℝ := w.dt / w.length * q + w.alpha * q ^ w.beta - w.knownTerms

/-- `dfq`: `A/definition/kinematic_wave.hpp:110-116` -/
noncomputable def Wave.dfq (w : Wave) (q : ℝ) : ℝ := w.dt / w.length + w.alpha * w.beta * q ^ (w.beta - 1)

open Classical in
/-- `guess`: `A/definition/kinematic_wave.hpp:61-91`. `tiny` is `numeric_limits::min()`. -/
noncomputable def Wave.guess (tiny : ℝ) (w : Wave) : ℝ :=
  if w.current + w.upstream ≠ 0 ∨ w.beta ≥ 1 then
    let aBPq := w.alpha * w.beta * ((w.current + w.upstream) / 2) ^ (w.beta - 1)
    max ((w.dt / w.length * w.upstream + aBPq * w.current + w.dt * w.lateral) / (w.dt / w.length + aBPq)) tiny
  else tiny

/-- `boost::math::tools::newton_raphson_iterate`: function and derivative, initial guess, lower and upper bound -/
abbrev Solver := (ℝ → ℝ × ℝ) → ℝ → ℝ → ℝ → ℝ

open Classical in
/-- `iterate_to_new_discharge`: `A/definition/kinematic_wave.hpp:145-254`. `largest` is `numeric_limits::max()`. -/
noncomputable def newDischarge (solve : Solver) (tiny largest : ℝ) (w : Wave) : ℝ :=
  let q :=
    if w.upstream + w.current > 0 ∨ w.lateral > 0 then
      let inflow := if w.lateral ≥ 0 then w.lateral else 0
      let wave := { w with lateral := inflow }
      solve (fun q => (wave.fq q, wave.dfq q)) (wave.guess tiny) 0 largest
    else 0
  if w.lateral < 0 then q - min (w.length * |w.lateral|) q else q

/-- The arguments of `kinematic_wave`, besides the flow directions: `A/definition/kinematic_wave.hpp:606-660` -/
structure Args where
  current : Arg (Option ℝ)
  inflow : Arg (Option ℝ)
  alpha : Arg (Option ℝ)
  beta : Arg (Option ℝ)
  dt : Arg (Option ℝ)
  length : Arg (Option ℝ)

/-- The values of the arguments in a cell -/
structure Values where
  current : Option ℝ
  inflow : Option ℝ
  alpha : Option ℝ
  beta : Option ℝ
  dt : Option ℝ
  length : Option ℝ

/-- `within_domain` of the value policies: `A/value_policies/kinematic_wave.hpp:15-21` -/
noncomputable def valuePoliciesWithin (current inflow length : ℝ) : Bool := by
  classical exact decide (current ≥ 0 ∧ inflow ≥ 0 ∧ length > 0)

/-- The wave in a cell, or `none` if one of the values is no-data or out of domain: `A/definition/kinematic_wave.hpp:418-440` -/
def Values.wave (within : ℝ → ℝ → ℝ → Bool) (x : Values) (upstream : ℝ) : Option Wave :=
  match x.current, x.inflow, x.alpha, x.beta, x.dt, x.length with
  | some c, some i, some a, some b, some d, some l => if !within c i l then none else some ⟨upstream, c, i, a, b, d, l⟩
  | _, _, _, _, _, _ => none

/-- `enter_cell`: `A/definition/kinematic_wave.hpp:416-456` -/
noncomputable def enterCell (solve : Solver) (tiny largest : ℝ) (within : ℝ → ℝ → ℝ → Bool) (x : Values) (outflow : Option ℝ) :
    Option ℝ :=
  match outflow with
  | none => none
  | some o =>
    match x.wave within o with
    | none => none
    | some w => some (newDischarge solve tiny largest w)

/-- `enter_inter_partition_stream`: `A/definition/kinematic_wave.hpp:389-407` -/
def enterInter (outflow inflow : Option ℝ) : Option ℝ :=
  match inflow with
  | none => none
  | some i =>
    match outflow with
    | none => none
    | some o => some (i + o)

/-- `leave_cell`: `A/definition/kinematic_wave.hpp:459-487` -/
def leaveCell (outflow inflow : Option ℝ) : Option ℝ :=
  match inflow with
  | none => none
  | some i =>
    match outflow with
    | none => none
    | some o => some (i + o)

/-- `to_value` for each of the arguments: `A/definition/kinematic_wave.hpp:418-424` -/
def Args.toValues (a : Args) (k e : Nat) : M Values := do
  return ⟨← a.current.toValue k e, ← a.inflow.toValue k e, ← a.alpha.toValue k e, ← a.beta.toValue k e, ← a.dt.toValue k e,
    ← a.length.toValue k e⟩

/-- `A/definition/kinematic_wave.hpp:291-555` (CellAccumulator) -/
noncomputable def cells (solve : Solver) (tiny largest : ℝ) (within : ℝ → ℝ → ℝ → Bool) (a : Args) :
    CellAccumulator (Option ℝ) (Option ℝ) where
  init := some 0
  enterInter := enterInter
  enterCell := fun k e s => do return enterCell solve tiny largest within (← a.toValues k e) s
  leaveCell := leaveCell
  outflow := id
  markNoData := fun _ => none

/-- `y` is a possible outcome of `kinematic_wave`: `A/definition/kinematic_wave.hpp:606-660`. -/
def Yields (solve : Solver) (tiny largest : ℝ) (within : ℝ → ℝ → ℝ → Bool) (isNoData : Nat → Bool) (fd : PArr Nat) (a : Args)
    (y : PArr (Option ℝ)) : Prop :=
  a.current.verifyCompatible fd = .ok () ∧ a.inflow.verifyCompatible fd = .ok () ∧ a.alpha.verifyCompatible fd = .ok () ∧
  a.beta.verifyCompatible fd = .ok () ∧ a.length.verifyCompatible fd = .ok () ∧
  Routed (cells solve tiny largest within a) isNoData fd y

end Lue.KinematicWave

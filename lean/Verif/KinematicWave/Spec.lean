import Verif.KinematicWave.Model
import Verif.Accu.Spec
import Mathlib.Analysis.Calculus.Deriv.Basic

/-!
C38: what the kinematic wave is supposed to compute.
-/
namespace Lue.KinematicWave

open Lue.Routing Lue.Accu

/-- The arguments are physically meaningful. Lateral inflow may be negative (extraction). -/
structure Wave.Physical (w : Wave) : Prop where
  upstream : 0 ≤ w.upstream
  current : 0 ≤ w.current
  alpha : 0 < w.alpha
  beta : 0 < w.beta
  dt : 0 < w.dt
  length : 0 < w.length

/-- The balance of the water in the reach of a cell, during a time step: what flows out of the reach and the water in it at
the end of the time step, equals what flows into the reach and the water in it at the beginning of the time step. The volume
of the water in a reach with length `l` is `l * alpha * discharge ^ beta`. -/
def Balance (w : Wave) (q : ℝ) : Prop :=
  w.dt * q + w.length * (w.alpha * q ^ w.beta) =
    w.dt * w.upstream + w.length * (w.alpha * w.current ^ w.beta) + w.dt * (w.length * w.lateral)

/-- An ideal solver: if a function has a single root within the bounds, and it is passed with its derivative and an initial
guess larger than the lower bound, the root is found. -/
def Ideal (solve : Solver) : Prop :=
  ∀ (f : ℝ → ℝ × ℝ) (guess lo hi r : ℝ), lo ≤ r → r ≤ hi → (f r).1 = 0 →
    (∀ r', lo ≤ r' → r' ≤ hi → (f r').1 = 0 → r' = r) →
    (∀ q, lo < q → HasDerivAt (fun q => (f q).1) (f q).2 q) → lo < guess → solve f guess lo hi = r

/-- The values of the arguments in all cells -/
structure ArgValues where
  current : Arr (Option ℝ)
  inflow : Arr (Option ℝ)
  alpha : Arr (Option ℝ)
  beta : Arr (Option ℝ)
  dt : Arr (Option ℝ)
  length : Arr (Option ℝ)

structure Args.AreValues (g : Grid) (x : ArgValues) (a : Args) : Prop where
  current : a.current.IsValues g x.current
  inflow : a.inflow.IsValues g x.inflow
  alpha : a.alpha.IsValues g x.alpha
  beta : a.beta.IsValues g x.beta
  dt : a.dt.IsValues g x.dt
  length : a.length.IsValues g x.length

/-- The wave in a cell, given the discharge of the cells draining into it. -/
def ArgValues.waveAt (x : ArgValues) (c : Cell) (upstream : ℝ) : Wave where
  upstream := upstream
  current := (x.current c.1 c.2).getD 0
  lateral := (x.inflow c.1 c.2).getD 0
  alpha := (x.alpha c.1 c.2).getD 0
  beta := (x.beta c.1 c.2).getD 0
  dt := (x.dt c.1 c.2).getD 0
  length := (x.length c.1 c.2).getD 0

/-- The values in a cell are physically meaningful, the duration of the time step is `dt`. -/
structure ArgValues.PhysicalAt (x : ArgValues) (dt : ℝ) (c : Cell) : Prop where
  current : 0 ≤ (x.current c.1 c.2).getD 0
  lateral : 0 ≤ (x.inflow c.1 c.2).getD 0
  alpha : 0 < (x.alpha c.1 c.2).getD 0
  beta : 0 < (x.beta c.1 c.2).getD 0
  step : x.dt c.1 c.2 = some dt
  step_pos : 0 < dt
  length : 0 < (x.length c.1 c.2).getD 0

/-- One of the values of the cell is no-data, or they are out of domain. -/
def Lacking (isNoData : Nat → Bool) (within : ℝ → ℝ → ℝ → Bool) (fd : Arr Nat) (x : ArgValues) (c : Cell) : Prop :=
  isNoData (fd c.1 c.2) = true ∨ x.current c.1 c.2 = none ∨ x.inflow c.1 c.2 = none ∨ x.alpha c.1 c.2 = none ∨
    x.beta c.1 c.2 = none ∨ x.dt c.1 c.2 = none ∨ x.length c.1 c.2 = none ∨
    within ((x.current c.1 c.2).getD 0) ((x.inflow c.1 c.2).getD 0) ((x.length c.1 c.2).getD 0) = false

/-- The water in the reach of a cell, given the discharge -/
noncomputable def ArgValues.volume (x : ArgValues) (c : Cell) (q : ℝ) : ℝ :=
  (x.length c.1 c.2).getD 0 * ((x.alpha c.1 c.2).getD 0 * q ^ (x.beta c.1 c.2).getD 0)

end Lue.KinematicWave

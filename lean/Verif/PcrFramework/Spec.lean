import Verif.PcrFramework.Model
import Verif.Simulate.Spec

/-!
# Specification of running a model written in Python (C55)
-/
namespace Lue.PcrFramework

/-- The calls for a sample: a call before the sample, the initial section, the dynamic section for each time step, and a
call after the sample. `before` is what `currentTimeStep()` returns during the first two. -/
def sampleCalls (n before s : Nat) (pre post : Method) : List UserCall :=
  [⟨pre, before, s⟩, ⟨.initial, before, s⟩] ++ (List.range' 1 n).map (fun t => ⟨.dynamic, t, s⟩) ++
    [⟨post, if n = 0 then before else n, s⟩]

/-- The files of a run are named after paths which are relative to the current directory -/
def Relative (name : Str) : Prop := name.head? ≠ some '/'

end Lue.PcrFramework

import Verif.LueCalls.Model
import Mathlib.Tactic

/-!
# What is required from calls to `to_lue` and `from_lue`
-/
namespace Lue.LueCalls

variable {F : Type}

/-- Call `c` is a call to `to_lue` (`write = true`) or `from_lue`. -/
def Kind (calls : List Call) (c : Nat) (write : Bool) : Prop := ∃ call, calls[c]? = some call ∧ call.write = write

/-- Task `i` of call `c`: the one in the i-th locality. -/
def IsTask (calls : List Call) (c i : Nat) : Prop := ∃ call, calls[c]? = some call ∧ i < call.localities.length

/-- States which can be reached, starting with some contents of the dataset. -/
def Reachable (p : Program F) (file : F) (s : State F) : Prop := ∃ actions, Run p (init file) actions s

/-- The contents of the dataset after the first `n` calls, when these are executed one after the other, and the tasks of a
call are executed one after the other. -/
def contents (calls : List Call) (effect : Nat → Nat → F → F) (file : F) : Nat → F
  | 0 => file
  | c + 1 =>
    match calls[c]? with
    | some call =>
      if call.write then
        (List.range call.localities.length).foldl (fun f i => effect c i f) (contents calls effect file c)
      else contents calls effect file c
    | none => contents calls effect file c

/-- All localities involved in a call are involved in all previous calls. -/
def NoGap (calls : List Call) : Prop :=
  ∀ (c d : Nat) (call call' : Call), calls[c]? = some call → calls[d]? = some call' → d < c → ∀ l ∈ call.localities, l ∈ call'.localities

/-- Circumstances in which datasets that are being read are not written to at the same time: HDF5 is not thread-safe, or there is
always a call to `to_lue` in between two calls to `from_lue`, or arrays that are read don't have time steps and all calls involve
the same localities. -/
def SafeReads (threadSafe : Bool) (calls : List Call) : Prop :=
  threadSafe = false ∨
  (∀ c d, Kind calls c false → Kind calls d false → c < d → ∃ w, c < w ∧ w < d ∧ Kind calls w true) ∨
  ((∀ call ∈ calls, call.write = false → call.temporal = false) ∧
    ∃ localities, ∀ call ∈ calls, call.localities = localities)

end Lue.LueCalls

import Verif.Wire.Theorems

/-!
C72: examples, and what doesn't arrive.
-/
namespace Lue.Wire.Examples
open Lue.Memory Lue.Memory.Spec

/-! ## The hypotheses are met -/

/-- In the sending process, handles 0 and 1 share elements (`exampleHOps`). In the receiving process, partition data exists already. -/
def receiving : List (HOp (Word 4)) := [.construct 0 [1, 2], .copyConstruct 1 0, .write 1 1 9]

def sending : List (HOp (Word 4)) := [.construct 0 [2, 2], .write 0 0 1, .write 0 1 2, .writeAt 0 [1, 0] 3, .copyConstruct 1 0, .write 1 3 4]

example : ∃ S R, SState.run 2 (0 : Word 4) sending {} = some S ∧ SState.run 2 (0 : Word 4) receiving {} = some R ∧
    S.handle 1 = some ([2, 2], 0) ∧ (S.content 0).elems = [1, 2, 3, 4] ∧ R.handle 2 = none ∧ (∀ n ∈ [2, 2], Fits n) ∧ Fits [2, 2].prod := by
  have hin : Lue.Index.InShape [1, 0] [2, 2] := .cons (by decide) (.cons (by decide) .nil)
  refine ⟨(SState.run 2 (0 : Word 4) sending {}).getD {}, (SState.run 2 (0 : Word 4) receiving {}).getD {}, ?_, ?_, ?_, ?_, ?_, ?_, ?_⟩
  all_goals try simp [SState.run, SState.step, sending, receiving, Function.update, Val.elems, List.replicate, hin,
    Lue.Index.idxsToLinearIdx, Fits]
  decide

/-- What is sent consists of the shape, the number of elements and the elements. -/
example : (dataValue 1).put ⟨(1, 2), [7, 9]⟩ =
    [1, 0, 0, 0, 0, 0, 0, 0] ++ [2, 0, 0, 0, 0, 0, 0, 0] ++ [2, 0, 0, 0, 0, 0, 0, 0] ++ [7, 9] := by decide

/-- Kernels -/
example : KernelOk 2 (⟨⟨[3, 3], 9, [1, 2, 1, 2, 4, 2, 1, 2, 1]⟩, 1⟩ : Kernel (Word 4)) :=
  ⟨rfl, by decide, by decide, rfl, by decide⟩

example : ((kernel (word 1) 0 2).get (Kernel.ofArray 0 (Spec.empty 2))
    ((kernel (word 1) 0 2).put ⟨⟨[3, 3], 9, [1, 2, 1, 2, 4, 2, 1, 2, 1]⟩, 1⟩ ++ [5])).map (fun r => (r.1.radius, r.1.weights.elems, r.2)) =
    some (1, [1, 2, 1, 2, 4, 2, 1, 2, 1], [5]) := by decide

/-- Policies of a focal operation: no-data is detected by value in the input, the halo is filled -/
def focal (D : Type) (domain : D) (noData fill : Word 4) : Policies D :=
  ⟨domain, [⟨.value 4 noData, ()⟩], [.spatial ⟨⟨.value 4 noData⟩, .constant 4 fill⟩]⟩

example : (focal Unit () 3 7).Same (focal Unit () 0 0) :=
  ⟨.cons (by simp [NoDataPolicy.Same]) .nil, .cons (by simp [InputPolicy.Same, NoDataPolicy.Same, HaloPolicy.Same]) .nil⟩

example : IsMap ([(3, 4), (1, 5)] : AMap (Word 4) (Word 8)) := ⟨by unfold AMap.Ok; decide, by show 2 < 2 ^ 63; decide⟩

/-- Communicators with two channels -/
example : communicator.get ⟨[0, 0], [0, 0], 0, [0, 0], [0, 0]⟩ (communicator.put ⟨[4, 5], [1, 2], 7, [10, 11], [12, 13]⟩) =
    some (⟨[4, 5], [1, 2], 7, [10, 11], [12, 13]⟩, []) := by
  have := communicator_arrives ⟨[4, 5], [1, 2], 7, [10, 11], [12, 13]⟩ ⟨[0, 0], [0, 0], 0, [0, 0], [0, 0]⟩ trivial ⟨rfl, rfl, rfl, rfl⟩ []
  rwa [List.append_nil] at this

/-- The last fragment of a route and another one -/
example : fragment.put ⟨[2], none⟩ = [1, 0, 0, 0, 0, 0, 0, 0] ++ [2, 0, 0, 0, 0, 0, 0, 0] ++ [1] := by decide

example : (fragment.put ⟨[2], some 5⟩).length = 33 := by decide

/-! ## What isn't sent -/

/-- Finding (C72): A domain policy that has a state isn't sent. `Policies::serialize` archives the policies for the outputs and the inputs, not the one for
the domain: at the other side, the policy is default-constructed. All domain policies in the library are without state. -/
theorem domain_policy_is_lost (threshold : Nat) (h : threshold ≠ 0) (rest : Bytes) :
    ∃ y, policies.get (focal Nat 0 0 0) (policies.put (focal Nat threshold 3 7) ++ rest) = some (y, rest) ∧
      y ≠ focal Nat threshold 3 7 ∧ y.domain = 0 := by
  refine ⟨_, policies_arrive ⟨.cons (by simp [NoDataPolicy.Same]) .nil,
    .cons (by simp [InputPolicy.Same, NoDataPolicy.Same, HaloPolicy.Same]) .nil⟩ rest, ?_, rfl⟩
  intro he
  have := congrArg Policies.domain he
  exact h this.symm

end Lue.Wire.Examples

import Verif.Channels.Theorems

/-!
# Examples
-/

namespace Lue.Channels

open Lue.InflowCount (Dir)

/-- `accu` and then `accu_threshold` are called, for arrays of 1 × 2 partitions -/
def two : State Nat :=
  createCommunicators "accu_threshold".toList .float64 1 2 (createCommunicators "accu".toList .float64 1 2 (State.init Nat))

theorem two_reachable : Reachable two := .step (.step .init (.route _ _ _ _ _)) (.route _ _ _ _ _)

/-- There are four arrays of communicators. The two operations use different names, for the inflow counts and for the
material. -/
example : two.arrays.map (fun x => String.ofList x.basename) =
    ["/lue/accu/inflow_count/0", "/lue/accu/float64/0", "/lue/accu_threshold/inflow_count/1",
      "/lue/accu_threshold/float64/1"] := by decide +kernel

/-- The first partition lies west of the second one -/
example : Lies 1 2 1 .w 0 := ⟨0, 1, 0, 0, by decide, by decide, by decide, by decide, rfl, rfl, by decide, by decide⟩

/-- All requests are pending -/
example : two.setup.reqs.map (fun | .register key ch => (String.ofList key.name, key.idx, ch) | .unregister _ => ("", 0, 0)) =
    [("/lue/accu/inflow_count/0/2/", 0, 0), ("/lue/accu/inflow_count/0/6/", 1, 1),
     ("/lue/accu/float64/0/2/", 0, 2), ("/lue/accu/float64/0/6/", 1, 3),
     ("/lue/accu_threshold/inflow_count/1/2/", 0, 4), ("/lue/accu_threshold/inflow_count/1/6/", 1, 5),
     ("/lue/accu_threshold/float64/1/2/", 0, 6), ("/lue/accu_threshold/float64/1/6/", 1, 7)] := by decide +kernel

/-- The western partition sends values to the eastern one, in both of the operations. The eastern partition of the second
operation can obtain the values of the second operation. -/
example : ∃ s : State Nat, Reachable s ∧ sents s.log 1 0 .e = [5] ∧ sents s.log 3 0 .e = [7, 8] ∧
    ∃ t, Steps s t ∧ gots t.log 3 1 .w = [7, 8] := by
  have he : ∃ x1 x3 : CommArray, two.arrays[1]? = some x1 ∧ two.arrays[3]? = some x3 ∧
    x1.m0 = 1 ∧ x1.m1 = 2 ∧ x3.m0 = 1 ∧ x3.m1 = 2 := ⟨_, _, rfl, rfl, rfl, rfl, rfl, rfl⟩
  obtain ⟨x1, x3, hx1, hx3, e1, e2, e3, e4⟩ := he
  have hl : Lies 1 2 0 .e 1 := ⟨0, 0, 0, 1, by decide, by decide, by decide, by decide, rfl, rfl, by decide, by decide⟩
  have hl' : Lies 1 2 1 .w 0 := ⟨0, 1, 0, 0, by decide, by decide, by decide, by decide, rfl, rfl, by decide, by decide⟩
  have hlog : two.log = [] := rfl
  obtain ⟨s1, h1, a1, l1⟩ := send_possible two_reachable hx1 (by rw [e1, e2]; exact hl) (by rw [hlog]; simp) 5
  have r1 := Reachable.step two_reachable h1
  obtain ⟨s2, h2, a2, l2⟩ := send_possible r1 (a1 ▸ hx3) (by rw [e3, e4]; exact hl) (by rw [l1, hlog]; simp) 7
  have r2 := Reachable.step r1 h2
  obtain ⟨s3, h3, a3, l3⟩ := send_possible r2 (a2 ▸ a1 ▸ hx3) (by rw [e3, e4]; exact hl) (by rw [l2, l1, hlog]; simp) 8
  have r3 := Reachable.step r2 h3
  rw [l2, l1, hlog] at l3
  refine ⟨s3, r3, by rw [l3]; rfl, by rw [l3]; rfl, ?_⟩
  obtain ⟨t, ht, hg⟩ := delivery_possible r3 (d := .w) (e := .e) (a3 ▸ a2 ▸ a1 ▸ hx3) (by rw [e3, e4]; exact hl') rfl
    (by rw [l3]; simp)
  exact ⟨t, ht, by rw [hg, l3]; rfl⟩

/-- If two operations that are started at the same time, by different threads, obtain the same number, then the second one
listens to the channels of the first one: channel 0 is created and registered by the first array, for the name from which
the second array looks up its channel. The counter is not atomic (`A/detail/communicator_array.hpp:32, 75`). -/
example :
    let s : State Nat := createArray .inflowCount 1 2
      { createArray .inflowCount 1 2 (State.init Nat) with counter := fun _ => 0 }
    let key : Key := ⟨"/lue/inflow_count/0/2/".toList, 0⟩
    .register key 0 ∈ s.setup.reqs ∧
    (s.arrays[1]?.bind fun x => x.tasks[1]?.bind fun c => c.recv .w) = some (.waiting key) := by
  decide +kernel

end Lue.Channels

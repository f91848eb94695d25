import Verif.AccuInfo.Properties
import Verif.Accu.Operations

/-! C67: which classes occur, whether they depend on the schedule. -/
namespace Lue.AccuInfo

open Lue.Routing Lue.InflowCount Lue.Router Lue.Accu

variable {isNoData : Nat → Bool} {g : Grid} {v : Arr Nat} {c : Cell}

theorem Sink.not_output (h : Sink v c) : ¬ Output g v c := by
  rintro ⟨o, ho, _⟩
  unfold Sink at h
  rw [h] at ho
  cases ho

theorem StreamClass.unique {n m : Nat} (h : StreamClass g v c n) (h' : StreamClass g v c m) : n = m := by
  cases h <;> cases h' <;> first
    | rfl
    | (exfalso; first
        | exact Sink.not_output ‹_› ‹_›
        | exact absurd ‹Sink v c› ‹_›
        | exact absurd ‹Output g v c› ‹_›
        | exact absurd ‹Inter g v c› ‹_›)

theorem InputClass.unique {n m : Nat} (h : InputClass g v c n) (h' : InputClass g v c m) : n = m := by
  cases h <;> cases h' <;> first | rfl | (exfalso; exact absurd ‹Output g v c› ‹_›)

theorem Ridge.not_input (h : Ridge g v c) : ¬ Input g v c := fun ⟨u, hu, _⟩ => h u hu

/-- The class of a cell follows from its position, unless the cell is an input cell and streams that enter the partition
elsewhere also arrive in it. -/
theorem Allowed.unique {n m : Nat} (hs : ¬ (Input g v c ∧ AlsoInter g v c)) (h : Allowed isNoData g v c n)
    (h' : Allowed isNoData g v c m) : n = m := by
  cases h <;> cases h' <;> first
    | rfl
    | exact StreamClass.unique ‹_› ‹_›
    | exact InputClass.unique ‹_› ‹_›
    | (exfalso; first
        | exact hs ⟨‹_›, ‹_›⟩
        | exact Ridge.not_input ‹_› ‹_›
        | exact absurd ‹Input g v c› ‹_›
        | exact absurd ‹Ridge g v c› ‹_›
        | simp_all)

/-- Confluences are never shown: cells with multiple upstream cells end up with another class. Neither are the cells which
have not been handled. -/
theorem Allowed.class {n : Nat} (h : Allowed isNoData g v c n) :
    n ∈ [AccuInfo.noData, ridgeCell, intraPartitionStreamCell, partitionOutputCell, partitionInputCell, partitionInputOutputCell,
      interPartitionStreamCell, sinkCell] := by
  cases h with
  | noData => decide
  | ridge => decide
  | stream _ _ _ h => cases h <;> decide
  | input _ _ h => cases h <;> decide
  | order _ _ _ h => cases h <;> decide

variable {fd : PArr Nat}

/-- The outcome does not depend on the schedule, for these cells. -/
theorem info_unique (hfd : FlowDirections isNoData fd v) {y y' : PArr Nat} (hy : InfoYields isNoData fd y)
    (hy' : InfoYields isNoData fd y') {u u' : Arr Nat} (hu : Represents y u) (hu' : Represents y' u') {i j : Nat}
    (hi : i < fd.grid.a0) (hj : j < fd.grid.a1) (hc : ¬ OnCycle fd.grid.a0 fd.grid.a1 v (i, j))
    (hs : ¬ (Input fd.grid v (i, j) ∧ AlsoInter fd.grid v (i, j))) : u i j = u' i j := by
  obtain ⟨hg, w, hw, h1⟩ := info_result hfd hy
  obtain ⟨hg', w', hw', h1'⟩ := info_result hfd hy'
  have e : u i j = w i j := hu.unique hw (by rw [hg]; exact hi) (by rw [hg]; exact hj)
  have e' : u' i j = w' i j := hu'.unique hw' (by rw [hg']; exact hi) (by rw [hg']; exact hj)
  rw [e, e']
  exact (h1 i j hi hj hc).unique hs (h1' i j hi hj hc)

/-- In particular, the cells in an array of a single partition. -/
theorem single_partition (hg : g.Ok) (h0 : g.n0 = 1) (h1 : g.n1 = 1) : ¬ Input g v c := by
  rintro ⟨u, hD, hs⟩
  apply hs
  obtain ⟨k0, k1, l0, l1, hu⟩ := exists_isCell hg hD.1 hD.2.1
  obtain ⟨q0, q1, m0, m1, hc⟩ := exists_isCell hg hD.2.2.1 hD.2.2.2.1
  have a := hu.k0_lt; have b := hu.k1_lt; have a' := hc.k0_lt; have b' := hc.k1_lt
  obtain rfl : k0 = 0 := by omega
  obtain rfl : k1 = 0 := by omega
  obtain rfl : q0 = 0 := by omega
  obtain rfl : q1 = 0 := by omega
  exact ⟨_, _, _, _, _, _, hu, hc⟩

section Examples

/-- The operation returns something, given the network used before. -/
example : ∃ y, InfoYields (· == 0) (store ⟨4, 4, 2, 2⟩ exampleNetwork) y :=
  (info_yields_iff example_flowDirections).2 fun ⟨u, _, _, h, _⟩ => example_acyclic u h

/-- Cell (0, 2), a pit, receives material from (0, 1), which is in another partition, and from (0, 3), which is in the same
partition. Cell (0, 4), in yet another partition, drains into (0, 3). -/
def exampleTwoInputs : Arr Nat := fun i j =>
  if i = 0 ∧ j = 1 then 6 else if i = 0 ∧ j = 3 then 4 else if i = 0 ∧ j = 4 then 4 else 5

/-- The class of the cell depends on the order in which material arrives. -/
example : run infoCells (· == 0) (store ⟨2, 6, 2, 2⟩ exampleTwoInputs) [0, 1, 2] [0, 1, 2]
    [.intra 0 0, .intra 0 1, .intra 0 2, .receive 0 1 .w, .receive 0 1 .e] =
    .ok [[11, 11, 11, 11], [sinkCell, partitionInputCell, 11, 11], [11, 11, 11, 11]] := by decide +kernel

example : run infoCells (· == 0) (store ⟨2, 6, 2, 2⟩ exampleTwoInputs) [0, 1, 2] [0, 1, 2]
    [.intra 0 0, .intra 0 1, .intra 0 2, .receive 0 1 .e, .receive 0 1 .w] =
    .ok [[11, 11, 11, 11], [partitionInputCell, partitionInputCell, 11, 11], [11, 11, 11, 11]] := by decide +kernel

/-- Intermediate cells, an output cell, an inter-partition stream: partition (0, 0) drains into (0, 1). -/
def exampleClasses : Arr Nat := fun i j =>
  if i = 0 ∧ j < 5 then 6 else if i = 1 ∧ j = 0 then 0 else 5

example : run infoCells (· == 0) (store ⟨2, 6, 2, 3⟩ exampleClasses) [0, 1] [0, 1] [.intra 0 1, .intra 0 0, .receive 0 1 .w] =
    .ok [[ridgeCell, intraPartitionStreamCell, partitionOutputCell, noData, ridgeCell, ridgeCell],
      [partitionInputCell, interPartitionStreamCell, sinkCell, ridgeCell, ridgeCell, ridgeCell]] := by decide +kernel

end Examples

end Lue.AccuInfo

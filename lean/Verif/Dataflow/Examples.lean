import Verif.Dataflow.Focal

/-!
Examples for C74.
-/
namespace Lue.Dataflow.Examples

open Lue

/-- Partitions with integers, and numbers. -/
inductive Value where
  | partition (l : List Int)
  | number (n : Int)
  deriving DecidableEq

def partitions : Emb Value (List Int) := ⟨.partition, fun | .partition l => .ok l | _ => .error .thrown, fun _ => rfl⟩

def numbers : Emb Value Int := ⟨.number, fun | .number n => .ok n | _ => .error .thrown, fun _ => rfl⟩

/-- An array with two partitions. -/
def input : Stage Value := source [.partition [1, 2], .partition [3, 4]]

def divide : Stage Value := localStage 2 [0] (body1 partitions partitions fun l =>
  .ok (l.map fun x => 12 / x))

/-- Throws an exception for the second partition. -/
def checked : Stage Value := localStage 2 [1] (body1 partitions partitions fun l =>
  if 12 ∈ l then .ok l else .error .thrown)

def total : Stage Value := reduceStage 2 1 (bodyN partitions numbers fun l => .ok l.flatten.sum)

/-- The sum decides what is done next. -/
def script : Script Value :=
  .issue input <| .issue divide <| .issue total <| .get (2, 0) fun v =>
    if v = .number 25 then .issue checked .done else .done

theorem input_exists (k : Nat) (hk : k < 2) (rest : List (Stage Value)) : Exists ([input] ++ rest) (0, k) :=
  ⟨input, by simp, hk⟩

theorem script_ok : Script.Ok [] script := by
  refine .issue (by intro k _ d hd; simp [input, source] at hd) (.issue ?_ (.issue ?_ (.get ?_ fun v => ?_)))
  · intro k hk d hd
    simp only [divide, localStage, List.map_cons, List.map_nil, List.mem_singleton] at hd hk
    subst hd
    exact ⟨input, rfl, hk⟩
  · intro k _ d hd
    simp only [total, reduceStage, List.mem_map, List.mem_range] at hd
    obtain ⟨k', hk', rfl⟩ := hd
    exact ⟨divide, rfl, hk'⟩
  · exact ⟨total, rfl, by decide⟩
  · split
    · refine .issue ?_ .done
      intro k hk d hd
      simp only [checked, localStage, List.map_cons, List.map_nil, List.mem_singleton] at hd hk
      subst hd
      exact ⟨divide, rfl, hk⟩
    · exact .done

/-- Executing the operations one after the other, with different orders of completion. -/
theorem sequential : Sequential [input, divide, total]
    [[.partition [1, 2], .partition [3, 4]], [.partition [12, 6], .partition [4, 3]], [.number 25]] :=
  .snoc (stages := [input, divide]) (order := [0])
    (.snoc (stages := [input]) (order := [1, 0])
      (.snoc (stages := []) (order := [0, 1]) .nil (List.Perm.refl _) rfl) (List.Perm.swap 0 1 []) (by decide)) (List.Perm.refl _) (by decide)

def values : List (Stage Value) := [input, divide, total, checked]

/-- The results of tasks, using the theorem about operations which are executed one after the other. -/
theorem divide_succeeds : Succeeds [input, divide, total] (1, 1) (.partition [4, 3]) :=
  (sequential_succeeds sequential).2.2 (1, 1) _ rfl

theorem total_succeeds : Succeeds [input, divide, total] (2, 0) (.number 25) :=
  (sequential_succeeds sequential).2.2 (2, 0) _ rfl

/-- The second task of the last operation throws. -/
theorem checked_throws : Throws values (3, 1) .thrown :=
  ⟨checked, [.partition [4, 3]], rfl, by decide, rfl, by
    intro i d w h1 h2
    cases i with
    | zero =>
      obtain rfl := Option.some.inj h1
      obtain rfl := Option.some.inj h2
      exact succeeds_mono divide_succeeds [checked]
    | succ i => simp [checked, localStage] at h1, rfl⟩

theorem checked_succeeds : Succeeds values (3, 0) (.partition [12, 6]) :=
  .intro (stage := checked) (vs := [.partition [12, 6]]) rfl (by decide) rfl (by
    intro i d w h1 h2
    cases i with
    | zero =>
      obtain rfl := Option.some.inj h1
      obtain rfl := Option.some.inj h2
      exact succeeds_mono ((sequential_succeeds sequential).2.2 (1, 0) _ rfl) [checked]
    | succ i => simp [checked, localStage] at h1) rfl

/-- All executions which come to their end have called the same operations. -/
theorem values_created {c : Config Value} (h : Reach (Config.init script) c) (hst : Stuck c) :
    c.stages = values ∧ c.script = .done := by
  have hi := inv_reach (inv_init script_ok) h
  have hp : Relation.ReflTransGen Follows (([] : List (Stage Value)), script) (values, .done) := by
    refine .head .issue (.head .issue (.head .issue (.head (.get total_succeeds) (.head ?_ .refl))))
    exact .issue
  obtain ⟨h1, h2⟩ := follows_confluent hp (.inl rfl) hi.path (stuck_script hi hst)
  refine ⟨h1.symm, ?_⟩
  rcases h2 with h2 | ⟨e, _, h2, _⟩
  · exact h2.symm
  · exact absurd h2 (by simp)

/-- Whatever the order in which things happen, in the end the first task of the last operation has succeeded, and the second
one has failed. -/
theorem script_results {c : Config Value} (h : Reach (Config.init script) c) (hst : Stuck c) :
    c.ready (3, 0) = some (.ok (.partition [12, 6])) ∧ ∃ e, c.ready (3, 1) = some (.error e) := by
  have hc := (values_created h hst).1
  have hready := ((dataflow_ends script_ok h).1 hst).2
  constructor
  · have hne := hready (3, 0) ⟨checked, by rw [hc]; rfl, by decide⟩
    have hr := dataflow_results script_ok h (t := (3, 0))
    cases hv : c.ready (3, 0) with
    | none => exact absurd hv hne
    | some r =>
      cases r with
      | ok v => rw [succeeds_unique (hr.1 v hv) (hc ▸ checked_succeeds)]
      | error e =>
        obtain ⟨u, h1, h2⟩ := hr.2.1 e hv
        exact (fails_not_succeeds ⟨u, h1, h2⟩ (hc ▸ checked_succeeds)).elim
  · exact ((dataflow_results script_ok h (t := (3, 1))).2.2 hst ⟨checked, by rw [hc]; rfl, by decide⟩).2
      ⟨(3, 1), .thrown, .refl, hc ▸ checked_throws⟩

/-- Such executions exist. -/
example : ∃ c : Config Value, Reach (Config.init script) c ∧ Stuck c ∧
    c.ready (3, 0) = some (.ok (.partition [12, 6])) ∧ ∃ e, c.ready (3, 1) = some (.error e) := by
  obtain ⟨c, h, hst⟩ := dataflow_completes script_ok
  exact ⟨c, h, hst, script_results h hst⟩

/-- An execution in which the sum is waited for before all partitions of the input have been divided is not possible, but
this one is: operations are called before any task has been executed. -/
example : Reach (Config.init script) ⟨.get (2, 0) fun v => if v = .number 25 then .issue checked .done else .done,
    [input, divide, total], fun _ => none⟩ :=
  .step (.step (.step .refl .issue) .issue) .issue

/-- The neighbourhood of a partition in the corner, and of one in the center, of 3 × 3 partitions. -/
example : around 3 3 0 = [0, 1, 3, 4] ∧ around 3 3 4 = [0, 1, 2, 3, 4, 5, 6, 7, 8] ∧ around 3 3 5 = [1, 2, 4, 5, 7, 8] := by
  decide

end Lue.Dataflow.Examples

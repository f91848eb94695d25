import Verif.Serializer.Proofs

/-!
# Properties of the serializer (C27)
-/
namespace Lue.Serializer

variable {K : Type} [DecidableEq K]

/-- No assertion fails and no promise is used that has been given away or satisfied already. -/
theorem serializer_safe {tasks : List (K × Nat)} (ht : Tasks tasks) {s : State K} (h : Reachable tasks s) : s.error = false := by
  obtain ⟨d, hi⟩ := inv_reachable ht h
  exact hi.noError

/-- At any moment, whatever the order in which tasks request their promises and futures, per key the tasks have been
executed in the order of their generation, without skipping one and without overlap. -/
theorem serializer_order {tasks : List (K × Nat)} (ht : Tasks tasks) {s : State K} (h : Reachable tasks s) (k : K) :
    ∃ n, (eventsOf k s.trace = serial k n ∨ eventsOf k s.trace = serial k n ++ [.start k (n + 1)]) ∧ Complete tasks k n := by
  obtain ⟨d, hi⟩ := inv_reachable ht h
  refine ⟨d k, ?_, fun g h1 h2 => hi.doneTask k g h1 h2⟩
  rcases hi.trace k with ⟨h1, -⟩ | ⟨h1, -⟩
  · exact Or.inl h1
  · exact Or.inr h1

theorem mem_serial_start (k : K) (n g : Nat) : Event.start k g ∈ serial k n ↔ 1 ≤ g ∧ g ≤ n := by
  simp only [serial, List.mem_flatMap, List.mem_range'_1]
  constructor
  · rintro ⟨a, ha, h⟩
    simp at h; omega
  · intro h
    exact ⟨g, by omega, by simp⟩

theorem mem_serial_finish (k : K) (n g : Nat) : Event.finish k g ∈ serial k n ↔ 1 ≤ g ∧ g ≤ n := by
  simp only [serial, List.mem_flatMap, List.mem_range'_1]
  constructor
  · rintro ⟨a, ha, h⟩
    simp at h; omega
  · intro h
    exact ⟨g, by omega, by simp⟩

theorem mem_eventsOf (k : K) (e : Event K) (tr : List (Event K)) : e ∈ eventsOf k tr ↔ e ∈ tr ∧ e.key = k := by
  simp [eventsOf]

/-- A task has only started when all its predecessors are finished. -/
theorem serializer_predecessors {tasks : List (K × Nat)} (ht : Tasks tasks) {s : State K} (h : Reachable tasks s) {k : K} {g : Nat}
    (hs : Event.start k g ∈ s.trace) : ∀ g', 1 ≤ g' → g' < g → Event.finish k g' ∈ s.trace := by
  obtain ⟨n, hn, -⟩ := serializer_order ht h k
  have hm := (mem_eventsOf k _ _).mpr ⟨hs, rfl⟩
  intro g' h1 h2
  have : Event.finish k g' ∈ eventsOf k s.trace := by
    rcases hn with hn | hn
    · rw [hn] at hm ⊢
      rw [mem_serial_start] at hm
      rw [mem_serial_finish]; omega
    · rw [hn] at hm ⊢
      rw [List.mem_append, mem_serial_start] at hm
      refine List.mem_append_left _ ?_
      rw [mem_serial_finish]
      rcases hm with hm | hm
      · omega
      · simp at hm; omega
  exact ((mem_eventsOf k _ _).mp this).1

/-- FINDING: when a generation is never requested (e.g. because the array that is written has no partitions in this process),
none of the tasks for later generations will ever run. -/
theorem serializer_gap {tasks : List (K × Nat)} (ht : Tasks tasks) {s : State K} (h : Reachable tasks s) {k : K} {g' g : Nat}
    (h1 : 1 ≤ g') (hn : (k, g') ∉ tasks) (hlt : g' < g) : Event.start k g ∉ s.trace := by
  intro hs
  have hf := serializer_predecessors ht h hs g' h1 hlt
  obtain ⟨n, hn', hc⟩ := serializer_order ht h k
  have hm := (mem_eventsOf k _ _).mpr ⟨hf, rfl⟩
  have : g' ≤ n := by
    rcases hn' with hn' | hn'
    · rw [hn', mem_serial_finish] at hm; omega
    · rw [hn', List.mem_append, mem_serial_finish] at hm
      rcases hm with hm | hm
      · omega
      · simp at hm
  exact hn (hc g' h1 this)

/-- When nothing can happen anymore, the tasks that have been executed are exactly those for which all predecessors have
been requested. -/
theorem serializer_complete {tasks : List (K × Nat)} (ht : Tasks tasks) {s : State K} (h : Reachable tasks s)
    (hstuck : ∀ a, step tasks s a = none) (k : K) (g : Nat) (hg : 1 ≤ g) :
    Event.finish k g ∈ s.trace ↔ Complete tasks k g := by
  obtain ⟨d, hi⟩ := inv_reachable ht h
  have hnr : ∀ (i : Nat) k g v, tasks[i]? = some (k, g) → s.phase i ≠ .running v := by
    intro i k g v hik hr
    have := hstuck (.finish i)
    simp only [step, hik, Option.bind_some, finish, hr] at this
    split at this
    · simp at this
    · split at this <;> simp at this
  have htr : ∀ k, eventsOf k s.trace = serial k (d k) := by
    intro k
    rcases hi.trace k with ⟨h1, -⟩ | ⟨-, i, v, h2, h3⟩
    · exact h1
    · exact absurd h3 (hnr i k _ v h2)
  have hmem : Event.finish k g ∈ s.trace ↔ g ≤ d k := by
    have : Event.finish k g ∈ s.trace ↔ Event.finish k g ∈ eventsOf k s.trace := by
      rw [mem_eventsOf]; simp [Event.key]
    rw [this, htr k, mem_serial_finish]; omega
  rw [hmem]
  constructor
  · intro hle g' h1 h2
    exact hi.doneTask k g' h1 (by omega)
  · intro hc
    by_contra hlt
    obtain ⟨i, hik⟩ := List.getElem?_of_mem (hc (d k + 1) (by omega) (by omega))
    have hnd : s.phase i ≠ .done := by
      intro h'
      have := (hi.done i k _ hik).mp h'
      omega
    cases hph : s.phase i with
    | idle =>
      have := hstuck (.request i)
      simp only [step, hik, Option.bind_some, request, hph] at this
      split at this <;> simp at this
    | promised v =>
      have := hstuck (.attach i)
      simp only [step, hik, Option.bind_some, attach, hph] at this
      split at this <;> simp at this
    | running v => exact hnr i k _ v hik hph
    | done => exact hnd hph
    | waiting v p =>
      have hok := hi.ok i k _ hik
      rw [hph] at hok
      obtain ⟨-, rfl⟩ := hok
      have hm := hi.mem i k _ hik (by simp [hph, Phase.requested]) (d k) (by omega)
      obtain ⟨e, he⟩ := (get_isSome _ _).mpr hm
      have hready : e.ready = true := by
        by_cases h0 : d k = 0
        · rcases hi.shape k with hs | ⟨n, -, -, p, hp⟩
          · rw [hs] at hm; simp at hm
          · rw [h0, hp] at he; injection he with he; subst he; rfl
        · exact (hi.ready k (d k) e (by omega) he).mpr (Nat.le_refl _)
      have := hstuck (.start i)
      simp only [step, hik, Option.bind_some, start, hph, Nat.add_sub_cancel, he, hready] at this
      simp at this

/-! ## No run goes on forever -/

def Phase.rest : Phase → Nat
  | .idle => 4
  | .promised _ => 3
  | .waiting _ _ => 2
  | .running _ => 1
  | .done => 0

def measure (tasks : List (K × Nat)) (s : State K) : Nat := ((List.range tasks.length).map fun i => (s.phase i).rest).sum

theorem sum_update_lt {f : Nat → Phase} {i : Nat} {p : Phase} (hp : p.rest < (f i).rest) : ∀ (l : List Nat), l.Nodup →
    ((l.map fun j => (update f i p j).rest).sum ≤ (l.map fun j => (f j).rest).sum) ∧
    (i ∈ l → (l.map fun j => (update f i p j).rest).sum < (l.map fun j => (f j).rest).sum) := by
  intro l
  induction l with
  | nil => intro _; simp
  | cons a l ih =>
    intro hn
    obtain ⟨h1, h2⟩ := List.nodup_cons.mp hn
    obtain ⟨ih1, ih2⟩ := ih h2
    simp only [List.map_cons, List.sum_cons, List.mem_cons]
    by_cases ha : a = i
    · subst ha
      have : update f a p a = p := by simp [update]
      rw [this]
      exact ⟨by omega, fun _ => by omega⟩
    · have : update f i p a = f a := by simp [update, ha]
      rw [this]
      refine ⟨by omega, ?_⟩
      rintro (h | h)
      · exact absurd h.symm ha
      · have := ih2 h; omega

theorem measure_step {tasks : List (K × Nat)} (ht : Tasks tasks) {d : K → Nat} {s s' : State K} (h : Inv tasks d s) {a : Action}
    (hs : step tasks s a = some s') : measure tasks s' < measure tasks s := by
  obtain ⟨d', h'⟩ := inv_step ht h hs
  have hne := h'.noError
  have key : ∃ i p, i < tasks.length ∧ s'.phase = update s.phase i p ∧ p.rest < (s.phase i).rest := by
    cases a with
    | request i =>
      simp only [step] at hs
      obtain ⟨⟨k, g⟩, hi, hs⟩ := Option.bind_eq_some_iff.mp hs
      have hlt := (List.getElem?_eq_some_iff.mp hi).1
      unfold request at hs
      split at hs
      · rename_i hph
        split at hs
        · simp only [Option.some.injEq] at hs; subst hs; simp at hne
        · simp only [Option.some.injEq] at hs; subst hs
          exact ⟨i, _, hlt, rfl, by rw [hph]; simp [Phase.rest]⟩
      · simp at hs
    | attach i =>
      simp only [step] at hs
      obtain ⟨⟨k, g⟩, hi, hs⟩ := Option.bind_eq_some_iff.mp hs
      have hlt := (List.getElem?_eq_some_iff.mp hi).1
      unfold attach at hs
      split at hs
      · rename_i hph
        split at hs
        · simp only [Option.some.injEq] at hs; subst hs; simp at hne
        · simp only [Option.some.injEq] at hs; subst hs
          exact ⟨i, _, hlt, rfl, by rw [hph]; simp [Phase.rest]⟩
      · simp at hs
    | start i =>
      simp only [step] at hs
      obtain ⟨⟨k, g⟩, hi, hs⟩ := Option.bind_eq_some_iff.mp hs
      have hlt := (List.getElem?_eq_some_iff.mp hi).1
      unfold start at hs
      split at hs
      · rename_i hph
        split at hs
        · simp at hs
        · split at hs
          · simp only [Option.some.injEq] at hs; subst hs
            exact ⟨i, _, hlt, rfl, by rw [hph]; simp [Phase.rest]⟩
          · simp at hs
      · simp at hs
    | finish i =>
      simp only [step] at hs
      obtain ⟨⟨k, g⟩, hi, hs⟩ := Option.bind_eq_some_iff.mp hs
      have hlt := (List.getElem?_eq_some_iff.mp hi).1
      unfold finish at hs
      split at hs
      · rename_i hph
        split at hs
        · simp only [Option.some.injEq] at hs; subst hs; simp at hne
        · split at hs
          · simp only [Option.some.injEq] at hs; subst hs
            exact ⟨i, _, hlt, rfl, by rw [hph]; simp [Phase.rest]⟩
          · simp only [Option.some.injEq] at hs; subst hs; simp at hne
      · simp at hs
  obtain ⟨i, p, hlt, hp, hr⟩ := key
  unfold measure
  rw [hp]
  exact (sum_update_lt hr _ List.nodup_range).2 (List.mem_range.mpr hlt)

theorem measure_run {tasks : List (K × Nat)} (ht : Tasks tasks) {s s' : State K} {as : List Action} (hr : Run tasks s as s') :
    ∀ {d}, Inv tasks d s → as.length + measure tasks s' ≤ measure tasks s := by
  induction hr with
  | nil => intro d h; simp
  | cons hs _ ih =>
    intro d h
    have h1 := measure_step ht h hs
    obtain ⟨d', h'⟩ := inv_step ht h hs
    have := ih h'
    simp; omega

/-- A run takes at most four steps per task. -/
theorem serializer_terminates {tasks : List (K × Nat)} (ht : Tasks tasks) {as : List Action} {s : State K}
    (hr : Run tasks (init K) as s) : as.length ≤ 4 * tasks.length := by
  have h1 := measure_run ht hr (inv_init tasks ht)
  have h2 : measure tasks (init K) = 4 * tasks.length := by
    simp [measure, init, Phase.rest, Nat.mul_comm]
  omega

/-! ## Examples -/

/-- Execute actions -/
def exec (tasks : List (K × Nat)) (s : State K) : List Action → Option (State K)
  | [] => some s
  | a :: as => (step tasks s a).bind fun s' => exec tasks s' as

/-- Generations 3, 1, 2 and another key, requested in this order. -/
def exampleTasks : List (String × Nat) := [("a", 3), ("a", 1), ("b", 1), ("a", 2)]

example : Tasks exampleTasks := ⟨by decide, by decide⟩

example : ((exec exampleTasks (init String)
    [.request 0, .attach 0, .request 3, .request 2, .attach 3, .request 1, .attach 2, .start 2, .attach 1, .start 1, .finish 1,
      .start 3, .finish 2, .finish 3, .start 0, .finish 0]).map fun s => (s.error, s.trace)) =
    some (false, [.start "b" 1, .start "a" 1, .finish "a" 1, .start "a" 2, .finish "b" 1, .finish "a" 2, .start "a" 3,
      .finish "a" 3]) := by decide

/-- The third generation cannot start before the second one is finished. -/
example : ((exec exampleTasks (init String) [.request 0, .attach 0, .request 1, .attach 1, .start 1, .finish 1]).bind fun s =>
    step exampleTasks s (.start 0)).isNone = true := by decide

/-- FINDING: requesting a generation twice results in a promise that cannot be used. -/
theorem serializer_twice : ((exec [("a", 1), ("a", 1)] (init String)
    [.request 0, .request 1, .attach 1, .start 1, .finish 1]).map fun s => s.error) = some true := by decide

end Lue.Serializer

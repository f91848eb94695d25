import Verif.Simulate.Spec
import Mathlib.Data.List.Perm.Subperm

/-!
# Invariants of running a model
-/
namespace Lue.Simulate

/-- Where the thread is: outside of `simulate`, or inside, with `k` steps called, `w` steps waited for. -/
structure Mode where
  k : Nat
  w : Nat
  joined : Bool

/-- The rest of the program fits where the thread is. -/
def Check (first R N : Nat) : Option Mode → List Instr → Prop
  | none, [] => True
  | none, .emit e :: p => e.isOuter = true ∧ Check first R N none p
  | none, .construct d l :: p => 1 ≤ R ∧ d = (R : Int) - 1 ∧ l = first ∧ Check first R N (some ⟨0, 0, false⟩) p
  | some m, .call t :: p => t = first + m.k ∧ m.w = m.k ∧ m.joined = false ∧ m.k < N ∧ Check first R N (some { m with k := m.k + 1 }) p
  | some m, .wait t :: p => t + 1 = first + m.k ∧ m.w + 1 = m.k ∧ Check first R N (some { m with w := m.w + 1 }) p
  | some m, .emit e :: p => (∃ t, e = .progress t) ∧ Check first R N (some m) p
  | some m, .join :: p => m.w = m.k ∧ Check first R N (some { m with joined := true }) p
  | some m, .destroy :: p => m.joined = true ∧ Check first R N none p
  | _, _ => False

/-- Calls still to be made -/
def events (p : List Instr) : List Event :=
  p.filterMap fun i => match i with
    | .emit e => some e
    | .call t => some (.called t)
    | _ => none

/-- The state fits where the thread is, outside of `simulate`. -/
structure RelOut (s : State) : Prop where
  sem : s.sem = none
  signalled : s.signalled = s.steps.length
  finished : s.finished = s.steps.length

/-- The state fits where the thread is, inside `simulate`. -/
structure RelIn (first R N : Nat) (m : Mode) (s : State) : Prop where
  rate : 1 ≤ R
  sem : s.sem = some ⟨(R : Int) - 1, (first + (s.signalled - 1) : Nat)⟩
  steps : s.steps = List.range' first m.k
  fs : s.finished ≤ s.signalled
  sf : s.signalled ≤ s.finished + 1
  sk : s.signalled ≤ m.k
  kn : m.k ≤ N
  wk : m.w ≤ m.k
  kw : m.k ≤ m.w + 1
  waited : m.w ≤ R + (s.signalled - 1)
  joined : m.joined = true → m.w = m.k ∧ s.finished = m.k

def Rel (first R N : Nat) : Option Mode → State → Prop
  | none, s => RelOut s
  | some m, s => RelIn first R N m s

/-- The invariant that does not depend on where the thread is. -/
structure Base (s : State) : Prop where
  nodup : s.readySteps.Nodup
  sub : ∀ t ∈ s.readySteps, t ∈ s.steps
  stepsNodup : s.steps.Nodup
  sig : ∀ i < s.signalled, ∀ t, s.steps[i]? = some t → t ∈ s.readySteps
  notDangling : s.dangling = false
  nr : nrCalled s.trace + s.readySteps.length = nrReady s.trace + s.steps.length
  each : ∀ t, s.trace.count (.called t) + s.readySteps.count t = s.trace.count (.ready t) + s.steps.count t

structure Inv (first R N : Nat) (m : Option Mode) (s : State) : Prop where
  check : Check first R N m s.prog
  rel : Rel first R N m s
  base : Base s

theorem nrCalled_append (a b : List Event) : nrCalled (a ++ b) = nrCalled a + nrCalled b := by
  simp [nrCalled, List.countP_append]

theorem nrReady_append (a b : List Event) : nrReady (a ++ b) = nrReady a + nrReady b := by
  simp [nrReady, List.countP_append]

theorem Base.emit {s : State} (h : Base s) (e : Event) (he : ∀ t, e ≠ .called t) (he' : ∀ t, e ≠ .ready t) (p : List Instr) :
    Base { s with prog := p, trace := s.trace ++ [e] } := by
  refine ⟨h.nodup, h.sub, h.stepsNodup, h.sig, h.notDangling, ?_, ?_⟩
  · have h1 : nrCalled [e] = 0 := by cases e <;> simp_all [nrCalled]
    have h2 : nrReady [e] = 0 := by cases e <;> simp_all [nrReady]
    have := h.nr
    simp only [nrCalled_append, nrReady_append, h1, h2]; omega
  · intro t
    have := h.each t
    simp only [List.count_append, List.count_singleton]
    have h1 : (e == Event.called t) = false := by simpa using he t
    have h2 : (e == Event.ready t) = false := by simpa using he' t
    simp only [h1, h2]; simpa using this

theorem base_init (p : List Instr) : Base (init p) := by
  refine ⟨?_, ?_, ?_, ?_, rfl, ?_, ?_⟩ <;> simp [init, nrCalled, nrReady]

theorem rel_init (first R N : Nat) (p : List Instr) : Rel first R N none (init p) := by
  refine ⟨rfl, rfl, rfl⟩

/-- Outside of `simulate`, all steps are ready. -/
theorem Base.ready_length {s : State} (h : Base s) : s.signalled ≤ s.steps.length → s.signalled ≤ s.readySteps.length := by
  intro hl
  have hsub : s.steps.take s.signalled ⊆ s.readySteps := by
    intro t ht
    obtain ⟨i, hi, hit⟩ := List.mem_take_iff_getElem.mp ht
    have : i < s.signalled := by omega
    exact h.sig i this t (by rw [List.getElem?_eq_getElem (by omega)]; rw [hit])
  have hnd : (s.steps.take s.signalled).Nodup := h.stepsNodup.sublist (List.take_sublist _ _)
  have := (List.subperm_of_subset hnd hsub).length_le
  simp at this; omega

theorem Base.ready_length_le {s : State} (h : Base s) : s.readySteps.length ≤ s.steps.length :=
  (List.subperm_of_subset h.nodup (fun t ht => h.sub t ht)).length_le

theorem inv_main {first R N : Nat} {m : Option Mode} {s s' : State} (h : Inv first R N m s) (hs : main s = some s') :
    ∃ m', Inv first R N m' s' := by
  obtain ⟨hc, hr, hb⟩ := h
  unfold main at hs
  cases hp : s.prog with
  | nil => simp [hp] at hs
  | cons i p =>
    rw [hp] at hs hc
    cases i with
    | emit e =>
      simp only [Option.some.injEq] at hs
      subst hs
      cases m with
      | none =>
        obtain ⟨he, hc⟩ := hc
        exact ⟨none, hc, ⟨hr.sem, hr.signalled, hr.finished⟩,
          hb.emit e (by rintro t rfl; simp [Event.isOuter] at he) (by rintro t rfl; simp [Event.isOuter] at he) p⟩
      | some m =>
        obtain ⟨⟨t, rfl⟩, hc⟩ := hc
        exact ⟨some m, hc, ⟨hr.rate, hr.sem, hr.steps, hr.fs, hr.sf, hr.sk, hr.kn, hr.wk, hr.kw, hr.waited, hr.joined⟩,
          hb.emit _ (by simp) (by simp) p⟩
    | construct d l =>
      simp only [Option.some.injEq] at hs
      subst hs
      cases m with
      | none =>
        obtain ⟨h1, rfl, rfl, hc⟩ := hc
        refine ⟨_, hc, ⟨h1, ?_, ?_, ?_, ?_, ?_, ?_, ?_, ?_, ?_, ?_⟩, ⟨?_, ?_, ?_, ?_, hb.notDangling, ?_, ?_⟩⟩ <;> try simp
        · have := hb.nr
          have h2 := hb.ready_length (Nat.le_of_eq hr.signalled)
          have h3 := hb.ready_length_le
          have h4 := hr.signalled
          omega
        · intro t
          have := hb.each t
          have h2 := hb.ready_length (Nat.le_of_eq hr.signalled)
          have h4 := hr.signalled
          have hperm : s.readySteps.Perm s.steps :=
            (List.subperm_of_subset hb.nodup (fun t ht => hb.sub t ht)).perm_of_length_le (by omega)
          rw [hperm.count_eq] at this
          omega
      | some m => exact hc.elim
    | call t =>
      simp only [Option.some.injEq] at hs
      subst hs
      cases m with
      | none => exact hc.elim
      | some m =>
        obtain ⟨rfl, hw, hj, hkn, hc⟩ := hc
        have hst := hr.steps
        have hnew : (first + m.k) ∉ s.steps := by rw [hst]; simp [List.mem_range'_1]
        refine ⟨_, hc, ⟨hr.rate, hr.sem, ?_, hr.fs, hr.sf, ?_, hkn, ?_, ?_, hr.waited, ?_⟩,
          ⟨hb.nodup, ?_, ?_, ?_, hb.notDangling, ?_, ?_⟩⟩
        · simp only [hst]; rw [List.range'_1_concat]
        · have := hr.sk; simp only; omega
        · simp only; omega
        · simp only; omega
        · intro h; rw [hj] at h; exact absurd h (by simp)
        · intro x hx
          exact List.mem_append_left _ (hb.sub x hx)
        · exact List.nodup_append.mpr ⟨hb.stepsNodup, by simp, by
            intro a ha b hb' hab; simp at hb'; subst hb'; exact hnew (hab ▸ ha)⟩
        · intro i hi x hx
          have hlen : s.steps.length = m.k := by rw [hst]; simp
          have := hr.sk
          have hi' : i < s.signalled := hi
          rw [List.getElem?_append_left (by omega)] at hx
          exact hb.sig i hi' x hx
        · have := hb.nr
          simp only [nrCalled_append, nrReady_append, List.length_append, List.length_singleton]
          have h1 : nrCalled [Event.called (first + m.k)] = 1 := rfl
          have h2 : nrReady [Event.called (first + m.k)] = 0 := rfl
          omega
        · intro x
          have := hb.each x
          simp only [List.count_append, List.count_singleton]
          by_cases hx : first + m.k = x
          · subst hx; simp; omega
          · simp [hx]; omega
    | wait t =>
      simp only at hs
      cases m with
      | none => exact hc.elim
      | some m =>
        obtain ⟨ht, hw, hc⟩ := hc
        have hsem := hr.sem
        cases hss : s.sem with
        | none => rw [hss] at hsem; simp at hsem
        | some sem =>
        rw [hss] at hs hsem
        simp only [Option.some.injEq] at hsem
        simp only at hs
        split at hs
        · rename_i hpass
          simp only [Option.some.injEq] at hs
          subst hs
          rw [hsem] at hpass
          simp only [Semaphore.passes, gt_iff_lt, Bool.not_eq_eq_eq_not, Bool.not_true, decide_eq_false_iff_not, Int.not_lt] at hpass
          refine ⟨_, hc, ⟨hr.rate, by simp only; rw [hsem], hr.steps, hr.fs, hr.sf, hr.sk, hr.kn, ?_, ?_, ?_, ?_⟩,
            ⟨hb.nodup, hb.sub, hb.stepsNodup, hb.sig, hb.notDangling, hb.nr, hb.each⟩⟩
          · simp only; omega
          · simp only; omega
          · simp only
            have := hr.rate
            omega
          · intro hj
            have := hr.joined hj
            simp only; omega
        · simp at hs
    | join =>
      simp only at hs
      cases m with
      | none => exact hc.elim
      | some m =>
        obtain ⟨hw, hc⟩ := hc
        split at hs
        · rename_i hf
          simp only [Option.some.injEq] at hs
          subst hs
          refine ⟨_, hc, ⟨hr.rate, hr.sem, hr.steps, hr.fs, hr.sf, hr.sk, hr.kn, hr.wk, hr.kw, hr.waited, ?_⟩,
            ⟨hb.nodup, hb.sub, hb.stepsNodup, hb.sig, hb.notDangling, hb.nr, hb.each⟩⟩
          intro _
          refine ⟨hw, ?_⟩
          simp only; rw [hf, hr.steps]; simp
        · simp at hs
    | destroy =>
      simp only [Option.some.injEq] at hs
      subst hs
      cases m with
      | none => exact hc.elim
      | some m =>
        obtain ⟨hj, hc⟩ := hc
        have hjj := hr.joined hj
        have hlen : s.steps.length = m.k := by rw [hr.steps]; simp
        refine ⟨none, hc, ⟨rfl, ?_, ?_⟩, ⟨hb.nodup, hb.sub, hb.stepsNodup, hb.sig, ?_, hb.nr, hb.each⟩⟩
        · have := hr.sk; have := hr.fs; simp only; omega
        · simp only; omega
        · simp [hb.notDangling]; omega

theorem inv_ready {first R N : Nat} {m : Option Mode} {s s' : State} {t : Nat} (h : Inv first R N m s)
    (hs : ready s t = some s') : Inv first R N m s' := by
  obtain ⟨hc, hr, hb⟩ := h
  unfold ready at hs
  split at hs
  case isFalse => simp at hs
  rename_i ht
  simp only [Option.some.injEq] at hs
  subst hs
  refine ⟨hc, ?_, ⟨?_, ?_, hb.stepsNodup, ?_, hb.notDangling, ?_, ?_⟩⟩
  · cases m with
    | none => exact ⟨hr.sem, hr.signalled, hr.finished⟩
    | some m => exact ⟨hr.rate, hr.sem, hr.steps, hr.fs, hr.sf, hr.sk, hr.kn, hr.wk, hr.kw, hr.waited, hr.joined⟩
  · exact List.nodup_cons.mpr ⟨ht.2, hb.nodup⟩
  · intro x hx
    rcases List.mem_cons.mp hx with rfl | hx
    · exact ht.1
    · exact hb.sub x hx
  · intro i hi x hx
    exact List.mem_cons_of_mem _ (hb.sig i hi x hx)
  · have := hb.nr
    simp only [nrCalled_append, nrReady_append, List.length_cons]
    have h1 : nrCalled [Event.ready t] = 0 := rfl
    have h2 : nrReady [Event.ready t] = 1 := rfl
    omega
  · intro x
    have := hb.each x
    simp only [List.count_append, List.count_singleton, List.count_cons]
    by_cases hx : t = x
    · subst hx; simp; omega
    · simp [hx]; omega

theorem inv_signal {first R N : Nat} {m : Option Mode} {s s' : State} (h : Inv first R N m s)
    (hs : signal s = some s') : Inv first R N m s' := by
  obtain ⟨hc, hr, hb⟩ := h
  unfold signal at hs
  split at hs
  · simp at hs
  rename_i t hst
  split at hs
  case isFalse => simp at hs
  rename_i hif
  obtain ⟨hlt, hget⟩ := List.getElem?_eq_some_iff.mp hst
  cases m with
  | none => have := hr.signalled; omega
  | some m =>
    rw [hr.sem] at hs
    simp only [Option.some.injEq] at hs
    subst hs
    have hlen : s.steps.length = m.k := by rw [hr.steps]; simp
    have htv : t = first + s.signalled := by
      rw [← hget]; simp [hr.steps]
    refine ⟨hc, ⟨hr.rate, ?_, hr.steps, ?_, ?_, ?_, hr.kn, hr.wk, hr.kw, ?_, ?_⟩,
      ⟨hb.nodup, hb.sub, hb.stepsNodup, ?_, hb.notDangling, hb.nr, hb.each⟩⟩
    · simp only [Semaphore.signal, Option.some.injEq, Semaphore.mk.injEq, true_and]
      subst htv; omega
    · simp only; omega
    · simp only; omega
    · simp only; omega
    · have := hr.waited
      simp only; omega
    · intro hj
      have := hr.joined hj
      exact this
    · intro i hi x hx
      by_cases h' : i < s.signalled
      · exact hb.sig i h' x hx
      · have : i = s.signalled := by simp only at hi; omega
        subst this
        simp only at hx
        rw [hst] at hx
        simp only [Option.some.injEq] at hx
        subst hx; exact hif.2

theorem inv_finish {first R N : Nat} {m : Option Mode} {s s' : State} (h : Inv first R N m s)
    (hs : finish s = some s') : Inv first R N m s' := by
  obtain ⟨hc, hr, hb⟩ := h
  unfold finish at hs
  split at hs
  case isFalse => simp at hs
  rename_i hif
  simp only [Option.some.injEq] at hs
  subst hs
  refine ⟨hc, ?_, ⟨hb.nodup, hb.sub, hb.stepsNodup, hb.sig, hb.notDangling, hb.nr, hb.each⟩⟩
  cases m with
  | none => have := hr.signalled; have := hr.finished; omega
  | some m =>
    refine ⟨hr.rate, hr.sem, hr.steps, ?_, ?_, hr.sk, hr.kn, hr.wk, hr.kw, hr.waited, ?_⟩
    · simp only; omega
    · have := hr.sf; simp only; omega
    · intro hj
      have hjj := hr.joined hj
      have := hr.sk
      refine ⟨hjj.1, ?_⟩
      simp only; omega

theorem inv_step {first R N : Nat} {m : Option Mode} {s s' : State} {a : Action} (h : Inv first R N m s)
    (hs : step s a = some s') : ∃ m', Inv first R N m' s' := by
  cases a with
  | main => exact inv_main h hs
  | ready t => exact ⟨m, inv_ready h hs⟩
  | signal => exact ⟨m, inv_signal h hs⟩
  | finish => exact ⟨m, inv_finish h hs⟩

theorem inv_run {first R N : Nat} {s s' : State} {as : List Action} (hr : Run s as s') :
    ∀ {m : Option Mode}, Inv first R N m s → ∃ m', Inv first R N m' s' := by
  induction hr with
  | nil => intro m h; exact ⟨m, h⟩
  | cons hs _ ih =>
    intro m h
    obtain ⟨m', h'⟩ := inv_step h hs
    exact ih h'

/-! ## The calls made -/

theorem calls_step {s s' : State} {a : Action} (hs : step s a = some s')
    (hp : ∀ e, Instr.emit e ∈ s.prog → e.isCall = true) :
    calls s'.trace ++ events s'.prog = calls s.trace ++ events s.prog ∧
      (∀ e, Instr.emit e ∈ s'.prog → e.isCall = true) := by
  cases a with
  | main =>
    simp only [step, main] at hs
    cases hp' : s.prog with
    | nil => simp [hp'] at hs
    | cons i p =>
      rw [hp'] at hs hp
      have hpp : ∀ e, Instr.emit e ∈ p → e.isCall = true := fun e he => hp e (List.mem_cons_of_mem _ he)
      cases i with
      | emit e =>
        simp only [Option.some.injEq] at hs
        subst hs
        refine ⟨?_, hpp⟩
        have := hp e List.mem_cons_self
        simp [calls, events, List.filter_append, this]
      | construct d l => simp only [Option.some.injEq] at hs; subst hs; exact ⟨by simp [events], hpp⟩
      | call t =>
        simp only [Option.some.injEq] at hs
        subst hs
        refine ⟨?_, hpp⟩
        simp only [calls, events, List.filter_append, List.append_assoc, List.filterMap_cons]; rfl
      | wait t =>
        simp only at hs
        split at hs
        · simp at hs
        · split at hs
          · simp only [Option.some.injEq] at hs; subst hs; exact ⟨by simp [events], hpp⟩
          · simp at hs
      | join =>
        simp only at hs
        split at hs
        · simp only [Option.some.injEq] at hs; subst hs; exact ⟨by simp [events], hpp⟩
        · simp at hs
      | destroy => simp only [Option.some.injEq] at hs; subst hs; exact ⟨by simp [events], hpp⟩
  | ready t =>
    simp only [step, ready] at hs
    split at hs
    · simp only [Option.some.injEq] at hs; subst hs
      exact ⟨by simp [calls, List.filter_append, Event.isCall], hp⟩
    · simp at hs
  | signal =>
    simp only [step, signal] at hs
    split at hs
    · simp at hs
    · split at hs
      · split at hs <;> · simp only [Option.some.injEq] at hs; subst hs; exact ⟨rfl, hp⟩
      · simp at hs
  | finish =>
    simp only [step, finish] at hs
    split at hs
    · simp only [Option.some.injEq] at hs; subst hs; exact ⟨rfl, hp⟩
    · simp at hs

theorem calls_run {s s' : State} {as : List Action} (hr : Run s as s')
    (hp : ∀ e, Instr.emit e ∈ s.prog → e.isCall = true) :
    calls s'.trace ++ events s'.prog = calls s.trace ++ events s.prog := by
  induction hr with
  | nil => rfl
  | cons hs _ ih =>
    have h := calls_step hs hp
    rw [ih h.2, h.1]

/-! ## Every run ends -/

/-- Number of calls still to be made -/
def nrCalls (p : List Instr) : Nat := p.countP fun i => match i with | .call _ => true | _ => false

/-- A bound on the number of steps of a run -/
def measure (s : State) : Nat :=
  s.prog.length + 3 * nrCalls s.prog + (s.steps.length - s.readySteps.length) + (s.steps.length - s.signalled) +
    (s.steps.length - s.finished)

theorem measure_step {first R N : Nat} {m : Option Mode} {s s' : State} {a : Action} (h : Inv first R N m s)
    (hs : step s a = some s') : measure s' < measure s := by
  have hb := h.base
  have hrl := hb.ready_length_le
  cases a with
  | main =>
    simp only [step, main] at hs
    cases hp' : s.prog with
    | nil => simp [hp'] at hs
    | cons i p =>
      rw [hp'] at hs
      cases i with
      | emit e => simp only [Option.some.injEq] at hs; subst hs; simp [measure, hp', nrCalls]
      | construct d l => simp only [Option.some.injEq] at hs; subst hs; simp [measure, hp', nrCalls]; omega
      | call t => simp only [Option.some.injEq] at hs; subst hs; simp [measure, hp', nrCalls]; omega
      | wait t =>
        simp only at hs
        split at hs
        · simp at hs
        · split at hs
          · simp only [Option.some.injEq] at hs; subst hs; simp [measure, hp', nrCalls]
          · simp at hs
      | join =>
        simp only at hs
        split at hs
        · simp only [Option.some.injEq] at hs; subst hs; simp [measure, hp', nrCalls]
        · simp at hs
      | destroy => simp only [Option.some.injEq] at hs; subst hs; simp [measure, hp', nrCalls]
  | ready t =>
    have h' := inv_ready h hs
    have hrl' := h'.base.ready_length_le
    simp only [step, ready] at hs
    split at hs
    · simp only [Option.some.injEq] at hs; subst hs; simp [measure] at *; omega
    · simp at hs
  | signal =>
    simp only [step, signal] at hs
    split at hs
    · simp at hs
    · rename_i t hst
      obtain ⟨hlt, _⟩ := List.getElem?_eq_some_iff.mp hst
      split at hs
      · split at hs <;> · simp only [Option.some.injEq] at hs; subst hs; simp [measure] at *; omega
      · simp at hs
  | finish =>
    have hrel := h.rel
    simp only [step, finish] at hs
    split at hs
    · rename_i hlt
      have hfl : s.finished < s.steps.length := by
        cases m with
        | none => have := hrel.signalled; omega
        | some m =>
          have := hrel.sk
          have hlen : s.steps.length = m.k := by rw [hrel.steps]; simp
          omega
      simp only [Option.some.injEq] at hs; subst hs; simp [measure] at *; omega
    · simp at hs

theorem measure_run {first R N : Nat} {s s' : State} {as : List Action} (hr : Run s as s') :
    ∀ {m : Option Mode}, Inv first R N m s → as.length + measure s' ≤ measure s := by
  induction hr with
  | nil => intro m h; simp
  | cons hs _ ih =>
    intro m h
    have h1 := measure_step h hs
    obtain ⟨m', h'⟩ := inv_step h hs
    have := ih h'
    simp; omega

/-! ## The library only waits for time steps -/

theorem progress_inv {first R N : Nat} {m : Option Mode} {s : State} (h : Inv first R N m s) (hp : s.prog ≠ [])
    (hr : ∀ t ∈ s.steps, t ∈ s.readySteps) :
    ∃ a s', (∀ t, a ≠ .ready t) ∧ step s a = some s' := by
  obtain ⟨hc, hrel, hb⟩ := h
  by_cases h1 : s.finished < s.signalled
  · exact ⟨.finish, _, by simp, by simp [step, finish, h1]; rfl⟩
  by_cases h2 : s.signalled < s.steps.length ∧ s.signalled = s.finished
  · refine ⟨.signal, ?_⟩
    have hmem : s.steps[s.signalled] ∈ s.readySteps := hr _ (List.getElem_mem h2.1)
    cases hsem : s.sem with
    | none => exact ⟨_, by simp, by simp only [step, signal, List.getElem?_eq_getElem h2.1, if_pos (And.intro h2.2 hmem), hsem]; rfl⟩
    | some sem => exact ⟨_, by simp, by simp only [step, signal, List.getElem?_eq_getElem h2.1, if_pos (And.intro h2.2 hmem), hsem]; rfl⟩
  refine ⟨.main, ?_⟩
  cases hpp : s.prog with
  | nil => exact absurd hpp hp
  | cons i p =>
    rw [hpp] at hc
    cases i with
    | emit e => exact ⟨_, by simp, by simp [step, main, hpp]; rfl⟩
    | construct d l => exact ⟨_, by simp, by simp [step, main, hpp]; rfl⟩
    | call t => exact ⟨_, by simp, by simp [step, main, hpp]; rfl⟩
    | destroy => exact ⟨_, by simp, by simp [step, main, hpp]; rfl⟩
    | wait t =>
      cases m with
      | none => exact hc.elim
      | some m =>
        obtain ⟨ht, hw, -⟩ := hc
        have hlen : s.steps.length = m.k := by rw [hrel.steps]; simp
        have := hrel.fs; have := hrel.sk; have := hrel.sf; have := hrel.rate
        have hpass : (Semaphore.passes ⟨(R : Int) - 1, (first + (s.signalled - 1) : Nat)⟩ t) = true := by
          simp only [Semaphore.passes, gt_iff_lt, Bool.not_eq_eq_eq_not, Bool.not_true, decide_eq_false_iff_not, Int.not_lt]
          omega
        exact ⟨_, by simp, by simp only [step, main, hpp, hrel.sem, hpass]; rfl⟩
    | join =>
      cases m with
      | none => exact hc.elim
      | some m =>
        have hlen : s.steps.length = m.k := by rw [hrel.steps]; simp
        have := hrel.fs; have := hrel.sk; have := hrel.sf
        have hf : s.finished = s.steps.length := by omega
        exact ⟨_, by simp, by simp only [step, main, hpp, hf]; rfl⟩

end Lue.Simulate

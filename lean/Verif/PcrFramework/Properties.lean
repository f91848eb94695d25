import Verif.PcrFramework.Spec
import Verif.Simulate.Properties
import Verif.Calculate.Proofs

/-!
# C55: the sections of a model written in Python are run in order, and files of different samples and time steps differ
-/
namespace Lue.PcrFramework

open Lue.Simulate

/-! ### Calls -/

/-- The calls of a deterministic run -/
theorem deterministic_reachable {n rate : Nat} {s : State} (h : Reachable (runDeterministic n rate) s) :
    calls s.trace ++ events s.prog = expectedRun n := by
  obtain ⟨as, hr⟩ := h
  have hc : Check 1 (effectiveRate n rate) n none (runDeterministic n rate) := by
    have := check_runDeterministic n rate [] trivial
    simpa using this
  have := calls_run hr (check_isCall _ _ hc)
  rw [this]; simp [init, calls, events_runDeterministic]

/-- The model after some callbacks -/
def after : Obj → List Event → Obj
  | o, [] => o
  | o, e :: es => after (onEvent o e).1 es

theorem userCalls_append (o : Obj) (a b : List Event) :
    userCalls o (a ++ b) = userCalls o a ++ userCalls (after o a) b := by
  induction a generalizing o with
  | nil => rfl
  | cons e es ih => simp only [List.cons_append, userCalls, after, ih, List.append_assoc]

theorem after_append (o : Obj) (a b : List Event) : after o (a ++ b) = after (after o a) b := by
  induction a generalizing o with
  | nil => rfl
  | cons e es ih => simp only [List.cons_append, after, ih]

/-- States becoming ready don't result in calls -/
theorem userCalls_calls (o : Obj) (tr : List Event) : userCalls o (calls tr) = userCalls o tr := by
  induction tr generalizing o with
  | nil => rfl
  | cons e es ih =>
    unfold calls at ih ⊢
    cases e <;> simp only [List.filter_cons, Event.isCall, if_true, Bool.false_eq_true, if_false, userCalls, ih] <;> rfl

theorem userCalls_steps (o : Obj) (a n : Nat) :
    userCalls o ((List.range' a n).flatMap (fun t => [.called t, .progress t]))
      = (List.range' a n).map (fun t => ⟨.dynamic, t, o.sampleNr⟩) ∧
    after o ((List.range' a n).flatMap (fun t => [.called t, .progress t]))
      = ⟨if n = 0 then o.timeStep else a + n - 1, o.sampleNr⟩ := by
  induction n generalizing o a with
  | zero => exact ⟨rfl, rfl⟩
  | succ n ih =>
    obtain ⟨h1, h2⟩ := ih ⟨a, o.sampleNr⟩ (a + 1)
    constructor
    · rw [List.range'_succ, List.flatMap_cons, List.map_cons, userCalls_append]
      show [(⟨.dynamic, a, o.sampleNr⟩ : UserCall)] ++ userCalls ⟨a, o.sampleNr⟩ _ = _
      rw [h1]; rfl
    · rw [List.range'_succ, List.flatMap_cons, after_append]
      show after ⟨a, o.sampleNr⟩ _ = _
      rw [h2]
      simp only [Obj.mk.injEq, and_true]
      rw [if_neg (show n + 1 ≠ 0 by omega)]
      split <;> omega

/-- The calls of the methods of the user, by a deterministic run -/
theorem userCalls_run (o : Obj) (n : Nat) :
    userCalls o (expectedRun n) = ⟨.initial, o.timeStep, o.sampleNr⟩ ::
      (List.range' 1 n).map (fun t => ⟨.dynamic, t, o.sampleNr⟩) ∧
    after o (expectedRun n) = ⟨if n = 0 then o.timeStep else n, o.sampleNr⟩ := by
  obtain ⟨h1, h2⟩ := userCalls_steps o 1 n
  unfold expectedRun
  constructor
  · rw [userCalls_append, userCalls_append]
    show ([(⟨.initial, o.timeStep, o.sampleNr⟩ : UserCall)] ++ userCalls o _) ++ userCalls _ _ = _
    rw [h1]
    simp [userCalls, onEvent]
  · rw [after_append, after_append]
    show after (after o _) _ = _
    rw [h2]
    simp [after, onEvent]

/-- C55: running a dynamic model calls the initial section, followed by the dynamic section for each time step in order.
The current time step is the number of the time step. -/
theorem dynamic_run (last rate : Int) (prog : List Instr) (r : Runner) (hr : dynamicRunner last 1 = some r)
    (hp : r.run rate = some prog) {s : State} (h : Reachable prog s) :
    userCalls Obj.new s.trace <+: ⟨.initial, 0, 1⟩ :: (List.range' 1 last.toNat).map (fun t => ⟨.dynamic, t, 1⟩) ∧
      (s.prog = [] → userCalls Obj.new s.trace =
        ⟨.initial, 0, 1⟩ :: (List.range' 1 last.toNat).map (fun t => ⟨.dynamic, t, 1⟩)) := by
  have hrr : r = .dynamic 1 last := by
    unfold dynamicRunner at hr
    split at hr
    · split at hr
      · exact (Option.some.inj hr).symm
      · cases hr
    · cases hr
  subst hrr
  have hprog : prog = runDeterministic last.toNat rate.toNat := by
    unfold Runner.run at hp
    dsimp only at hp
    split at hp
    · rw [if_pos rfl] at hp; exact (Option.some.inj hp).symm
    · cases hp
  subst hprog
  have hc := deterministic_reachable h
  have hu := (userCalls_run Obj.new last.toNat).1
  rw [← hc, userCalls_append, userCalls_calls] at hu
  constructor
  · exact ⟨_, hu⟩
  · intro hp
    rw [hp] at hu
    simpa [events, userCalls, Obj.new] using hu

/-- C55: running a static model calls the initial section -/
theorem static_run (rate : Int) (prog : List Instr) (hp : Runner.static.run rate = some prog) {s : State}
    (h : Reachable prog s) (hdone : s.prog = []) : userCalls Obj.new s.trace = [⟨.initial, 0, 1⟩] := by
  have hprog : prog = runDeterministic 0 rate.toNat := by
    unfold Runner.run staticRun at hp
    dsimp only at hp
    split at hp
    · exact (Option.some.inj hp).symm
    · cases hp
  subst hprog
  have hc := deterministic_reachable h
  have hu := (userCalls_run Obj.new 0).1
  rw [← hc, userCalls_append, userCalls_calls, hdone] at hu
  simpa [events, userCalls, Obj.new] using hu

/-- A dynamic model can be run if and only if it has time steps and the rate limit is not negative -/
theorem dynamic_accepted (last rate : Int) :
    (∃ r prog, dynamicRunner last 1 = some r ∧ r.run rate = some prog) ↔ 1 ≤ last ∧ 0 ≤ rate := by
  unfold dynamicRunner
  rw [if_pos rfl]
  constructor
  · rintro ⟨r, prog, h1, h2⟩
    split at h1
    · rename_i hl
      have := Option.some.inj h1
      subst this
      unfold Runner.run at h2
      dsimp only at h2
      split at h2
      · rename_i hr; exact ⟨hl.2, hr⟩
      · cases h2
    · cases h1
  · rintro ⟨h1, h2⟩
    refine ⟨.dynamic 1 last, runDeterministic last.toNat rate.toNat, by rw [if_pos ⟨by omega, h1⟩], ?_⟩
    unfold Runner.run
    dsimp only
    rw [if_pos h2, if_pos rfl]

theorem userCalls_sample (o : Obj) (n s : Nat) :
    userCalls o ([.preprocessProgressor s, .preprocessModel s] ++ expectedRun n ++
        [.postprocessModel, .postprocessProgressor]) = sampleCalls n o.timeStep s .premcloop .premcloop ∧
    after o ([.preprocessProgressor s, .preprocessModel s] ++ expectedRun n ++
        [.postprocessModel, .postprocessProgressor]) = ⟨if n = 0 then o.timeStep else n, s⟩ := by
  obtain ⟨h1, h2⟩ := userCalls_run ⟨o.timeStep, s⟩ n
  constructor
  · rw [userCalls_append, userCalls_append, after_append]
    show ([(⟨.premcloop, o.timeStep, s⟩ : UserCall)] ++ userCalls ⟨o.timeStep, s⟩ _) ++
      userCalls (after ⟨o.timeStep, s⟩ _) _ = _
    rw [h1, h2]
    simp [userCalls, onEvent, Obj.call, postMonteCarlo, sampleCalls]
  · rw [after_append, after_append]
    show after (after ⟨o.timeStep, s⟩ _) _ = _
    rw [h2]; rfl

theorem userCalls_samples (o : Obj) (n a N : Nat) :
    userCalls o ((List.range' a N).flatMap fun s =>
      [.preprocessProgressor s, .preprocessModel s] ++ expectedRun n ++ [.postprocessModel, .postprocessProgressor]) =
    (List.range' a N).flatMap (fun s => sampleCalls n (if s = a then o.timeStep else if n = 0 then o.timeStep else n) s
      .premcloop .premcloop) := by
  induction N generalizing o a with
  | zero => rfl
  | succ N ih =>
    obtain ⟨h1, h2⟩ := userCalls_sample o n a
    rw [List.range'_succ, List.flatMap_cons, List.flatMap_cons, userCalls_append, h1, h2, ih, if_pos rfl]
    congr 1
    apply List.flatMap_congr
    intro s hs
    rw [List.mem_range'_1] at hs
    rw [if_neg (show s ≠ a by omega)]
    dsimp only
    split <;> split <;> rfl

/-- C55: running a Monte Carlo simulation runs the sections of the model for each of the samples in order, with the
number of the sample as current sample number. The method called before each sample is also called after it. -/
theorem monteCarlo_run (last : Int) (nrSamples rate : Int) (prog : List Instr)
    (hp : monteCarloRun (.dynamic 1 last) nrSamples rate = some prog) {s : State} (h : Reachable prog s) :
    let expected := (List.range' 1 nrSamples.toNat).flatMap (fun i =>
      sampleCalls last.toNat (if i = 1 then 0 else last.toNat) i .premcloop .premcloop)
    userCalls Obj.new s.trace <+: expected ∧ (s.prog = [] → userCalls Obj.new s.trace = expected) := by
  have hprog : prog = runStochastic nrSamples.toNat last.toNat rate.toNat := by
    unfold monteCarloRun at hp
    dsimp only at hp
    split at hp
    · rw [if_pos rfl] at hp; exact (Option.some.inj hp).symm
    · cases hp
  subst hprog
  intro expected
  have hc := calls_reachable h
  have hu := userCalls_samples Obj.new last.toNat 1 nrSamples.toNat
  have hexp : (List.range' 1 nrSamples.toNat).flatMap (fun i => sampleCalls last.toNat
      (if i = 1 then Obj.new.timeStep else if last.toNat = 0 then Obj.new.timeStep else last.toNat) i
      .premcloop .premcloop) = expected := by
    apply List.flatMap_congr
    intro i _
    congr 1
    by_cases hl : last.toNat = 0 <;> simp [Obj.new, hl]
  rw [hexp] at hu
  have hu' : userCalls Obj.new (expectedRuns nrSamples.toNat last.toNat) = expected := hu
  rw [← hc, userCalls_append, userCalls_calls] at hu'
  constructor
  · exact ⟨_, hu'⟩
  · intro hp
    rw [hp] at hu'
    simpa [events, userCalls] using hu'

/-- C55: the method which is meant to be called after the samples is never called -/
theorem postmcloop_never (o : Obj) (tr : List Event) : ∀ c ∈ userCalls o tr, c.method ≠ .postmcloop := by
  induction tr generalizing o with
  | nil => intro c hc; cases hc
  | cons e es ih =>
    intro c hc
    simp only [userCalls, List.mem_append] at hc
    rcases hc with hc | hc
    · cases e <;> simp [onEvent, Obj.call, preMonteCarlo, postMonteCarlo] at hc <;> subst hc <;> simp
    · exact ih _ c hc

/-- C55: a Monte Carlo simulation of a static model is refused -/
theorem monteCarlo_static (nrSamples rate : Int) : monteCarloRun .static nrSamples rate = none := rfl

/-- C55: what is printed during a Monte Carlo simulation -/
theorem printed_runs (N n : Nat) : (expectedRuns N n).flatMap printed =
    (List.range' 1 N).flatMap (fun _ => "[[".toList ++ List.replicate n '.' ++ "]]".toList) := by
  unfold expectedRuns
  rw [List.flatMap_assoc]
  apply List.flatMap_congr
  intro s _
  have h : ∀ a m, ((List.range' a m).flatMap (fun t => [Event.called t, Event.progress t])).flatMap printed
      = List.replicate m '.' := by
    intro a m
    induction m generalizing a with
    | zero => rfl
    | succ m ih =>
      rw [List.range'_succ, List.flatMap_cons, List.flatMap_append, ih, List.replicate_succ]; rfl
  simp only [expectedRun, List.flatMap_append, h]
  simp [printed]

/-! ### Directories -/

theorem initDirectories_from (remove : Bool) : ∀ (N a : Nat) (fs : Files),
    (∀ s, a ≤ s → s < a + N → fs (DataModel.name s) ≠ some .file) →
    ∃ fs', (List.range' a N).foldlM (initDirectory remove) fs = some fs' ∧
      (∀ s, a ≤ s → s < a + N → fs' (DataModel.name s) =
        some (.dir (match fs (DataModel.name s) with
          | some (.dir c) => if remove then [] else c
          | _ => []))) ∧
      (∀ n, (∀ s, a ≤ s → s < a + N → n ≠ DataModel.name s) → fs' n = fs n) := by
  intro N
  induction N with
  | zero => intro a fs _; exact ⟨fs, rfl, by intro s h1 h2; omega, fun _ _ => rfl⟩
  | succ N ih =>
    intro a fs hfs
    have hone : ∃ fs1, initDirectory remove fs a = some fs1 ∧
        fs1 (DataModel.name a) = some (.dir (match fs (DataModel.name a) with
          | some (.dir c) => if remove then [] else c
          | _ => [])) ∧ ∀ n, n ≠ DataModel.name a → fs1 n = fs n := by
      unfold initDirectory isDir
      cases he : fs (DataModel.name a) with
      | none =>
        refine ⟨fun m => if m = DataModel.name a then some (.dir []) else fs m, ?_, ?_, ?_⟩
        · simp [mkdir, he]
        · simp
        · intro n hn; simp [hn]
      | some en =>
        cases en with
        | file => exact absurd he (hfs a (by omega) (by omega))
        | dir c =>
          cases remove with
          | false => exact ⟨fs, by simp, by simp [he], fun _ _ => rfl⟩
          | true =>
            refine ⟨fun m => if m = DataModel.name a then some (.dir []) else rmtree fs (DataModel.name a) m, ?_, ?_, ?_⟩
            · simp [mkdir, rmtree]
            · simp
            · intro n hn; simp [hn, rmtree]
    obtain ⟨fs1, e1, e2, e3⟩ := hone
    have hne : ∀ s, a + 1 ≤ s → DataModel.name s ≠ DataModel.name a := by
      intro s hs hc
      have := DataModel.name_inj hc
      omega
    obtain ⟨fs', f1, f2, f3⟩ := ih (a + 1) fs1 (fun s h1 h2 => by
      rw [e3 _ (hne s h1)]; exact hfs s (by omega) (by omega))
    refine ⟨fs', ?_, ?_, ?_⟩
    · rw [List.range'_succ, List.foldlM_cons, e1]; exact f1
    · intro s h1 h2
      by_cases hs : s = a
      · subst hs
        rw [f3 (DataModel.name s) (fun s' h1' _ hc => hne s' h1' hc.symm)]
        exact e2
      · rw [f2 s (by omega) (by omega), e3 _ (hne s (by omega))]
    · intro n hn
      rw [f3 n (fun s h1 h2 => hn s (by omega) (by omega)), e3 n (hn a (by omega) (by omega))]

/-- C55: before a Monte Carlo simulation is run, there is a directory for each of the samples. It is empty if it did not
exist yet, or when existing directories must be removed. Everything else is left alone. -/
theorem directories_created (remove : Bool) (N : Nat) (fs : Files)
    (h : ∀ s, 1 ≤ s → s ≤ N → fs (DataModel.name s) ≠ some .file) :
    ∃ fs', initDirectories remove N fs = some fs' ∧
      (∀ s, 1 ≤ s → s ≤ N → fs' (DataModel.name s) =
        some (.dir (match fs (DataModel.name s) with
          | some (.dir c) => if remove then [] else c
          | _ => []))) ∧
      (∀ n, (∀ s, 1 ≤ s → s ≤ N → n ≠ DataModel.name s) → fs' n = fs n) := by
  obtain ⟨fs', h1, h2, h3⟩ := initDirectories_from remove N 1 fs (fun s h1 h2 => h s h1 (by omega))
  exact ⟨fs', h1, fun s a b => h2 s a (by omega), fun n hn => h3 n (fun s a b => hn s a (by omega))⟩

/-! ### Names of files -/

theorem splitOn_parts (t : Str) : ∀ p ∈ Calculate.splitOn '/' t, '/' ∉ p := by
  induction t with
  | nil => intro p hp; simp [Calculate.splitOn] at hp; simp [hp]
  | cons x xs ih =>
    intro p hp
    unfold Calculate.splitOn at hp
    split at hp
    · rcases List.mem_cons.mp hp with rfl | hp
      · simp
      · exact ih p hp
    · rename_i hx
      cases hs : Calculate.splitOn '/' xs with
      | nil => rw [hs] at hp; simp at hp; subst hp; simp [Ne.symm hx]
      | cons y ys =>
        rw [hs] at hp ih
        simp only [List.mem_cons] at hp
        rcases hp with rfl | hp
        · have := ih y (by simp)
          simp [Ne.symm hx, this]
        · exact ih p (by simp [hp])

/-- The parts of a path -/
theorem parsePath_parts (t : Str) : ∀ p ∈ (parsePath t).parts, '/' ∉ p ∧ p ≠ [] := by
  intro p hp
  simp only [parsePath, List.mem_filter, Bool.and_eq_true, decide_eq_true_eq] at hp
  exact ⟨splitOn_parts t p hp.1, hp.2.1⟩

theorem split_slashed {ps : List Str} (hne : ps ≠ []) (h : ∀ p ∈ ps, '/' ∉ p) :
    Calculate.splitOn '/' (slashed ps) = ps := by
  induction ps with
  | nil => exact absurd rfl hne
  | cons p ps ih =>
    cases ps with
    | nil => exact Calculate.splitOn_nil_of_not_mem (h p (by simp))
    | cons q qs =>
      show Calculate.splitOn '/' (p ++ '/' :: slashed (q :: qs)) = _
      rw [Calculate.splitOn_append (h p (by simp)), ih (by simp) (fun x hx => h x (by simp [hx]))]

theorem slashed_head {p : Str} {ps : List Str} (hp : p ≠ []) : (slashed (p :: ps)).head? = p.head? := by
  cases p with
  | nil => exact absurd rfl hp
  | cons x xs =>
    cases ps with
    | nil => rfl
    | cons q qs => rfl

theorem no_slash_head {p : Str} (h : '/' ∉ p) : p.head? ≠ some '/' := by
  intro hc
  cases p with
  | nil => cases hc
  | cons x xs =>
    simp only [List.head?_cons, Option.some.injEq] at hc
    exact h (by rw [hc]; simp)

/-- The text of a path identifies the path -/
theorem text_inj {a b : Path} (ha : a.parts ≠ [] ∧ ∀ p ∈ a.parts, '/' ∉ p ∧ p ≠ [])
    (hb : b.parts ≠ [] ∧ ∀ p ∈ b.parts, '/' ∉ p ∧ p ≠ []) (h : a.text = b.text) : a = b := by
  obtain ⟨aa, as⟩ := a
  obtain ⟨ba, bs⟩ := b
  dsimp only at ha hb
  have hsa := split_slashed ha.1 (fun p hp => (ha.2 p hp).1)
  have hsb := split_slashed hb.1 (fun p hp => (hb.2 p hp).1)
  have hhead : ∀ ps : List Str, ps ≠ [] → (∀ p ∈ ps, '/' ∉ p ∧ p ≠ []) → (slashed ps).head? ≠ some '/' := by
    intro ps hne hps
    cases ps with
    | nil => exact absurd rfl hne
    | cons p ps =>
      rw [slashed_head (hps p (by simp)).2]
      exact no_slash_head (hps p (by simp)).1
  cases aa <;> cases ba <;>
    simp only [Path.text, Bool.false_eq_true, if_false, if_true, ha.1, hb.1] at h
  · rw [h, hsb] at hsa; rw [hsa]
  · exact absurd (by rw [h]; rfl) (hhead as ha.1 ha.2)
  · exact absurd (by rw [← h]; rfl) (hhead bs hb.1 hb.2)
  · simp only [List.cons.injEq, true_and] at h
    rw [h, hsb] at hsa; rw [hsa]

theorem splitLast_append {c : Char} {a b a' b' : Str} (hb : c ∉ b) (hb' : c ∉ b') (h : a ++ c :: b = a' ++ c :: b') :
    a = a' ∧ b = b' := by
  rcases List.append_eq_append_iff.mp h with ⟨k, hk1, hk2⟩ | ⟨k, hk1, hk2⟩
  · cases k with
    | nil =>
      simp only [List.nil_append, List.cons.injEq, true_and] at hk2
      exact ⟨by simpa using hk1.symm, hk2⟩
    | cons z zs =>
      simp only [List.cons_append, List.cons.injEq] at hk2
      exact absurd (by rw [hk2.2]; simp) hb
  · cases k with
    | nil =>
      simp only [List.nil_append, List.cons.injEq, true_and] at hk2
      exact ⟨by simpa using hk1, hk2.symm⟩
    | cons z zs =>
      simp only [List.cons_append, List.cons.injEq] at hk2
      exact absurd (by rw [hk2.2]; simp) hb'

theorem digits_no {i : Nat} {c : Char} (hc : c.isDigit = false) : c ∉ DataModel.name i := by
  intro hm
  rw [(Calculate.name_digits i).2 c hm] at hc; cases hc

/-- The path of the file of a time step -/
def stepPath (name : Str) (t : Nat) : Path :=
  ⟨(parsePath name).absolute, (parsePath name).parts.dropLast ++
    [(parsePath name).fileName ++ '_' :: DataModel.name t ++ ".tif".toList]⟩

theorem generateNameT_iff (name : Str) (t : Int) (f : Str) :
    generateNameT name t = some f ↔
      name ≠ [] ∧ 1 ≤ t ∧ hasSuffix (parsePath name).fileName = false ∧ f = (stepPath name t.toNat).text := by
  unfold generateNameT
  dsimp only
  by_cases h1 : name.length = 0
  · rw [if_pos h1]; simp [List.length_eq_zero_iff.mp h1]
  · rw [if_neg h1]
    have h1' : name ≠ [] := fun h => h1 (by rw [h]; rfl)
    by_cases h2 : t < 1
    · rw [if_pos h2]
      constructor
      · intro h; cases h
      · rintro ⟨-, h, -⟩; omega
    · rw [if_neg h2]
      cases h3 : hasSuffix (parsePath name).fileName with
      | true => simp
      | false =>
        simp only [Bool.false_eq_true, if_false, Option.some.injEq, ne_eq, h1', not_false_eq_true, true_and]
        constructor
        · intro h; exact ⟨by omega, h.symm⟩
        · rintro ⟨-, h⟩; exact h.symm

/-- A name has a suffix if it ends with a dot and at least one other character, which are preceded by something. -/
theorem hasSuffix_iff (n : Str) :
    hasSuffix n = true ↔ ∃ a b : Str, n = a ++ '.' :: b ∧ a ≠ [] ∧ b ≠ [] ∧ '.' ∉ b := by
  unfold hasSuffix
  cases h : Calculate.splitLast '.' n with
  | none =>
    have hn := Calculate.splitLast_none.mp h
    constructor
    · intro h; cases h
    · rintro ⟨a, b, rfl, -⟩; simp at hn
  | some ab =>
    obtain ⟨a, b⟩ := ab
    obtain ⟨b', rfl, rfl, hb⟩ := Calculate.splitLast_some h
    have hl : 1 < ('.' :: b').length ↔ b' ≠ [] := by cases b' <;> simp
    beta_reduce
    constructor
    · intro h
      simp only [Bool.and_eq_true, decide_eq_true_eq, hl] at h
      exact ⟨a, b', rfl, h.1, h.2, hb⟩
    · rintro ⟨x, y, e, h1, h2, h3⟩
      obtain ⟨rfl, rfl⟩ := splitLast_append hb h3 e
      simp only [Bool.and_eq_true, decide_eq_true_eq, hl]
      exact ⟨h1, h2⟩

/-- A name is refused if it is empty, or its last part has a suffix. The first time step is 1. A dot at the start or at the
end of the last part is fine. -/
theorem generateNameT_refused (name : Str) (t : Int) :
    generateNameT name t = none ↔ name = [] ∨ t < 1 ∨
      ∃ a b : Str, (parsePath name).fileName = a ++ '.' :: b ∧ a ≠ [] ∧ b ≠ [] ∧ '.' ∉ b := by
  rw [← hasSuffix_iff]
  constructor
  · intro h
    by_contra hc
    push Not at hc
    have := (generateNameT_iff name t _).mpr ⟨hc.1, hc.2.1, by simpa using hc.2.2, rfl⟩
    rw [h] at this; cases this
  · intro h
    cases e : generateNameT name t with
    | none => rfl
    | some f =>
      obtain ⟨h1, h2, h3, -⟩ := (generateNameT_iff name t f).mp e
      rcases h with h | h | h
      · exact absurd h h1
      · omega
      · rw [h3] at h; cases h

/-- Hidden files, and names with a suffix -/
example : generateNameT ".dem".toList 3 = some ".dem_3.tif".toList ∧ generateNameT "dem.tif".toList 3 = none := by decide

theorem fileName_no_slash (name : Str) : '/' ∉ (parsePath name).fileName := by
  unfold Path.fileName
  cases h : (parsePath name).parts.getLast? with
  | none => simp
  | some p =>
    have hm := List.mem_of_mem_getLast? h
    exact (parsePath_parts name p hm).1

theorem stepPath_ok (name : Str) (t : Nat) :
    (stepPath name t).parts ≠ [] ∧ ∀ p ∈ (stepPath name t).parts, '/' ∉ p ∧ p ≠ [] := by
  refine ⟨by simp [stepPath], ?_⟩
  intro p hp
  simp only [stepPath, List.mem_append, List.mem_singleton] at hp
  rcases hp with hp | rfl
  · exact parsePath_parts name p (List.dropLast_subset _ hp)
  · refine ⟨?_, by simp⟩
    have h1 := fileName_no_slash name
    have h2 : '/' ∉ DataModel.name t := digits_no (by decide)
    simp [h1, h2]

theorem fileName_parts (name : Str) (h : (parsePath name).parts ≠ []) :
    (parsePath name).parts = (parsePath name).parts.dropLast ++ [(parsePath name).fileName] := by
  unfold Path.fileName
  rw [List.getLast?_eq_some_getLast h]
  exact (List.dropLast_append_getLast h).symm

/-- C55: files of different time steps, or with different names, are different files -/
theorem generateNameT_inj {n n' f : Str} {t t' : Int} (hp : (parsePath n).parts ≠ []) (hp' : (parsePath n').parts ≠ [])
    (h : generateNameT n t = some f) (h' : generateNameT n' t' = some f) : parsePath n = parsePath n' ∧ t = t' := by
  obtain ⟨-, h1, -, h2⟩ := (generateNameT_iff n t f).mp h
  obtain ⟨-, h1', -, h2'⟩ := (generateNameT_iff n' t' f).mp h'
  rw [h2] at h2'
  have heq := text_inj (stepPath_ok n t.toNat) (stepPath_ok n' t'.toNat) h2'
  simp only [stepPath, Path.mk.injEq] at heq
  obtain ⟨e1, e2⟩ := heq
  obtain ⟨e3, e4⟩ := List.append_inj' e2 rfl
  simp only [List.cons.injEq, and_true] at e4
  rw [List.append_cancel_right_eq] at e4
  obtain ⟨e5, e6⟩ := splitLast_append (digits_no (by decide)) (digits_no (by decide)) e4
  have ht := DataModel.name_inj e6
  refine ⟨?_, by omega⟩
  have q := fileName_parts n hp
  have q' := fileName_parts n' hp'
  rw [e3, e5, ← q'] at q
  cases hn : parsePath n
  cases hn' : parsePath n'
  rw [hn] at q e1
  rw [hn'] at q e1
  dsimp only at q e1
  rw [q, e1]

/-- C55: for relative names, the file of a sample is in the directory of the sample, and files of different samples and
time steps are different files -/
theorem generateNameST_inj {n n' f : Str} {s s' : Nat} {t t' : Int} (hp : (parsePath n).parts ≠ [])
    (hp' : (parsePath n').parts ≠ []) (hr : Relative n) (hr' : Relative n')
    (h : generateNameST n s t = some f) (h' : generateNameST n' s' t' = some f) :
    parsePath n = parsePath n' ∧ s = s' ∧ t = t' ∧ ∃ g, f = DataModel.name s ++ '/' :: g := by
  unfold generateNameST at h h'
  obtain ⟨g, hg, hgf⟩ := Option.map_eq_some_iff.mp h
  obtain ⟨g', hg', hgf'⟩ := Option.map_eq_some_iff.mp h'
  have hrel : ∀ {m : Str} {k : Int} {x : Str}, Relative m → generateNameT m k = some x → x.head? ≠ some '/' := by
    intro m k x hm hx
    obtain ⟨-, -, -, h4⟩ := (generateNameT_iff m k x).mp hx
    have habs : (parsePath m).absolute = false := by
      simp only [parsePath, decide_eq_false_iff_not]; exact hm
    obtain ⟨o1, o2⟩ := stepPath_ok m k.toNat
    rw [h4]
    unfold Path.text
    have : (stepPath m k.toNat).absolute = false := habs
    rw [this]
    simp only [Bool.false_eq_true, if_false, o1]
    cases hps : (stepPath m k.toNat).parts with
    | nil => exact absurd hps o1
    | cons p ps =>
      rw [hps] at o2
      rw [slashed_head (o2 p (by simp)).2]
      exact no_slash_head (o2 p (by simp)).1
  unfold generateNameS at hgf hgf'
  rw [if_neg (hrel hr hg)] at hgf
  rw [if_neg (hrel hr' hg')] at hgf'
  have heq : DataModel.name s ++ '/' :: g = DataModel.name s' ++ '/' :: g' := by rw [hgf, hgf']
  have hsplit : ∀ {a b a' b' : Str}, '/' ∉ a → '/' ∉ a' → a ++ '/' :: b = a' ++ '/' :: b' → a = a' ∧ b = b' := by
    intro a b a' b' ha ha' hab
    rcases List.append_eq_append_iff.mp hab with ⟨k, hk1, hk2⟩ | ⟨k, hk1, hk2⟩
    · cases k with
      | nil =>
        simp only [List.nil_append, List.cons.injEq, true_and] at hk2
        exact ⟨by simpa using hk1.symm, hk2⟩
      | cons z zs =>
        simp only [List.cons_append, List.cons.injEq] at hk2
        exact absurd (by rw [hk1, ← hk2.1]; simp) ha'
    · cases k with
      | nil =>
        simp only [List.nil_append, List.cons.injEq, true_and] at hk2
        exact ⟨by simpa using hk1, hk2.symm⟩
      | cons z zs =>
        simp only [List.cons_append, List.cons.injEq] at hk2
        exact absurd (by rw [hk1, ← hk2.1]; simp) ha
  obtain ⟨e1, e2⟩ := hsplit (digits_no (by decide)) (digits_no (by decide)) heq
  subst e2
  obtain ⟨e3, e4⟩ := generateNameT_inj hp hp' hg hg'
  exact ⟨e3, DataModel.name_inj e1, e4, g, hgf.symm⟩

/-- C55: for absolute names, all samples use the same file -/
theorem generateNameST_absolute {n : Str} (hn : n.head? = some '/') (s s' : Nat) (t : Int) :
    generateNameST n s t = generateNameST n s' t := by
  unfold generateNameST
  cases h : generateNameT n t with
  | none => rfl
  | some g =>
    obtain ⟨-, -, -, h4⟩ := (generateNameT_iff n t g).mp h
    have habs : (stepPath n t.toNat).absolute = true := by
      simp only [stepPath, parsePath, decide_eq_true_eq]; exact hn
    have : g.head? = some '/' := by rw [h4]; unfold Path.text; rw [habs]; rfl
    simp [generateNameS, this]

/-! ### Examples -/

example : generateNameST "out/dem".toList 3 12 = some "3/out/dem_12.tif".toList := by decide +kernel
example : generateNameST "./out//dem".toList 3 12 = some "3/out/dem_12.tif".toList := by decide +kernel
example : generateNameST "/data/dem".toList 3 12 = some "/data/dem_12.tif".toList := by decide +kernel
example : generateNameT "dem.map".toList 1 = none := by decide +kernel
example : generateNameT "dem".toList 0 = none := by decide +kernel
example : (parsePath "out/dem".toList).parts ≠ [] ∧ Relative "out/dem".toList := by
  refine ⟨by decide +kernel, ?_⟩
  unfold Relative; decide

/-- The current time step is not reset between samples: the initial section of the second sample still sees the last
time step of the first sample -/
example : userCalls Obj.new (expectedRuns 2 2) =
    [⟨.premcloop, 0, 1⟩, ⟨.initial, 0, 1⟩, ⟨.dynamic, 1, 1⟩, ⟨.dynamic, 2, 1⟩, ⟨.premcloop, 2, 1⟩,
      ⟨.premcloop, 2, 2⟩, ⟨.initial, 2, 2⟩, ⟨.dynamic, 1, 2⟩, ⟨.dynamic, 2, 2⟩, ⟨.premcloop, 2, 2⟩] := by decide

example : (monteCarloRun (.dynamic 1 2) 2 0).isSome = true ∧ (dynamicRunner 2 1).isSome = true := by decide

end Lue.PcrFramework

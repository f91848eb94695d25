import Verif.Async.Proofs

/-!
C75: the results of programs which are executed asynchronously.
-/
namespace Lue.Async

open Lue.Program Lue.Dataflow Relation

variable {ι : Type} [DecidableEq ι] {T : ι → ZonalOp}

/-- A program is executed: the thread first creates the arrays and scalars with which the program starts, then executes
at most `fuel` steps of the program, and then `fin`. -/
def start (g : Grid) (W : Unknown T) (stages : List (Stage (Value T))) (env : Env) (p : Prog ι) (fuel : Nat)
    (fin : Env → Script (Value T)) : Script (Value T) :=
  issueAll stages (thread g W fin fuel [p] env stages.length)

open Classical in
/-- At the end, a future is waited for, and its value is compared with `v`. -/
noncomputable def expect (future : Env → Nat × Nat) (v : Value T) (env : Env) : Script (Value T) :=
  .get (future env) fun w => if w = v then .done else .failed .thrown

theorem thread_follows {g : Grid} (hg : g.Ok) (W : Unknown T) {n : Nat} {P P' : List Stmt} {S S' : Whole}
    (hm : WholeSteps g.a0 g.a1 n P S P' S') : ∀ {p : List (Prog ι)} {stages : List (Stage (Value T))} {env : Env},
    P = p.map (Prog.stmt T) → Fits g P →
    (∃ arrays s, Sequential stages arrays ∧ Refs arrays env s ∧ Agree g s S) →
    ∃ p' stages' env', P' = p'.map (Prog.stmt T) ∧
      (∃ arrays s, Sequential stages' arrays ∧ Refs arrays env' s ∧ Agree g s S') ∧
      ∀ fin m, ReflTransGen Follows (stages, thread g W fin (n + m) p env stages.length)
        (stages', thread g W fin m p' env' stages'.length) := by
  induction hm with
  | nil =>
    intro p stages env hP _ h
    exact ⟨p, stages, env, hP, h, fun fin m => by rw [Nat.zero_add]⟩
  | @more n P S P₁ S₁ P₂ S₂ h1 _ ih =>
    intro p stages env hP hf h
    obtain ⟨arrays, s, hs, hr, ha⟩ := h
    obtain ⟨hf', _⟩ := step_simulates hg hf ha h1
    have fuel : ∀ m, n + 1 + m = n + m + 1 := fun m => by omega
    have hsc : ∀ t x, Succeeds stages (env.sc t x, 0) ((scalars T t).up (s.sc t x)) := fun t x =>
      (sequential_succeeds hs).2.2 _ _ (resultAt_scalar (scalars T t) (hr.2 t x))
    cases p with
    | nil => subst hP; cases h1
    | cons q rest =>
      cases q with
      | call c =>
        subst hP
        cases h1 with
        | op hop =>
          obtain ⟨arrays', s', e1, e2, e3⟩ := call_executed hg W (hf (.op (c.op T)) (by simp [Prog.stmt])) hs hr ha hop
          obtain ⟨p', stages', env', r1, r2, r3⟩ := ih rfl hf' ⟨arrays', s', e1, e2, e3⟩
          refine ⟨p', stages', env', r1, r2, fun fin m => ?_⟩
          rw [fuel]
          simp only [thread]
          have := r3 fin m
          rw [List.length_append] at this
          exact issueAll_follows.trans this
      | seq a b =>
        subst hP
        cases h1
        obtain ⟨p', stages', env', r1, r2, r3⟩ := ih (p := a :: b :: rest) rfl hf' ⟨arrays, s, hs, hr, ha⟩
        refine ⟨p', stages', env', r1, r2, fun fin m => ?_⟩
        rw [fuel]
        simp only [thread]
        exact r3 fin m
      | ite t x cond a b =>
        subst hP
        cases h1
        obtain ⟨p', stages', env', r1, r2, r3⟩ := ih (p := (if cond (S.sc t x) then a else b) :: rest)
          (by split <;> rfl) hf' ⟨arrays, s, hs, hr, ha⟩
        refine ⟨p', stages', env', r1, r2, fun fin m => ?_⟩
        rw [fuel]
        simp only [thread]
        refine .head (.get (hsc t x)) ?_
        rw [(scalars T t).down_up, ha.sc]
        exact r3 fin m
      | loop t x cond a =>
        subst hP
        cases h1
        obtain ⟨p', stages', env', r1, r2, r3⟩ := ih (p := if cond (S.sc t x) then a :: .loop t x cond a :: rest else rest)
          (by split <;> rfl) hf' ⟨arrays, s, hs, hr, ha⟩
        refine ⟨p', stages', env', r1, r2, fun fin m => ?_⟩
        rw [fuel]
        simp only [thread]
        refine .head (.get (hsc t x)) ?_
        rw [(scalars T t).down_up, ha.sc]
        exact r3 fin m

theorem start_ok {g : Grid} (W : Unknown T) {stages : List (Stage (Value T))} {env : Env} {S : Whole}
    (h : Started g stages env S) (p : Prog ι) (fuel : Nat) {fin : Env → Script (Value T)}
    (hfin : ∀ stages env, EnvOk g stages env → Script.Ok stages (fin env)) :
    Script.Ok [] (start g W stages env p fuel fin) := by
  refine issueAll_ok (depsOk_of_splits ?_) ?_
  · simpa using h.deps
  · have := thread_ok W hfin fuel [p] env stages h.futures
    simpa using this

theorem started_agrees {g : Grid} (hg : g.Ok) {stages : List (Stage (Value T))} {env : Env} {S : Whole}
    (h : Started g stages env S) : ∃ arrays s, Sequential stages arrays ∧ Refs arrays env s ∧ Agree g s S := by
  obtain ⟨arrays, h1, h2, h3⟩ := h.results
  exact ⟨arrays, ⟨fun t x => store g (S.arr t x), S.sc⟩, h1, ⟨h2, h3⟩, fun _ _ => rfl, fun _ _ => store_represents hg _,
    fun _ _ => rfl⟩

theorem expect_part_ok {g : Grid} {t : Ty} {x k : Nat} {v : Value T} (hk : k < g.n0 * g.n1) :
    ∀ stages env, EnvOk g stages env → Script.Ok stages (expect (fun env => (env.arr t x, k)) v env) := by
  intro stages env h
  refine .get (h.part t x hk) fun w => ?_
  split
  · exact .done
  · exact .failed

theorem expect_scalar_ok {g : Grid} {t : Ty} {x : Nat} {v : Value T} :
    ∀ stages env, EnvOk g stages env → Script.Ok stages (expect (fun env => (env.sc t x, 0)) v env) := by
  intro stages env h
  refine .get (h.scalar t x) fun w => ?_
  split
  · exact .done
  · exact .failed

/-- C75: there are no deadlocks, and executions don't go on forever, whatever the program, as long as it does not use
operations like `accu` (these don't end given certain flow directions, see C19). Once nothing can happen anymore, the thread
has come to its end, and all partitions and scalars are ready. -/
theorem async_ends {g : Grid} (W : Unknown T) {stages : List (Stage (Value T))} {env : Env} {S : Whole}
    (h : Started g stages env S) (p : Prog ι) (_ : p.NoRouting) (fuel : Nat) {c : Config (Value T)}
    (hc : Reach (Config.init (start g W stages env p fuel fun _ => .done)) c) :
    (Stuck c → (c.script = .done ∨ ∃ e, c.script = .failed e) ∧ ∀ t, Exists c.stages t → c.ready t ≠ none) ∧
      Acc (fun c' c => Dataflow.Step c c') c :=
  dataflow_ends (start_ok W h p fuel fun _ _ _ => .done) hc

/-- What the thread does, up to the end of a number of steps. -/
theorem start_follows {g : Grid} (hg : g.Ok) (W : Unknown T) {stages : List (Stage (Value T))} {env : Env} {S S' : Whole}
    (h : Started g stages env S) {p : Prog ι} (hp : (p.stmt T).need ≤ g.p0 ∧ (p.stmt T).need ≤ g.p1) {n : Nat}
    {q : List Stmt} (hm : WholeSteps g.a0 g.a1 n [p.stmt T] S q S') :
    ∃ p' stages' env', q = p'.map (Prog.stmt T) ∧
      (∃ arrays s, Sequential stages' arrays ∧ Refs arrays env' s ∧ Agree g s S') ∧
      ∀ fin m, ReflTransGen Follows ([], start g W stages env p (n + m) fin)
        (stages', thread g W fin m p' env' stages'.length) := by
  obtain ⟨p', stages', env', r1, r2, r3⟩ := thread_follows hg W hm (p := [p]) (stages := stages) (env := env) rfl (by
    intro a ha
    simp only [List.mem_singleton] at ha
    subst ha
    exact hp) (started_agrees hg h)
  refine ⟨p', stages', env', r1, r2, fun fin m => ?_⟩
  have := issueAll_follows (new := stages) (stages := []) (rest := thread g W fin (n + m) [p] env stages.length)
  exact this.trans (r3 fin m)

/-- The results of all tasks are ready and none has failed. -/
theorem no_failures {s : Script (Value T)} (hs : Script.Ok [] s) {c : Config (Value T)}
    (hc : Reach (Config.init s) c) (hst : Stuck c) {stages : List (Stage (Value T))} {e : Script (Value T)}
    (hf : ReflTransGen Follows ([], s) (stages, e)) (he : Terminal (stages, e)) {arrays : List (List (Value T))}
    (ha : Sequential stages arrays) :
    (c.script = e ∨ ∃ x y, c.script = .failed x ∧ e = .failed y) ∧ ∀ t, Exists c.stages t → ∃ v, c.ready t = some (.ok v) := by
  have hi := inv_reach (inv_init hs) hc
  obtain ⟨h1, h2⟩ := follows_confluent hf he hi.path (stuck_script hi hst)
  simp only at h1 h2
  refine ⟨?_, fun t ht => ?_⟩
  · rcases h2 with h2 | ⟨x, y, h2, h3⟩
    · exact .inl h2.symm
    · exact .inr ⟨y, x, h3, h2⟩
  · subst h1
    have hno := ((dataflow_sequential hs hc hst).1.2 ⟨arrays, ha⟩)
    have hr := ((dataflow_ends hs hc).1 hst).2 t ht
    cases hv : c.ready t with
    | none => exact absurd hv hr
    | some r =>
      cases r with
      | ok v => exact ⟨v, rfl⟩
      | error e => exact absurd hv (hno t e)

/-- Whatever happens, the execution does not go on forever. Once nothing can happen anymore, the thread has come to its end
without an exception being thrown, all partitions and scalars are ready, and no task has failed. -/
def Completes (s : Script (Value T)) : Prop :=
  ∀ c, Reach (Config.init s) c → Acc (fun c' c => Dataflow.Step c c') c ∧
    (Stuck c → c.script = .done ∧ ∀ t, Exists c.stages t → ∃ v, c.ready t = some (.ok v))

/-- C75: suppose a program, working with whole arrays, computes `S'`. When executed asynchronously, whatever the
partitioning, the order in which things happen, the contents of new memory, and the order in which unordered maps are
visited, the thread comes to its end, no task fails, and waiting for any partition of any array, or any scalar, gives
the value `S'` has. -/
theorem async_correct {g : Grid} (hg : g.Ok) {p : Prog ι} (hp : (p.stmt T).need ≤ g.p0 ∧ (p.stmt T).need ≤ g.p1)
    {stages : List (Stage (Value T))} {env : Env} {S S' : Whole} (h : Started g stages env S)
    (hm : Computes g.a0 g.a1 (p.stmt T) S S') : ∃ N, ∀ fuel ≥ N, ∀ (W : Unknown T) (t : Ty) (x : Nat),
      (∀ (k : Nat) (l : List t.El), (store g (S'.arr t x)).parts[k]? = some l →
        Completes (start g W stages env p fuel (expect (fun env => (env.arr t x, k)) (.part t l)))) ∧
      Completes (start g W stages env p fuel (expect (fun env => (env.sc t x, 0)) (.scalar t (S'.sc t x)))) := by
  obtain ⟨n, hn⟩ := hm
  refine ⟨n + 1, fun fuel hfuel W t x => ?_⟩
  obtain ⟨p', stages', env', r1, ⟨arrays, s, hs, hr, ha⟩, r3⟩ := start_follows hg W h hp hn
  obtain rfl : p' = [] := by
    cases p' with
    | nil => rfl
    | cons a l => simp at r1
  obtain ⟨m, rfl⟩ : ∃ m, fuel = n + (m + 1) := ⟨fuel - n - 1, by omega⟩
  have key : ∀ (future : Env → Nat × Nat) (v : Value T),
      (∀ stages env, EnvOk g stages env → Script.Ok stages (expect future v env)) → Succeeds stages' (future env') v →
      Completes (start g W stages env p (n + (m + 1)) (expect future v)) := by
    intro future v hok hsu c hc
    refine ⟨(dataflow_ends (start_ok W h p _ hok) hc).2, fun hst => ?_⟩
    have hf := r3 (expect future v) (m + 1)
    simp only [thread] at hf
    have hf' : ReflTransGen Follows ([], start g W stages env p (n + (m + 1)) (expect future v)) (stages', .done) := by
      refine hf.tail ?_
      have := Follows.get (rest := fun w => open Classical in if w = v then (.done : Script (Value T)) else .failed .thrown) hsu
      simp only [if_true] at this
      exact this
    obtain ⟨h1, h2⟩ := no_failures (start_ok W h p _ hok) hc hst hf' (.inl rfl) hs
    refine ⟨?_, h2⟩
    rcases h1 with h1 | ⟨_, _, _, h1⟩
    · exact h1
    · exact absurd h1 (by simp)
  refine ⟨fun k l hl => key _ _ (expect_part_ok ?_) ?_, key _ _ expect_scalar_ok ?_⟩
  · have := (List.getElem?_eq_some_iff.1 hl).1
    simpa [store] using this
  · refine (sequential_succeeds hs).2.2 _ _ ?_
    have e : (s.arr t x).parts = (store g (S'.arr t x)).parts := by
      rw [(ha.arr t x).parts_eq, (store_represents hg (S'.arr t x)).parts_eq, ha.grid]
      rfl
    rw [resultAt_ok]
    refine ⟨_, hr.1 t x, ?_⟩
    rw [e, List.getElem?_map, hl]
    rfl
  · rw [← ha.sc]
    exact (sequential_succeeds hs).2.2 _ _ (resultAt_scalar (scalars T t) (hr.2 t x))

/-- C75: programs which keep on calling operations, like a model which keeps on simulating time steps: as long as the
program working with whole arrays can go on, no task fails. -/
theorem async_steps {g : Grid} (hg : g.Ok) {p : Prog ι} (hp : (p.stmt T).need ≤ g.p0 ∧ (p.stmt T).need ≤ g.p1)
    {stages : List (Stage (Value T))} {env : Env} {S S' : Whole} (h : Started g stages env S) {n : Nat} {q : List Stmt}
    (hm : WholeSteps g.a0 g.a1 n [p.stmt T] S q S') (W : Unknown T) {c : Config (Value T)} (hst : Stuck c)
    (hc : Reach (Config.init (start g W stages env p n fun _ => .done)) c) :
    ∀ t, Exists c.stages t → ∃ v, c.ready t = some (.ok v) := by
  obtain ⟨p', stages', env', r1, ⟨arrays, s, hs, hr, ha⟩, r3⟩ := start_follows hg W h hp hm
  have hf := r3 (fun _ => .done) 0
  simp only [thread] at hf
  exact (no_failures (start_ok W h p _ fun _ _ _ => .done) hc hst hf (.inr ⟨_, rfl⟩) hs).2

/-! ### The start -/

/-- The partitions of arrays, and scalars, which have been created before the program is executed. -/
def inputs (g : Grid) (arrays : List (Σ t : Ty, Arr t.El)) (scs : List (Σ t : Ty, t.El)) : List (List (Value T)) :=
  (arrays.map fun v => (store g v.2).parts.map (Value.part v.1)) ++ scs.map fun x => [Value.scalar x.1 x.2]

theorem sequential_sources {V : Type} (l : List (List V)) : Sequential (l.map source) l := by
  induction l using List.reverseRecOn with
  | nil => exact .nil
  | append_singleton l ps ih =>
    rw [List.map_append]
    refine .snoc (order := List.range ps.length) ih (List.Perm.refl _) ?_
    unfold runStage
    have e : ∀ k < ps.length, (do
        let vs ← ((source ps).deps k).mapM fun d : Nat × Nat => do rd (← rd l d.1) d.2
        (source ps).body k vs) = rd ps k := fun k _ => rfl
    have e' := runTasks_congr (List.Perm.refl (List.range ps.length)) e
    simp only [source] at e' ⊢
    rw [e']
    by_cases hn : ps = []
    · subst hn; rfl
    · obtain ⟨p0, ps', rfl⟩ := List.exists_cons_of_ne_nil hn
      rw [runTasks_ok (List.Perm.refl _) (r := fun k => ((p0 :: ps')[k]?).getD p0) fun k hk => by
        rw [rd_ok (List.getElem?_eq_getElem hk), List.getElem?_eq_getElem hk]; rfl]
      congr 1
      apply List.ext_getElem?
      intro k
      by_cases hk : k < (p0 :: ps').length
      · rw [List.getElem?_map, List.getElem?_range hk, List.getElem?_eq_getElem hk]
        simp only [Option.map_some, List.getElem?_eq_getElem hk]
        rfl
      · rw [List.getElem?_eq_none (by simpa using hk), List.getElem?_eq_none (by omega)]

/-- Programs can start with any arrays and scalars. -/
theorem started_inputs {g : Grid} (arrays : List (Σ t : Ty, Arr t.El)) (scs : List (Σ t : Ty, t.El))
    {S : Whole} {ia is : Ty → Nat → Nat} (h1 : ∀ t x, arrays[ia t x]? = some ⟨t, S.arr t x⟩)
    (h2 : ∀ t x, scs[is t x]? = some ⟨t, S.sc t x⟩) :
    Started (T := T) g ((inputs g arrays scs).map source) ⟨ia, fun t x => arrays.length + is t x⟩ S := by
  have ga : ∀ t x, (inputs (T := T) g arrays scs)[ia t x]? = some ((store g (S.arr t x)).parts.map (Value.part t)) := by
    intro t x
    have hlt := (List.getElem?_eq_some_iff.1 (h1 t x)).1
    unfold inputs
    rw [List.getElem?_append_left (by simpa using hlt), List.getElem?_map, h1]
    rfl
  have gs : ∀ t x, (inputs (T := T) g arrays scs)[arrays.length + is t x]? = some [Value.scalar t (S.sc t x)] := by
    intro t x
    unfold inputs
    rw [List.getElem?_append_right (by simp), List.length_map, Nat.add_sub_cancel_left, List.getElem?_map, h2]
    rfl
  refine ⟨fun s1 st s2 he k _ d hd => ?_, ⟨fun t x => ?_, fun t x => ?_⟩, _, sequential_sources _, ga, gs⟩
  · have : st ∈ (inputs (T := T) g arrays scs).map source := by rw [he]; simp
    obtain ⟨ps, _, rfl⟩ := List.mem_map.1 this
    simp [source] at hd
  · exact ⟨_, by rw [List.getElem?_map, ga]; rfl, by simp [source, store]⟩
  · exact ⟨_, by simp only []; rw [List.getElem?_map, gs]; rfl, rfl⟩

end Lue.Async

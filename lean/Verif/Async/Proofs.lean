import Verif.Async.Model

/-!
C75: proofs.
-/
namespace Lue.Async

open Lue.Program Lue.Dataflow Relation

variable {ι : Type} [DecidableEq ι] {T : ι → ZonalOp}

/-! ### Operations are called with results of previous operations -/

section
variable {V : Type}

/-- Tasks depend on tasks created before. -/
def DepsOk : List (Stage V) → List (Stage V) → Prop
  | _, [] => True
  | stages, stage :: rest => (∀ k < stage.n, ∀ d ∈ stage.deps k, Exists stages d) ∧ DepsOk (stages ++ [stage]) rest

theorem issueAll_ok {new : List (Stage V)} : ∀ {stages : List (Stage V)} {rest : Script V}, DepsOk stages new →
    Script.Ok (stages ++ new) rest → Script.Ok stages (issueAll new rest) := by
  induction new with
  | nil => intro stages rest _ h; simpa [issueAll] using h
  | cons stage new ih =>
    intro stages rest h hr
    exact .issue h.1 (ih h.2 (by simpa using hr))

theorem issueAll_follows {new : List (Stage V)} : ∀ {stages : List (Stage V)} {rest : Script V},
    ReflTransGen Follows (stages, issueAll new rest) (stages ++ new, rest) := by
  induction new with
  | nil => intro stages rest; simpa [issueAll] using ReflTransGen.refl
  | cons stage new ih =>
    intro stages rest
    refine .head (b := (stages ++ [stage], issueAll new rest)) .issue ?_
    have := ih (stages := stages ++ [stage]) (rest := rest)
    simpa using this

theorem depsOk_of_splits {new : List (Stage V)} : ∀ {stages : List (Stage V)},
    (∀ stages₁ stage stages₂, new = stages₁ ++ stage :: stages₂ → ∀ k < stage.n, ∀ d ∈ stage.deps k,
      Exists (stages ++ stages₁) d) → DepsOk stages new := by
  induction new with
  | nil => intro stages _; exact trivial
  | cons stage new ih =>
    intro stages h
    refine ⟨?_, ih fun s1 st s2 e k hk d hd => ?_⟩
    · have := h [] stage new rfl
      simpa using this
    · have := h (stage :: s1) st s2 (by rw [e]; rfl) k hk d hd
      simpa using this

theorem EnvOk.mono {g : Grid} {stages : List (Stage V)} {env : Env} (h : EnvOk g stages env) (new : List (Stage V)) :
    EnvOk g (stages ++ new) env := by
  refine ⟨fun t x => ?_, fun t x => ?_⟩
  · obtain ⟨st, h1, h2⟩ := h.1 t x
    exact ⟨st, getElem?_mono h1 _, h2⟩
  · obtain ⟨st, h1, h2⟩ := h.2 t x
    exact ⟨st, getElem?_mono h1 _, h2⟩

theorem EnvOk.setArr {g : Grid} {stages : List (Stage V)} {env : Env} (h : EnvOk g stages env) {t : Ty} {x a : Nat}
    (ha : ∃ st, stages[a]? = some st ∧ st.n = g.n0 * g.n1) : EnvOk g stages (env.setArr t x a) := by
  refine ⟨fun t' x' => ?_, h.2⟩
  simp only [Env.setArr, assign]
  split
  · rename_i ht; subst ht
    split
    · exact ha
    · exact h.1 _ _
  · exact h.1 _ _

theorem EnvOk.setSc {g : Grid} {stages : List (Stage V)} {env : Env} (h : EnvOk g stages env) {t : Ty} {x a : Nat}
    (ha : ∃ st, stages[a]? = some st ∧ st.n = 1) : EnvOk g stages (env.setSc t x a) := by
  refine ⟨h.1, fun t' x' => ?_⟩
  simp only [Env.setSc, assign]
  split
  · rename_i ht; subst ht
    split
    · exact ha
    · exact h.2 _ _
  · exact h.2 _ _

theorem EnvOk.part {g : Grid} {stages : List (Stage V)} {env : Env} (h : EnvOk g stages env) (t : Ty) (x : Nat) {k : Nat}
    (hk : k < g.n0 * g.n1) : Exists stages (env.arr t x, k) := by
  obtain ⟨st, h1, h2⟩ := h.1 t x
  exact ⟨st, h1, by rw [h2]; exact hk⟩

theorem EnvOk.scalar {g : Grid} {stages : List (Stage V)} {env : Env} (h : EnvOk g stages env) (t : Ty) (x : Nat) :
    Exists stages (env.sc t x, 0) := by
  obtain ⟨st, h1, h2⟩ := h.2 t x
  exact ⟨st, h1, by rw [h2]; exact Nat.one_pos⟩

end

theorem argDeps_exist {V : Type} {g : Grid} {stages : List (Stage V)} {env : Env} (h : EnvOk g stages env) {src : Src .amount}
    {d : Nat × Nat} (hd : d ∈ argDeps env (g.n0 * g.n1) src) : Exists stages d := by
  cases src with
  | array x =>
    simp only [argDeps, List.mem_map, List.mem_range] at hd
    obtain ⟨k, hk, rfl⟩ := hd
    exact h.part _ x hk
  | scalar x =>
    simp only [argDeps, List.mem_singleton] at hd
    subst hd
    exact h.scalar _ x

theorem call_ok (g : Grid) (W : Unknown T) {env : Env} {stages : List (Stage (Value T))} {a : Nat} (ha : a = stages.length)
    (h : EnvOk g stages env) (c : Call (ι := ι)) :
    DepsOk stages (c.stages g W env a) ∧ EnvOk g (stages ++ c.stages g W env a) (c.after env a T) := by
  subst ha
  cases c with
  | fill t dst x =>
    refine ⟨⟨fun k hk d hd => ?_, trivial⟩, (h.mono _).setArr ⟨_, by simp [Call.stages]; rfl, rfl⟩⟩
    simp only [fillStage, List.mem_singleton] at hd
    subst hd
    exact h.scalar t x
  | unary t u dst P f x =>
    refine ⟨⟨fun k hk d hd => ?_, trivial⟩, (h.mono _).setArr ⟨_, by simp [Call.stages]; rfl, rfl⟩⟩
    simp only [localStage, List.map_cons, List.map_nil, List.mem_singleton] at hd hk
    subst hd
    exact h.part t x hk
  | binary t₁ t₂ u dst P f x y =>
    refine ⟨⟨fun k hk d hd => ?_, trivial⟩, (h.mono _).setArr ⟨_, by simp [Call.stages]; rfl, rfl⟩⟩
    simp only [localStage, List.map_cons, List.map_nil, List.mem_cons, List.not_mem_nil, or_false] at hd hk
    rcases hd with rfl | rfl
    · exact h.part t₁ x hk
    · exact h.part t₂ y hk
  | binaryAS t₁ t₂ u dst P f x y =>
    refine ⟨⟨fun k hk d hd => ?_, trivial⟩, (h.mono _).setArr ⟨_, by simp [Call.stages]; rfl, rfl⟩⟩
    simp only [localScalarStage, List.map_cons, List.map_nil, List.singleton_append, List.mem_cons, List.not_mem_nil,
      or_false] at hd hk
    rcases hd with rfl | rfl
    · exact h.part t₁ x hk
    · exact h.scalar t₂ y
  | binarySA t₁ t₂ u dst P f x y =>
    refine ⟨⟨fun k hk d hd => ?_, trivial⟩, (h.mono _).setArr ⟨_, by simp [Call.stages]; rfl, rfl⟩⟩
    simp only [localScalarStage, List.map_cons, List.map_nil, List.singleton_append, List.mem_cons, List.not_mem_nil,
      or_false] at hd hk
    rcases hd with rfl | rfl
    · exact h.part t₂ y hk
    · exact h.scalar t₁ x
  | ternary t₁ t₂ t₃ u dst P f x y z =>
    refine ⟨⟨fun k hk d hd => ?_, trivial⟩, (h.mono _).setArr ⟨_, by simp [Call.stages]; rfl, rfl⟩⟩
    simp only [localStage, List.map_cons, List.map_nil, List.mem_cons, List.not_mem_nil, or_false] at hd hk
    rcases hd with rfl | rfl | rfl
    · exact h.part t₁ x hk
    · exact h.part t₂ y hk
    · exact h.part t₃ z hk
  | wher c t dst P truth x y z =>
    refine ⟨⟨fun k hk d hd => ?_, trivial⟩, (h.mono _).setArr ⟨_, by simp [Call.stages]; rfl, rfl⟩⟩
    simp only [localStage, List.map_cons, List.map_nil, List.mem_cons, List.not_mem_nil, or_false] at hd hk
    rcases hd with rfl | rfl | rfl
    · exact h.part c x hk
    · exact h.part t y hk
    · exact h.part t z hk
  | focal t u dst halo radius functor x =>
    refine ⟨⟨fun k hk d hd => ?_, trivial⟩, (h.mono _).setArr ⟨_, by simp [Call.stages]; rfl, rfl⟩⟩
    simp only [focalStage, List.flatMap_cons, List.flatMap_nil, List.append_nil, List.mem_map] at hd hk
    obtain ⟨k', hk', rfl⟩ := hd
    exact h.part t x (around_lt hk')
  | focal2 t₁ t₂ u dst halo₁ halo₂ radius functor x y =>
    refine ⟨⟨fun k hk d hd => ?_, trivial⟩, (h.mono _).setArr ⟨_, by simp [Call.stages]; rfl, rfl⟩⟩
    simp only [focalStage, List.flatMap_cons, List.flatMap_nil, List.append_nil, List.mem_append, List.mem_map] at hd hk
    rcases hd with ⟨k', hk', rfl⟩ | ⟨k', hk', rfl⟩
    · exact h.part t₁ x (around_lt hk')
    · exact h.part t₂ y (around_lt hk')
  | zonal i dst x zones =>
    refine ⟨⟨fun k hk d hd => ?_, fun k hk d hd => ?_, fun k hk d hd => ?_, trivial⟩,
      (h.mono _).setArr ⟨_, by simp [Call.stages]; rfl, rfl⟩⟩
    · simp only [localStage, List.map_cons, List.map_nil, List.mem_cons, List.not_mem_nil, or_false] at hd hk
      rcases hd with rfl | rfl
      · exact h.part _ x hk
      · exact h.part _ zones hk
    · simp only [reduceStage, List.mem_map, List.mem_range] at hd
      obtain ⟨k', hk', rfl⟩ := hd
      exact ⟨_, by simp; rfl, hk'⟩
    · simp only [localScalarStage, List.map_cons, List.map_nil, List.singleton_append, List.mem_cons, List.not_mem_nil,
        or_false] at hd hk
      rcases hd with rfl | rfl
      · exact ((h.mono _).mono _).part _ zones hk
      · exact ⟨_, by simp; rfl, Nat.one_pos⟩
  | inflowCount dst isNoData mark fd =>
    refine ⟨⟨fun k hk d hd => ?_, fun k hk d hd => ?_, trivial⟩, (h.mono _).setArr ⟨_, by simp [Call.stages]; rfl, rfl⟩⟩
    · simp only [sendStage, List.mem_singleton] at hd hk
      subst hd
      exact h.part _ fd hk
    · simp only [countStage, List.mem_cons, List.mem_map] at hd hk
      rcases hd with rfl | ⟨q, hq, rfl⟩
      · exact (h.mono _).part _ fd hk
      · exact ⟨_, by simp; rfl, around_lt hq⟩
  | accu dst isNoData within fd inflow =>
    refine ⟨⟨fun k hk d hd => ?_, trivial⟩, (h.mono _).setArr ⟨_, by simp [Call.stages]; rfl, rfl⟩⟩
    simp only [accuStage, List.mem_append, List.mem_map, List.mem_range] at hd
    rcases hd with ⟨k', hk', rfl⟩ | hd
    · exact h.part _ fd hk'
    · exact argDeps_exist h hd
  | split dst₁ dst₂ isNoData within rule fd inflow parameter =>
    refine ⟨⟨fun k hk d hd => ?_, fun k hk d hd => ?_, fun k hk d hd => ?_, trivial⟩,
      ((h.mono _).setArr ⟨_, by simp [Call.stages]; rfl, rfl⟩).setArr ⟨_, by simp [Call.stages]; rfl, rfl⟩⟩
    · simp only [splitStage, List.mem_append, List.mem_map, List.mem_range] at hd
      rcases hd with ⟨k', hk', rfl⟩ | hd | hd
      · exact h.part _ fd hk'
      · exact argDeps_exist h hd
      · exact argDeps_exist h hd
    · simp only [localStage, List.map_cons, List.map_nil, List.mem_singleton] at hd hk
      subst hd
      exact ⟨_, by simp; rfl, hk⟩
    · simp only [localStage, List.map_cons, List.map_nil, List.mem_singleton] at hd hk
      subst hd
      exact ⟨_, by simp; rfl, hk⟩
  | aggregate t u dst A x =>
    refine ⟨⟨fun k hk d hd => ?_, fun k hk d hd => ?_, trivial⟩, (h.mono _).setSc ⟨_, by simp [Call.stages]; rfl, rfl⟩⟩
    · simp only [localStage, List.map_cons, List.map_nil, List.mem_singleton] at hd hk
      subst hd
      exact h.part t x hk
    · simp only [reduceStage, List.mem_map, List.mem_range] at hd
      obtain ⟨k', hk', rfl⟩ := hd
      exact ⟨_, by simp; rfl, hk'⟩
  | scalar t₁ t₂ u dst f x y =>
    refine ⟨⟨fun k hk d hd => ?_, trivial⟩, (h.mono _).setSc ⟨_, by simp [Call.stages]; rfl, rfl⟩⟩
    simp only [scalarStage, List.map_cons, List.map_nil, List.mem_cons, List.not_mem_nil, or_false] at hd
    rcases hd with rfl | rfl
    · exact h.scalar t₁ x
    · exact h.scalar t₂ y

theorem thread_ok {g : Grid} (W : Unknown T) {fin : Env → Script (Value T)}
    (hfin : ∀ stages env, EnvOk g stages env → Script.Ok stages (fin env)) : ∀ (fuel : Nat) (p : List (Prog ι)) (env : Env)
    (stages : List (Stage (Value T))), EnvOk g stages env → Script.Ok stages (thread g W fin fuel p env stages.length) := by
  intro fuel
  induction fuel with
  | zero => intro p env stages _; simp only [thread]; exact .failed
  | succ n ih =>
    intro p env stages h
    cases p with
    | nil => simp only [thread]; exact hfin _ _ h
    | cons s rest =>
      cases s with
      | call c =>
        simp only [thread]
        obtain ⟨h1, h2⟩ := call_ok g W rfl h c
        refine issueAll_ok h1 ?_
        have := ih rest _ _ h2
        rwa [List.length_append] at this
      | seq p q => simp only [thread]; exact ih _ _ _ h
      | ite t x cond p q =>
        simp only [thread]
        refine .get (h.scalar t x) fun v => ?_
        split
        · exact ih _ _ _ h
        · exact .failed
      | loop t x cond p =>
        simp only [thread]
        refine .get (h.scalar t x) fun v => ?_
        split
        · exact ih _ _ _ h
        · exact .failed

/-! ### The results of operations -/

/-- The results the variables refer to. -/
def Refs (arrays : List (List (Value T))) (env : Env) (s : State) : Prop :=
  (∀ t x, arrays[env.arr t x]? = some ((s.arr t x).parts.map (parts T t).up)) ∧
    ∀ t x, arrays[env.sc t x]? = some [(scalars T t).up (s.sc t x)]

theorem Refs.mono {arrays : List (List (Value T))} {env : Env} {s : State} (h : Refs arrays env s)
    (new : List (List (Value T))) : Refs (arrays ++ new) env s := by
  have key : ∀ {a : Nat} {l : List (Value T)}, arrays[a]? = some l → (arrays ++ new)[a]? = some l := by
    intro a l hl
    rw [List.getElem?_append_left (List.getElem?_eq_some_iff.1 hl).1, hl]
  exact ⟨fun t x => key (h.1 t x), fun t x => key (h.2 t x)⟩

theorem Refs.setArr {arrays : List (List (Value T))} {env : Env} {s : State} (h : Refs arrays env s) {t : Ty} {x a : Nat}
    {y : PArr t.El} (ha : arrays[a]? = some (y.parts.map (parts T t).up)) : Refs arrays (env.setArr t x a) (s.setArr t x y) := by
  refine ⟨fun t' x' => ?_, h.2⟩
  simp only [Env.setArr, State.setArr, assign]
  by_cases ht : t = t'
  · subst ht
    simp only [dite_true]
    by_cases hx : x = x'
    · simp only [if_pos hx]; exact ha
    · simp only [if_neg hx]; exact h.1 _ _
  · simp only [dif_neg ht]; exact h.1 _ _

theorem Refs.setSc {arrays : List (List (Value T))} {env : Env} {s : State} (h : Refs arrays env s) {t : Ty} {x a : Nat}
    {y : t.El} (ha : arrays[a]? = some [(scalars T t).up y]) : Refs arrays (env.setSc t x a) (s.setSc t x y) := by
  refine ⟨h.1, fun t' x' => ?_⟩
  simp only [Env.setSc, State.setSc, assign]
  by_cases ht : t = t'
  · subst ht
    simp only [dite_true]
    by_cases hx : x = x'
    · simp only [if_pos hx]; exact ha
    · simp only [if_neg hx]; exact h.2 _ _
  · simp only [dif_neg ht]; exact h.2 _ _

/-- The call has been executed: its sets of tasks, one after the other, result in the values of `S'`. -/
def Executed (g : Grid) (stages new : List (Stage (Value T))) (env' : Env) (S' : Whole) : Prop :=
  ∃ arrays' s', Sequential (stages ++ new) arrays' ∧ Refs arrays' env' s' ∧ Agree g s' S'

/-- A call with a single set of tasks, which compute an array. -/
theorem executed_arr {g : Grid} {stages : List (Stage (Value T))} {arrays : List (List (Value T))} {env : Env} {s : State}
    {S' : Whole} (hs : Sequential stages arrays) (hr : Refs arrays env s) {u : Ty} {dst : Nat} {stage : Stage (Value T)}
    {m : M (PArr u.El)} {order : List Nat} (ho : IsOrder stage.n order)
    (hm : ∃ s', m.map (s.setArr u dst) = .ok s' ∧ Agree g s' S')
    (e : runStage order stage arrays = m.map fun y => y.parts.map (parts T u).up) :
    Executed g stages [stage] (env.setArr u dst stages.length) S' := by
  obtain ⟨s', h1, h2⟩ := hm
  cases m with
  | error x => exact absurd h1 (by simp [Except.map])
  | ok y =>
    obtain rfl := Except.ok.inj h1
    refine ⟨_, _, .snoc hs ho e, (hr.mono _).setArr ?_, h2⟩
    rw [← (sequential_succeeds hs).1]
    simp


/-- Reading all partitions of an array. -/
theorem read_all {τ : Type} (E : Emb (Value T) (List τ)) {arrays : List (List (Value T))} {a n : Nat} {l : List (List τ)}
    (ha : arrays[a]? = some (l.map E.up)) (hn : l.length = n) :
    ((List.range n).map fun k => (a, k)).mapM (resultAt arrays) = .ok (l.map E.up) := by
  refine mapM_intro (by simp [hn]) fun i d w h1 h2 => ?_
  rw [List.getElem?_map] at h1
  have hi : i < n := by
    by_contra hc
    rw [List.getElem?_eq_none (by simpa using hc)] at h1
    exact absurd h1 (by simp)
  rw [List.getElem?_range hi] at h1
  obtain rfl := Option.some.inj h1
  rw [resultAt_ok]
  exact ⟨_, ha, h2⟩

theorem read_arg {g : Grid} {arrays : List (List (Value T))} {env : Env} {s : State} (hr : Refs arrays env s)
    (hgr : ∀ t x, (s.arr t x).grid = g) (hlen : ∀ t x, (s.arr t x).parts.length = g.n0 * g.n1) (src : Src .amount) :
    ∃ vs, (argDeps env (g.n0 * g.n1) src).mapM (resultAt arrays) = .ok vs ∧
      vs.length = (argDeps env (g.n0 * g.n1) src).length ∧ readArg g src vs = .ok (src.arg s) := by
  cases src with
  | array x =>
    refine ⟨_, read_all (parts T .amount) (hr.1 .amount x) (hlen _ _), by simp [argDeps, hlen], ?_⟩
    simp only [readArg, mapM_down, M.bind_ok, Src.arg]
    rw [← hgr .amount x]
  | scalar x =>
    refine ⟨[(scalars T .amount).up (s.sc .amount x)], ?_, rfl, ?_⟩
    · simp only [argDeps, List.mapM_cons, List.mapM_nil, resultAt_scalar (scalars T .amount) (hr.2 .amount x), M.bind_ok]
      rfl
    · simp only [readArg, (scalars T .amount).down_up, M.bind_ok, Src.arg]

theorem runTasks_rd {τ : Type} {l : List τ} {n : Nat} (hn : l.length = n) :
    runTasks n (fun k => rd l k) (List.range n) = .ok l := by
  subst hn
  by_cases he : l = []
  · subst he; rfl
  · obtain ⟨p0, l', rfl⟩ := List.exists_cons_of_ne_nil he
    rw [runTasks_ok (isOrder_range _) (r := fun k => ((p0 :: l')[k]?).getD p0) fun k hk => by
      rw [rd_ok (List.getElem?_eq_getElem hk), List.getElem?_eq_getElem hk]; rfl]
    congr 1
    apply List.ext_getElem?
    intro k
    by_cases hk : k < (p0 :: l').length
    · rw [List.getElem?_map, List.getElem?_range hk, List.getElem?_eq_getElem hk]
      simp only [Option.map_some, List.getElem?_eq_getElem hk]
      rfl
    · rw [List.getElem?_eq_none (by simpa using hk), List.getElem?_eq_none (by omega)]

theorem accu_executed {g : Grid} (W : Unknown T) {a : Nat} {isNoData : Nat → Bool} {within : ℚ → Bool} {fd : Nat}
    {inflow : Src .amount} {arrays : List (List (Value T))} {env : Env} {s : State}
    (hr : Refs arrays env s) (hgr : ∀ t x, (s.arr t x).grid = g) (hlen : ∀ t x, (s.arr t x).parts.length = g.n0 * g.n1)
    (hy : (W.accu a within isNoData (s.arr .code fd) (inflow.arg s)).parts.length = g.n0 * g.n1) :
    runStage (List.range (g.n0 * g.n1)) (accuStage g W env a isNoData within fd inflow) arrays =
      .ok ((W.accu a within isNoData (s.arr .code fd) (inflow.arg s)).parts.map (parts T .amount).up) := by
  rw [runStage_eq (parts T .amount) (n := g.n0 * g.n1) rfl
    (task := fun k => rd (W.accu a within isNoData (s.arr .code fd) (inflow.arg s)).parts k) (isOrder_range _)]
  · rw [runTasks_rd hy]; rfl
  · intro k _
    obtain ⟨vs, e1, _, e2⟩ := read_arg hr hgr hlen inflow
    simp only [accuStage]
    rw [mapM_append_ok (read_all (parts T .code) (hr.1 .code fd) (hlen _ _)) e1, M.bind_ok]
    rw [List.take_left' (by simp [hlen]), List.drop_left' (by simp [hlen]), mapM_down, M.bind_ok, e2, M.bind_ok]
    have e : (⟨g, (s.arr .code fd).parts⟩ : PArr Nat) = s.arr .code fd := by rw [← hgr .code fd]
    rw [e]
    cases rd (W.accu a within isNoData (s.arr .code fd) (inflow.arg s)).parts k <;> rfl

theorem split_executed {g : Grid} (W : Unknown T) {a : Nat} {isNoData : Nat → Bool} {within : ℚ → ℚ → Bool}
    {rule : ℚ → ℚ → ℚ × ℚ} {fd : Nat} {inflow parameter : Src .amount} {arrays : List (List (Value T))} {env : Env} {s : State}
    (hr : Refs arrays env s) (hgr : ∀ t x, (s.arr t x).grid = g) (hlen : ∀ t x, (s.arr t x).parts.length = g.n0 * g.n1)
    {y : PArr (Option ℚ) × PArr (Option ℚ)}
    (hy : W.split a within rule isNoData (s.arr .code fd) (inflow.arg s) (parameter.arg s) = y)
    (hl1 : y.1.parts.length = g.n0 * g.n1) (hl2 : y.2.parts.length = g.n0 * g.n1) :
    runStage (List.range (g.n0 * g.n1)) (splitStage g W env a isNoData within rule fd inflow parameter) arrays =
      .ok ((y.1.parts.zip y.2.parts).map (pairs T).up) := by
  rw [runStage_eq (pairs T) (n := g.n0 * g.n1) rfl (task := fun k => rd (y.1.parts.zip y.2.parts) k) (isOrder_range _)]
  · rw [runTasks_rd (by simp [hl1, hl2])]; rfl
  · intro k hk
    obtain ⟨vs, e1, l1, e2⟩ := read_arg hr hgr hlen inflow
    obtain ⟨ws, e3, l3, e4⟩ := read_arg hr hgr hlen parameter
    simp only [splitStage]
    rw [mapM_append_ok (read_all (parts T .code) (hr.1 .code fd) (hlen _ _)) (mapM_append_ok e1 e3), M.bind_ok]
    rw [List.take_left' (by simp [hlen]), List.drop_left' (by simp [hlen]), mapM_down, M.bind_ok]
    rw [List.take_left' l1, List.drop_left' l1, e2, M.bind_ok, e4, M.bind_ok]
    have e : (⟨g, (s.arr .code fd).parts⟩ : PArr Nat) = s.arr .code fd := by rw [← hgr .code fd]
    rw [e, hy]
    have g1 : y.1.parts[k]? = some (y.1.parts[k]'(by omega)) := List.getElem?_eq_getElem _
    have g2 : y.2.parts[k]? = some (y.2.parts[k]'(by omega)) := List.getElem?_eq_getElem _
    have g3 : (y.1.parts.zip y.2.parts)[k]? = some (y.1.parts[k]'(by omega), y.2.parts[k]'(by omega)) := by
      rw [List.getElem?_zip_eq_some]
      exact ⟨g1, g2⟩
    rw [rd_ok g1, rd_ok g2, rd_ok g3]
    rfl

/-- Picking one of the results of tasks which compute two. -/
theorem runStage_pick {τ υ : Type} (E : Emb (Value T) τ) (U : Emb (Value T) υ) (f : τ → υ) {arrays : List (List (Value T))}
    {a n : Nat} {l : List τ} (ha : arrays[a]? = some (l.map E.up)) (hn : l.length = n) :
    runStage (List.range n) (localStage n [a] (body1 E U fun p => .ok (f p))) arrays = .ok ((l.map f).map U.up) := by
  rw [runStage_eq U (n := n) rfl (task := fun k => rd (l.map f) k) (isOrder_range _)]
  · rw [runTasks_rd (by simpa using hn)]; rfl
  · intro k hk
    have hk' : k < l.length := by omega
    have e : resultAt arrays (a, k) = .ok (E.up (l[k]'hk')) := by
      rw [resultAt_ok]
      exact ⟨_, ha, by rw [List.getElem?_map, List.getElem?_eq_getElem hk']; rfl⟩
    simp only [localStage, List.map_cons, List.map_nil, List.mapM_cons, List.mapM_nil, e, M.bind_ok, pure, Except.pure, body1,
      E.down_up]
    rw [rd_ok (x := f (l[k]'hk')) (by rw [List.getElem?_map, List.getElem?_eq_getElem hk']; rfl)]
    rfl

theorem bind_inv {α β : Type} {x : M α} {f : α → M β} {b : β} (h : (x >>= f) = .ok b) : ∃ a, x = .ok a ∧ f a = .ok b := by
  cases x with
  | error e => exact absurd h (by simp [bind, Except.bind])
  | ok a => exact ⟨a, rfl, h⟩

open Classical in
/-- Executing the tasks of a call, one set after the other, results in what the call means. -/
theorem call_executed {g : Grid} (hg : g.Ok) (W : Unknown T) {c : Call (ι := ι)}
    (hn : (c.op T).need ≤ g.p0 ∧ (c.op T).need ≤ g.p1) {stages : List (Stage (Value T))}
    {arrays : List (List (Value T))} {env : Env} {s : State} {S S' : Whole} (hs : Sequential stages arrays)
    (hr : Refs arrays env s) (ha : Agree g s S) (hm : (c.op T).Means g.a0 g.a1 S S') :
    Executed g stages (c.stages g W env stages.length) (c.after env stages.length T) S' := by
  have ord := isOrder_range (g.n0 * g.n1)
  have hgr := ha.grid
  have hlen : ∀ t x, (s.arr t x).parts.length = g.n0 * g.n1 := fun t x => by rw [(ha.arr t x).nr_parts, hgr]
  have hpos : 0 < g.n0 ∧ 0 < g.n1 := ⟨Nat.div_pos hg.le0 hg.pos0, Nat.div_pos hg.le1 hg.pos1⟩
  have hal := (sequential_succeeds hs).1
  obtain ⟨_, hall⟩ := op_simulates hg hn ha hm
  cases c with
  | fill t dst x =>
    obtain ⟨s', h1, h2⟩ := hall _ rfl
    obtain rfl := Except.ok.inj h1
    refine ⟨_, _, .snoc hs ord (runStage_fill (scalars T t) (parts T t) g (hr.2 t x) ord), (hr.mono _).setArr ?_, h2⟩
    rw [← hal]
    simp
  | unary t u dst P f x =>
    refine executed_arr hs hr ord (hall _ ⟨W.garbage stages.length 0 u, _, ord, rfl⟩) ?_
    have := runStage_local1 (parts T t) (parts T u) (LocalOp.unaryPartition P f (W.garbage stages.length 0 u))
      (List.range (g.n0 * g.n1)) (hr.1 t x)
    rwa [hgr] at this
  | binary t₁ t₂ u dst P f x y =>
    refine executed_arr hs hr ord (hall _ ⟨W.garbage stages.length 0 u, _, ord, rfl⟩) ?_
    have := runStage_local2 (parts T t₁) (parts T t₂) (parts T u) (LocalOp.binaryPartition P f (W.garbage stages.length 0 u))
      (List.range (g.n0 * g.n1)) (hr.1 t₁ x) (hr.1 t₂ y) (by rw [hgr, hgr])
    rwa [hgr] at this
  | binaryAS t₁ t₂ u dst P f x y =>
    refine executed_arr hs hr ord (hall _ ⟨W.garbage stages.length 0 u, _, ord, rfl⟩) ?_
    have := runStage_localScalar (parts T t₁) (scalars T t₂) (parts T u)
      (LocalOp.binaryPartitionAS P f (W.garbage stages.length 0 u)) (hr.1 t₁ x) (hr.2 t₂ y) (by rw [hgr]; exact ord)
    rwa [hgr] at this
  | binarySA t₁ t₂ u dst P f x y =>
    refine executed_arr hs hr ord (hall _ ⟨W.garbage stages.length 0 u, _, ord, rfl⟩) ?_
    have := runStage_localScalar (parts T t₂) (scalars T t₁) (parts T u)
      (fun data value => LocalOp.binaryPartitionSA P f (W.garbage stages.length 0 u) value data) (hr.1 t₂ y) (hr.2 t₁ x)
      (by rw [hgr]; exact ord)
    rwa [hgr] at this
  | ternary t₁ t₂ t₃ u dst P f x y z =>
    refine executed_arr hs hr ord (hall _ ⟨W.garbage stages.length 0 u, _, ord, rfl⟩) ?_
    have := runStage_local3 (parts T t₁) (parts T t₂) (parts T t₃) (parts T u)
      (LocalOp.ternaryPartition P f (W.garbage stages.length 0 u)) (hr.1 t₁ x) (hr.1 t₂ y) (hr.1 t₃ z) (by rw [hgr, hgr])
      (by rw [hgr, hgr]) (by rw [hgr]; exact ord)
    rwa [hgr] at this
  | wher c t dst P truth x y z =>
    refine executed_arr hs hr ord (hall _ ⟨W.garbage stages.length 0 t, _, ord, rfl⟩) ?_
    have := runStage_local3 (parts T c) (parts T t) (parts T t) (parts T t)
      (LocalOp.wherePartition P truth (W.garbage stages.length 0 t)) (hr.1 c x) (hr.1 t y) (hr.1 t z) (by rw [hgr, hgr])
      (by rw [hgr, hgr]) (by rw [hgr]; exact ord)
    rwa [hgr] at this
  | focal t u dst halo radius functor x =>
    refine executed_arr hs hr ord
      (hall _ ⟨W.garbage stages.length 0 t, W.garbage stages.length 1 u, _, ord, rfl⟩) ?_
    have := runStage_focal (parts T t) (parts T u) halo (W.garbage stages.length 0 t) (W.garbage stages.length 1 u) radius
      functor (hr.1 t x) (by rw [hgr]; exact hlen t x) (by rw [hgr]; exact hpos.1) (by rw [hgr]; exact hpos.2)
      (by rw [hgr]; exact ord)
    rwa [hgr] at this
  | focal2 t₁ t₂ u dst halo₁ halo₂ radius functor x y =>
    refine executed_arr hs hr ord (hall _ ⟨W.garbage stages.length 0 t₁, W.garbage stages.length 1 t₂,
      W.garbage stages.length 2 u, _, ord, rfl⟩) ?_
    have := runStage_focal2 (parts T t₁) (parts T t₂) (parts T u) halo₁ halo₂ (W.garbage stages.length 0 t₁)
      (W.garbage stages.length 1 t₂) (W.garbage stages.length 2 u) radius
      functor (hr.1 t₁ x) (by rw [hgr]; exact hlen t₁ x) (hr.1 t₂ y) (by rw [hgr]; exact hlen t₂ y) (by rw [hgr, hgr])
      (by rw [hgr]; exact hpos.1) (by rw [hgr]; exact hpos.2) (by rw [hgr]; exact ord)
    rwa [hgr] at this
  | zonal i dst x zones =>
    obtain ⟨s', h1, h2⟩ := hall _ ⟨inferInstance, W.iter stages.length i, W.garbage stages.length 0 (T i).u, _, _,
      W.isIter _ i, ord, ord, rfl⟩
    have e := runStage_zonal (parts T (T i).t) (parts T (T i).z) (aggregators T i) (parts T (T i).u) (T i).P (T i).Z.G
      (W.iter stages.length i) (W.garbage stages.length 0 (T i).u) (order2 := List.range (g.n0 * g.n1)) (hr.1 (T i).t x)
      (hr.1 (T i).z zones) (by rw [hgr, hgr]) (by rw [hgr]; exact ord)
    rw [hgr, hal] at e
    cases hz : Zonal.zonalArray (T i).P (T i).Z.G (W.iter stages.length i) (W.garbage stages.length 0 (T i).u)
        (List.range (g.n0 * g.n1)) (List.range (g.n0 * g.n1)) (s.arr (T i).t x) (s.arr (T i).z zones) with
    | error err => rw [hz] at h1; exact absurd h1 (by simp [Except.map])
    | ok y =>
      rw [hz] at h1 e
      obtain rfl := Except.ok.inj h1
      obtain ⟨r1, e1, e⟩ := bind_inv e
      obtain ⟨r2, e2, e⟩ := bind_inv e
      refine ⟨arrays ++ [r1] ++ [r2] ++ [y.parts.map (parts T (T i).u).up], _, ?_, ?_, h2⟩
      · have q1 := Sequential.snoc hs ord e1
        have q2 := Sequential.snoc (order := [0]) q1 (show IsOrder 1 [0] from List.Perm.refl [0]) e2
        have q3 := Sequential.snoc q2 ord e
        simpa [Call.stages] using q3
      · refine (((hr.mono _).mono _).mono _).setArr ?_
        rw [← hal]
        simp
  | inflowCount dst isNoData mark fd =>
    obtain ⟨s', h1, h2⟩ := hall _ ⟨_, _, ord, ord, rfl⟩
    have e := runStage_inflowCount (parts T .code) (messages T) isNoData mark (order1 := List.range (g.n0 * g.n1))
      (order2 := List.range (g.n0 * g.n1)) (hr.1 .code fd) (by rw [hgr]; exact ord) (by rw [hgr]; exact ord)
    rw [hgr, hal] at e
    cases hz : InflowCount.inflowCount isNoData mark (List.range (g.n0 * g.n1)) (List.range (g.n0 * g.n1))
        (s.arr .code fd) with
    | error err => rw [hz] at h1; exact absurd h1 (by simp [Except.map])
    | ok y =>
      rw [hz] at h1 e
      obtain rfl := Except.ok.inj h1
      obtain ⟨r1, e1, e⟩ := bind_inv e
      refine ⟨arrays ++ [r1] ++ [y.parts.map (parts T .code).up], _, ?_, ?_, h2⟩
      · have q1 := Sequential.snoc hs ord e1
        have q2 := Sequential.snoc q1 ord e
        simpa [Call.stages] using q2
      · refine ((hr.mono _).mono _).setArr ?_
        rw [← hal]
        simp
  | accu dst isNoData within fd inflow =>
    obtain ⟨⟨r, y, hy, rfl⟩, _⟩ := op_simulates hg hn ha hm
    obtain ⟨s', h1, h2⟩ := hall _ ⟨_, W.isAccu stages.length within isNoData _ _ ⟨y, hy⟩, rfl⟩
    obtain rfl := Except.ok.inj h1
    have hy2 := (h2.arr .amount dst).nr_parts
    have hg2 := h2.grid .amount dst
    simp only [State.setArr, assign, dite_true, if_true] at hy2 hg2
    rw [hg2] at hy2
    refine ⟨_, _, .snoc hs ord (accu_executed W hr hgr hlen hy2), (hr.mono _).setArr ?_, h2⟩
    rw [← hal]
    simp
  | split dst₁ dst₂ isNoData within rule fd inflow parameter =>
    obtain ⟨⟨r, y1, y2, hy, rfl⟩, _⟩ := op_simulates hg hn ha hm
    obtain ⟨s', h1, h2⟩ := hall _ ⟨_, _, W.isSplit stages.length within rule isNoData _ _ _ ⟨y1, y2, hy⟩, rfl⟩
    obtain rfl := Except.ok.inj h1
    have hy' := W.isSplit stages.length within rule isNoData (s.arr .code fd) (inflow.arg s) (parameter.arg s) ⟨y1, y2, hy⟩
    generalize hw : W.split stages.length within rule isNoData (s.arr .code fd) (inflow.arg s) (parameter.arg s) = w
      at hy' h1 h2
    have hl2 : w.2.parts.length = g.n0 * g.n1 := by
      have hy2 := (h2.arr .amount dst₂).nr_parts
      have hg2 := h2.grid .amount dst₂
      simp only [State.setArr, assign, dite_true, if_true] at hy2 hg2
      rw [hg2] at hy2
      exact hy2
    have hl1 : w.1.parts.length = g.n0 * g.n1 := by
      obtain ⟨_, _, y, _, e1, e2⟩ := hy'
      rw [← hl2, e1, e2]
      simp
    refine ⟨arrays ++ [(w.1.parts.zip w.2.parts).map (pairs T).up] ++ [w.1.parts.map (parts T .amount).up] ++
      [w.2.parts.map (parts T .amount).up], _, ?_, ?_, h2⟩
    · have q1 := Sequential.snoc hs ord (split_executed W hr hgr hlen hw hl1 hl2)
      have hlz : (w.1.parts.zip w.2.parts).length = g.n0 * g.n1 := by simp [hl1, hl2]
      have p1 := runStage_pick (pairs T) (parts T .amount) Prod.fst (arrays := arrays ++
        [(w.1.parts.zip w.2.parts).map (pairs T).up]) (a := stages.length) (l := w.1.parts.zip w.2.parts)
        (by rw [← hal]; simp) hlz
      rw [List.map_fst_zip (by omega)] at p1
      have q2 := Sequential.snoc q1 ord p1
      have p2 := runStage_pick (pairs T) (parts T .amount) Prod.snd (arrays := arrays ++
        [(w.1.parts.zip w.2.parts).map (pairs T).up] ++ [w.1.parts.map (parts T .amount).up]) (a := stages.length)
        (l := w.1.parts.zip w.2.parts) (by rw [← hal]; simp) hlz
      rw [List.map_snd_zip (by omega)] at p2
      have q3 := Sequential.snoc q2 ord p2
      simpa [Call.stages] using q3
    · refine ((((hr.mono _).mono _).mono _).setArr ?_).setArr ?_
      · rw [← hal]
        simp
      · rw [← hal]
        simp
  | aggregate t u dst A x =>
    obtain ⟨s', h1, h2⟩ := hall _ ⟨_, ord, rfl⟩
    have e := runStage_aggregate (parts T t) (scalars T u) A.P A.F (hr.1 t x) (by rw [hgr]; exact ord)
    rw [hgr, hal] at e
    cases hz : Aggregate.aggregateArray A.P A.F (List.range (g.n0 * g.n1)) (s.arr t x) with
    | error err => rw [hz] at h1; exact absurd h1 (by simp [Except.map])
    | ok y =>
      rw [hz] at h1 e
      obtain rfl := Except.ok.inj h1
      obtain ⟨r1, e1, e⟩ := bind_inv e
      refine ⟨arrays ++ [r1] ++ [[(scalars T u).up y]], _, ?_, ?_, h2⟩
      · have q1 := Sequential.snoc hs ord e1
        have q2 := Sequential.snoc (order := [0]) q1 (show IsOrder 1 [0] from List.Perm.refl [0]) e
        simpa [Call.stages] using q2
      · refine ((hr.mono _).mono _).setSc ?_
        rw [← hal]
        simp
  | scalar t₁ t₂ u dst f x y =>
    obtain ⟨s', h1, h2⟩ := hall _ rfl
    obtain rfl := Except.ok.inj h1
    refine ⟨_, _, .snoc hs (List.Perm.refl [0]) (runStage_scalar (scalars T t₁) (scalars T t₂) (scalars T u) f (hr.2 t₁ x)
      (hr.2 t₂ y)), (hr.mono _).setSc ?_, h2⟩
    rw [← hal]
    simp

end Lue.Async

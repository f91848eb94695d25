import Verif.Program.Proofs

/-!
C73: the results of a program do not depend on the partitioning of the arrays, nor on the schedule.
-/
namespace Lue.Program

/-- The partitions are large enough for what remains of a program. -/
def Fits (g : Grid) (p : List Stmt) : Prop := ∀ a ∈ p, a.need ≤ g.p0 ∧ a.need ≤ g.p1

theorem step_simulates {g : Grid} (hg : g.Ok) {p p' : List Stmt} (hp : Fits g p) {s : State} {S S' : Whole}
    (h : Agree g s S) (hm : WholeStep g.a0 g.a1 p S p' S') :
    Fits g p' ∧ (∃ r, Step g p s r) ∧ ∀ r, Step g p s r → ∃ s', r = .ok (p', s') ∧ Agree g s' S' := by
  cases hm with
  | @op o rest _ _ hm =>
    obtain ⟨⟨r, hr⟩, hall⟩ := op_simulates hg (hp (.op o) (by simp)) h hm
    refine ⟨fun a ha => hp a (by simp [ha]), ⟨_, .op hr⟩, fun r hr => ?_⟩
    cases hr with
    | op hr =>
      obtain ⟨s', rfl, hs'⟩ := hall _ hr
      exact ⟨s', rfl, hs'⟩
  | @seq a b rest _ =>
    refine ⟨fun c hc => ?_, ⟨_, .seq⟩, fun r hr => ?_⟩
    · have := hp (.seq a b) (by simp)
      simp only [Stmt.need] at this
      simp only [List.mem_cons] at hc
      rcases hc with rfl | rfl | hc
      · omega
      · omega
      · exact hp c (by simp [hc])
    · cases hr; exact ⟨s, rfl, h⟩
  | @ite t x cond a b rest _ =>
    refine ⟨fun c hc => ?_, ⟨_, .ite⟩, fun r hr => ?_⟩
    · have := hp (.ite t x cond a b) (by simp)
      simp only [Stmt.need] at this
      simp only [List.mem_cons] at hc
      rcases hc with rfl | hc
      · split <;> omega
      · exact hp c (by simp [hc])
    · cases hr; rw [h.sc]; exact ⟨s, rfl, h⟩
  | @loop t x cond a rest _ =>
    refine ⟨fun c hc => ?_, ⟨_, .loop⟩, fun r hr => ?_⟩
    · have := hp (.loop t x cond a) (by simp)
      simp only [Stmt.need] at this
      split at hc
      · simp only [List.mem_cons] at hc
        rcases hc with rfl | rfl | hc
        · exact this
        · exact this
        · exact hp c (by simp [hc])
      · exact hp c (by simp [hc])
    · cases hr; rw [h.sc]; exact ⟨s, rfl, h⟩

/-- Every execution goes through the steps of the program working with whole arrays. -/
theorem steps_simulate {g : Grid} (hg : g.Ok) {n : Nat} {p p' : List Stmt} {S S' : Whole}
    (hm : WholeSteps g.a0 g.a1 n p S p' S') : ∀ {s : State}, Fits g p → Agree g s S →
    (∃ r, Steps g n p s r) ∧ ∀ r, Steps g n p s r → ∃ s', r = .ok (p', s') ∧ Agree g s' S' := by
  induction hm with
  | nil =>
    intro s hp h
    refine ⟨⟨_, .nil⟩, fun r hr => ?_⟩
    cases hr
    exact ⟨s, rfl, h⟩
  | more h1 _ ih =>
    intro s hp h
    obtain ⟨hp', ⟨r, hr⟩, hall⟩ := step_simulates hg hp h h1
    obtain ⟨s', rfl, hs'⟩ := hall r hr
    obtain ⟨⟨r', hr'⟩, _⟩ := ih hp' hs'
    refine ⟨⟨r', .more hr hr'⟩, fun r hr => ?_⟩
    cases hr with
    | more ha hb =>
      obtain ⟨_, e, hs⟩ := hall _ ha
      injection e with e
      injection e with e1 e2
      subst e1 e2
      exact (ih hp' hs).2 _ hb
    | fail ha =>
      obtain ⟨_, e, _⟩ := hall _ ha
      exact absurd e (by simp)

theorem wholeSteps_prefix {a0 a1 n : Nat} {p p' : List Stmt} {S S' : Whole} (h : WholeSteps a0 a1 n p S p' S') :
    ∀ m ≤ n, ∃ q T, WholeSteps a0 a1 m p S q T := by
  induction h with
  | nil => intro m hm; obtain rfl : m = 0 := by omega
           exact ⟨_, _, .nil⟩
  | more h1 _ ih =>
    intro m hm
    cases m with
    | zero => exact ⟨_, _, .nil⟩
    | succ m =>
      obtain ⟨q, T, hq⟩ := ih m (by omega)
      exact ⟨q, T, .more h1 hq⟩

theorem steps_prefix {g : Grid} {n : Nat} {p : List Stmt} {s : State} {r : M (List Stmt × State)} (h : Steps g n p s r) :
    ∀ m ≤ n, (∃ e, Steps g m p s (.error e)) ∨ ∃ q t, Steps g m p s (.ok (q, t)) ∧ Steps g (n - m) q t r := by
  induction h with
  | nil =>
    intro m hm
    obtain rfl : m = 0 := by omega
    exact .inr ⟨_, _, .nil, .nil⟩
  | @more n p s p' s' r h1 h2 ih =>
    intro m hm
    cases m with
    | zero => exact .inr ⟨_, _, .nil, .more h1 h2⟩
    | succ m =>
      rcases ih m (by omega) with ⟨e, he⟩ | ⟨q, t, ha, hb⟩
      · exact .inl ⟨e, .more h1 he⟩
      · refine .inr ⟨q, t, .more h1 ha, ?_⟩
        rw [Nat.succ_sub_succ]
        exact hb
  | @fail n p s e h1 =>
    intro m hm
    cases m with
    | zero => exact .inr ⟨_, _, .nil, .fail h1⟩
    | succ m => exact .inl ⟨e, .fail h1⟩

/-- An outcome of a program: it has been executed completely, or something went wrong. -/
def Outcome (g : Grid) (p : Stmt) (s : State) (r : M State) : Prop :=
  (∃ n s', Steps g n [p] s (.ok ([], s')) ∧ r = .ok s') ∨ ∃ n e, Steps g n [p] s (.error e) ∧ r = .error e

/-- C73: suppose a program, working with whole arrays, computes `S'`. Then, whatever the partitioning and whatever the
schedule, the program comes to an end, nothing goes wrong, and the resulting arrays and scalars agree with `S'`. -/
theorem program_correct {g : Grid} (hg : g.Ok) {p : Stmt} (hp : p.need ≤ g.p0 ∧ p.need ≤ g.p1) {s : State} {S S' : Whole}
    (h : Agree g s S) (hm : Computes g.a0 g.a1 p S S') :
    (∃ r, Outcome g p s r) ∧ (∀ r, Outcome g p s r → ∃ s', r = .ok s' ∧ Agree g s' S') ∧
      ∃ n, (∀ m r, Steps g m [p] s r → m ≤ n) ∧
        ∀ m q t, Steps g m [p] s (.ok (q, t)) → q ≠ [] → ∃ r, Steps g (m + 1) [p] s r := by
  obtain ⟨n, hn⟩ := hm
  have hf : Fits g [p] := by
    intro a ha
    simp only [List.mem_singleton] at ha
    subst ha
    exact hp
  have hmain := steps_simulate hg hn hf h
  have hnostep : ∀ s r, ¬ Step g [] s r := by intro s r hr; cases hr
  -- executions do not take more steps
  have hbound : ∀ m r, Steps g m [p] s r → m ≤ n := by
    intro m r hr
    by_contra hlt
    push Not at hlt
    rcases steps_prefix hr n (by omega) with ⟨e, he⟩ | ⟨q, t, ha, hb⟩
    · obtain ⟨_, e', _⟩ := hmain.2 _ he
      exact absurd e' (by simp)
    · obtain ⟨_, e', _⟩ := hmain.2 _ ha
      injection e' with e'
      injection e' with e1 _
      subst e1
      obtain ⟨k, hk⟩ : ∃ k, m - n = k + 1 := ⟨m - n - 1, by omega⟩
      rw [hk] at hb
      cases hb with
      | more h1 _ => exact hnostep _ _ h1
      | fail h1 => exact hnostep _ _ h1
  have hok : ∀ m r, Steps g m [p] s r → ∃ q T, WholeSteps g.a0 g.a1 m [p] S q T ∧ ∃ s', r = .ok (q, s') ∧ Agree g s' T := by
    intro m r hr
    obtain ⟨q, T, hq⟩ := wholeSteps_prefix hn m (hbound m r hr)
    exact ⟨q, T, hq, (steps_simulate hg hq hf h).2 r hr⟩
  -- a complete execution takes as many steps
  have hlen : ∀ m q t, Steps g m [p] s (.ok (q, t)) → m < n → q ≠ [] := by
    intro m q t hr hlt hq
    subst hq
    obtain ⟨q, T, hq, s', e, hs'⟩ := hok m _ hr
    injection e with e
    injection e with e1 e2
    subst e1
    obtain ⟨q', T', hq'⟩ := wholeSteps_prefix hn (m + 1) (by omega)
    obtain ⟨⟨r', hr'⟩, _⟩ := steps_simulate hg hq' hf h
    rcases steps_prefix hr' m (by omega) with ⟨e, he⟩ | ⟨q'', t'', ha, hb⟩
    · obtain ⟨_, _, _, _, e', _⟩ := hok m _ he
      exact absurd e' (by simp)
    · obtain ⟨_, e', _⟩ := (steps_simulate hg hq hf h).2 _ ha
      injection e' with e'
      injection e' with e1 _
      subst e1
      rw [Nat.add_sub_cancel_left] at hb
      cases hb with
      | more h1 _ => exact hnostep _ _ h1
      | fail h1 => exact hnostep _ _ h1
  refine ⟨?_, ?_, n, hbound, ?_⟩
  · obtain ⟨r, hr⟩ := hmain.1
    obtain ⟨s', rfl, _⟩ := hmain.2 r hr
    exact ⟨_, .inl ⟨n, s', hr, rfl⟩⟩
  · rintro r (⟨m, s', hr, rfl⟩ | ⟨m, e, hr, rfl⟩)
    · have hmn : m = n := by
        by_contra hne
        have := hbound m _ hr
        exact hlen m [] s' hr (by omega) rfl
      subst hmn
      obtain ⟨s'', e, hs''⟩ := hmain.2 _ hr
      injection e with e
      injection e with _ e2
      subst e2
      exact ⟨s', rfl, hs''⟩
    · obtain ⟨_, _, _, _, e', _⟩ := hok m _ hr
      exact absurd e' (by simp)
  · intro m q t hr hq
    have hle := hbound m _ hr
    rcases Nat.lt_or_ge m n with hlt | hge
    · obtain ⟨q1, T, hq1, s1, e, hs1⟩ := hok m _ hr
      injection e with e
      injection e with e1 e2
      subst e1 e2
      obtain ⟨q', T', hq'⟩ := wholeSteps_prefix hn (m + 1) (by omega)
      obtain ⟨⟨r', hr'⟩, _⟩ := steps_simulate hg hq' hf h
      exact ⟨r', hr'⟩
    · obtain rfl : m = n := by omega
      obtain ⟨_, e, _⟩ := hmain.2 _ hr
      injection e with e
      injection e with e1 _
      exact absurd e1 hq

/-- C73: the same program, applied to the same data, gives the same results for every partitioning and every schedule.
The only requirement is that the partitions are large enough for the kernels used. -/
theorem program_partitioning {g g' : Grid} (hg : g.Ok) (hg' : g'.Ok) (h0 : g.a0 = g'.a0) (h1 : g.a1 = g'.a1) {p : Stmt}
    (hp : p.need ≤ g.p0 ∧ p.need ≤ g.p1) (hp' : p.need ≤ g'.p0 ∧ p.need ≤ g'.p1) {s s' : State} {S S' : Whole}
    (h : Agree g s S) (h' : Agree g' s' S) (hm : Computes g.a0 g.a1 p S S') {r r' : M State} (hr : Outcome g p s r)
    (hr' : Outcome g' p s' r') :
    ∃ z z', r = .ok z ∧ r' = .ok z' ∧ (∀ t x, z.sc t x = z'.sc t x) ∧
      ∀ t x v v', Represents (z.arr t x) v → Represents (z'.arr t x) v' → ∀ i j, i < g.a0 → j < g.a1 → v i j = v' i j := by
  obtain ⟨z, rfl, hz⟩ := (program_correct hg hp h hm).2.1 r hr
  rw [h0, h1] at hm
  obtain ⟨z', rfl, hz'⟩ := (program_correct hg' hp' h' hm).2.1 r' hr'
  refine ⟨z, z', rfl, rfl, fun t x => by rw [hz.sc, hz'.sc], fun t x v v' hv hv' i j hi hj => ?_⟩
  rw [hv.unique (hz.arr t x) (by rw [hz.grid]; exact hi) (by rw [hz.grid]; exact hj)]
  rw [hv'.unique (hz'.arr t x) (by rw [hz'.grid, ← h0]; exact hi) (by rw [hz'.grid, ← h1]; exact hj)]

/-- Programs which do not come to an end (a model which keeps on simulating time steps): after any number of steps,
the variables hold the same values for every partitioning and every schedule. -/
theorem program_steps {g g' : Grid} (hg : g.Ok) (hg' : g'.Ok) (h0 : g.a0 = g'.a0) (h1 : g.a1 = g'.a1) {p : Stmt}
    (hp : p.need ≤ g.p0 ∧ p.need ≤ g.p1) (hp' : p.need ≤ g'.p0 ∧ p.need ≤ g'.p1) {s s' : State} {n : Nat}
    {q : List Stmt} {S S' : Whole} (h : Agree g s S) (h' : Agree g' s' S) (hm : WholeSteps g.a0 g.a1 n [p] S q S')
    {r r' : M (List Stmt × State)} (hr : Steps g n [p] s r) (hr' : Steps g' n [p] s' r') :
    ∃ z z', r = .ok (q, z) ∧ r' = .ok (q, z') ∧ Agree g z S' ∧ Agree g' z' S' := by
  have hf : ∀ {g : Grid}, p.need ≤ g.p0 ∧ p.need ≤ g.p1 → Fits g [p] := by
    intro g hp a ha
    simp only [List.mem_singleton] at ha
    subst ha
    exact hp
  obtain ⟨z, rfl, hz⟩ := (steps_simulate hg hm (hf hp) h).2 r hr
  rw [h0, h1] at hm
  obtain ⟨z', rfl, hz'⟩ := (steps_simulate hg' hm (hf hp') h').2 r' hr'
  exact ⟨z, z', rfl, rfl, hz, hz'⟩

end Lue.Program

import Verif.Dataflow.Proofs
import Mathlib.Data.List.Induction

/-!
C74: the results of operations executed asynchronously.
-/
namespace Lue.Dataflow

open Relation

variable {V : Type}

/-- C74: there are no deadlocks and no livelocks. Once nothing can happen anymore, the thread has come to its end, and the
results of all tasks are ready. An execution cannot go on forever. -/
theorem dataflow_ends {s : Script V} (hs : Script.Ok [] s) {c : Config V} (h : Reach (Config.init s) c) :
    (Stuck c → (c.script = .done ∨ ∃ e, c.script = .failed e) ∧ ∀ t, Exists c.stages t → c.ready t ≠ none) ∧
      Acc (fun c' c => Step c c') c := by
  have hi := inv_reach (inv_init hs) h
  exact ⟨fun hst => ⟨stuck_script hi hst, fun t ht => stuck_ready hi hst t.1 t.2 ht⟩, acc_step _ _ _⟩

/-- C74: there is an execution which comes to its end. -/
theorem dataflow_completes {s : Script V} (hs : Script.Ok [] s) : ∃ c, Reach (Config.init s) c ∧ Stuck c := by
  have key : ∀ c : Config V, Acc (fun c' c => Step c c') c → Reach (Config.init s) c → ∃ c, Reach (Config.init s) c ∧ Stuck c := by
    intro c h
    induction h with
    | intro c _ ih =>
      intro hr
      by_cases hst : Stuck c
      · exact ⟨c, hr, hst⟩
      · obtain ⟨c', hc'⟩ := not_forall.1 hst
        have hc' := not_not.1 hc'
        exact ih c' hc' (.step hr hc')
  exact key _ (dataflow_ends hs .refl).2 .refl

/-- C74: a result is what the task computes given the results it depends on. A task which has failed has thrown an
exception, or depends on one which has. In particular, tasks which do not depend on a task that throws are not affected. -/
theorem dataflow_results {s : Script V} (hs : Script.Ok [] s) {c : Config V} (h : Reach (Config.init s) c) {t : Nat × Nat} :
    (∀ v, c.ready t = some (.ok v) → Succeeds c.stages t v) ∧
    (∀ e, c.ready t = some (.error e) → ∃ u, ReflTransGen (Needs c.stages) u t ∧ Throws c.stages u e) ∧
    (Stuck c → Exists c.stages t → ((∃ e, c.ready t = some (.error e)) ↔
      ∃ u e, ReflTransGen (Needs c.stages) u t ∧ Throws c.stages u e)) := by
  have hi := inv_reach (inv_init hs) h
  refine ⟨hi.ok t, hi.error t, fun hst ht => ⟨?_, ?_⟩⟩
  · rintro ⟨e, he⟩
    obtain ⟨u, h1, h2⟩ := hi.error t e he
    exact ⟨u, e, h1, h2⟩
  · rintro ⟨u, e, h1, h2⟩
    have := stuck_ready hi hst t.1 t.2 ht
    cases hr : c.ready t with
    | none => exact absurd hr this
    | some r =>
      cases r with
      | error e => exact ⟨e, rfl⟩
      | ok v => exact (fails_not_succeeds ⟨u, h1, h2⟩ (hi.ok t v hr)).elim

/-- C74: all executions call the same operations, end the same way, and give the same results. Which exception is
reported can differ, if more than one has been thrown. -/
theorem dataflow_deterministic {s : Script V} (hs : Script.Ok [] s) {c c' : Config V} (h : Reach (Config.init s) c)
    (h' : Reach (Config.init s) c') (hst : Stuck c) (hst' : Stuck c') :
    c.stages = c'.stages ∧ (c.script = .done ↔ c'.script = .done) ∧
      (∀ t v, c.ready t = some (.ok v) ↔ c'.ready t = some (.ok v)) ∧
      ∀ t, (∃ e, c.ready t = some (.error e)) ↔ ∃ e, c'.ready t = some (.error e) := by
  have hi := inv_reach (inv_init hs) h
  have hi' := inv_reach (inv_init hs) h'
  have ht := stuck_script hi hst
  have ht' := stuck_script hi' hst'
  obtain ⟨h1, h2⟩ := follows_confluent hi.path ht hi'.path ht'
  simp only at h1 h2
  have hok : ∀ {c c' : Config V}, c.stages = c'.stages → Inv s c → Inv s c' → Stuck c' → ∀ t v,
      c.ready t = some (.ok v) → c'.ready t = some (.ok v) := by
    intro c c' he hi hi' hst' t v hr
    have hsu := hi.ok t v hr
    have hex : Exists c'.stages t := by rw [← he]; exact hi.isTask t (by rw [hr]; simp)
    have := stuck_ready hi' hst' t.1 t.2 hex
    cases hr' : c'.ready t with
    | none => exact absurd hr' this
    | some r =>
      cases r with
      | ok w =>
        have hw := hi'.ok t w hr'
        rw [← he] at hw
        rw [succeeds_unique hsu hw]
      | error e =>
        have hw := hi'.error t e hr'
        rw [← he] at hw
        exact (fails_not_succeeds hw hsu).elim
  have herr : ∀ {c c' : Config V}, c.stages = c'.stages → Inv s c → Inv s c' → Stuck c' → ∀ t,
      (∃ e, c.ready t = some (.error e)) → ∃ e, c'.ready t = some (.error e) := by
    intro c c' he hi hi' hst' t ⟨e, hr⟩
    have hsu := hi.error t e hr
    have hex : Exists c'.stages t := by rw [← he]; exact hi.isTask t (by rw [hr]; simp)
    have := stuck_ready hi' hst' t.1 t.2 hex
    cases hr' : c'.ready t with
    | none => exact absurd hr' this
    | some r =>
      cases r with
      | error e => exact ⟨e, rfl⟩
      | ok w =>
        have hw := hi'.ok t w hr'
        rw [← he] at hw
        exact (fails_not_succeeds hsu hw).elim
  refine ⟨h1, ?_, fun t v => ⟨hok h1 hi hi' hst' t v, hok h1.symm hi' hi hst t v⟩,
    fun t => ⟨herr h1 hi hi' hst' t, herr h1.symm hi' hi hst t⟩⟩
  rcases h2 with h2 | ⟨e, e', h2, h3⟩
  · rw [h2]
  · rw [h2, h3]; simp

/-! ### Operations executed one after the other -/

theorem runTasks_inv {π : Type} {n : Nat} {task : Nat → M π} {order : List Nat} {l : List π}
    (ho : IsOrder n order) (h : runTasks n task order = .ok l) :
    l.length = n ∧ ∀ k < n, ∃ r, l[k]? = some r ∧ task k = .ok r := by
  by_cases hn : n = 0
  · subst hn
    have : order = [] := by simpa [IsOrder] using ho
    subst this
    have e : runTasks 0 task [] = .ok [] := rfl
    rw [e] at h
    obtain rfl := Except.ok.inj h
    exact ⟨rfl, fun k hk => absurd hk (by omega)⟩
  have hall : ∀ k < n, ∃ r, task k = .ok r := by
    intro k hk
    have hmem : k ∈ order := ho.mem_iff.2 (by simpa using hk)
    unfold runTasks at h
    have hfold : ∀ (l : List Nat) (s s' : List (Option π)), l.foldlM (fun (slots : List (Option π)) k => do
        let r ← task k
        wr slots k (some r)) s = .ok s' → ∀ k ∈ l, ∃ r, task k = .ok r := by
      intro l
      induction l with
      | nil => intro s s' _ k hk; simp at hk
      | cons a l ih =>
        intro s s' he k hk
        rw [List.foldlM_cons] at he
        cases ht : task a with
        | error e => rw [ht] at he; exact absurd he (by simp [bind, Except.bind])
        | ok r =>
          rw [ht] at he
          simp only [M.bind_ok] at he
          cases hw : wr s a (some r) with
          | error e => rw [hw] at he; exact absurd he (by simp [bind, Except.bind])
          | ok s1 =>
            rw [hw, M.bind_ok] at he
            rcases List.mem_cons.1 hk with rfl | hk
            · exact ⟨r, ht⟩
            · exact ih s1 s' he k hk
    cases hf : order.foldlM (fun (slots : List (Option π)) k => do
        let r ← task k
        wr slots k (some r)) (List.replicate n none) with
    | error e => rw [hf] at h; exact absurd h (by simp [bind, Except.bind])
    | ok s' => exact hfold _ _ _ hf k hmem
  have hdec : ∃ f : Nat → π, ∀ k < n, task k = .ok (f k) := by
    obtain ⟨r0, _⟩ := hall 0 (by omega)
    classical
    exact ⟨fun k => if hk : k < n then (hall k hk).choose else r0, fun k hk => by
      simp only [dif_pos hk]; exact (hall k hk).choose_spec⟩
  obtain ⟨f, hf⟩ := hdec
  rw [runTasks_ok ho hf] at h
  obtain rfl := Except.ok.inj h
  refine ⟨by simp, fun k hk => ⟨f k, by simp [hk], hf k hk⟩⟩

theorem mapM_inv {α β : Type} {f : α → M β} : ∀ {l : List α} {r : List β}, l.mapM f = .ok r →
    r.length = l.length ∧ ∀ (i : Nat) a b, l[i]? = some a → r[i]? = some b → f a = .ok b := by
  intro l
  induction l with
  | nil => intro r h; obtain rfl := Except.ok.inj h; simp
  | cons a l ih =>
    intro r h
    rw [List.mapM_cons] at h
    cases hf : f a with
    | error e => rw [hf] at h; exact absurd h (by simp [bind, Except.bind])
    | ok b =>
      rw [hf, M.bind_ok] at h
      cases hl : l.mapM f with
      | error e => rw [hl] at h; exact absurd h (by simp [bind, Except.bind])
      | ok bs =>
        rw [hl, M.bind_ok] at h
        obtain rfl := Except.ok.inj h
        obtain ⟨h1, h2⟩ := ih hl
        refine ⟨by simp [h1], fun i x y hx hy => ?_⟩
        cases i with
        | zero => simp at hx hy; subst hx hy; exact hf
        | succ i => simp at hx hy; exact h2 i x y hx hy

theorem mapM_intro {α β : Type} {f : α → M β} : ∀ {l : List α} {r : List β}, r.length = l.length →
    (∀ (i : Nat) a b, l[i]? = some a → r[i]? = some b → f a = .ok b) → l.mapM f = .ok r := by
  intro l
  induction l with
  | nil => intro r hl _; obtain rfl : r = [] := List.length_eq_zero_iff.1 hl; rfl
  | cons a l ih =>
    intro r hl h
    cases r with
    | nil => simp at hl
    | cons b r =>
      rw [List.mapM_cons, h 0 a b rfl rfl, M.bind_ok, ih (by simpa using hl) fun i x y hx hy =>
        h (i + 1) x y (by simpa using hx) (by simpa using hy)]
      rfl

/-- Reading a result. -/
def resultAt (arrays : List (List V)) (d : Nat × Nat) : M V := do rd (← rd arrays d.1) d.2

theorem resultAt_ok {arrays : List (List V)} {d : Nat × Nat} {v : V} : resultAt arrays d = .ok v ↔
    ∃ p, arrays[d.1]? = some p ∧ p[d.2]? = some v := by
  unfold resultAt rd
  cases h : arrays[d.1]? with
  | none => simp [bind, Except.bind]
  | some p =>
    simp only [M.bind_ok]
    cases h' : p[d.2]? with
    | none => simp [h']
    | some w => simp [h']

/-- Results which have been obtained by executing one operation after the other. -/
theorem sequential_succeeds {stages : List (Stage V)} {arrays : List (List V)} (h : Sequential stages arrays) :
    arrays.length = stages.length ∧ (∀ t, Exists stages t → ∃ v, resultAt arrays t = .ok v) ∧
      ∀ t v, resultAt arrays t = .ok v → Succeeds stages t v := by
  induction h with
  | nil =>
    refine ⟨rfl, ?_, ?_⟩
    · rintro t ⟨stage, hs, _⟩; simp at hs
    · intro t v h
      obtain ⟨p, hp, _⟩ := resultAt_ok.1 h
      simp at hp
  | @snoc stages arrays stage order array _ ho hr ih =>
    obtain ⟨hl, hex, hsu⟩ := ih
    obtain ⟨hn, htasks⟩ := runTasks_inv ho hr
    refine ⟨by simp [hl], ?_, ?_⟩
    · rintro t ⟨stage', hs, hk⟩
      by_cases ht : t.1 < stages.length
      · rw [List.getElem?_append_left ht] at hs
        obtain ⟨v, hv⟩ := hex t ⟨stage', hs, hk⟩
        obtain ⟨p, h1, h2⟩ := resultAt_ok.1 hv
        exact ⟨v, resultAt_ok.2 ⟨p, by rw [List.getElem?_append_left (by omega), h1], h2⟩⟩
      · have := (List.getElem?_eq_some_iff.1 hs).1
        have ht' : t.1 = stages.length := by simp at this; omega
        rw [ht'] at hs
        simp at hs
        subst hs
        obtain ⟨r, h1, _⟩ := htasks t.2 hk
        exact ⟨r, resultAt_ok.2 ⟨array, by rw [ht', ← hl]; simp, h1⟩⟩
    · intro t v hv
      obtain ⟨p, h1, h2⟩ := resultAt_ok.1 hv
      by_cases ht : t.1 < stages.length
      · rw [List.getElem?_append_left (by omega)] at h1
        exact succeeds_mono (hsu t v (resultAt_ok.2 ⟨p, h1, h2⟩)) _
      · have := (List.getElem?_eq_some_iff.1 h1).1
        have ht' : t.1 = stages.length := by simp at this; omega
        rw [ht', ← hl] at h1
        simp at h1
        subst h1
        have hk : t.2 < stage.n := by
          have := (List.getElem?_eq_some_iff.1 h2).1
          omega
        obtain ⟨r, h3, h4⟩ := htasks t.2 hk
        obtain rfl : r = v := Option.some.inj (h3.symm.trans h2)
        cases hm : (stage.deps t.2).mapM fun d => do rd (← rd arrays d.1) d.2 with
        | error e => rw [hm] at h4; exact absurd h4 (by simp [bind, Except.bind])
        | ok vs =>
          rw [hm, M.bind_ok] at h4
          obtain ⟨m1, m2⟩ := mapM_inv hm
          have : t = (stages.length, t.2) := by rw [← ht']
          rw [this]
          exact .intro (stage := stage) (by simp) hk m1 (fun i d w e1 e2 => succeeds_mono (hsu d w (m2 i d w e1 e2)) _) h4

theorem succeeds_restrict {stages : List (Stage V)} {stage : Stage V} (ho : Ordered stages) {t : Nat × Nat} {v : V}
    (h : Succeeds (stages ++ [stage]) t v) : t.1 < stages.length → Succeeds stages t v := by
  induction h with
  | @intro a k stage' vs v hs hk hl _ hb ih =>
    intro ha
    simp only at ha
    rw [List.getElem?_append_left ha] at hs
    refine .intro hs hk hl (fun i d w h1 h2 => ih i d w h1 h2 ?_) hb
    have := (ho a stage' hs k hk d (List.mem_of_getElem? h1)).1
    omega

/-- If no task fails, the operations can be executed one after the other. -/
theorem sequential_exists (stages : List (Stage V)) : Ordered stages → (∀ t, Exists stages t → ∃ v, Succeeds stages t v) →
    ∃ arrays, Sequential stages arrays := by
  induction stages using List.reverseRecOn with
  | nil => intro _ _; exact ⟨[], .nil⟩
  | append_singleton stages stage ih =>
    intro hord hall
    have hord' : Ordered stages := by
      intro a s hs k hk d hd
      obtain ⟨h1, s', h2, h3⟩ := hord a s (getElem?_mono hs _) k hk d hd
      have := (List.getElem?_eq_some_iff.1 hs).1
      exact ⟨h1, s', by rwa [List.getElem?_append_left (by omega)] at h2, h3⟩
    obtain ⟨arrays, harr⟩ := ih hord' (fun t ht => by
      obtain ⟨v, hv⟩ := hall t (exists_mono ht _)
      obtain ⟨s, hs, _⟩ := ht
      exact ⟨v, succeeds_restrict hord' hv (List.getElem?_eq_some_iff.1 hs).1⟩)
    obtain ⟨hl, hex, hsu⟩ := sequential_succeeds harr
    have hone : ∀ k < stage.n, ∃ r, (do
        let vs ← (stage.deps k).mapM fun d => do rd (← rd arrays d.1) d.2
        stage.body k vs) = Except.ok r := by
      intro k hk
      have hst : (stages ++ [stage])[stages.length]? = some stage := by simp
      obtain ⟨v, hv⟩ := hall (stages.length, k) ⟨stage, hst, hk⟩
      cases hv with
      | @intro _ _ stage' vs _ hs _ hlen hd hb =>
        obtain rfl : stage = stage' := Option.some.inj (hst.symm.trans hs)
        refine ⟨v, ?_⟩
        rw [mapM_intro hlen (fun i d w e1 e2 => ?_), M.bind_ok, hb]
        obtain ⟨hlt, s', h2, h3⟩ := hord _ stage hst k hk d (List.mem_of_getElem? e1)
        rw [List.getElem?_append_left (by omega)] at h2
        obtain ⟨w', hw'⟩ := hex d ⟨s', h2, h3⟩
        have := succeeds_unique (succeeds_mono (hsu d w' hw') [stage]) (hd i d w e1 e2)
        subst this
        exact hw'
    by_cases hn : stage.n = 0
    · refine ⟨arrays ++ [[]], .snoc (order := []) harr (by rw [hn]; exact List.Perm.refl _) ?_⟩
      unfold runStage
      rw [hn]
      rfl
    · obtain ⟨r0, _⟩ := hone 0 (by omega)
      classical
      refine ⟨_, .snoc harr (List.Perm.refl (List.range stage.n)) (runTasks_ok (List.Perm.refl _)
        (r := fun k => if hk : k < stage.n then (hone k hk).choose else r0) fun k hk => ?_)⟩
      simp only [dif_pos hk]
      exact (hone k hk).choose_spec

/-- C74: executing operations asynchronously gives the results of executing the operations one after the other, in any
order of completion of the tasks of each operation. No task fails if and only if this is the case for operations executed
one after the other. -/
theorem dataflow_sequential {s : Script V} (hs : Script.Ok [] s) {c : Config V} (h : Reach (Config.init s) c)
    (hst : Stuck c) :
    ((∀ t e, c.ready t ≠ some (.error e)) ↔ ∃ arrays, Sequential c.stages arrays) ∧
      ∀ arrays, Sequential c.stages arrays → arrays.length = c.stages.length ∧
        ∀ t v, c.ready t = some (.ok v) ↔ ∃ array, arrays[t.1]? = some array ∧ array[t.2]? = some v := by
  have hi := inv_reach (inv_init hs) h
  have hval : ∀ arrays, Sequential c.stages arrays → ∀ t, Exists c.stages t →
      ∃ v, resultAt arrays t = .ok v ∧ c.ready t = some (.ok v) := by
    intro arrays ha t ht
    obtain ⟨_, hex, hsu⟩ := sequential_succeeds ha
    obtain ⟨v, hv⟩ := hex t ht
    refine ⟨v, hv, ?_⟩
    have := stuck_ready hi hst t.1 t.2 ht
    cases hr : c.ready t with
    | none => exact absurd hr this
    | some r =>
      cases r with
      | ok w => rw [succeeds_unique (hi.ok t w hr) (hsu t v hv)]
      | error e => exact (fails_not_succeeds (hi.error t e hr) (hsu t v hv)).elim
  refine ⟨⟨fun hno => ?_, ?_⟩, ?_⟩
  · refine sequential_exists _ hi.ordered fun t ht => ?_
    have := stuck_ready hi hst t.1 t.2 ht
    cases hr : c.ready t with
    | none => exact absurd hr this
    | some r =>
      cases r with
      | ok w => exact ⟨w, hi.ok t w hr⟩
      | error e => exact absurd hr (hno t e)
  · rintro ⟨arrays, ha⟩ t e he
    obtain ⟨v, _, hv⟩ := hval arrays ha t (hi.isTask t (by rw [he]; simp))
    rw [hv] at he
    exact absurd he (by simp)
  · intro arrays ha
    obtain ⟨hl, _, hsu⟩ := sequential_succeeds ha
    refine ⟨hl, fun t v => ?_⟩
    rw [← resultAt_ok]
    constructor
    · intro hr
      obtain ⟨w, h1, h2⟩ := hval arrays ha t (hi.isTask t (by rw [hr]; simp))
      rw [hr] at h2
      rw [h1, Except.ok.inj (Option.some.inj h2)]
    · intro hr
      obtain ⟨stage, hs, hk, _⟩ : ∃ stage, c.stages[t.1]? = some stage ∧ t.2 < stage.n ∧ True := by
        cases hsu t v hr with
        | intro hs hk _ _ _ => exact ⟨_, hs, hk, trivial⟩
      obtain ⟨w, h1, h2⟩ := hval arrays ha t ⟨stage, hs, hk⟩
      rw [h1] at hr
      rw [h2, Except.ok.inj hr]

end Lue.Dataflow

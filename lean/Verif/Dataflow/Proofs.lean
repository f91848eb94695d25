import Verif.Dataflow.Model
import Mathlib.Logic.Relation
import Mathlib.Data.List.Basic

/-! C74: proofs. -/
namespace Lue.Dataflow

open Relation

variable {V : Type} {stages : List (Stage V)}

/-- A task fails: it throws an exception, or it depends, possibly indirectly, on a task which does. -/
def Fails (stages : List (Stage V)) (t : Nat × Nat) (e : Err) : Prop :=
  ∃ u, ReflTransGen (Needs stages) u t ∧ Throws stages u e

theorem ext_of_pointwise {R : Nat × Nat → V → Prop} (hR : ∀ d v w, R d v → R d w → v = w) {deps : List (Nat × Nat)}
    {vs ws : List V} (hl : vs.length = deps.length) (hl' : ws.length = deps.length)
    (h : ∀ (i : Nat) d w, deps[i]? = some d → vs[i]? = some w → R d w)
    (h' : ∀ (i : Nat) d w, deps[i]? = some d → ws[i]? = some w → R d w) : vs = ws := by
  apply List.ext_getElem (by omega)
  intro i h1 h2
  have hd : deps[i]? = some deps[i] := List.getElem?_eq_getElem (by omega)
  exact hR deps[i] _ _ (h i _ _ hd (List.getElem?_eq_getElem h1)) (h' i _ _ hd (List.getElem?_eq_getElem h2))

/-- The result of a task is determined. -/
theorem succeeds_unique {t : Nat × Nat} {v : V} (h : Succeeds stages t v) : ∀ {w : V}, Succeeds stages t w → v = w := by
  induction h with
  | @intro a k stage vs v hs hk hl _ hb ih =>
    intro w hw
    cases hw with
    | @intro _ _ stage' vs' _ hs' hk' hl' hd' hb' =>
      obtain rfl : stage = stage' := Option.some.inj (hs.symm.trans hs')
      have : vs = vs' := by
        apply List.ext_getElem (by omega)
        intro i h1 h2
        have hd : (stage.deps k)[i]? = some (stage.deps k)[i] := List.getElem?_eq_getElem (by omega)
        exact ih i _ _ hd (List.getElem?_eq_getElem h1) (hd' i _ _ hd (List.getElem?_eq_getElem h2))
      subst this
      rw [hb] at hb'
      exact Except.ok.inj hb'

theorem succeeds_dep {d t : Nat × Nat} {v : V} (h : Succeeds stages t v) (hn : Needs stages d t) :
    ∃ w, Succeeds stages d w := by
  cases h with
  | @intro a k stage vs v hs hk hl hd hb =>
    obtain ⟨stage', hs', _, hm⟩ := hn
    obtain rfl : stage = stage' := Option.some.inj (hs.symm.trans hs')
    obtain ⟨i, hi, he⟩ := List.mem_iff_getElem.1 hm
    exact ⟨vs[i]'(by simp only at hi; omega), hd i d _ (by rw [List.getElem?_eq_getElem hi, he]) (List.getElem?_eq_getElem _)⟩

theorem succeeds_upstream {d t : Nat × Nat} (hn : ReflTransGen (Needs stages) d t) :
    ∀ {v : V}, Succeeds stages t v → ∃ w, Succeeds stages d w := by
  induction hn with
  | refl => intro v h; exact ⟨v, h⟩
  | tail _ h2 ih =>
    intro v h
    obtain ⟨w, hw⟩ := succeeds_dep h h2
    exact ih hw

theorem throws_not_succeeds {t : Nat × Nat} {e : Err} {v : V} (h : Throws stages t e) (h' : Succeeds stages t v) : False := by
  obtain ⟨stage, vs, hs, hk, hl, hd, hb⟩ := h
  cases h' with
  | @intro a k stage' vs' v hs' hk' hl' hd' hb' =>
    obtain rfl : stage = stage' := Option.some.inj (hs.symm.trans hs')
    have : vs = vs' := ext_of_pointwise (R := Succeeds stages) (fun _ _ _ h1 h2 => succeeds_unique h1 h2) hl hl' hd hd'
    subst this
    rw [hb] at hb'
    exact absurd hb' (by simp)

/-- A task does not both succeed and fail. -/
theorem fails_not_succeeds {t : Nat × Nat} {e : Err} {v : V} (h : Fails stages t e) (h' : Succeeds stages t v) : False := by
  obtain ⟨u, hn, hu⟩ := h
  obtain ⟨w, hw⟩ := succeeds_upstream hn h'
  exact throws_not_succeeds hu hw

theorem getElem?_mono {a : Nat} {stage : Stage V} (h : stages[a]? = some stage) (extra : List (Stage V)) :
    (stages ++ extra)[a]? = some stage := by
  have := (List.getElem?_eq_some_iff.1 h).1
  rw [List.getElem?_append_left this, h]

theorem exists_mono {t : Nat × Nat} (h : Exists stages t) (extra : List (Stage V)) : Exists (stages ++ extra) t := by
  obtain ⟨stage, hs, hk⟩ := h
  exact ⟨stage, getElem?_mono hs extra, hk⟩

theorem succeeds_mono {t : Nat × Nat} {v : V} (h : Succeeds stages t v) (extra : List (Stage V)) :
    Succeeds (stages ++ extra) t v := by
  induction h with
  | intro hs hk hl _ hb ih => exact .intro (getElem?_mono hs extra) hk hl ih hb

theorem fails_mono {t : Nat × Nat} {e : Err} (h : Fails stages t e) (extra : List (Stage V)) :
    Fails (stages ++ extra) t e := by
  obtain ⟨u, hn, stage, vs, hs, hk, hl, hd, hb⟩ := h
  refine ⟨u, ?_, stage, vs, getElem?_mono hs extra, hk, hl, fun i d w h1 h2 => succeeds_mono (hd i d w h1 h2) extra, hb⟩
  refine ReflTransGen.mono ?_ _ _ hn
  rintro d t ⟨stage, hs, hk, hm⟩
  exact ⟨stage, getElem?_mono hs extra, hk, hm⟩

/-- Tasks depend on tasks of operations called before. -/
def Ordered (stages : List (Stage V)) : Prop :=
  ∀ a stage, stages[a]? = some stage → ∀ k < stage.n, ∀ d ∈ stage.deps k, d.1 < a ∧ Exists stages d

theorem ordered_snoc (h : Ordered stages) {stage : Stage V} (hd : ∀ k < stage.n, ∀ d ∈ stage.deps k, Exists stages d) :
    Ordered (stages ++ [stage]) := by
  intro a stage' hs k hk d hm
  by_cases ha : a < stages.length
  · rw [List.getElem?_append_left ha] at hs
    obtain ⟨h1, h2⟩ := h a stage' hs k hk d hm
    exact ⟨h1, exists_mono h2 _⟩
  · have hlen : a < (stages ++ [stage]).length := (List.getElem?_eq_some_iff.1 hs).1
    have ha' : a = stages.length := by simp at hlen; omega
    subst ha'
    simp at hs
    subst hs
    have := hd k hk d hm
    refine ⟨?_, exists_mono this _⟩
    obtain ⟨s, hs, _⟩ := this
    exact (List.getElem?_eq_some_iff.1 hs).1

/-- Every task either succeeds or fails. -/
theorem succeeds_or_fails (h : Ordered stages) : ∀ (a : Nat) (k : Nat), Exists stages (a, k) →
    (∃ v, Succeeds stages (a, k) v) ∨ ∃ e, Fails stages (a, k) e := by
  intro a
  induction a using Nat.strong_induction_on with
  | _ a ih =>
    rintro k ⟨stage, hs, hk⟩
    have hdeps : ∀ d ∈ stage.deps k, (∃ v, Succeeds stages d v) ∨ ∃ e, Fails stages d e := by
      intro d hd
      obtain ⟨h1, h2⟩ := h a stage hs k hk d hd
      exact ih d.1 h1 d.2 h2
    by_cases hall : ∀ d ∈ stage.deps k, ∃ v, Succeeds stages d v
    · obtain ⟨vs, hl, hv⟩ : ∃ vs : List V, vs.length = (stage.deps k).length ∧
          ∀ (i : Nat) (d : Nat × Nat) (w : V), (stage.deps k)[i]? = some d → vs[i]? = some w → Succeeds stages d w := by
        have : ∀ deps : List (Nat × Nat), (∀ d ∈ deps, ∃ v, Succeeds stages d v) → ∃ vs : List V, vs.length = deps.length ∧
            ∀ (i : Nat) (d : Nat × Nat) (w : V), deps[i]? = some d → vs[i]? = some w → Succeeds stages d w := by
          intro deps
          induction deps with
          | nil => intro _; exact ⟨[], rfl, by simp⟩
          | cons d deps ih =>
            intro hd
            obtain ⟨v, hv⟩ := hd d (by simp)
            obtain ⟨vs, hl, hvs⟩ := ih fun d hd' => hd d (by simp [hd'])
            refine ⟨v :: vs, by simp [hl], fun i d' w h1 h2 => ?_⟩
            cases i with
            | zero => simp at h1 h2; subst h1 h2; exact hv
            | succ i => simp at h1 h2; exact hvs i d' w h1 h2
        exact this _ hall
      cases hb : stage.body k vs with
      | ok v => exact .inl ⟨v, .intro hs hk hl hv hb⟩
      | error e => exact .inr ⟨e, (a, k), .refl, stage, vs, hs, hk, hl, hv, hb⟩
    · push Not at hall
      obtain ⟨d, hd, hno⟩ := hall
      rcases hdeps d hd with ⟨v, hv⟩ | ⟨e, u, hu, ht⟩
      · exact absurd hv (hno v)
      · exact .inr ⟨e, u, hu.tail ⟨stage, hs, hk, hd⟩, ht⟩

/-! ### Invariant -/

/-- A step of the thread, given what the tasks result in. -/
inductive Follows : List (Stage V) × Script V → List (Stage V) × Script V → Prop
  | issue {stages stage rest} : Follows (stages, .issue stage rest) (stages ++ [stage], rest)
  | get {stages t rest v} : Succeeds stages t v → Follows (stages, .get t rest) (stages, rest v)
  | throw {stages t rest e} : Fails stages t e → Follows (stages, .get t rest) (stages, .failed e)

structure Inv (s : Script V) (c : Config V) : Prop where
  ok : ∀ t v, c.ready t = some (.ok v) → Succeeds c.stages t v
  error : ∀ t e, c.ready t = some (.error e) → Fails c.stages t e
  script : Script.Ok c.stages c.script
  ordered : Ordered c.stages
  isTask : ∀ t, c.ready t ≠ none → Exists c.stages t
  path : ReflTransGen Follows ([], s) (c.stages, c.script)

theorem inv_init {s : Script V} (h : Script.Ok [] s) : Inv s (Config.init s) :=
  ⟨fun _ _ h => absurd h (by simp [Config.init]), fun _ _ h => absurd h (by simp [Config.init]), h,
    fun a stage hs => absurd hs (by simp [Config.init]), fun _ h => absurd rfl h, .refl⟩

theorem settles_ok_deps {ready : Nat × Nat → Option (M V)} {deps : List (Nat × Nat)} {vs : List V}
    (h : deps.map ready = vs.map (fun v => some (.ok v))) : vs.length = deps.length ∧
      ∀ (i : Nat) (d : Nat × Nat) (w : V), deps[i]? = some d → vs[i]? = some w → ready d = some (.ok w) := by
  have hl : vs.length = deps.length := by have := congrArg List.length h; simpa using this.symm
  refine ⟨hl, fun i d w h1 h2 => ?_⟩
  have := congrArg (fun l => l[i]?) h
  simp only [List.getElem?_map, h1, h2, Option.map_some] at this
  exact Option.some.inj this

theorem inv_step {s : Script V} {c c' : Config V} (h : Inv s c) (hs : Step c c') : Inv s c' := by
  obtain ⟨h1, h2, h3, h4, h5, h6⟩ := h
  cases hs with
  | issue =>
    cases h3 with
    | issue hd hr =>
      exact ⟨fun t v ht => succeeds_mono (h1 t v ht) _, fun t e ht => fails_mono (h2 t e ht) _, hr, ordered_snoc h4 hd,
        fun t ht => exists_mono (h5 t ht) _, h6.tail .issue⟩
  | get hr =>
    cases h3 with
    | get ht hrest => exact ⟨h1, h2, hrest _, h4, h5, h6.tail (.get (h1 _ _ hr))⟩
  | throw hr => exact ⟨h1, h2, .failed, h4, h5, h6.tail (.throw (h2 _ _ hr))⟩
  | @task script stages ready a k stage r hst hk hnone hset =>
    refine ⟨?_, ?_, h3, h4, ?_, h6⟩
    · intro t v ht
      simp only at ht
      by_cases e : t = (a, k)
      · subst e
        rw [Function.update_self] at ht
        obtain rfl := Option.some.inj ht
        generalize hr : Except.ok v = r at hset
        cases hset with
        | @ok vs hvs =>
          obtain ⟨hl, hd⟩ := settles_ok_deps hvs
          exact .intro hst hk hl (fun i d w e1 e2 => h1 d w (hd i d w e1 e2)) hr.symm
        | error => exact absurd hr (by simp)
      · rw [Function.update_of_ne e] at ht
        exact h1 t v ht
    · intro t x ht
      simp only at ht
      by_cases e : t = (a, k)
      · subst e
        rw [Function.update_self] at ht
        obtain rfl := Option.some.inj ht
        generalize hr : Except.error x = r at hset
        cases hset with
        | @ok vs hvs =>
          obtain ⟨hl, hd⟩ := settles_ok_deps hvs
          exact ⟨(a, k), .refl, stage, vs, hst, hk, hl, fun i d w e1 e2 => h1 d w (hd i d w e1 e2), hr.symm⟩
        | @error d e' _ hm hde =>
          obtain rfl : x = e' := Except.error.inj hr
          obtain ⟨u, hu, hth⟩ := h2 d x hde
          exact ⟨u, hu.tail ⟨stage, hst, hk, hm⟩, hth⟩
      · rw [Function.update_of_ne e] at ht
        exact h2 t x ht
    · intro t ht
      simp only at ht
      by_cases e : t = (a, k)
      · subst e; exact ⟨stage, hst, hk⟩
      · rw [Function.update_of_ne e] at ht
        exact h5 t ht

theorem inv_reach {s : Script V} {c c' : Config V} (h : Inv s c) (hr : Reach c c') : Inv s c' := by
  induction hr with
  | refl => exact h
  | step _ h2 ih => exact inv_step ih h2

/-! ### Progress -/

theorem settles_exists {ready : Nat × Nat → Option (M V)} (deps : List (Nat × Nat)) (body : List V → M V)
    (h : ∀ d ∈ deps, ready d ≠ none) : ∃ r, Settles ready deps body r := by
  by_cases he : ∃ d ∈ deps, ∃ e, ready d = some (.error e)
  · obtain ⟨d, hd, e, hde⟩ := he
    exact ⟨_, .error h hd hde⟩
  · push Not at he
    have : ∀ deps : List (Nat × Nat), (∀ d ∈ deps, ready d ≠ none) → (∀ d ∈ deps, ∀ e, ready d ≠ some (.error e)) →
        ∃ vs : List V, deps.map ready = vs.map (fun v => some (.ok v)) := by
      intro deps
      induction deps with
      | nil => intro _ _; exact ⟨[], rfl⟩
      | cons d deps ih =>
        intro h1 h2
        obtain ⟨vs, hvs⟩ := ih (fun d hd => h1 d (by simp [hd])) (fun d hd => h2 d (by simp [hd]))
        cases hd : ready d with
        | none => exact absurd hd (h1 d (by simp))
        | some r =>
          cases r with
          | error e => exact absurd hd (h2 d (by simp) e)
          | ok v => exact ⟨v :: vs, by simp [hd, hvs]⟩
    obtain ⟨vs, hvs⟩ := this deps h he
    exact ⟨_, .ok hvs⟩

theorem stuck_ready {s : Script V} {c : Config V} (h : Inv s c) (hst : Stuck c) : ∀ (a k : Nat), Exists c.stages (a, k) →
    c.ready (a, k) ≠ none := by
  intro a
  induction a using Nat.strong_induction_on with
  | _ a ih =>
    rintro k ⟨stage, hs, hk⟩ hnone
    obtain ⟨r, hr⟩ := settles_exists (ready := c.ready) (stage.deps k) (stage.body k) (fun d hd => by
      obtain ⟨h1, h2⟩ := h.ordered a stage hs k hk d hd
      exact ih d.1 h1 d.2 h2)
    exact hst _ (.task hs hk hnone hr)

theorem stuck_script {s : Script V} {c : Config V} (h : Inv s c) (hst : Stuck c) :
    c.script = .done ∨ ∃ e, c.script = .failed e := by
  have hok := h.script
  rcases c with ⟨script, stages, ready⟩
  cases script with
  | done => exact .inl rfl
  | failed e => exact .inr ⟨e, rfl⟩
  | issue stage rest => exact absurd .issue (hst _)
  | get t rest =>
    cases hok with
    | get ht _ =>
      have := stuck_ready h hst t.1 t.2 ht
      cases hr : ready t with
      | none => exact absurd hr this
      | some r =>
        cases r with
        | ok v => exact absurd (.get hr) (hst _)
        | error e => exact absurd (.throw hr) (hst _)

/-! ### Termination -/

/-- The tasks of a number of operations. -/
def allTasks (stages : List (Stage V)) : List (Nat × Nat) :=
  (List.range stages.length).flatMap fun a => (List.range ((stages[a]?.map Stage.n).getD 0)).map fun k => (a, k)

theorem mem_allTasks {t : Nat × Nat} (h : Exists stages t) : t ∈ allTasks stages := by
  obtain ⟨stage, hs, hk⟩ := h
  have := (List.getElem?_eq_some_iff.1 hs).1
  simp only [allTasks, List.mem_flatMap, List.mem_range, List.mem_map]
  exact ⟨t.1, this, t.2, by rw [hs]; exact hk, rfl⟩

def pending (c : Config V) : Nat := (allTasks c.stages).countP fun t => (c.ready t).isNone

theorem countP_lt {α : Type} {p q : α → Bool} {l : List α} (h : ∀ a, q a = true → p a = true) {x : α} (hx : x ∈ l)
    (hp : p x = true) (hq : q x = false) : l.countP q < l.countP p := by
  induction l with
  | nil => simp at hx
  | cons b l ih =>
    have hle : l.countP q ≤ l.countP p := List.countP_mono_left fun a _ => h a
    simp only [List.countP_cons]
    rcases List.mem_cons.1 hx with rfl | hx
    · rw [hp, hq]; simp; omega
    · have := ih hx
      have hb := h b
      cases hqb : q b <;> cases hpb : p b <;> simp_all
      omega

theorem acc_step : ∀ (s : Script V) (stages : List (Stage V)) (ready : Nat × Nat → Option (M V)),
    Acc (fun c' c => Step c c') (⟨s, stages, ready⟩ : Config V) := by
  -- tasks only, given what the thread can do next
  have key : ∀ (s : Script V), (∀ stages ready c', Step (⟨s, stages, ready⟩ : Config V) c' →
      (∃ r, c' = ⟨s, stages, r⟩ ∧ pending c' < pending ⟨s, stages, ready⟩) ∨ Acc (fun c' c => Step c c') c') →
      ∀ (n : Nat) stages ready, pending (⟨s, stages, ready⟩ : Config V) = n →
        Acc (fun c' c => Step c c') (⟨s, stages, ready⟩ : Config V) := by
    intro s hs n
    induction n using Nat.strong_induction_on with
    | _ n ih =>
      intro stages ready hn
      refine ⟨_, fun c' hc' => ?_⟩
      rcases hs stages ready c' hc' with ⟨r, rfl, hlt⟩ | hacc
      · exact ih _ (by omega) stages r rfl
      · exact hacc
  have htask : ∀ (s : Script V) (stages : List (Stage V)) (ready : Nat × Nat → Option (M V)) {a k : Nat} {stage : Stage V} {r : M V},
      stages[a]? = some stage → k < stage.n → ready (a, k) = none →
      pending (⟨s, stages, Function.update ready (a, k) (some r)⟩ : Config V) < pending ⟨s, stages, ready⟩ := by
    intro s stages ready a k stage r h1 h2 h3
    refine countP_lt (x := (a, k)) ?_ (mem_allTasks (t := (a, k)) ⟨stage, h1, h2⟩) (by simp [h3]) (by simp)
    intro t ht
    by_cases e : t = (a, k)
    · subst e; simp at ht
    · simpa [Function.update_of_ne e] using ht
  have hfailed : ∀ e stages ready, Acc (fun c' c => Step c c') (⟨.failed e, stages, ready⟩ : Config V) := by
    intro e stages ready
    refine key (.failed e) (fun stages ready c' hc' => ?_) _ stages ready rfl
    cases hc' with
    | task h1 h2 h3 h4 => exact .inl ⟨_, rfl, htask _ _ _ h1 h2 h3⟩
  intro s
  induction s with
  | done =>
    intro stages ready
    refine key .done (fun stages ready c' hc' => ?_) _ stages ready rfl
    cases hc' with
    | task h1 h2 h3 h4 => exact .inl ⟨_, rfl, htask _ _ _ h1 h2 h3⟩
  | failed e => exact hfailed e
  | issue stage rest ih =>
    intro stages ready
    refine key _ (fun stages ready c' hc' => ?_) _ stages ready rfl
    cases hc' with
    | issue => exact .inr (ih _ _)
    | task h1 h2 h3 h4 => exact .inl ⟨_, rfl, htask _ _ _ h1 h2 h3⟩
  | get t rest ih =>
    intro stages ready
    refine key _ (fun stages ready c' hc' => ?_) _ stages ready rfl
    cases hc' with
    | get => exact .inr (ih _ _ _)
    | throw => exact .inr (hfailed _ _ _)
    | task h1 h2 h3 h4 => exact .inl ⟨_, rfl, htask _ _ _ h1 h2 h3⟩

/-! ### Determinism -/

def Terminal (x : List (Stage V) × Script V) : Prop := x.2 = .done ∨ ∃ e, x.2 = .failed e

theorem terminal_stop {x y : List (Stage V) × Script V} (h : Terminal x) (hf : ReflTransGen Follows x y) : y = x := by
  rcases hf.cases_head with e | ⟨z, hz, _⟩
  · exact e.symm
  · exfalso
    rcases x with ⟨st, s⟩
    rcases h with h | ⟨e, h⟩ <;> simp only at h <;> subst h <;> cases hz

theorem follows_confluent {x y : List (Stage V) × Script V} (hy : ReflTransGen Follows x y) (ty : Terminal y) :
    ∀ {z}, ReflTransGen Follows x z → Terminal z →
      y.1 = z.1 ∧ (y.2 = z.2 ∨ ∃ e e', y.2 = .failed e ∧ z.2 = .failed e') := by
  induction hy using ReflTransGen.head_induction_on with
  | refl =>
    intro z hz tz
    rw [terminal_stop ty hz]
    exact ⟨rfl, .inl rfl⟩
  | head h1 h2 ih =>
    intro z hz tz
    rcases hz.cases_head with e | ⟨w, hw, hwz⟩
    · subst e
      exfalso
      rename_i x x1
      rcases x with ⟨st, s⟩
      rcases tz with h | ⟨e, h⟩ <;> simp only at h <;> subst h <;> cases h1
    · cases h1 with
      | issue => cases hw with
        | issue => exact ih hwz tz
      | get hv => cases hw with
        | get hv' => rw [succeeds_unique hv' hv] at hwz; exact ih hwz tz
        | throw he => exact (fails_not_succeeds he hv).elim
      | throw he => cases hw with
        | get hv' => exact (fails_not_succeeds he hv').elim
        | throw he' =>
          rw [terminal_stop (.inr ⟨_, rfl⟩) h2, terminal_stop (.inr ⟨_, rfl⟩) hwz]
          exact ⟨rfl, .inr ⟨_, _, rfl, rfl⟩⟩

end Lue.Dataflow

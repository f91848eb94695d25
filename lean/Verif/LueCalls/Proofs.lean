import Verif.LueCalls.Orders

/-!
# Invariants of runs
-/
namespace Lue.LueCalls

variable {F : Type}

/-- The calls have determined what they are supposed to. All arrays have partitions. -/
structure Program.Ok (p : Program F) : Prop where
  info : ∀ c call, p.calls[c]? = some call → ∃ info, p.infos[c]? = some info ∧ InfoOk p.threadSafe p.calls c call info
  nonempty : ∀ call ∈ p.calls, call.localities ≠ []

theorem Program.Does.ok {p : Program F} {threadSafe : Bool} {calls : List Call} {effect : Nat → Nat → F → F}
    (h : p.Does threadSafe calls effect) (hn : ∀ call ∈ calls, call.localities ≠ []) : p.Ok := by
  obtain ⟨h1, h2, h3, -⟩ := h
  obtain ⟨infos, h4, -, h5⟩ := registerAll_ok threadSafe calls
  rw [h3] at h4; cases h4
  rw [← h2] at h5 hn
  rw [← h1] at h5
  exact ⟨h5, hn⟩

theorem exists_does (threadSafe : Bool) (calls : List Call) (effect : Nat → Nat → F → F) :
    ∃ p : Program F, p.Does threadSafe calls effect := by
  obtain ⟨infos, h, -⟩ := registerAll_ok threadSafe calls
  exact ⟨⟨threadSafe, calls, infos, effect⟩, rfl, rfl, h, rfl⟩

/-- A step of a task -/
inductive TaskStep (p : Program F) (s : State F) (c i : Nat) (call : Call) (info : Info) (l : Nat) : State F → Prop where
  | launch : s.phase c i = .idle → mayLaunch p s c i call info = true → TaskStep p s c i call info l
      { s.setPhase c i .launched with error := s.error || !launchAsserts p s l call info }
  | opens : s.phase c i = .launched → mayOpen p s l call info = true → TaskStep p s c i call info l (s.setPhase c i .opened)
  | work : s.phase c i = .opened → TaskStep p s c i call info l
      { s.setPhase c i .closing with
        file := if call.write then p.effect c i s.file else s.file
        error := s.error || !closeAsserts p s l call info }
  | close : s.phase c i = .closing → mayClose p s l call info = true → TaskStep p s c i call info l (s.setPhase c i .closed)

theorem task_some {p : Program F} {s : State F} {c i : Nat} {call : Call} {info : Info} {l : Nat} :
    task p s c i = some (call, info, l) ↔
      p.calls[c]? = some call ∧ p.infos[c]? = some info ∧ call.localities[i]? = some l ∧ c < s.made := by
  unfold task
  cases h1 : p.calls[c]? with
  | none => simp
  | some call' =>
    cases h2 : p.infos[c]? with
    | none => simp
    | some info' =>
      cases h3 : call'.localities[i]? with
      | none =>
        simp [h3]
        rintro rfl rfl h4
        rw [h3] at h4; cases h4
      | some l' =>
        by_cases h4 : c < s.made
        · simp [h3, h4]
          rintro rfl rfl
          rw [h3]; simp
        · simp [h3, h4]

theorem step_cases {p : Program F} {s s' : State F} {a : Action} (h : step p s a = some s') :
    (s.made < p.calls.length ∧ s' = { s with made := s.made + 1 }) ∨
    ∃ c i call info l, p.calls[c]? = some call ∧ p.infos[c]? = some info ∧ call.localities[i]? = some l ∧ c < s.made ∧
      TaskStep p s c i call info l s' := by
  cases a with
  | call =>
    simp only [step] at h
    split at h
    · cases h; exact Or.inl ⟨by assumption, rfl⟩
    · cases h
  | launch c i =>
    right
    simp only [step, launch] at h
    cases ht : task p s c i with
    | none => rw [ht] at h; cases h
    | some t =>
      obtain ⟨call, info, l⟩ := t
      rw [ht] at h
      simp only [Option.bind_eq_bind, Option.bind_some] at h
      split at h
      · rename_i h1
        cases h
        obtain ⟨h2, h3, h4, h5⟩ := task_some.mp ht
        exact ⟨c, i, call, info, l, h2, h3, h4, h5, .launch h1.1 h1.2⟩
      · cases h
  | «open» c i =>
    right
    simp only [step, openDataset] at h
    cases ht : task p s c i with
    | none => rw [ht] at h; cases h
    | some t =>
      obtain ⟨call, info, l⟩ := t
      rw [ht] at h
      simp only [Option.bind_eq_bind, Option.bind_some] at h
      split at h
      · rename_i h1
        cases h
        obtain ⟨h2, h3, h4, h5⟩ := task_some.mp ht
        exact ⟨c, i, call, info, l, h2, h3, h4, h5, .opens h1.1 h1.2⟩
      · cases h
  | work c i =>
    right
    simp only [step, work] at h
    cases ht : task p s c i with
    | none => rw [ht] at h; cases h
    | some t =>
      obtain ⟨call, info, l⟩ := t
      rw [ht] at h
      simp only [Option.bind_eq_bind, Option.bind_some] at h
      split at h
      · rename_i h1
        cases h
        obtain ⟨h2, h3, h4, h5⟩ := task_some.mp ht
        exact ⟨c, i, call, info, l, h2, h3, h4, h5, .work h1⟩
      · cases h
  | close c i =>
    right
    simp only [step, close] at h
    cases ht : task p s c i with
    | none => rw [ht] at h; cases h
    | some t =>
      obtain ⟨call, info, l⟩ := t
      rw [ht] at h
      simp only [Option.bind_eq_bind, Option.bind_some] at h
      split at h
      · rename_i h1
        cases h
        obtain ⟨h2, h3, h4, h5⟩ := task_some.mp ht
        exact ⟨c, i, call, info, l, h2, h3, h4, h5, .close h1.1 h1.2⟩
      · cases h

/-- Number of steps done by a task -/
def Phase.num : Phase → Nat
  | .idle => 0
  | .launched => 1
  | .opened => 2
  | .closing => 3
  | .closed => 4

theorem TaskStep.phase {p : Program F} {s s' : State F} {c i : Nat} {call : Call} {info : Info} {l : Nat}
    (h : TaskStep p s c i call info l s') : s'.made = s.made ∧ (∀ c' i', ¬ (c' = c ∧ i' = i) → s'.phase c' i' = s.phase c' i') ∧
      (s'.phase c i).num = (s.phase c i).num + 1 := by
  cases h <;> rename_i h1 <;> simp_all [State.setPhase, Phase.num]

theorem step_closed {p : Program F} {s s' : State F} {a : Action} (h : step p s a = some s') {c i : Nat}
    (hc : s.phase c i = .closed) : s'.phase c i = .closed := by
  rcases step_cases h with ⟨-, rfl⟩ | ⟨c', i', call, info, l, -, -, -, -, ht⟩
  · exact hc
  · by_cases he : c = c' ∧ i = i'
    · obtain ⟨rfl, rfl⟩ := he
      cases ht <;> simp_all
    · rw [ht.phase.2.1 c i he]; exact hc

/-- All tasks of a call have closed the dataset. -/
def AllClosed (p : Program F) (s : State F) (c : Nat) : Prop := ∀ i, IsTask p.calls c i → s.phase c i = .closed

theorem step_finished {p : Program F} {s s' : State F} {a : Action} (h : step p s a = some s') {c : Nat}
    (hc : finished p s c = true) : finished p s' c = true := by
  unfold finished at *
  cases hcall : p.calls[c]? with
  | none => rw [hcall] at hc; exact hc
  | some call =>
    rw [hcall] at hc
    simp only at hc ⊢
    split at hc
    · rename_i hw
      simp only [beq_iff_eq] at hc
      rw [if_pos hw]
      simp [step_closed h hc]
    · rename_i hw
      rw [if_neg hw]
      rw [List.all_eq_true] at hc ⊢
      intro i hi
      have := hc i hi
      simp only [beq_iff_eq] at this ⊢
      exact step_closed h this

theorem anyTask_iff {p : Program F} {w : Bool} {l : Nat} {order : Nat → Bool} {f : Nat → Nat → Bool} :
    p.anyTask w l order f = true ↔ ∃ c call info i, p.calls[c]? = some call ∧ p.infos[c]? = some info ∧ call.write = w ∧
      order info.order = true ∧ call.localities[i]? = some l ∧ f c i = true := by
  unfold Program.anyTask
  rw [List.any_eq_true]
  constructor
  · rintro ⟨c, -, hc⟩
    split at hc
    · rename_i call info h1 h2
      simp only [Bool.and_eq_true, beq_iff_eq, List.any_eq_true, List.mem_range] at hc
      obtain ⟨⟨h3, h4⟩, i, -, h5, h6⟩ := hc
      exact ⟨c, call, info, i, h1, h2, h3, h4, h5, h6⟩
    · cases hc
  · rintro ⟨c, call, info, i, h1, h2, h3, h4, h5, h6⟩
    refine ⟨c, List.mem_range.mpr (List.getElem?_eq_some_iff.mp h1).1, ?_⟩
    rw [h1, h2]
    simp only [Bool.and_eq_true, beq_iff_eq, List.any_eq_true, List.mem_range]
    exact ⟨⟨h3, h4⟩, i, (List.getElem?_eq_some_iff.mp h5).1, h5, h6⟩

theorem step_closeReady {p : Program F} {s s' : State F} {a : Action} (h : step p s a = some s') {w : Bool} {l order : Nat}
    (hc : closeReady p s w l order = true) : closeReady p s' w l order = true := by
  unfold closeReady at *
  simp only [Bool.or_eq_true] at hc ⊢
  rcases hc with hc | hc
  · exact Or.inl hc
  · right
    rw [anyTask_iff] at hc ⊢
    obtain ⟨c, call, info, i, h1, h2, h3, h4, h5, h6⟩ := hc
    simp only [beq_iff_eq] at h6
    exact ⟨c, call, info, i, h1, h2, h3, h4, h5, by simp [step_closed h h6]⟩

structure Inv (p : Program F) (s : State F) : Prop where
  made : s.made ≤ p.calls.length
  task : ∀ c i, s.phase c i ≠ .idle → c < s.made ∧ IsTask p.calls c i
  deps : ∀ c i info, s.phase c i ≠ .idle → p.infos[c]? = some info → ∀ d ∈ info.deps, finished p s d = true
  chain : ∀ c i, Kind p.calls c true → s.phase c (i + 1) ≠ .idle → s.phase c i = .closed
  order : ∀ c i call info l, s.phase c i = .closed → p.calls[c]? = some call → p.infos[c]? = some info →
    call.localities[i]? = some l → call.temporal = false → closeReady p s call.write l (info.order - 1) = true

theorem inv_init (p : Program F) (file : F) : Inv p (init file) := by
  constructor <;> simp [init]

theorem inv_step {p : Program F} {s s' : State F} {a : Action} (hi : Inv p s) (h : step p s a = some s') : Inv p s' := by
  have hcl := fun c i => step_closed h (c := c) (i := i)
  have hfin := fun c => step_finished h (c := c)
  have hcr := fun w l o => step_closeReady h (w := w) (l := l) (order := o)
  rcases step_cases h with ⟨hm, rfl⟩ | ⟨c, i, call, info, l, h1, h2, h3, h4, ht⟩
  · refine ⟨hm, fun c i hc => ⟨by have := (hi.task c i hc).1; simp only; omega, (hi.task c i hc).2⟩,
      fun c i info hc hinf d hd => hfin d (hi.deps c i info hc hinf d hd), hi.chain,
      fun c i call info l hc h1 h2 h3 h4 => hcr _ _ _ (hi.order c i call info l hc h1 h2 h3 h4)⟩
  · obtain ⟨hp1, hp2, hp3⟩ := ht.phase
    have hist : IsTask p.calls c i := ⟨call, h1, (List.getElem?_eq_some_iff.mp h3).1⟩
    refine ⟨by rw [hp1]; exact hi.made, ?_, ?_, ?_, ?_⟩
    · intro c' i' hne
      rw [hp1]
      by_cases he : c' = c ∧ i' = i
      · obtain ⟨rfl, rfl⟩ := he; exact ⟨h4, hist⟩
      · rw [hp2 c' i' he] at hne; exact hi.task c' i' hne
    · intro c' i' info' hne hinf d hd
      refine hfin d ?_
      by_cases he : c' = c ∧ i' = i
      · obtain ⟨rfl, rfl⟩ := he
        rw [h2] at hinf; cases hinf
        cases ht with
        | launch q1 q2 =>
          simp only [mayLaunch, Bool.and_eq_true, List.all_eq_true] at q2
          exact q2.1 d hd
        | opens q1 _ => exact hi.deps c' i' info (by rw [q1]; simp) h2 d hd
        | work q1 => exact hi.deps c' i' info (by rw [q1]; simp) h2 d hd
        | close q1 _ => exact hi.deps c' i' info (by rw [q1]; simp) h2 d hd
      · rw [hp2 c' i' he] at hne
        exact hi.deps c' i' info' hne hinf d hd
    · intro c' i' hk hne
      refine hcl _ _ ?_
      by_cases he : c' = c ∧ i' + 1 = i
      · obtain ⟨rfl, rfl⟩ := he
        cases ht with
        | launch q1 q2 =>
          obtain ⟨call', hc1, hc2⟩ := hk
          rw [h1] at hc1; cases hc1
          simp only [mayLaunch, Bool.and_eq_true, hc2, Bool.not_true, Bool.false_or, Bool.or_eq_true, beq_iff_eq] at q2
          rcases q2.2 with q | q
          · omega
          · simpa using q
        | opens q1 _ => exact hi.chain c' i' hk (by rw [q1]; simp)
        | work q1 => exact hi.chain c' i' hk (by rw [q1]; simp)
        | close q1 _ => exact hi.chain c' i' hk (by rw [q1]; simp)
      · rw [hp2 c' (i' + 1) he] at hne
        exact hi.chain c' i' hk hne
    · intro c' i' call' info' l' hc' k1 k2 k3 k4
      refine hcr _ _ _ ?_
      by_cases he : c' = c ∧ i' = i
      · obtain ⟨rfl, rfl⟩ := he
        rw [h1] at k1; cases k1
        rw [h2] at k2; cases k2
        rw [h3] at k3; cases k3
        cases ht with
        | close q1 q2 => simpa [mayClose, k4] using q2
        | launch q1 _ => simp [State.setPhase] at hc'
        | opens q1 _ => simp [State.setPhase] at hc'
        | work q1 => simp [State.setPhase] at hc'
      · rw [hp2 c' i' he] at hc'
        exact hi.order c' i' call' info' l' hc' k1 k2 k3 k4

theorem Run.inv {p : Program F} {s s' : State F} {as : List Action} (hr : Run p s as s') (hi : Inv p s) : Inv p s' := by
  induction hr with
  | nil => exact hi
  | cons h _ ih => exact ih (inv_step hi h)

theorem Reachable.inv {p : Program F} {file : F} {s : State F} (h : Reachable p file s) : Inv p s := by
  obtain ⟨as, hr⟩ := h
  exact hr.inv (inv_init p file)

theorem chain_down {p : Program F} {s : State F} (hi : Inv p s) {c : Nat} (hk : Kind p.calls c true) :
    ∀ {j i : Nat}, s.phase c j ≠ .idle → i < j → s.phase c i = .closed
  | 0, i, _, h => by omega
  | j + 1, i, hj, h => by
    have h1 := hi.chain c j hk hj
    by_cases he : i = j
    · rw [he]; exact h1
    · exact chain_down hi hk (by rw [h1]; simp) (by omega)

/-- A finished call has closed the dataset, in all localities. -/
theorem allClosed_of_finished {p : Program F} {s : State F} (hi : Inv p s) {c : Nat}
    (h : finished p s c = true) : AllClosed p s c := by
  intro i ⟨call, hc, hlt⟩
  unfold finished at h
  rw [hc] at h
  simp only at h
  split at h
  · rename_i hw
    simp only [beq_iff_eq] at h
    by_cases he : i = call.localities.length - 1
    · rw [he]; exact h
    · exact chain_down hi ⟨call, hc, hw⟩ (by rw [h]; simp) (by omega)
  · rw [List.all_eq_true] at h
    simpa using h i (List.mem_range.mpr hlt)

theorem finished_of_allClosed {p : Program F} (hok : p.Ok) {s : State F} {c : Nat} (hlt : c < p.calls.length)
    (h : AllClosed p s c) : finished p s c = true := by
  have hc : p.calls[c]? = some p.calls[c] := List.getElem?_eq_getElem hlt
  have hne := hok.nonempty _ (List.mem_of_getElem? hc)
  have hpos := List.length_pos_iff.mpr hne
  unfold finished
  rw [hc]
  simp only
  split
  · simp [h _ ⟨_, hc, (by omega : p.calls[c].localities.length - 1 < _)⟩]
  · rw [List.all_eq_true]
    intro i hi
    simp [h _ ⟨_, hc, List.mem_range.mp hi⟩]

theorem exists_latest {calls : List Call} {w : Bool} {c d : Nat} (hc : c ≤ calls.length) (hk : Kind calls d w) (hd : d < c) :
    ∃ e, Latest calls w c e ∧ d ≤ e := by
  have hlt := rank_lt hk hd
  obtain ⟨e, he1, he2, he3⟩ := exists_rank (w := w) hc (k := rank calls w c - 1) (by omega)
  refine ⟨e, (latest_iff hc).mpr ⟨he1, he2, by omega⟩, ?_⟩
  by_contra hnot
  have := rank_lt he2 (show e < d by omega)
  omega

theorem allClosed_active {p : Program F} (hok : p.Ok) {s : State F} {c : Nat} (hlt : c < p.calls.length)
    (h : AllClosed p s c) : s.phase c 0 ≠ .idle := by
  have hc : p.calls[c]? = some p.calls[c] := List.getElem?_eq_getElem hlt
  have hpos := List.length_pos_iff.mpr (hok.nonempty _ (List.mem_of_getElem? hc))
  rw [h 0 ⟨_, hc, hpos⟩]; simp

/-- All calls to `to_lue` have finished before a task of a later call is launched. -/
theorem writes_closed {p : Program F} (hok : p.Ok) {s : State F} (hi : Inv p s) : ∀ (c i d : Nat), s.phase c i ≠ .idle → d < c →
    Kind p.calls d true → AllClosed p s d := by
  intro c
  induction c using Nat.strong_induction_on with
  | _ c ih =>
    intro i d hne hd hk
    obtain ⟨-, call, hc, -⟩ := hi.task c i hne
    have hlen := (List.getElem?_eq_some_iff.mp hc).1
    obtain ⟨info, hinfo, hinf⟩ := hok.info c call hc
    obtain ⟨e, he, hde⟩ := exists_latest (w := true) (c := c) (by omega) hk hd
    have hfin := hi.deps c i info hne hinfo e ((hinf.deps e).mpr (Or.inl he))
    have hcl := allClosed_of_finished hi hfin
    by_cases heq : d = e
    · rw [heq]; exact hcl
    · exact ih e he.1 0 d (allClosed_active hok he.2.1.lt hcl) (by omega) hk

/-- If the HDF5 library is not thread-safe: all calls have finished before a task of a later call is launched. -/
theorem all_closed {p : Program F} (hok : p.Ok) (hts : p.threadSafe = false) {s : State F} (hi : Inv p s) :
    ∀ (c i d : Nat), s.phase c i ≠ .idle → d < c → AllClosed p s d := by
  intro c
  induction c using Nat.strong_induction_on with
  | _ c ih =>
    intro i d hne hd
    obtain ⟨-, call, hc, -⟩ := hi.task c i hne
    have hlen := (List.getElem?_eq_some_iff.mp hc).1
    obtain ⟨info, hinfo, hinf⟩ := hok.info c call hc
    have hcd : p.calls[d]? = some p.calls[d] := List.getElem?_eq_getElem (by omega)
    obtain ⟨e, he, hde⟩ := exists_latest (w := p.calls[d].write) (c := c) (by omega) ⟨_, hcd, rfl⟩ hd
    have hmem : e ∈ info.deps := by
      rw [hinf.deps]
      cases hw : p.calls[d].write with
      | true => rw [hw] at he; exact Or.inl he
      | false => rw [hw] at he; exact Or.inr ⟨Or.inr hts, he⟩
    have hcl := allClosed_of_finished hi (hi.deps c i info hne hinfo e hmem)
    by_cases heq : d = e
    · rw [heq]; exact hcl
    · exact ih e he.1 0 d (allClosed_active hok he.2.1.lt hcl) (by omega)

/-- The latest call of the other kind. -/
theorem latest_read_closed {p : Program F} (hok : p.Ok) {s : State F} (hi : Inv p s) {c i e : Nat} (hk : Kind p.calls c true)
    (hne : s.phase c i ≠ .idle) (he : Latest p.calls false c e) : AllClosed p s e := by
  obtain ⟨call, hc, hw⟩ := hk
  obtain ⟨info, hinfo, hinf⟩ := hok.info c call hc
  exact allClosed_of_finished hi (hi.deps c i info hne hinfo e ((hinf.deps e).mpr (Or.inr ⟨Or.inl hw, he⟩)))

theorem closeReady_kind {p : Program F} (hok : p.Ok) {s : State F} {w : Bool} {l d : Nat} (hd : Kind p.calls d w)
    (h : closeReady p s w l (rank p.calls w d + 1) = true) :
    ∃ call i, p.calls[d]? = some call ∧ call.localities[i]? = some l ∧ s.phase d i = .closed := by
  unfold closeReady at h
  simp only [Bool.or_eq_true, beq_iff_eq, Nat.add_one_ne_zero, false_or] at h
  rw [anyTask_iff] at h
  obtain ⟨c, call, info, i, h1, h2, h3, h4, h5, h6⟩ := h
  obtain ⟨info', h7, h8⟩ := hok.info c call h1
  rw [h2] at h7; cases h7
  have h4' : info.order = rank p.calls w d + 1 := by simpa using h4
  rw [h8.order, h3] at h4'
  have : c = d := rank_inj ⟨call, h1, h3⟩ hd (by omega)
  subst this
  exact ⟨call, i, h1, h5, by simpa using h6⟩

theorem locality_closed {p : Program F} (hok : p.Ok) {s : State F} (hi : Inv p s)
    (hconst : ∀ call ∈ p.calls, call.write = false → call.temporal = false) {L : List Nat}
    (hL : ∀ call ∈ p.calls, call.localities = L) (hnd : L.Nodup) : ∀ (e d i : Nat), Kind p.calls e false → Kind p.calls d false →
      d ≤ e → s.phase e i = .closed → s.phase d i = .closed := by
  intro e
  induction e using Nat.strong_induction_on with
  | _ e ih =>
    intro d i hke hkd hde hcl
    by_cases heq : d = e
    · rw [heq]; exact hcl
    obtain ⟨call, hc, hw⟩ := hke
    obtain ⟨info, hinfo, hinf⟩ := hok.info e call hc
    obtain ⟨-, call', hc', hlt⟩ := hi.task e i (by rw [hcl]; simp)
    rw [hc] at hc'; cases hc'
    have hmem := List.mem_of_getElem? hc
    have hl : call.localities[i]? = some call.localities[i] := List.getElem?_eq_getElem hlt
    have hcr := hi.order e i call info _ hcl hc hinfo hl (hconst call hmem hw)
    have hlen := (List.getElem?_eq_some_iff.mp hc).1
    obtain ⟨g, hg, hdg⟩ := exists_latest (w := false) (c := e) (by omega) hkd (by omega)
    obtain ⟨hg1, hg2, hg3⟩ := (latest_iff (by omega)).mp hg
    rw [hinf.order, hw] at hcr
    rw [show rank p.calls false e + 1 - 1 = rank p.calls false g + 1 by omega] at hcr
    obtain ⟨callg, j, k1, k2, k3⟩ := closeReady_kind hok hg2 hcr
    have hLg := hL callg (List.mem_of_getElem? k1)
    have hLe := hL call hmem
    rw [hLg] at k2
    have hij : j = i := by
      rw [List.getElem?_eq_some_iff] at k2
      obtain ⟨k4, k5⟩ := k2
      simp only [hLe] at k5
      exact (List.Nodup.getElem_inj_iff hnd).mp k5
    rw [hij] at k3
    exact ih g hg1 d i hg2 hkd hdg k3

/-- Circumstances in which all calls to `from_lue` have finished before a later call to `to_lue` starts writing. -/
theorem reads_closed {p : Program F} (hok : p.Ok) (hnd : ∀ call ∈ p.calls, call.localities.Nodup)
    (hsafe : SafeReads p.threadSafe p.calls) {s : State F} (hi : Inv p s) :
    ∀ (c i d : Nat), Kind p.calls c true → s.phase c i ≠ .idle → d < c → AllClosed p s d := by
  rcases hsafe with hts | hbetween | ⟨hconst, L, hL⟩
  · intro c i d _ hne hd
    exact all_closed hok hts hi c i d hne hd
  · intro c
    induction c using Nat.strong_induction_on with
    | _ c ih =>
      intro i d hk hne hd
      have hlen := hk.lt
      have hcd : p.calls[d]? = some p.calls[d] := List.getElem?_eq_getElem (by omega)
      cases hw : p.calls[d].write with
      | true => exact writes_closed hok hi c i d hne hd ⟨_, hcd, hw⟩
      | false =>
        obtain ⟨e, he, hde⟩ := exists_latest (w := false) (c := c) (by omega) ⟨_, hcd, hw⟩ hd
        have hcl := latest_read_closed hok hi hk hne he
        by_cases heq : d = e
        · rw [heq]; exact hcl
        · obtain ⟨w, hw1, hw2, hw3⟩ := hbetween d e ⟨_, hcd, hw⟩ he.2.1 (by omega)
          have := he.1
          have hwc := writes_closed hok hi c i w hne (by omega) hw3
          exact ih w (by omega) 0 d hw3 (allClosed_active hok hw3.lt hwc) hw1
  · intro c i d hk hne hd
    have hlen := hk.lt
    have hcd : p.calls[d]? = some p.calls[d] := List.getElem?_eq_getElem (by omega)
    cases hw : p.calls[d].write with
    | true => exact writes_closed hok hi c i d hne hd ⟨_, hcd, hw⟩
    | false =>
      obtain ⟨e, he, hde⟩ := exists_latest (w := false) (c := c) (by omega) ⟨_, hcd, hw⟩ hd
      have hcl := latest_read_closed hok hi hk hne he
      intro j ⟨call, hc1, hj⟩
      have hlte := he.2.1.lt
      have hce : p.calls[e]? = some p.calls[e] := List.getElem?_eq_getElem hlte
      have hLe := hL _ (List.mem_of_getElem? hce)
      have hLd := hL _ (List.mem_of_getElem? hc1)
      refine locality_closed hok hi hconst hL (hLe ▸ hnd _ (List.mem_of_getElem? hce)) e d j he.2.1 ⟨_, hcd, hw⟩ hde ?_
      exact hcl j ⟨_, hce, by rw [hLe, ← hLd]; exact hj⟩

end Lue.LueCalls

import Verif.LueCalls.Proofs

/-!
# Properties of calls to `to_lue` and `from_lue` for the same dataset (C34)
-/
namespace Lue.LueCalls

variable {F : Type}

theorem isOpen_ne_idle {q : Phase} (h : q.isOpen = true) : q ≠ .idle ∧ q ≠ .closed := by
  cases q <;> simp_all [Phase.isOpen]

section

variable {p : Program F} {threadSafe : Bool} {calls : List Call} {effect : Nat → Nat → F → F} {file : F} {s : State F}

/-- Never two tasks have the dataset open for writing at the same time. -/
theorem writes_exclusive (hp : p.Does threadSafe calls effect) (hne : ∀ call ∈ calls, call.localities ≠ [])
    (h : Reachable p file s) {c i d j : Nat} (hc : Kind calls c true) (hd : Kind calls d true)
    (hci : (s.phase c i).isOpen = true) (hdj : (s.phase d j).isOpen = true) : c = d ∧ i = j := by
  have hi := h.inv
  have hok := hp.ok hne
  obtain ⟨-, rfl, -, -⟩ := hp
  obtain ⟨h1, h2⟩ := isOpen_ne_idle hci
  obtain ⟨h3, h4⟩ := isOpen_ne_idle hdj
  rcases Nat.lt_trichotomy c d with hlt | rfl | hlt
  · exact absurd (writes_closed hok hi d j c h3 hlt hc i (hi.task c i h1).2) h2
  · refine ⟨rfl, ?_⟩
    rcases Nat.lt_trichotomy i j with hlt | he | hlt
    · exact absurd (chain_down hi hc h3 hlt) h2
    · exact he
    · exact absurd (chain_down hi hc h1 hlt) h4
  · exact absurd (writes_closed hok hi c i d h1 hlt hd j (hi.task d j h3).2) h4

/-- When a task has opened the dataset, all calls to `to_lue` done before have finished writing and closed the dataset, in all
localities. -/
theorem writes_before (hp : p.Does threadSafe calls effect) (hne : ∀ call ∈ calls, call.localities ≠ [])
    (h : Reachable p file s) {c i d j : Nat} (hci : (s.phase c i).isOpen = true) (hd : Kind calls d true) (hdc : d < c)
    (hj : IsTask calls d j) : s.phase d j = .closed := by
  have hi := h.inv
  have hok := hp.ok hne
  obtain ⟨-, rfl, -, -⟩ := hp
  exact writes_closed hok hi c i d (isOpen_ne_idle hci).1 hdc hd j hj

/-- In case the HDF5 library is not thread-safe, only tasks of a single call have the dataset open at the same time, and calls are
executed in the order in which these are done. -/
theorem calls_serialized (hp : p.Does false calls effect) (hne : ∀ call ∈ calls, call.localities ≠ [])
    (h : Reachable p file s) {c i d j : Nat} (hci : (s.phase c i).isOpen = true) (hdc : d < c) (hj : IsTask calls d j) :
    s.phase d j = .closed := by
  have hi := h.inv
  have hok := hp.ok hne
  obtain ⟨hts, rfl, -, -⟩ := hp
  exact all_closed hok hts hi c i d (isOpen_ne_idle hci).1 hdc j hj

/-- When a task has the dataset open for writing, no task of another call has the dataset open, given that reads are safe. -/
theorem write_excludes_reads (hp : p.Does threadSafe calls effect) (hne : ∀ call ∈ calls, call.localities ≠ [])
    (hnd : ∀ call ∈ calls, call.localities.Nodup) (hsafe : SafeReads threadSafe calls) (h : Reachable p file s) {c i d j : Nat}
    (hc : Kind calls c true) (hci : (s.phase c i).isOpen = true) (hdj : (s.phase d j).isOpen = true) : c = d := by
  have hi := h.inv
  have hok := hp.ok hne
  obtain ⟨rfl, rfl, -, -⟩ := hp
  obtain ⟨h1, h2⟩ := isOpen_ne_idle hci
  obtain ⟨h3, h4⟩ := isOpen_ne_idle hdj
  rcases Nat.lt_trichotomy c d with hlt | he | hlt
  · exact absurd (writes_closed hok hi d j c h3 hlt hc i (hi.task c i h1).2) h2
  · exact he
  · exact absurd (reads_closed hok hnd hsafe hi c i d hc h1 hlt j (hi.task d j h3).2) h4

end

/-! ### Contents of the dataset -/

/-- The contents of the dataset, given what has been written by the first `n` calls. -/
def current (p : Program F) (s : State F) (file : F) : Nat → F
  | 0 => file
  | c + 1 =>
    match p.calls[c]? with
    | some call =>
      if call.write then
        (List.range call.localities.length).foldl
          (fun f i => if (s.phase c i).closeRequested then p.effect c i f else f) (current p s file c)
      else current p s file c
    | none => current p s file c

theorem fold_cut (P : Nat → Bool) (e : Nat → F → F) (f : F) {i : Nat} : ∀ {n : Nat}, i ≤ n →
    (∀ j, i ≤ j → j < n → P j = false) →
    (List.range n).foldl (fun f j => if P j then e j f else f) f = (List.range i).foldl (fun f j => if P j then e j f else f) f
  | 0, h, _ => by rw [show i = 0 by omega]
  | n + 1, h, hP => by
    by_cases he : i = n + 1
    · rw [he]
    · rw [List.range_succ, List.foldl_append]
      simp only [List.foldl_cons, List.foldl_nil]
      rw [hP n (by omega) (by omega)]
      simpa using fold_cut P e f (n := n) (by omega) fun j h1 h2 => hP j h1 (by omega)

theorem fold_congr {G : Type} (g g' : G → Nat → G) : ∀ (n : Nat) (f : G), (∀ j, j < n → ∀ f, g f j = g' f j) →
    (List.range n).foldl g f = (List.range n).foldl g' f
  | 0, _, _ => rfl
  | n + 1, f, h => by
    rw [List.range_succ, List.foldl_append, List.foldl_append, fold_congr g g' n f fun j hj => h j (by omega)]
    simp [h n (by omega)]

theorem current_congr {p : Program F} {s s' : State F} {file : F} : ∀ {n : Nat},
    (∀ c i, c < n → (s'.phase c i).closeRequested = (s.phase c i).closeRequested) → current p s' file n = current p s file n
  | 0, _ => rfl
  | n + 1, h => by
    have ih := current_congr (p := p) (s := s) (s' := s') (file := file) (n := n) fun c i hc => h c i (by omega)
    simp only [current, ih]
    cases p.calls[n]? with
    | none => rfl
    | some call =>
      simp only
      split
      · exact fold_congr _ _ _ _ fun j _ f => by rw [h n j (by omega)]
      · rfl

theorem current_cut {p : Program F} {s : State F} {file : F} {c : Nat} : ∀ {n : Nat}, c ≤ n →
    (∀ d i, c ≤ d → d < n → Kind p.calls d true → (s.phase d i).closeRequested = false) →
    current p s file n = current p s file c
  | 0, h, _ => by rw [show c = 0 by omega]
  | n + 1, h, hP => by
    by_cases he : c = n + 1
    · rw [he]
    · rw [← current_cut (n := n) (by omega) fun d i h1 h2 => hP d i h1 (by omega)]
      simp only [current]
      cases hc : p.calls[n]? with
      | none => rfl
      | some call =>
        simp only
        split
        · rename_i hw
          rw [fold_cut (fun i => (s.phase n i).closeRequested) (p.effect n) _ (i := 0) (by omega)
            fun j _ _ => hP n j (by omega) (by omega) ⟨call, hc, hw⟩]
          rfl
        · rfl

theorem current_contents {p : Program F} {s : State F} {file : F} : ∀ {n : Nat},
    (∀ d, d < n → Kind p.calls d true → AllClosed p s d) → current p s file n = contents p.calls p.effect file n
  | 0, _ => rfl
  | n + 1, h => by
    simp only [current, contents]
    rw [current_contents (n := n) fun d hd => h d (by omega)]
    cases hc : p.calls[n]? with
    | none => rfl
    | some call =>
      simp only
      split
      · rename_i hw
        exact fold_congr _ _ _ _ fun j hj f => by
          rw [h n (by omega) ⟨call, hc, hw⟩ j ⟨call, hc, hj⟩]; rfl
      · rfl

theorem closeRequested_false {q : Phase} (h : ¬ q ≠ .idle) : q.closeRequested = false := by
  push Not at h
  rw [h]; rfl

theorem file_step {p : Program F} (hok : p.Ok) {file : F} {s s' : State F} {a : Action} (hi : Inv p s)
    (h : step p s a = some s') (hf : s.file = current p s file p.calls.length) :
    s'.file = current p s' file p.calls.length := by
  rcases step_cases h with ⟨hm, rfl⟩ | ⟨c, i, call, info, l, h1, h2, h3, h4, ht⟩
  · exact hf.trans (current_congr fun _ _ _ => rfl)
  · have hlt := (List.getElem?_eq_some_iff.mp h1).1
    have hil := (List.getElem?_eq_some_iff.mp h3).1
    have same : ∀ q : Phase, q.closeRequested = (s.phase c i).closeRequested → ∀ c' i',
        ((s.setPhase c i q).phase c' i').closeRequested = (s.phase c' i').closeRequested := by
      intro q hq c' i'
      simp only [State.setPhase]
      split
      · rename_i he; rw [he.1, he.2]; exact hq
      · rfl
    cases ht with
    | launch q1 q2 =>
      refine hf.trans (current_congr fun c' i' _ => ?_).symm
      exact same .launched (by rw [q1]; rfl) c' i'
    | opens q1 q2 => exact hf.trans (current_congr fun c' i' _ => same .opened (by rw [q1]; rfl) c' i').symm
    | close q1 q2 => exact hf.trans (current_congr fun c' i' _ => same .closed (by rw [q1]; rfl) c' i').symm
    | work q1 =>
      have hci : s.phase c i ≠ .idle := by rw [q1]; simp
      have hncl : s.phase c i ≠ .closed := by rw [q1]; simp
      cases hw : call.write with
      | false =>
        simp only [Bool.false_eq_true, if_false]
        rw [hf]
        have hcut : ∀ n, current p { s.setPhase c i .closing with
            file := s.file, error := s.error || !closeAsserts p s l call info } file n = current p s file n := by
          intro n
          induction n with
          | zero => rfl
          | succ n ih =>
            simp only [current, ih]
            cases hn : p.calls[n]? with
            | none => rfl
            | some call' =>
              simp only
              split
              · rename_i hw'
                refine fold_congr _ _ _ _ fun j _ f => ?_
                have : n ≠ c := by
                  rintro rfl
                  rw [h1] at hn; cases hn; rw [hw] at hw'; cases hw'
                simp [State.setPhase, this]
              · rfl
        exact (hf ▸ hcut p.calls.length).symm
      | true =>
        have hk : Kind p.calls c true := ⟨call, h1, hw⟩
        have later : ∀ d j, c + 1 ≤ d → d < p.calls.length → Kind p.calls d true → (s.phase d j).closeRequested = false := by
          intro d j hd _ _
          refine closeRequested_false fun hne => ?_
          exact hncl (writes_closed hok hi d j c hne (by omega) hk i (hi.task c i hci).2)
        simp only [if_true]
        have hf' : s.file = current p s file (c + 1) := by rw [hf]; exact current_cut (by omega) later
        rw [current_cut (c := c + 1) (by omega) (by
          intro d j hd hdl hkd
          have := later d j hd hdl hkd
          simp only [State.setPhase]
          rw [if_neg (by omega)]; exact this)]
        simp only [current, h1, hw, if_true] at hf' ⊢
        rw [current_congr (s := s) (n := c) (by
          intro d j hd
          simp only [State.setPhase]
          rw [if_neg (by omega)])]
        rw [fold_cut (fun j => (s.phase c j).closeRequested) (p.effect c) _ (i := i) (by omega) (by
          intro j hj _
          by_cases he : j = i
          · rw [he, q1]; rfl
          · refine closeRequested_false fun hne => ?_
            exact hncl (chain_down hi hk hne (by omega)))] at hf'
        rw [fold_cut (fun j => ((s.setPhase c i .closing).phase c j).closeRequested) (p.effect c) _ (i := i + 1) (by omega) (by
          intro j hj _
          simp only [State.setPhase]
          rw [if_neg (by omega)]
          refine closeRequested_false fun hne => ?_
          exact hncl (chain_down hi hk hne (by omega)))]
        rw [List.range_succ, List.foldl_append, hf']
        simp only [List.foldl_cons, List.foldl_nil, State.setPhase]
        rw [if_pos (by simp [Phase.closeRequested])]
        congr 1
        exact fold_congr _ _ _ _ fun j hj f => by simp [show j ≠ i by omega]

theorem Run.file {p : Program F} (hok : p.Ok) {file : F} {s s' : State F} {as : List Action} (hr : Run p s as s') (hi : Inv p s)
    (hf : s.file = current p s file p.calls.length) : s'.file = current p s' file p.calls.length := by
  induction hr with
  | nil => exact hf
  | cons h _ ih => exact ih (inv_step hi h) (file_step hok hi h hf)

theorem current_init (p : Program F) (file : F) (n : Nat) : current p (init file) file n = file := by
  rw [current_cut (c := 0) (by omega) fun d i _ _ _ => by simp [init, Phase.closeRequested]]
  rfl

theorem Reachable.file {p : Program F} (hok : p.Ok) {file : F} {s : State F} (h : Reachable p file s) :
    s.file = current p s file p.calls.length := by
  obtain ⟨as, hr⟩ := h
  exact hr.file hok (inv_init p file) (current_init p file _).symm

section

variable {p : Program F} {threadSafe : Bool} {calls : List Call} {effect : Nat → Nat → F → F} {file : F} {s : State F}

/-- As long as a task of a call to `from_lue` has the dataset open, the contents of the dataset are the result of all calls to
`to_lue` done before, and of none of the ones done later. -/
theorem read_contents (hp : p.Does threadSafe calls effect) (hne : ∀ call ∈ calls, call.localities ≠ [])
    (hnd : ∀ call ∈ calls, call.localities.Nodup) (hsafe : SafeReads threadSafe calls) (h : Reachable p file s) {c i : Nat}
    (hc : Kind calls c false) (hci : (s.phase c i).isOpen = true) : s.file = contents calls effect file c := by
  have hi := h.inv
  have hok := hp.ok hne
  have hf := h.file hok
  obtain ⟨rfl, rfl, -, rfl⟩ := hp
  obtain ⟨h1, h2⟩ := isOpen_ne_idle hci
  have hlt := hc.lt
  rw [hf, current_cut (c := c) (by omega), current_contents]
  · exact fun d hd hk => writes_closed hok hi c i d h1 hd hk
  · intro d j hcd hdl hk
    refine closeRequested_false fun hne => h2 ?_
    have : c ≠ d := by
      rintro rfl
      obtain ⟨call, k1, k2⟩ := hc
      obtain ⟨call', k3, k4⟩ := hk
      rw [k1] at k3; cases k3; rw [k2] at k4; cases k4
    exact reads_closed hok hnd hsafe hi d j c hk hne (by omega) i (hi.task c i h1).2

/-- When all calls to `to_lue` have finished, the dataset contains the result of executing them in the order in which the calls
were done. -/
theorem final_contents (hp : p.Does threadSafe calls effect) (hne : ∀ call ∈ calls, call.localities ≠ [])
    (h : Reachable p file s) (hall : ∀ c i, Kind calls c true → IsTask calls c i → s.phase c i = .closed) :
    s.file = contents calls effect file calls.length := by
  have hok := hp.ok hne
  have hf := h.file hok
  obtain ⟨rfl, rfl, -, rfl⟩ := hp
  rw [hf, current_contents]
  exact fun d _ hk i hd => hall d i hk hd

end

/-! ### Progress -/

theorem closed_ready {p : Program F} (hok : p.Ok) {s : State F} {w : Bool} {l d : Nat} (hd : Kind p.calls d w)
    (hl : ∀ call, p.calls[d]? = some call → l ∈ call.localities) (h : AllClosed p s d) :
    closeReady p s w l (rank p.calls w d + 1) = true ∧ openReady p s w l (rank p.calls w d + 1) = true ∧
      closeAvailable p s w l (rank p.calls w d + 1) = true := by
  obtain ⟨call, hc, hw⟩ := hd
  obtain ⟨info, hinfo, hinf⟩ := hok.info d call hc
  obtain ⟨i, hi⟩ := List.getElem?_of_mem (hl call hc)
  have hcl := h i ⟨call, hc, (List.getElem?_eq_some_iff.mp hi).1⟩
  have ho : info.order = rank p.calls w d + 1 := by rw [hinf.order, hw]
  refine ⟨?_, ?_, ?_⟩
  · unfold closeReady
    rw [Bool.or_eq_true, anyTask_iff]
    exact Or.inr ⟨d, call, info, i, hc, hinfo, hw, by simp [ho], hi, by simp [hcl]⟩
  · unfold openReady
    rw [Bool.or_eq_true, anyTask_iff]
    exact Or.inr ⟨d, call, info, i, hc, hinfo, hw, by simp [ho], hi, by simp [hcl, Phase.hasOpened]⟩
  · unfold closeAvailable
    rw [anyTask_iff]
    exact ⟨d, call, info, i, hc, hinfo, hw, by simp [ho], hi, by simp [hcl, Phase.closeRequested]⟩

theorem rank_ready {p : Program F} (hok : p.Ok) {s : State F} {w : Bool} {l c : Nat} (hc : c ≤ p.calls.length)
    (hd : ∀ d, Latest p.calls w c d → AllClosed p s d ∧ ∀ call, p.calls[d]? = some call → l ∈ call.localities) :
    closeReady p s w l (rank p.calls w c) = true ∧ openReady p s w l (rank p.calls w c) = true ∧
      closedBefore p s w l (rank p.calls w c) = true := by
  by_cases h0 : rank p.calls w c = 0
  · rw [h0]; simp [closeReady, openReady, closedBefore]
  · obtain ⟨d, hd1, hd2, hd3⟩ := exists_rank (w := w) hc (k := rank p.calls w c - 1) (by omega)
    have hlat : Latest p.calls w c d := (latest_iff hc).mpr ⟨hd1, hd2, by omega⟩
    obtain ⟨h1, h2⟩ := hd d hlat
    obtain ⟨h3, h4, h5⟩ := closed_ready hok hd2 h2 h1
    rw [show rank p.calls w d + 1 = rank p.calls w c by omega] at h3 h4 h5
    exact ⟨h3, h4, by simp [closedBefore, h3, h5]⟩

section

variable {p : Program F} {threadSafe : Bool} {calls : List Call} {effect : Nat → Nat → F → F} {file : F} {s : State F}

/-- As long as there are calls to do, or tasks that have not closed the dataset, something can happen: there are no deadlocks. This
requires that localities involved in a call are involved in all previous calls. -/
theorem calls_progress (hp : p.Does threadSafe calls effect) (hne : ∀ call ∈ calls, call.localities ≠ [])
    (hgap : NoGap calls) (h : Reachable p file s)
    (hs : s.made < calls.length ∨ ∃ c i, IsTask calls c i ∧ s.phase c i ≠ .closed) : ∃ a s', step p s a = some s' := by
  have hi := h.inv
  have hok := hp.ok hne
  obtain ⟨rfl, rfl, -, rfl⟩ := hp
  by_cases hm : s.made < p.calls.length
  · exact ⟨.call, { s with made := s.made + 1 }, by simp [step, hm]⟩
  · have hex : ∃ c, ¬ AllClosed p s c := by
      rcases hs with hs | ⟨c, i, h1, h2⟩
      · exact absurd hs hm
      · exact ⟨c, fun hall => h2 (hall i h1)⟩
    classical
    let c := Nat.find hex
    have hc : ¬ AllClosed p s c := Nat.find_spec hex
    have hmin : ∀ d, d < c → AllClosed p s d := fun d hd => not_not.mp (Nat.find_min hex hd)
    have hex' : ∃ i, IsTask p.calls c i ∧ s.phase c i ≠ .closed := by
      unfold AllClosed at hc; push Not at hc; exact hc
    let i := Nat.find hex'
    obtain ⟨⟨call, hcall, hil⟩, hcl⟩ := Nat.find_spec hex'
    have himin : ∀ j, j < i → s.phase c j = .closed := by
      intro j hj
      by_contra hcon
      exact Nat.find_min hex' hj ⟨⟨call, hcall, by omega⟩, hcon⟩
    obtain ⟨info, hinfo, hinf⟩ := hok.info c call hcall
    have hlt := (List.getElem?_eq_some_iff.mp hcall).1
    have hl : call.localities[i]? = some call.localities[i] := List.getElem?_eq_getElem hil
    have htask : task p s c i = some (call, info, call.localities[i]) := task_some.mpr ⟨hcall, hinfo, hl, by omega⟩
    have hready : ∀ w, _ := fun w => rank_ready hok (s := s) (w := w) (l := call.localities[i]) (c := c) (by omega) (by
      intro d hd
      exact ⟨hmin d hd.1, fun call' hcall' => hgap c d call call' hcall hcall' hd.1 _ (List.getElem_mem hil)⟩)
    have ho : info.order - 1 = rank p.calls call.write c := by rw [hinf.order]; omega
    change s.phase c i ≠ .closed at hcl
    cases hph : s.phase c i with
    | idle =>
      refine ⟨.launch c i, { s.setPhase c i .launched with error := s.error || !launchAsserts p s call.localities[i] call info }, ?_⟩
      simp only [step, launch, htask, Option.bind_eq_bind, Option.bind_some]
      rw [if_pos]
      refine ⟨hph, ?_⟩
      simp only [mayLaunch, Bool.and_eq_true, List.all_eq_true]
      constructor
      · intro d hd
        have hdc : d < c := by
          rcases (hinf.deps d).mp hd with h1 | ⟨-, h1⟩ <;> exact h1.1
        exact finished_of_allClosed hok (by omega) (hmin d hdc)
      · by_cases h0 : i = 0
        · simp [h0]
        · simp [himin (i - 1) (by omega)]
    | launched =>
      refine ⟨.open c i, s.setPhase c i .opened, ?_⟩
      simp only [step, openDataset, htask, Option.bind_eq_bind, Option.bind_some]
      rw [if_pos]
      refine ⟨hph, ?_⟩
      unfold mayOpen
      rw [ho, hinf.other]
      cases hw : call.write <;> cases ht : call.temporal <;> simp [hready]
    | opened =>
      exact ⟨.work c i, _, by simp only [step, work, htask, Option.bind_eq_bind, Option.bind_some]; rw [if_pos hph]⟩
    | closing =>
      refine ⟨.close c i, s.setPhase c i .closed, ?_⟩
      simp only [step, close, htask, Option.bind_eq_bind, Option.bind_some]
      rw [if_pos]
      refine ⟨hph, ?_⟩
      simp [mayClose, ho, hready]
    | closed => exact absurd hph hcl

/-- Number of tasks -/
def nrTasks (calls : List Call) : Nat := (calls.map fun call => call.localities.length).sum

/-- The tasks -/
def tasks (calls : List Call) : Finset ((_ : Nat) × Nat) :=
  (Finset.range calls.length).sigma fun c => Finset.range (((calls[c]?).map fun call => call.localities.length).getD 0)

theorem mem_tasks {calls : List Call} {c i : Nat} : (⟨c, i⟩ : (_ : Nat) × Nat) ∈ tasks calls ↔ IsTask calls c i := by
  simp only [tasks, Finset.mem_sigma, Finset.mem_range, IsTask]
  constructor
  · rintro ⟨h1, h2⟩
    rw [List.getElem?_eq_getElem h1] at h2 ⊢
    exact ⟨_, rfl, by simpa using h2⟩
  · rintro ⟨call, h1, h2⟩
    rw [h1]
    exact ⟨(List.getElem?_eq_some_iff.mp h1).1, by simpa using h2⟩

theorem card_tasks (calls : List Call) : (tasks calls).card = nrTasks calls := by
  unfold tasks nrTasks
  rw [Finset.card_sigma]
  simp only [Finset.card_range]
  induction calls using List.reverseRecOn with
  | nil => rfl
  | append_singleton l a ih =>
    rw [List.length_append, List.length_singleton, Finset.sum_range_succ, List.map_append, List.sum_append]
    simp only [List.getElem?_concat_length, Option.map_some, Option.getD_some, List.map_cons, List.map_nil, List.sum_singleton]
    rw [← ih]
    congr 1
    refine Finset.sum_congr rfl fun c hc => ?_
    rw [List.getElem?_append_left (Finset.mem_range.mp hc)]

/-- Number of steps done -/
def total (calls : List Call) (s : State F) : Nat := s.made + ∑ x ∈ tasks calls, (s.phase x.1 x.2).num

theorem total_step {p : Program F} {s s' : State F} {a : Action} (h : step p s a = some s') :
    total p.calls s' = total p.calls s + 1 := by
  rcases step_cases h with ⟨hm, rfl⟩ | ⟨c, i, call, info, l, h1, h2, h3, h4, ht⟩
  · simp only [total]; omega
  · obtain ⟨hp1, hp2, hp3⟩ := ht.phase
    have hmem : (⟨c, i⟩ : (_ : Nat) × Nat) ∈ tasks p.calls := mem_tasks.mpr ⟨call, h1, (List.getElem?_eq_some_iff.mp h3).1⟩
    unfold total
    rw [← Finset.add_sum_erase _ _ hmem, ← Finset.add_sum_erase _ (fun x => (s.phase x.1 x.2).num) hmem]
    have : ∑ x ∈ (tasks p.calls).erase ⟨c, i⟩, (s'.phase x.1 x.2).num = ∑ x ∈ (tasks p.calls).erase ⟨c, i⟩, (s.phase x.1 x.2).num := by
      refine Finset.sum_congr rfl fun x hx => ?_
      rw [hp2 x.1 x.2]
      rintro ⟨rfl, rfl⟩
      exact (Finset.ne_of_mem_erase hx) rfl
    simp only [hp1, hp3, this]; omega

theorem Run.total {p : Program F} {s s' : State F} {as : List Action} (hr : Run p s as s') :
    LueCalls.total p.calls s' = LueCalls.total p.calls s + as.length := by
  induction hr with
  | nil => simp
  | cons h _ ih => rw [ih, total_step h]; simp; omega

/-- No run goes on forever. -/
theorem calls_terminate (hp : p.Does threadSafe calls effect) {as : List Action} (hr : Run p (init file) as s) :
    as.length ≤ calls.length + 4 * nrTasks calls := by
  have hi := hr.inv (inv_init p file)
  have ht := hr.total
  obtain ⟨-, rfl, -, -⟩ := hp
  have h0 : total p.calls (init file) = 0 := by simp [total, init, Phase.num]
  have h1 : total p.calls s ≤ p.calls.length + 4 * nrTasks p.calls := by
    unfold total
    have := Finset.sum_le_card_nsmul (tasks p.calls) (fun x => (s.phase x.1 x.2).num) 4 (by
      intro x _
      cases s.phase x.1 x.2 <;> simp [Phase.num])
    rw [card_tasks, smul_eq_mul] at this
    have := hi.made
    omega
  omega

/-- In case the HDF5 library is not thread-safe, or only arrays without time steps are read, no assertion fails. -/
theorem calls_no_error (hp : p.Does threadSafe calls effect) (hne : ∀ call ∈ calls, call.localities ≠ [])
    (hgap : NoGap calls) (hread : threadSafe = false ∨ ∀ call ∈ calls, call.write = false → call.temporal = false)
    (h : Reachable p file s) : s.error = false := by
  have hok := hp.ok hne
  obtain ⟨rfl, rfl, -, rfl⟩ := hp
  obtain ⟨as, hr⟩ := h
  have key : ∀ {s s' : State F} {as}, Run p s as s' → Inv p s → s.error = false → s'.error = false := by
    intro s s' as hr
    induction hr with
    | nil => exact fun _ h => h
    | @cons s a s' as s'' hstep _ ih =>
      intro hi he
      have hi' := inv_step hi hstep
      refine ih hi' ?_
      rcases step_cases hstep with ⟨hm, rfl⟩ | ⟨c, i, call, info, l, h1, h2, h3, h4, ht⟩
      · exact he
      · obtain ⟨info', h2', hinf⟩ := hok.info c call h1
        rw [h2] at h2'; cases h2'
        have hlt := (List.getElem?_eq_some_iff.mp h1).1
        have hmem := List.mem_of_getElem? h3
        have ho : info.order - 1 = rank p.calls call.write c := by rw [hinf.order]; omega
        have hready : ∀ w, (∀ d, Latest p.calls w c d → finished p s d = true) → _ := fun w hw =>
          rank_ready hok (s := s) (w := w) (l := l) (c := c) (by omega) (by
            intro d hd
            exact ⟨allClosed_of_finished hi (hw d hd), fun call' hcall' => hgap c d call call' h1 hcall' hd.1 _ hmem⟩)
        cases ht with
        | launch q1 q2 =>
          have hdeps : ∀ d ∈ info.deps, finished p s d = true := by
            simp only [mayLaunch, Bool.and_eq_true, List.all_eq_true] at q2
            exact q2.1
          have ht := hready true fun d hd => hdeps d ((hinf.deps d).mpr (Or.inl hd))
          have hf := fun hx => hready false fun d hd => hdeps d ((hinf.deps d).mpr (Or.inr ⟨hx, hd⟩))
          have : launchAsserts p s l call info = true := by
            unfold launchAsserts
            rw [ho, hinf.other]
            cases hw : call.write <;> cases htemp : call.temporal
            · simp [ht]
            · rcases hread with hread | hread
              · simp [ht, hf (Or.inr hread)]
              · rw [hread call (List.mem_of_getElem? h1) hw] at htemp; cases htemp
            · simp [hf (Or.inl hw)]
            · simp [ht, hf (Or.inl hw)]
          simp [he, this]
        | opens q1 q2 => exact he
        | close q1 q2 => exact he
        | work q1 =>
          have hdeps := hi.deps c i info (by rw [q1]; simp) h2
          have ht := hready true fun d hd => hdeps d ((hinf.deps d).mpr (Or.inl hd))
          have hf := fun hx => hready false fun d hd => hdeps d ((hinf.deps d).mpr (Or.inr ⟨hx, hd⟩))
          have : closeAsserts p s l call info = true := by
            unfold closeAsserts
            rw [ho]
            cases hw : call.write <;> cases htemp : call.temporal
            · simp
            · rcases hread with hread | hread
              · simp [hf (Or.inr hread)]
              · rw [hread call (List.mem_of_getElem? h1) hw] at htemp; cases htemp
            · simp
            · simp [ht]
          simp [he, this]
  exact key hr (inv_init p file) rfl

end

/-! ### Examples and counterexamples -/

/-- Execute a sequence of steps. -/
def exec (p : Program F) : State F → List Action → Option (State F)
  | s, [] => some s
  | s, a :: as =>
    match step p s a with
    | some s' => exec p s' as
    | none => none

theorem exec_run {p : Program F} : ∀ {as : List Action} {s s' : State F}, exec p s as = some s' → Run p s as s'
  | [], s, s', h => by cases h; exact .nil
  | a :: as, s, s', h => by
    unfold exec at h
    split at h
    · rename_i s1 h1
      exact .cons h1 (exec_run h)
    · cases h

/-- The state after a sequence of steps -/
def after (p : Program F) (file : F) (as : List Action) : State F := (exec p (init file) as).getD (init file)

theorem reachable_after {p : Program F} {file : F} (as : List Action) (h : (exec p (init file) as).isSome = true) :
    Reachable p file (after p file as) := by
  obtain ⟨s, hs⟩ := Option.isSome_iff_exists.mp h
  refine ⟨as, exec_run ?_⟩
  rw [after, hs]; rfl

/-- A program which reads an array with time steps twice, and then writes one. -/
def readReadWrite : Program Nat :=
  ⟨true, [⟨false, true, [0]⟩, ⟨false, true, [0]⟩, ⟨true, true, [0]⟩], [⟨[], 1, 0⟩, ⟨[], 2, 0⟩, ⟨[1], 1, 2⟩], fun _ _ f => f + 1⟩

/-- If HDF5 is thread-safe, a dataset can be opened for writing while it is still open for reading: `to_lue` only waits for the
last call to `from_lue`, and calls to `from_lue` don't wait for each other. In debug builds, an assertion fails. -/
theorem read_overlaps_write : ∃ (p : Program Nat) (calls : List Call) (effect : Nat → Nat → Nat → Nat) (s : State Nat),
    p.Does true calls effect ∧ NoGap calls ∧ (∀ call ∈ calls, call.localities ≠ [] ∧ call.localities.Nodup) ∧ Reachable p 0 s ∧
      Kind calls 0 false ∧ Kind calls 2 true ∧ (s.phase 0 0).isOpen = true ∧ (s.phase 2 0).isOpen = true ∧ s.error = true := by
  refine ⟨readReadWrite, _, _, _, ⟨rfl, rfl, by decide, rfl⟩, ?_, by decide, reachable_after [.call, .call, .call,
      .launch 0 0, .open 0 0, .launch 1 0, .open 1 0, .work 1 0, .close 1 0, .launch 2 0, .open 2 0] rfl,
    ⟨_, rfl, rfl⟩, ⟨_, rfl, rfl⟩, rfl, rfl, rfl⟩
  intro c d call call' h1 h2 _ l hl
  have hall : ∀ x ∈ readReadWrite.calls, x.localities = [0] := by decide
  rw [hall call' (List.mem_of_getElem? h2)]
  rwa [hall call (List.mem_of_getElem? h1)] at hl

/-- As a consequence, `from_lue` can return what is written by a later call to `to_lue`. -/
theorem read_sees_later_write : ∃ (p : Program Nat) (calls : List Call) (effect : Nat → Nat → Nat → Nat) (s : State Nat),
    p.Does true calls effect ∧ Reachable p 0 s ∧ Kind calls 0 false ∧ (s.phase 0 0).isOpen = true ∧
      s.file ≠ contents calls effect 0 0 := by
  exact ⟨readReadWrite, _, _, _, ⟨rfl, rfl, by decide, rfl⟩, reachable_after [.call, .call, .call,
      .launch 0 0, .open 0 0, .launch 1 0, .open 1 0, .work 1 0, .close 1 0, .launch 2 0, .open 2 0, .work 2 0] rfl,
    ⟨_, rfl, rfl⟩, rfl, by decide⟩

/-- A program which writes an array with partitions in locality 0, and an array with partitions in localities 0 and 1. -/
def gap : Program Nat :=
  ⟨true, [⟨true, false, [0]⟩, ⟨true, false, [0, 1]⟩], [⟨[], 1, 0⟩, ⟨[0], 2, 0⟩], fun _ _ f => f + 1⟩

/-- A locality which is not involved in a previous call waits forever. -/
theorem gap_deadlock : ∃ (p : Program Nat) (calls : List Call) (effect : Nat → Nat → Nat → Nat) (s : State Nat),
    p.Does true calls effect ∧ (∀ call ∈ calls, call.localities ≠ [] ∧ call.localities.Nodup) ∧ Reachable p 0 s ∧
      IsTask calls 1 1 ∧ s.phase 1 1 = .launched ∧ s.error = false ∧ ∀ a, step p s a = none := by
  refine ⟨gap, _, _, _, ⟨rfl, rfl, by decide, rfl⟩, by decide, reachable_after [.call, .call, .launch 0 0, .open 0 0,
      .work 0 0, .close 0 0, .launch 1 0, .open 1 0, .work 1 0, .close 1 0, .launch 1 1] rfl, ⟨_, rfl, by decide⟩, rfl, rfl, ?_⟩
  intro a
  by_contra hne
  obtain ⟨s', h⟩ := Option.ne_none_iff_exists'.mp hne
  rcases step_cases h with ⟨hm, -⟩ | ⟨c, i, call, info, l, h1, h2, h3, h4, ht⟩
  · exact absurd hm (by decide)
  · have hc : c < 2 := (List.getElem?_eq_some_iff.mp h1).1
    have hi : i < call.localities.length := (List.getElem?_eq_some_iff.mp h3).1
    have h5 : (c = 0 ∧ i = 0) ∨ (c = 1 ∧ i = 0) ∨ (c = 1 ∧ i = 1) := by
      interval_cases c
      · cases h1; simp at hi; omega
      · cases h1; simp at hi; omega
    rcases h5 with ⟨rfl, rfl⟩ | ⟨rfl, rfl⟩ | ⟨rfl, rfl⟩
    · cases ht with
      | opens q1 q2 => revert q1; decide
      | launch q1 q2 => revert q1; decide
      | work q1 => revert q1; decide
      | close q1 q2 => revert q1; decide
    · cases ht with
      | opens q1 q2 => revert q1; decide
      | launch q1 q2 => revert q1; decide
      | work q1 => revert q1; decide
      | close q1 q2 => revert q1; decide
    · cases h1; cases h2; cases h3
      cases ht with
      | opens q1 q2 => revert q2; decide
      | launch q1 q2 => revert q1; decide
      | work q1 => revert q1; decide
      | close q1 q2 => revert q1; decide

/-- The hypotheses of the theorems are met: two processes, writing and reading. -/
example : ∃ (p : Program Nat) (s : State Nat),
    let calls : List Call := [⟨true, true, [0, 1]⟩, ⟨false, true, [0, 1]⟩, ⟨true, true, [0, 1]⟩]
    p.Does true calls (fun c i f => 10 * f + c + i + 1) ∧ SafeReads true calls ∧ Reachable p 0 s ∧
      (s.phase 1 1).isOpen = true ∧ s.phase 1 0 = .closed ∧ s.file = 12 := by
  refine ⟨⟨true, [⟨true, true, [0, 1]⟩, ⟨false, true, [0, 1]⟩, ⟨true, true, [0, 1]⟩], [⟨[], 1, 0⟩, ⟨[0], 1, 1⟩, ⟨[0, 1], 2, 1⟩],
    fun c i f => 10 * f + c + i + 1⟩, _, ⟨rfl, rfl, by decide, rfl⟩, Or.inr (Or.inl ?_), reachable_after [.call, .launch 0 0,
      .open 0 0, .call, .work 0 0, .close 0 0, .launch 0 1, .open 0 1, .work 0 1, .call, .close 0 1, .launch 1 0, .launch 1 1,
      .open 1 1, .open 1 0, .work 1 0, .close 1 0] rfl, rfl, rfl, by decide⟩
  rintro c d ⟨_, h1, h2⟩ ⟨_, h3, h4⟩ hlt
  have hc : c < 3 := (List.getElem?_eq_some_iff.mp h1).1
  have hd : d < 3 := (List.getElem?_eq_some_iff.mp h3).1
  interval_cases c <;> interval_cases d <;> first | omega | (cases h1; cases h3; first | exact absurd h2 (by decide) | exact absurd h4 (by decide))

end Lue.LueCalls

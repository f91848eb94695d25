import Verif.Structure.Open

/-!
# Performing operations on a file that stores a description
-/
namespace Lue.Structure

theorem run_check_ok {f : File} {g : File → Bool} (h : g f = true) (ss : List Step) : run f (.check g :: ss) = run f ss := by
  simp only [run, Step.run, h, if_true]

theorem run_check_fail {f : File} {g : File → Bool} (h : g f = false) (ss : List Step) : run f (.check g :: ss) = (false, f) := by
  simp only [run, Step.run, h]
  rfl

theorem run_end {f f' : File} {ss : List Step} {g : File → Bool} (h : run f ss = (true, f')) (hg : g f' = true) :
    run f (ss ++ [.check g]) = (true, f') := by
  rw [run_append_ok h, run_check_ok hg]; rfl

/-- Creating a group with something in it -/
theorem run_part {f : File} (hc : Closed f) {p : Path} {c : Comp} {a : Attrs} {ss : List Step} {u : Tree}
    (hg : f.get p = some (.group a)) (hn : f.get (p ++ [c]) = none) (h : Does ss (p ++ [c]) fresh u) :
    ∃ f', run f (.group p c :: ss) = (true, f') ∧ Grafted (p ++ [c]) u f.get f'.get := by
  have hrun : (Step.group p c).run f = (true, f.put (p ++ [c]) (.group Attrs.empty)) := addNode_ok _ hg hn
  have hc1 : Closed (f.put (p ++ [c]) (.group Attrs.empty)) := by
    have := hc.step (.group p c)
    rwa [hrun] at this
  have hf1 : ∀ q, (f.put (p ++ [c]) (.group Attrs.empty)).get (p ++ [c] ++ q) = fresh q := by
    intro q
    rw [AMap.get_put]
    match q with
    | [] => rw [List.append_nil, if_pos rfl]; rfl
    | d :: q =>
      rw [if_neg (by
        intro he
        have := congrArg List.length he
        simp at this)]
      cases hm : f.get (p ++ [c] ++ d :: q) with
      | none => rfl
      | some m =>
        obtain ⟨b, hb⟩ := hc.above (d :: q) (p ++ [c]) m hm (by simp)
        rw [hb] at hn; cases hn
  obtain ⟨f', hr, hG⟩ := h _ hc1 hf1
  refine ⟨f', ?_, ?_⟩
  · simp only [run, hrun, if_true]
    exact hr
  · refine ⟨hG.inside, fun q hq => ?_⟩
    rw [hG.outside q hq, AMap.get_put, if_neg]
    intro he
    exact hq [] (by rw [List.append_nil, he])

/-- The result of steps stores the changed description. -/
theorem Rep.of_grafted {f f' : File} {D D' : DatasetD} {P : Path} {u : Tree} {ss : List Step} (h : Rep f D)
    (hr : run f ss = (true, f')) (hG : Grafted P u f.get f'.get) (hD : Grafted P u (render D) (render D')) : Rep f' D' := by
  refine ⟨by have := h.closed.run ss; rwa [hr] at this, ?_⟩
  rw [h.nodes] at hG
  exact hG.unique hD

theorem Rep.part {f : File} {D D' : DatasetD} (h : Rep f D) {p : Path} {c : Comp} {a : Attrs} {ss : List Step} {u : Tree}
    (hg : render D p = some (.group a)) (hn : render D (p ++ [c]) = none) (hd : Does ss (p ++ [c]) fresh u)
    (hD : Grafted (p ++ [c]) u (render D) (render D')) : ∃ f', run f (.group p c :: ss) = (true, f') ∧ Rep f' D' := by
  obtain ⟨f', hr, hG⟩ := run_part h.closed (by rw [h.nodes]; exact hg) (by rw [h.nodes]; exact hn) hd
  exact ⟨f', hr, h.of_grafted hr hG hD⟩

/-! ## What exists -/

theorem Rep.isGroup_iff {f : File} {D : DatasetD} (h : Rep f D) (p : Path) : isGroup f p = true ↔ ∃ a, render D p = some (.group a) := by
  rw [Structure.isGroup_iff, h.nodes]

theorem navigate_world {f : File} {D : DatasetD} (h : Rep f D) (w : Option Name) : isGroup f (worldPath w) = (D.world? w).isSome := by
  rw [Bool.eq_iff_iff, h.isGroup_iff]
  cases w with
  | none => exact ⟨fun _ => rfl, fun _ => ⟨_, rfl⟩⟩
  | some u =>
    show (∃ a, (D.universes u).bind (fun a => renderUniverse a []) = _) ↔ (D.universes u).isSome
    cases D.universes u with
    | none => simp
    | some W => exact ⟨fun _ => rfl, fun _ => ⟨_, rfl⟩⟩

theorem navigate_phenomenon {f : File} {D : DatasetD} (h : Rep f D) (a : PhenomenonAddr) :
    isGroup f (phenomenonPath a) = (D.phenomenon? a).isSome := by
  rw [Bool.eq_iff_iff, h.isGroup_iff]
  have := render_phenomenon D a []
  rw [List.append_nil] at this
  rw [this]
  cases D.phenomenon? a with
  | none => simp
  | some W => exact ⟨fun _ => rfl, fun _ => ⟨_, rfl⟩⟩

theorem navigate_set {f : File} {D : DatasetD} (h : Rep f D) (s : SetAddr) : isGroup f (setPath s) = (D.set? s).isSome := by
  rw [Bool.eq_iff_iff, h.isGroup_iff]
  have := render_set D s []
  rw [List.append_nil] at this
  rw [this]
  cases D.set? s with
  | none => simp
  | some W => exact ⟨fun _ => rfl, fun _ => ⟨_, rfl⟩⟩

theorem navigate_property {f : File} {D : DatasetD} (h : Rep f D) (p : PropertyAddr) :
    isGroup f (propertyPath p) = (D.property? p).isSome := by
  rw [Bool.eq_iff_iff, h.isGroup_iff]
  have := render_property D p []
  rw [List.append_nil] at this
  rw [this]
  cases D.property? p with
  | none => simp
  | some W => exact ⟨fun _ => rfl, fun _ => ⟨_, rfl⟩⟩

theorem owner_none {src : SetAddr → Option (Option SetAddr)} {s : SetAddr} (h : src s = none) (n : Nat) : owner src n s = none := by
  cases n <;> (unfold owner; rw [h]; rfl)

theorem walk_none {f : File} {p : Path} {c : Comp} (h : f.get (p ++ [c]) = none) (again : Path → Option Path) :
    walk f again p [c] = none := by
  unfold walk; rw [h]

theorem openGroup_none {f : File} {p : Path} {c : Comp} (h : f.get (p ++ [c]) = none) : openGroup f p c = none := by
  show (walk f _ p [c]).bind _ = none
  rw [walk_none h]; rfl

/-- Is the time domain that is passed to `add` one that can be opened? -/
theorem openTimeDomain_isSome {f : File} {D : DatasetD} (h : Rep f D) (hl : Linked D) (s : SetAddr) :
    (openTimeDomain f (setPath s)).isSome = (owner D.timeFrom maxLinks s).isSome := by
  cases hs : D.timeFrom s with
  | none =>
    have ho : owner D.timeFrom maxLinks s = none := owner_none hs _
    rw [ho]
    have hn : f.get (setPath s ++ [.tag .timeDomain]) = none := by
      rw [h.nodes, render_set]
      rw [timeFrom_eq] at hs
      cases hS : D.set? s with
      | none => rfl
      | some S =>
        rw [hS] at hs
        show renderTime S.time [] = none
        cases ht : S.time with
        | absent => rfl
        | own i c => rw [show (some S).bind (fun S => S.time.source) = S.time.source from rfl, ht] at hs; cases hs
        | shared t => rw [show (some S).bind (fun S => S.time.source) = S.time.source from rfl, ht] at hs; cases hs
    have : openGroup f (setPath s) (.tag .timeDomain) = none := openGroup_none hn
    unfold openTimeDomain
    rw [this]; rfl
  | some x =>
    rw [openTimeDomain_eq h hl s (by rw [hs]; rfl), Option.isSome_map]
    unfold DatasetD.timeDomain?
    cases ho : owner D.timeFrom maxLinks s with
    | none => rfl
    | some o =>
      obtain ⟨S, i, c, hS, ht, _⟩ := time_own h o (owner_owns _ _ _ ho)
      simp only [Option.bind_some, hS, ht, Option.isSome_some]

theorem openTracker_isSome {f : File} {D : DatasetD} (h : Rep f D) (hl : Linked D) (s : SetAddr) :
    (openTracker f (setPath s)).isSome = (owner D.trackerFrom maxLinks s).isSome := by
  cases hS : D.set? s with
  | none =>
    have hs : D.trackerFrom s = none := by rw [trackerFrom_eq, hS]; rfl
    have ho : owner D.trackerFrom maxLinks s = none := owner_none hs _
    rw [ho]
    have hn : f.get (setPath s ++ [.tag .tracker]) = none := by
      rw [h.nodes, render_set, hS]; rfl
    have : openGroup f (setPath s) (.tag .tracker) = none := openGroup_none hn
    unfold openTracker
    rw [this]; rfl
  | some S => rw [openTracker_eq h hl s (by rw [hS]; rfl), Option.isSome_map]

/-- The time domain and the tracker that are passed as arguments can be opened. -/
theorem run_args {f : File} {D : DatasetD} (h : Rep f D) (hl : Linked D) (a : SetArgs) (ss : List Step) :
    (a.Sources D maxLinks → run f (timeArg a ++ trackerArg a ++ ss) = run f ss) ∧
    (¬ a.Sources D maxLinks → run f (timeArg a ++ trackerArg a ++ ss) = (false, f)) := by
  have ht : ∀ ss, ((∀ t, a.timeD = .shared t → (owner D.timeFrom maxLinks t).isSome) → run f (timeArg a ++ ss) = run f ss) ∧
      (¬ (∀ t, a.timeD = .shared t → (owner D.timeFrom maxLinks t).isSome) → run f (timeArg a ++ ss) = (false, f)) := by
    intro ss
    have key : ∀ t, timeArg a = [.check fun f => (openTimeDomain f (setPath t)).isSome] → a.timeD = .shared t →
        ((∀ t, a.timeD = .shared t → (owner D.timeFrom maxLinks t).isSome) → run f (timeArg a ++ ss) = run f ss) ∧
        (¬ (∀ t, a.timeD = .shared t → (owner D.timeFrom maxLinks t).isSome) → run f (timeArg a ++ ss) = (false, f)) := by
      intro t h1 h2
      rw [h1]
      constructor
      · intro hs
        exact run_check_ok (by rw [openTimeDomain_isSome h hl]; exact hs t h2) ss
      · intro hs
        refine run_check_fail ?_ ss
        rw [openTimeDomain_isSome h hl]
        cases ho : owner D.timeFrom maxLinks t with
        | none => rfl
        | some o =>
          refine absurd ?_ hs
          intro t' ht'
          rw [h2] at ht'; cases ht'
          rw [ho]; rfl
    have triv : timeArg a = [] → (∀ t, a.timeD ≠ .shared t) →
        ((∀ t, a.timeD = .shared t → (owner D.timeFrom maxLinks t).isSome) → run f (timeArg a ++ ss) = run f ss) ∧
        (¬ (∀ t, a.timeD = .shared t → (owner D.timeFrom maxLinks t).isSome) → run f (timeArg a ++ ss) = (false, f)) := by
      intro h1 h2
      rw [h1]
      exact ⟨fun _ => rfl, fun hn => absurd (fun t ht => absurd ht (h2 t)) hn⟩
    cases a with
    | plain => exact triv rfl (by intro t h; cases h)
    | space m i => exact triv rfl (by intro t h; cases h)
    | time t c => exact triv rfl (by intro t h; cases h)
    | sharedTime t => exact key t rfl rfl
    | timeTracker t c o => exact triv rfl (by intro t h; cases h)
    | sharedTimeTracker t o => exact key t rfl rfl
    | timeSpace t c m i => exact triv rfl (by intro t h; cases h)
    | sharedTimeSpace t m i => exact key t rfl rfl
    | sharedTimeTrackerSpace t o m i => exact key t rfl rfl
  have hk : ((∀ t, a.tracker = .shared t → (owner D.trackerFrom maxLinks t).isSome) → run f (trackerArg a ++ ss) = run f ss) ∧
      (¬ (∀ t, a.tracker = .shared t → (owner D.trackerFrom maxLinks t).isSome) → run f (trackerArg a ++ ss) = (false, f)) := by
    have key : ∀ t, trackerArg a = [.check fun f => (openTracker f (setPath t)).isSome] → a.tracker = .shared t →
        ((∀ t, a.tracker = .shared t → (owner D.trackerFrom maxLinks t).isSome) → run f (trackerArg a ++ ss) = run f ss) ∧
        (¬ (∀ t, a.tracker = .shared t → (owner D.trackerFrom maxLinks t).isSome) → run f (trackerArg a ++ ss) = (false, f)) := by
      intro t h1 h2
      rw [h1]
      constructor
      · intro hs
        exact run_check_ok (by rw [openTracker_isSome h hl]; exact hs t h2) ss
      · intro hs
        refine run_check_fail ?_ ss
        rw [openTracker_isSome h hl]
        cases ho : owner D.trackerFrom maxLinks t with
        | none => rfl
        | some o =>
          refine absurd ?_ hs
          intro t' ht'
          rw [h2] at ht'; cases ht'
          rw [ho]; rfl
    have triv : trackerArg a = [] → (∀ t, a.tracker ≠ .shared t) →
        ((∀ t, a.tracker = .shared t → (owner D.trackerFrom maxLinks t).isSome) → run f (trackerArg a ++ ss) = run f ss) ∧
        (¬ (∀ t, a.tracker = .shared t → (owner D.trackerFrom maxLinks t).isSome) → run f (trackerArg a ++ ss) = (false, f)) := by
      intro h1 h2
      rw [h1]
      exact ⟨fun _ => rfl, fun hn => absurd (fun t ht => absurd ht (h2 t)) hn⟩
    cases a with
    | plain => exact triv rfl (by intro t h; cases h)
    | space m i => exact triv rfl (by intro t h; cases h)
    | time t c => exact triv rfl (by intro t h; cases h)
    | sharedTime t => exact triv rfl (by intro t h; cases h)
    | timeTracker t c o => exact key o rfl rfl
    | sharedTimeTracker t o => exact key o rfl rfl
    | timeSpace t c m i => exact triv rfl (by intro t h; cases h)
    | sharedTimeSpace t m i => exact triv rfl (by intro t h; cases h)
    | sharedTimeTrackerSpace t o m i => exact key o rfl rfl
  rw [List.append_assoc]
  constructor
  · rintro ⟨h1, h2⟩
    rw [(ht _).1 h1, hk.1 h2]
  · intro hn
    by_cases h1 : ∀ t, a.timeD = .shared t → (owner D.timeFrom maxLinks t).isSome
    · rw [(ht _).1 h1]
      exact hk.2 fun h2 => hn ⟨h1, h2⟩
    · exact (ht _).2 h1

/-! ## Operations that are allowed -/

theorem perform_addUniverse {f : File} {D : DatasetD} (h : Rep f D) (hw : Wf D) (u : Name) (ha : Allowed D (.addUniverse u)) :
    ∃ f', perform f (.addUniverse u) = (true, f') ∧ Rep f' (apply D (.addUniverse u)) := by
  obtain ⟨f', hr, hR⟩ := h.part (D' := apply D (.addUniverse u)) (p := [.tag .universes]) (c := .user u) (a := Attrs.empty) rfl
    (by show (D.universes u).bind _ = _; rw [show D.universes u = none from ha]; rfl) (does_createUniverse _) (graft_universe D u _)
  refine ⟨f', run_end hr ?_, hR⟩
  have hW : (apply D (.addUniverse u)).world? (some u) = some fun _ => none := upd_self _ _ _
  obtain ⟨v, hv, _⟩ := openWorld_shows hR (wf_apply hw _ ha trivial) hW
  show (openWorld f' (worldPath (some u))).isSome = true
  rw [hv]; rfl

theorem phenomenonPath_eq (a : PhenomenonAddr) : phenomenonPath a = worldPath a.world ++ [.tag .phenomena] ++ [.user a.name] := by
  simp [phenomenonPath]

theorem setPath_eq (s : SetAddr) : setPath s = phenomenonPath s.phenomenon ++ [.tag (.sets s.coll)] ++ [.user s.name] := by
  simp [setPath]

theorem propertyPath_eq (p : PropertyAddr) :
    propertyPath p = setPath p.set ++ [.tag .properties, .tag (.kind p.kind)] ++ [.user p.name] := by
  simp [propertyPath]

theorem perform_addPhenomenon {f : File} {D : DatasetD} (h : Rep f D) (hw : Wf D) (a : PhenomenonAddr) (d : String)
    (ha : Allowed D (.addPhenomenon a d)) :
    ∃ f', perform f (.addPhenomenon a d) = (true, f') ∧ Rep f' (apply D (.addPhenomenon a d)) := by
  obtain ⟨W, hW⟩ := Option.isSome_iff_exists.mp ha.1
  have hn : render D (worldPath a.world ++ [.tag .phenomena] ++ [.user a.name]) = none := by
    have := render_phenomenon D a []
    rw [List.append_nil, ha.2] at this
    rwa [phenomenonPath_eq] at this
  obtain ⟨f', hr, hR⟩ := h.part (D' := apply D (.addPhenomenon a d)) (p := worldPath a.world ++ [.tag .phenomena]) (c := .user a.name)
    (a := Attrs.empty) (by rw [render_world, hW]; rfl) hn (does_createPhenomenon _ d)
    (by rw [← phenomenonPath_eq]; exact graft_setPhenomenon D a _ ha.1)
  refine ⟨f', ?_, hR⟩
  show run f (navigate (worldPath a.world) :: _) = _
  rw [navigate, run_check_ok (by rw [navigate_world h]; exact ha.1)]
  show run f (refuseGroup _ _ :: _) = _
  rw [refuseGroup, run_check_ok (by rw [groupExists_none (by rw [h.nodes]; exact hn)]; rfl)]
  have hP : (apply D (.addPhenomenon a d)).phenomenon? a = some ⟨d, fun _ _ => none⟩ := by
    show (D.setPhenomenon a _).phenomenon? a = _
    rw [phenomenon_setPhenomenon D a a _ ha.1, if_pos rfl]
  obtain ⟨v, hv, _⟩ := openPhenomenon_shows hR (wf_apply hw _ ha trivial) hP
  refine run_end hr ?_
  rw [← phenomenonPath_eq, hv]; rfl

theorem perform_addSet {f : File} {D : DatasetD} (h : Rep f D) (hw : Wf D) (s : SetAddr) (a : SetArgs)
    (ha : Allowed D (.addSet s a)) (hst : Storable D (.addSet s a)) :
    ∃ f', perform f (.addSet s a) = (true, f') ∧ Rep f' (apply D (.addSet s a)) := by
  obtain ⟨hp, hs, hsrc⟩ := ha
  obtain ⟨P, hP⟩ := Option.isSome_iff_exists.mp hp
  have hn : render D (phenomenonPath s.phenomenon ++ [.tag (.sets s.coll)] ++ [.user s.name]) = none := by
    have := render_set D s []
    rw [List.append_nil, hs] at this
    rwa [setPath_eq] at this
  obtain ⟨f', hr, hR⟩ := h.part (D' := apply D (.addSet s a)) (p := phenomenonPath s.phenomenon ++ [.tag (.sets s.coll)])
    (c := .user s.name) (a := Attrs.empty) (by rw [render_phenomenon, hP]; rfl) hn (does_createSet _ a hst.2)
    (by rw [← setPath_eq]; exact graft_setSet D s _ hp)
  refine ⟨f', ?_, hR⟩
  show run f (navigate (phenomenonPath s.phenomenon) :: (timeArg a ++ trackerArg a ++ _)) = _
  rw [navigate, run_check_ok (by rw [navigate_phenomenon h]; exact hp), (run_args h hw.linked a _).1 hsrc]
  show run f (refuseGroup _ _ :: _) = _
  rw [refuseGroup, run_check_ok (by rw [groupExists_none (by rw [h.nodes]; exact hn)]; rfl)]
  have hS : (apply D (.addSet s a)).set? s = some a.describe := by
    show (D.setSet s _).set? s = _
    rw [set_setSet D s s _ hp, if_pos rfl]
  have hw' := wf_apply hw (.addSet s a) ⟨hp, hs, hsrc⟩ hst
  obtain ⟨v, hv, _⟩ := openSet_shows hR hw'.linked hS (hw'.trackers _ _ hS) (hw'.times _ _ hS)
  refine run_end hr ?_
  rw [← setPath_eq, hv]; rfl

theorem refuse_property {f : File} {D : DatasetD} (h : Rep f D) (s : SetAddr) (n : Name) (k : Kind) :
    linkExists f (setPath s ++ [.tag .properties] ++ [.tag (.kind k)]) (.user n) = (D.property? ⟨s, k, n⟩).isSome := by
  unfold linkExists
  have := render_property D ⟨s, k, n⟩ []
  rw [List.append_nil, propertyPath_eq] at this
  rw [h.nodes, show setPath s ++ [.tag .properties] ++ [.tag (.kind k)] ++ [.user n] =
    setPath s ++ [.tag .properties, .tag (.kind k)] ++ [.user n] by simp, this]
  cases D.property? ⟨s, k, n⟩ <;> rfl

theorem perform_addProperty {f : File} {D : DatasetD} (h : Rep f D) (p : PropertyAddr) (d : String)
    (ha : Allowed D (.addProperty p d)) :
    ∃ f', perform f (.addProperty p d) = (true, f') ∧ Rep f' (apply D (.addProperty p d)) := by
  obtain ⟨hs, hno⟩ := ha
  obtain ⟨S, hS⟩ := Option.isSome_iff_exists.mp hs
  have hn : render D (setPath p.set ++ [.tag .properties, .tag (.kind p.kind)] ++ [.user p.name]) = none := by
    have := render_property D p []
    rw [List.append_nil, show D.property? p = none from hno p.kind] at this
    rwa [propertyPath_eq] at this
  obtain ⟨f', hr, hR⟩ := h.part (D' := apply D (.addProperty p d)) (p := setPath p.set ++ [.tag .properties, .tag (.kind p.kind)])
    (c := .user p.name) (a := Attrs.empty) (by rw [render_set, hS]; rfl) hn (does_createProperty _ d)
    (by rw [← propertyPath_eq]; exact graft_setProperty D p _ hs)
  refine ⟨f', ?_, hR⟩
  show run f (navigate (setPath p.set) :: refuseProperty _ _ :: _) = _
  rw [navigate, run_check_ok (by rw [navigate_set h]; exact hs), refuseProperty, run_check_ok]
  · exact hr
  · simp only [refuse_property h, hno, Option.isSome_none]
    rfl

/-- A change within a property or a property-set -/
theorem Rep.change {f : File} {D D' : DatasetD} (h : Rep f D) {P : Path} {t u : Tree} {ss : List Step}
    (ht : ∀ q, render D (P ++ q) = t q) (hd : Does ss P t u) (hD : Grafted P u (render D) (render D')) :
    ∃ f', run f ss = (true, f') ∧ Rep f' D' := by
  obtain ⟨f', hr, hG⟩ := hd f h.closed (fun q => by rw [h.nodes]; exact ht q)
  exact ⟨f', hr, h.of_grafted hr hG hD⟩

theorem does_discretizeTime (P : Path) (x : PropertyD) (t : Discretization) (q : PropertyAddr) (hx : x.timeDisc = none) :
    Does [.attr P .timeDisc (.str (discretizations.asString t)), .link P (.tag .timeDisc) (propertyPath q)] P
      (renderProperty x) (renderProperty { x with timeDisc := some (t, q) }) := by
  have h1 := does_attr (P := P) (q := []) (t := renderProperty x) (a := propertyAttrs x) (n := .timeDisc)
    (v := .str (discretizations.asString t)) rfl (by
      show writable (x.timeDisc.map _) _ = true
      rw [hx]
      have := discretization_ne t
      simpa [writable] using this)
  have h2 := does_link (P := P) (q := []) (target := propertyPath q) (c := .tag .timeDisc)
    (t := (renderProperty x).set [] (.group ((propertyAttrs x).set .timeDisc (.str (discretizations.asString t)))))
    (a := (propertyAttrs x).set .timeDisc (.str (discretizations.asString t))) (by simp [Tree.set]) (by
      show renderProperty x [.tag .timeDisc] = none
      show x.timeDisc.map _ = none
      rw [hx]; rfl)
  rw [List.append_nil] at h1 h2
  refine (Does.cons h1 h2).congr ?_
  funext r
  match r with
  | [] =>
    show some (Node.group _) = some (Node.group _)
    congr 2
    funext m
    cases m <;> rfl
  | [.tag z] => cases z <;> rfl
  | [.user n] => rfl
  | .tag z :: d :: q => cases z <;> rfl
  | .user n :: d :: q => rfl

theorem does_discretizeSpace (P : Path) (x : PropertyD) (t : Discretization) (q : PropertyAddr) (hx : x.spaceDisc = none) :
    Does [.attr P .spaceDisc (.str (discretizations.asString t)), .link P (.tag .spaceDisc) (propertyPath q)] P
      (renderProperty x) (renderProperty { x with spaceDisc := some (t, q) }) := by
  have h1 := does_attr (P := P) (q := []) (t := renderProperty x) (a := propertyAttrs x) (n := .spaceDisc)
    (v := .str (discretizations.asString t)) rfl (by
      show writable (x.spaceDisc.map _) _ = true
      rw [hx]
      have := discretization_ne t
      simpa [writable] using this)
  have h2 := does_link (P := P) (q := []) (target := propertyPath q) (c := .tag .spaceDisc)
    (t := (renderProperty x).set [] (.group ((propertyAttrs x).set .spaceDisc (.str (discretizations.asString t)))))
    (a := (propertyAttrs x).set .spaceDisc (.str (discretizations.asString t))) (by simp [Tree.set]) (by
      show renderProperty x [.tag .spaceDisc] = none
      show x.spaceDisc.map _ = none
      rw [hx]; rfl)
  rw [List.append_nil] at h1 h2
  refine (Does.cons h1 h2).congr ?_
  funext r
  match r with
  | [] =>
    show some (Node.group _) = some (Node.group _)
    congr 2
    funext m
    cases m <;> rfl
  | [.tag z] => cases z <;> rfl
  | [.user n] => rfl
  | .tag z :: d :: q => cases z <;> rfl
  | .user n :: d :: q => rfl

theorem does_discretizePresence (P : Path) (S : SetD) (x : SpaceD) (q : PropertyAddr) (hS : S.space = some x) (hx : x.presence = none) :
    Does [.link (P ++ [.tag .spaceDomain]) (.tag .presence) (propertyPath q)] P
      (renderSet S) (renderSet { S with space := S.space.map fun x => { x with presence := some q } }) := by
  have h1 := does_link (P := P) (q := [.tag .spaceDomain]) (target := propertyPath q) (c := .tag .presence)
    (t := renderSet S) (a := spaceAttrs x.mobility x.item)
    (by show renderSpace S.space [] = _; rw [hS]; rfl)
    (by show renderSpace S.space [.tag .presence] = _; rw [hS]; show x.presence.map _ = none; rw [hx]; rfl)
  refine h1.congr ?_
  rw [hS]
  funext r
  match r with
  | [] => rfl
  | [.tag z] => cases z <;> first | rfl | (show renderSpace S.space [] = _; rw [hS]; rfl)
  | .user n :: q => rfl
  | [.tag z, .tag y] =>
    cases z <;> first | rfl | (cases y <;> first | rfl | (show renderSpace S.space _ = _; rw [hS]; rfl))
  | [.tag z, .user y] => cases z <;> first | rfl | (show renderSpace S.space _ = _; rw [hS]; rfl)
  | .tag z :: y :: w :: q' =>
    have hne : ¬ ([.tag .spaceDomain] ++ [.tag .presence] : Path) = .tag z :: y :: w :: q' := by
      intro he
      have := congrArg List.length he
      simp at this
    unfold Tree.set
    rw [if_neg hne]
    cases z <;> first | rfl | (show renderSpace S.space _ = _; rw [hS]; cases y <;> first | rfl | (rename_i t; cases t <;> rfl))

theorem perform_discretizeTime {f : File} {D : DatasetD} (h : Rep f D) (p : PropertyAddr) (t : Discretization) (q : PropertyAddr)
    (ha : Allowed D (.discretizeTime p t q)) :
    ∃ f', perform f (.discretizeTime p t q) = (true, f') ∧ Rep f' (apply D (.discretizeTime p t q)) := by
  obtain ⟨⟨x, hp, hx⟩, hq⟩ := ha
  have hp' : (D.property? p).isSome := by rw [hp]; rfl
  have happ : apply D (.discretizeTime p t q) = D.setProperty p { x with timeDisc := some (t, q) } := by
    simp only [apply, hp]
  obtain ⟨f', hr, hR⟩ := h.change (D' := apply D (.discretizeTime p t q)) (P := propertyPath p) (t := renderProperty x)
    (fun r => by rw [render_property, hp]; rfl) (does_discretizeTime (propertyPath p) x t q hx)
    (by rw [happ]; exact graft_setProperty D p _ (set_isSome hp'))
  refine ⟨f', ?_, hR⟩
  show run f (navigate (propertyPath p) :: navigate (propertyPath q) :: _) = _
  rw [navigate, run_check_ok (by rw [navigate_property h]; exact hp'), navigate, run_check_ok (by rw [navigate_property h]; exact hq)]
  exact hr

theorem perform_discretizeSpace {f : File} {D : DatasetD} (h : Rep f D) (p : PropertyAddr) (t : Discretization) (q : PropertyAddr)
    (ha : Allowed D (.discretizeSpace p t q)) :
    ∃ f', perform f (.discretizeSpace p t q) = (true, f') ∧ Rep f' (apply D (.discretizeSpace p t q)) := by
  obtain ⟨⟨x, hp, hx⟩, hq⟩ := ha
  have hp' : (D.property? p).isSome := by rw [hp]; rfl
  have happ : apply D (.discretizeSpace p t q) = D.setProperty p { x with spaceDisc := some (t, q) } := by
    simp only [apply, hp]
  obtain ⟨f', hr, hR⟩ := h.change (D' := apply D (.discretizeSpace p t q)) (P := propertyPath p) (t := renderProperty x)
    (fun r => by rw [render_property, hp]; rfl) (does_discretizeSpace (propertyPath p) x t q hx)
    (by rw [happ]; exact graft_setProperty D p _ (set_isSome hp'))
  refine ⟨f', ?_, hR⟩
  show run f (navigate (propertyPath p) :: navigate (propertyPath q) :: _) = _
  rw [navigate, run_check_ok (by rw [navigate_property h]; exact hp'), navigate, run_check_ok (by rw [navigate_property h]; exact hq)]
  exact hr

theorem perform_discretizePresence {f : File} {D : DatasetD} (h : Rep f D) (s : SetAddr) (q : PropertyAddr)
    (ha : Allowed D (.discretizePresence s q)) :
    ∃ f', perform f (.discretizePresence s q) = (true, f') ∧ Rep f' (apply D (.discretizePresence s q)) := by
  obtain ⟨⟨S, x, hs, hS, hx⟩, hq⟩ := ha
  have hs' : (D.set? s).isSome := by rw [hs]; rfl
  have happ : apply D (.discretizePresence s q) =
      D.setSet s { S with space := S.space.map fun x => { x with presence := some q } } := by
    simp only [apply, hs]
  obtain ⟨f', hr, hR⟩ := h.change (D' := apply D (.discretizePresence s q)) (P := setPath s) (t := renderSet S)
    (fun r => by rw [render_set, hs]; rfl) (does_discretizePresence (setPath s) S x q hS hx)
    (by rw [happ]; exact graft_setSet D s _ (phenomenon_isSome hs'))
  refine ⟨f', ?_, hR⟩
  show run f (navigate (setPath s) :: navigate (propertyPath q) :: _) = _
  rw [navigate, run_check_ok (by rw [navigate_set h]; exact hs'), navigate, run_check_ok (by rw [navigate_property h]; exact hq)]
  exact hr

/-- An operation that is allowed succeeds, and the file stores the changed description. -/
theorem perform_allowed {f : File} {D : DatasetD} (h : Rep f D) (hw : Wf D) (op : Op) (ha : Allowed D op) (hst : Storable D op) :
    ∃ f', perform f op = (true, f') ∧ Rep f' (apply D op) := by
  cases op with
  | addUniverse u => exact perform_addUniverse h hw u ha
  | addPhenomenon a d => exact perform_addPhenomenon h hw a d ha
  | addSet s a => exact perform_addSet h hw s a ha hst
  | addProperty p d => exact perform_addProperty h p d ha
  | discretizeTime p t q => exact perform_discretizeTime h p t q ha
  | discretizeSpace p t q => exact perform_discretizeSpace h p t q ha
  | discretizePresence s q => exact perform_discretizePresence h s q ha

end Lue.Structure

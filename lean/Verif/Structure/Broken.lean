import Verif.Structure.Theorems

/-!
# Property-sets that can't be stored break the dataset
-/
namespace Lue.Structure

/-- The steps fail, after having turned the part `t` at `P` into `t'`, and don't change anything else. -/
def Fails (ss : List Step) (P : Path) (t t' : Tree) : Prop :=
  ∀ f : File, Closed f → (∀ q, f.get (P ++ q) = t q) → ∃ f', run f ss = (false, f') ∧ Grafted P t' f.get f'.get

theorem Does.fails {ss ss' : List Step} {P : Path} {t t' t'' : Tree} (h : Does ss P t t') (h' : Fails ss' P t' t'') :
    Fails (ss ++ ss') P t t'' := by
  intro f hc hf
  obtain ⟨f1, h1, g1⟩ := h f hc hf
  have hc1 : Closed f1 := by have := hc.run ss; rw [h1] at this; exact this
  obtain ⟨f2, h2, g2⟩ := h' f1 hc1 g1.inside
  exact ⟨f2, by rw [run_append_ok h1, h2], g1.trans g2⟩

theorem Fails.append {ss : List Step} {P : Path} {t t' : Tree} (h : Fails ss P t t') (ss' : List Step) : Fails (ss ++ ss') P t t' := by
  intro f hc hf
  obtain ⟨f1, h1, g1⟩ := h f hc hf
  exact ⟨f1, run_append_fail h1 ss', g1⟩

theorem Fails.sub {ss : List Step} {P Q : Path} {u u' t t' : Tree} (h : Fails ss (P ++ Q) u u') (hu : ∀ q, t (Q ++ q) = u q)
    (ht : Grafted Q u' t t') : Fails ss P t t' := by
  intro f hc hf
  obtain ⟨f1, h1, g1⟩ := h f hc (fun q => by rw [List.append_assoc, hf, hu])
  exact ⟨f1, h1, g1.sub hf ht⟩

/-- A group is created and something in it fails. -/
theorem fails_part {P : Path} {c : Comp} {t u : Tree} {a : Attrs} {ss : List Step} (hg : t [] = some (.group a))
    (ht : ∀ q, t (c :: q) = none) (h : Fails ss (P ++ [c]) fresh u) : Fails (.group P c :: ss) P t (graft [c] u t) := by
  refine Does.fails (ss := [.group P c]) (does_group0 hg ht) ?_
  refine h.sub (t := graft [c] fresh t) (u := fresh) ?_ ?_
  · intro q; exact (grafted_graft [c] fresh t).inside q
  · refine ⟨(grafted_graft [c] u t).inside, fun p hp => ?_⟩
    rw [(grafted_graft [c] u t).outside p hp, (grafted_graft [c] fresh t).outside p hp]

/-- Writing an empty string -/
theorem fails_attr {P : Path} {t : Tree} {a : Attrs} {n : AttrName} (hg : t [] = some (.group a)) (ha : a n = none) :
    Fails [.attr P n (.str "")] P t t := by
  intro f _ hf
  have hf' : f.get P = some (.group a) := by have := hf []; rw [List.append_nil] at this; rw [this, hg]
  refine ⟨f, ?_, hf, fun _ _ => rfl⟩
  have hw : writable (a n) (.str "") = false := by rw [ha]; rfl
  simp only [run, Step.run, hf', hw]
  rfl

/-- A time domain whose epoch has the empty string as origin -/
theorem fails_createTimeDomain {P : Path} {t : Tree} {a : Attrs} (i : TimeItem) (c : Clock) (hc : ¬ c.epoch.Nonempty)
    (hg : t [] = some (.group a)) (ht : ∀ q, t (.tag .timeDomain :: q) = none) :
    ∃ u, Fails (createTimeDomain P i c) P t (graft [.tag .timeDomain] u t) := by
  obtain ⟨k, rest, hrest⟩ : ∃ k rest, createTimeDomain P i c =
      .group P (.tag .timeDomain) :: ([.array (P ++ [.tag .timeDomain]) (.tag .coordinates)] ++
        ([.attr (P ++ [.tag .timeDomain]) .epochKind (.str (epochKinds.asString k))] ++
          ([.attr (P ++ [.tag .timeDomain]) .epochOrigin (.str "")] ++ rest))) := by
    obtain ⟨e, u, n⟩ := c
    cases e with
    | kind k => exact absurd trivial hc
    | origin k o =>
      have ho : o = "" := by simpa [Epoch.Nonempty] using hc
      subst ho
      exact ⟨k, _, rfl⟩
    | calendar k o cal =>
      have ho : o = "" := by simpa [Epoch.Nonempty] using hc
      subst ho
      exact ⟨k, _, rfl⟩
  rw [hrest]
  have hattr := does_attrs (P := P ++ [.tag .timeDomain]) [(.epochKind, .str (epochKinds.asString k))]
    (t := graft [.tag .coordinates] (leaf .array) fresh) (a := Attrs.empty) rfl (by simp) (by intro e _; rfl)
    (by simpa using epochKind_ne k)
  exact ⟨_, fails_part hg ht (Does.fails (does_array0 rfl fun q => rfl) (Does.fails hattr ((fails_attr (a :=
    Attrs.empty.set .epochKind (.str (epochKinds.asString k))) rfl rfl).append rest)))⟩

/-- The creation of the domains fails before the properties are created. -/
theorem fails_createDomains (P : Path) (a : SetArgs) (ha : ¬ a.Storable) :
    ∃ t, Fails (createDomains P a) P fresh t ∧ t [.tag .properties] = none ∧ ∃ b, t [] = some (.group b) := by
  unfold SetArgs.Storable at ha
  push Not at ha
  obtain ⟨i, c, htime, hc⟩ := ha
  cases a with
  | plain => cases htime
  | space m j => cases htime
  | sharedTime t => cases htime
  | sharedTimeTracker t o => cases htime
  | sharedTimeSpace t m j => cases htime
  | sharedTimeTrackerSpace t o m j => cases htime
  | time t c' =>
    cases htime
    obtain ⟨u, hu⟩ := fails_createTimeDomain (P := P) (t := graft [.tag .tracker] (renderTracker .own) fresh) (a := Attrs.empty) i c hc
      rfl (fun q => rfl)
    exact ⟨_, Does.fails (does_createTracker rfl fun q => rfl) hu, rfl, _, rfl⟩
  | timeTracker t c' o =>
    cases htime
    obtain ⟨u, hu⟩ := fails_createTimeDomain (P := P) (t := graft [.tag .tracker] (renderTracker (.shared o)) fresh) (a := Attrs.empty)
      i c hc rfl (fun q => rfl)
    exact ⟨_, Does.fails (does_linkTracker o rfl fun q => rfl) hu, rfl, _, rfl⟩
  | timeSpace t c' m j =>
    cases htime
    obtain ⟨u, hu⟩ := fails_createTimeDomain (P := P) (t := graft [.tag .tracker] (renderTracker .own) fresh) (a := Attrs.empty) i c hc
      rfl (fun q => rfl)
    exact ⟨_, (Does.fails (does_createTracker rfl fun q => rfl) hu).append _, rfl, _, rfl⟩

/-! ## A property-set that can't be opened -/

theorem openCollection_none {α : Type} {f : File} (hc : Closed f) {p : Path} {t : Comp} {n : Name} {a b : Attrs}
    (hg : f.get (p ++ [t]) = some (.group a)) (hn : f.get (p ++ [t] ++ [.user n]) = some (.group b)) {item : Path → Option α}
    (hi : item (p ++ [t] ++ [.user n]) = none) : openCollection f p t item = none := by
  unfold openCollection
  rw [openGroup_node hc hg]
  exact openItems_none hc hn hi

theorem openPhenomenon_none {f : File} (hc : Closed f) {s : SetAddr} {b : Attrs} (hs : f.get (setPath s) = some (.group b))
    (ho : openSet f (setPath s) = none) : openPhenomenon f (phenomenonPath s.phenomenon) = none := by
  rw [setPath_eq] at hs ho
  obtain ⟨a, ha⟩ := hc.parent _ _ _ hs
  have hcol := openCollection_none (item := openSet f) hc ha hs ho
  unfold openPhenomenon
  cases readDescription f (phenomenonPath s.phenomenon) with
  | none => rfl
  | some d =>
    cases openArray f (phenomenonPath s.phenomenon) (.tag .objectId) with
    | none => rfl
    | some _ =>
      cases hcc : s.coll with
      | collection =>
        rw [hcc] at hcol
        rw [hcol]; rfl
      | objects =>
        rw [hcc] at hcol
        rw [hcol]
        cases openCollection f (phenomenonPath s.phenomenon) (.tag (.sets .collection)) (openSet f) <;> rfl

/-- One property-set that can't be opened makes that the dataset can't be opened. -/
theorem openDataset_none {f : File} (hc : Closed f) {s : SetAddr} {b : Attrs} (hs : f.get (setPath s) = some (.group b))
    (ho : openSet f (setPath s) = none) : openDataset f = none := by
  have hp := openPhenomenon_none hc hs ho
  obtain ⟨a, ha⟩ := hc.above [.tag (.sets s.coll), .user s.name] (phenomenonPath s.phenomenon) _ hs (by simp)
  rw [phenomenonPath_eq] at hp ha
  obtain ⟨a', ha'⟩ := hc.parent _ _ _ ha
  have hworld : openWorld f (worldPath s.phenomenon.world) = none := openCollection_none hc ha' ha hp
  unfold openDataset
  cases readDescription f [] with
  | none => rfl
  | some d =>
    cases hw : s.phenomenon.world with
    | none =>
      rw [hw] at hworld
      rw [show openWorld f [] = none from hworld]
      cases openCollection f [] (.tag .universes) (openWorld f) <;> rfl
    | some u =>
      rw [hw] at hworld ha'
      obtain ⟨a2, ha2⟩ := hc.parent [.tag .universes, .user u] _ _ ha'
      obtain ⟨a1, ha1⟩ := hc.parent [.tag .universes] _ _ ha2
      rw [openCollection_none (p := []) (t := .tag .universes) (n := u) hc ha1 ha2 hworld]
      rfl

theorem openProperties_none {f : File} {p : Path} (h : f.get (p ++ [.tag .properties]) = none) : openProperties f p = none := by
  unfold openProperties
  rw [openGroup_none h]; rfl

theorem openSet_none_of_properties {f : File} {p : Path} (h : f.get (p ++ [.tag .properties]) = none) : openSet f p = none := by
  unfold openSet
  rw [openProperties_none h]
  cases openTracker f p <;> rfl

/-- Adding a property-set that is allowed, but which can't be stored (the origin of an epoch is the empty string, or a time domain or
object tracker is shared through too many other property-sets), fails. What has been written by then stays in the file, and the dataset
can't be opened anymore. -/
theorem unstorable_breaks_dataset {version description : String} {ops : List Op} {f : File} {D : DatasetD}
    (h : After version description ops f D) (s : SetAddr) (a : SetArgs) (ha : Allowed D (.addSet s a))
    (hst : ¬ Storable D (.addSet s a)) :
    ∃ f', perform f (.addSet s a) = (false, f') ∧ openDataset f' = none := by
  obtain ⟨hR, hw⟩ := h.rep
  obtain ⟨hp, hs, hsrc⟩ := ha
  obtain ⟨P, hP⟩ := Option.isSome_iff_exists.mp hp
  have hn : f.get (phenomenonPath s.phenomenon ++ [.tag (.sets s.coll)] ++ [.user s.name]) = none := by
    have := render_set D s []
    rw [List.append_nil, hs] at this
    rw [hR.nodes]
    rwa [setPath_eq] at this
  have hg : f.get (phenomenonPath s.phenomenon ++ [.tag (.sets s.coll)]) = some (.group Attrs.empty) := by
    rw [hR.nodes, render_phenomenon, hP]; rfl
  have hstart : perform f (.addSet s a) = run f (.group (phenomenonPath s.phenomenon ++ [.tag (.sets s.coll)]) (.user s.name) ::
      (createDomains (phenomenonPath s.phenomenon ++ [.tag (.sets s.coll)] ++ [.user s.name]) a ++
        createProperties (phenomenonPath s.phenomenon ++ [.tag (.sets s.coll)] ++ [.user s.name]) ++
        [.check fun f => (openSet f (phenomenonPath s.phenomenon ++ [.tag (.sets s.coll)] ++ [.user s.name])).isSome])) := by
    show run f (navigate (phenomenonPath s.phenomenon) :: (timeArg a ++ trackerArg a ++ _)) = _
    rw [navigate, run_check_ok (by rw [navigate_phenomenon hR]; exact hp), (run_args hR hw.linked a _).1 hsrc]
    show run f (refuseGroup _ _ :: _) = _
    rw [refuseGroup, run_check_ok (by rw [groupExists_none hn]; rfl)]
    rfl
  have hclosed : ∀ f' b, perform f (.addSet s a) = (b, f') → Closed f' := by
    intro f' b hf'
    have := hR.closed.run (steps (.addSet s a))
    rwa [show run f (steps (.addSet s a)) = (b, f') from hf'] at this
  by_cases hsto : a.Storable
  · -- too many links
    have hns : ¬ a.Sources D (maxLinks - 1) := fun hh => hst ⟨hh, hsto⟩
    obtain ⟨f', hr, hR'⟩ := hR.part (D' := D.setSet s a.describe) (p := phenomenonPath s.phenomenon ++ [.tag (.sets s.coll)])
      (c := .user s.name) (a := Attrs.empty) (by rw [← hR.nodes]; exact hg) (by rw [← hR.nodes]; exact hn) (does_createSet _ a hsto)
      (by rw [← setPath_eq]; exact graft_setSet D s _ hp)
    have hset := fun s' => set_setSet D s s' a.describe hp
    have hfromT : ∀ s', s' ≠ s → (D.setSet s a.describe).trackerFrom s' = D.trackerFrom s' := by
      intro s' hne; rw [trackerFrom_eq, trackerFrom_eq, hset, if_neg hne]
    have hfromM : ∀ s', s' ≠ s → (D.setSet s a.describe).timeFrom s' = D.timeFrom s' := by
      intro s' hne; rw [timeFrom_eq, timeFrom_eq, hset, if_neg hne]
    have hselfT : (D.setSet s a.describe).trackerFrom s = some a.tracker.source := by rw [trackerFrom_eq, hset, if_pos rfl]; rfl
    have hselfM : (D.setSet s a.describe).timeFrom s = a.timeD.source := by rw [timeFrom_eq, hset, if_pos rfl]; rfl
    have hnoT : D.trackerFrom s = none := by rw [trackerFrom_eq, hs]; rfl
    have hnoM : D.timeFrom s = none := by rw [timeFrom_eq, hs]; rfl
    -- the old property-sets don't refer to the new one
    have hagree : ∀ (src src' : SetAddr → Option (Option SetAddr)), (∀ s', s' ≠ s → src' s' = src s') → src s = none →
        (∀ s' t, src s' = some (some t) → (src t).isSome) → ∀ n s', s' ≠ s → owner src' n s' = owner src n s' := by
      intro src src' h1 h2 h3 n
      induction n with
      | zero => intro s' hne; unfold owner; rw [h1 s' hne]
      | succ n ih =>
        intro s' hne
        unfold owner
        rw [h1 s' hne]
        cases hx : src s' with
        | none => rfl
        | some x =>
          cases x with
          | none => rfl
          | some t =>
            refine ih t ?_
            rintro rfl
            have := h3 s' _ hx
            rw [h2] at this; cases this
    have hlink : Linked (D.setSet s a.describe) := by
      constructor
      · intro s' t hs'
        have ht : (D.trackerFrom t).isSome := by
          by_cases hne : s' = s
          · subst hne
            rw [hselfT] at hs'
            have htr : a.tracker = .shared t := by
              cases hk : a.tracker with
              | own => rw [hk] at hs'; cases hs'
              | shared t' => rw [hk] at hs'; cases hs'; rfl
            exact owner_isSome (hsrc.2 t htr)
          · rw [hfromT s' hne] at hs'
            exact hw.linked.trackers s' t hs'
        rw [hfromT t (by rintro rfl; rw [hnoT] at ht; cases ht)]
        exact ht
      · intro s' t hs'
        have ht : (D.timeFrom t).isSome := by
          by_cases hne : s' = s
          · subst hne
            rw [hselfM] at hs'
            have htr : a.timeD = .shared t := by
              cases hk : a.timeD with
              | absent => rw [hk] at hs'; cases hs'
              | own i c => rw [hk] at hs'; cases hs'
              | shared t' => rw [hk] at hs'; cases hs'; rfl
            exact owner_isSome (hsrc.1 t htr)
          · rw [hfromM s' hne] at hs'
            exact hw.linked.times s' t hs'
        rw [hfromM t (by rintro rfl; rw [hnoM] at ht; cases ht)]
        exact ht
    have hopen : openSet f' (setPath s) = none := by
      unfold SetArgs.Sources at hns
      by_cases htr : ∀ t, a.tracker = .shared t → (owner D.trackerFrom (maxLinks - 1) t).isSome
      · have htm : ¬ ∀ t, a.timeD = .shared t → (owner D.timeFrom (maxLinks - 1) t).isSome := fun hh => hns ⟨hh, htr⟩
        push Not at htm
        obtain ⟨t, ht, hnone⟩ := htm
        have hne : t ≠ s := by
          rintro rfl
          have := owner_isSome (hsrc.1 t ht)
          rw [hnoM] at this; cases this
        have hnone' : owner (D.setSet s a.describe).timeFrom maxLinks s = none := by
          rw [show maxLinks = 15 + 1 from rfl, owner_shared (t := t) (by rw [hselfM, ht]; rfl),
            hagree D.timeFrom _ hfromM hnoM hw.linked.times 15 t hne]
          simpa [maxLinks] using hnone
        have hsome : ((D.setSet s a.describe).timeFrom s).isSome := by rw [hselfM, ht]; rfl
        have hnode : f'.get (setPath s ++ [.tag .timeDomain]) = some (.soft (timePath t)) := by
          rw [hR'.set_sub (S := a.describe) (by rw [hset, if_pos rfl])]
          show renderTime a.timeD [] = _
          rw [ht]; rfl
        have hge : groupExists f' (setPath s) (.tag .timeDomain) = none := by
          unfold groupExists linkExists
          rw [hnode, Option.isSome_some, if_pos rfl, nodeOf, time_resolve hR' hlink _ _ hsome, hnone']
          rfl
        unfold openSet
        rw [hge]
        cases openTracker f' (setPath s) with
        | none => rfl
        | some r => cases openProperties f' (setPath s) <;> rfl
      · push Not at htr
        obtain ⟨t, ht, hnone⟩ := htr
        have hne : t ≠ s := by
          rintro rfl
          have := owner_isSome (hsrc.2 t ht)
          rw [hnoT] at this; cases this
        have hnone' : owner (D.setSet s a.describe).trackerFrom maxLinks s = none := by
          rw [show maxLinks = 15 + 1 from rfl, owner_shared (t := t) (by rw [hselfT, ht]; rfl),
            hagree D.trackerFrom _ hfromT hnoT hw.linked.trackers 15 t hne]
          simpa [maxLinks] using hnone
        unfold openSet
        rw [openTracker_eq hR' hlink s (by rw [hset, if_pos rfl]; rfl), hnone']
        rfl
    have hend : perform f (.addSet s a) = (false, f') := by
      rw [hstart]
      show run f ((.group _ _ :: (_ ++ _)) ++ [.check _]) = _
      rw [run_append_ok hr]
      refine run_check_fail ?_ []
      rw [← setPath_eq, hopen]; rfl
    refine ⟨f', hend, openDataset_none (s := s) (b := Attrs.empty) (hclosed _ _ hend) ?_ hopen⟩
    have := hR'.set_sub (s := s) (S := a.describe) (by rw [hset, if_pos rfl]) []
    rwa [List.append_nil] at this
  · -- the clock can't be written
    obtain ⟨t, ht, htp, b, hb⟩ := fails_createDomains (phenomenonPath s.phenomenon ++ [.tag (.sets s.coll)] ++ [.user s.name]) a hsto
    have hpart : ∃ f', run f (.group (phenomenonPath s.phenomenon ++ [.tag (.sets s.coll)]) (.user s.name) ::
        createDomains (phenomenonPath s.phenomenon ++ [.tag (.sets s.coll)] ++ [.user s.name]) a) = (false, f') ∧
        ∀ q, f'.get (phenomenonPath s.phenomenon ++ [.tag (.sets s.coll)] ++ [.user s.name] ++ q) = t q := by
      obtain ⟨f1, hr1, hG1⟩ := run_part hR.closed hg hn (Does.nil _ fresh)
      have hc1 : Closed f1 := by
        have := hR.closed.run [.group (phenomenonPath s.phenomenon ++ [.tag (.sets s.coll)]) (.user s.name)]
        rwa [hr1] at this
      obtain ⟨f2, hr2, hG2⟩ := ht f1 hc1 hG1.inside
      refine ⟨f2, ?_, hG2.inside⟩
      exact (run_append_ok hr1 (createDomains (phenomenonPath s.phenomenon ++ [.tag (.sets s.coll)] ++ [.user s.name]) a)).trans hr2
    obtain ⟨f', hr, hq⟩ := hpart
    have hend : perform f (.addSet s a) = (false, f') := by
      rw [hstart, List.append_assoc]
      show run f ((.group _ _ :: _) ++ _) = _
      rw [run_append_fail hr]
    refine ⟨f', hend, openDataset_none (s := s) (b := b) (hclosed _ _ hend) ?_ (openSet_none_of_properties ?_)⟩
    · have := hq []
      rw [List.append_nil, hb] at this
      rwa [setPath_eq]
    · rw [setPath_eq, hq, htp]

end Lue.Structure

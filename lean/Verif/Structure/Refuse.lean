import Verif.Structure.Perform

/-!
# Operations that are refused, and creating a dataset
-/
namespace Lue.Structure

theorem groupExists_exists {f : File} {D : DatasetD} (h : Rep f D) {p : Path} {c : Comp} {a : Attrs}
    (hm : render D (p ++ [c]) = some (.group a)) : groupExists f p c = some true :=
  groupExists_group h.closed (by rw [h.nodes]; exact hm)

theorem addNode_exists {f : File} {p : Path} {c : Comp} {m : Node} (n : Node) (hm : f.get (p ++ [c]) = some m) :
    addNode f p c n = (false, f) := by
  unfold addNode linkExists
  rw [hm]
  simp

theorem addNode_noGroup {f : File} {p : Path} {c : Comp} (n : Node) (hm : isGroup f p = false) :
    addNode f p c n = (false, f) := by
  unfold addNode
  rw [hm]
  rfl

theorem run_link_fail {f : File} {p target : Path} {c : Comp} (h : addNode f p c (.soft target) = (false, f)) (ss : List Step) :
    run f (.link p c target :: ss) = (false, f) := by
  simp only [run, Step.run, h]
  rfl

theorem set_same {t : Tree} {p : Path} {n : Node} (h : t p = some n) : t.set p n = t := by
  funext q
  unfold Tree.set
  split
  · rename_i he; rw [← he, h]
  · rfl

/-- Writing an attribute that already has the value -/
theorem run_attr_again {f : File} {p : Path} {n : AttrName} {s : String} {a : Attrs} (hf : f.get p = some (.group a))
    (ha : a n = some (.str s)) (ss : List Step) :
    ∃ f', run f (.attr p n (.str s) :: ss) = run f' ss ∧ f'.get = f.get := by
  refine ⟨f.put p (.group (a.set n (.str s))), ?_, ?_⟩
  · have hw : writable (a n) (.str s) = true := by rw [ha]; simp [writable]
    simp only [run, Step.run, hf, hw, if_true]
  · have he : a.set n (.str s) = a := by
      funext m
      unfold Attrs.set
      split
      · rename_i hm; rw [hm, ha]
      · rfl
    rw [get_put', he, set_same hf]

theorem Discretization.unique (t t' : Discretization) : t = t' := by cases t; cases t'; rfl

/-- An operation that isn't allowed fails, and nothing changes. -/
theorem perform_refused {f : File} {D : DatasetD} (h : Rep f D) (hl : Linked D) (op : Op) (ha : ¬ Allowed D op) :
    ∃ f', perform f op = (false, f') ∧ f'.get = f.get := by
  have fails : ∀ {g : File → Bool} (ss : List Step), g f = false → ∃ f', run f (.check g :: ss) = (false, f') ∧ f'.get = f.get :=
    fun ss hg => ⟨f, run_check_fail hg ss, rfl⟩
  cases op with
  | addUniverse u =>
    refine ⟨f, ?_, rfl⟩
    cases hu : D.universes u with
    | none => exact absurd hu ha
    | some W =>
      have hm : f.get ([.tag .universes] ++ [.user u]) = some (.group Attrs.empty) := by
        rw [h.nodes]
        show (D.universes u).bind _ = _
        rw [hu]; rfl
      show run f (.group [.tag .universes] (.user u) :: _) = _
      simp only [run, Step.run, addNode_exists _ hm]
      rfl
  | addPhenomenon a d =>
    show ∃ f', run f (navigate (worldPath a.world) :: _) = (false, f') ∧ _
    cases hw : (D.world? a.world).isSome with
    | false => exact fails _ (by rw [navigate_world h]; exact hw)
    | true =>
      rw [navigate, run_check_ok (by rw [navigate_world h]; exact hw)]
      refine fails _ ?_
      cases hP : D.phenomenon? a with
      | none => exact absurd ⟨hw, hP⟩ ha
      | some P =>
        have := render_phenomenon D a []
        rw [List.append_nil, hP, phenomenonPath_eq] at this
        rw [groupExists_exists h this]
        rfl
  | addSet s a =>
    show ∃ f', run f (navigate (phenomenonPath s.phenomenon) :: (timeArg a ++ trackerArg a ++ _)) = (false, f') ∧ _
    cases hp : (D.phenomenon? s.phenomenon).isSome with
    | false => exact fails _ (by rw [navigate_phenomenon h]; exact hp)
    | true =>
      rw [navigate, run_check_ok (by rw [navigate_phenomenon h]; exact hp)]
      by_cases hsrc : a.Sources D maxLinks
      · rw [(run_args h hl a _).1 hsrc]
        refine fails _ ?_
        cases hS : D.set? s with
        | none => exact absurd ⟨hp, hS, hsrc⟩ ha
        | some S =>
          have := render_set D s []
          rw [List.append_nil, hS, setPath_eq] at this
          rw [groupExists_exists h this]
          rfl
      · exact ⟨f, (run_args h hl a _).2 hsrc, rfl⟩
  | addProperty p d =>
    show ∃ f', run f (navigate (setPath p.set) :: refuseProperty _ _ :: _) = (false, f') ∧ _
    cases hs : (D.set? p.set).isSome with
    | false => exact fails _ (by rw [navigate_set h]; exact hs)
    | true =>
      rw [navigate, run_check_ok (by rw [navigate_set h]; exact hs)]
      refine fails _ ?_
      simp only [refuse_property h]
      rw [Bool.not_eq_false']
      by_contra hn
      refine ha ⟨hs, fun k => ?_⟩
      simp only [Bool.not_eq_true, Bool.or_eq_false_iff, Option.isSome_eq_false_iff, Option.isNone_iff_eq_none] at hn
      obtain ⟨⟨⟨⟨⟨h1, h2⟩, h3⟩, h4⟩, h5⟩, h6⟩ := hn
      cases k <;> assumption
  | discretizeTime p t q =>
    show ∃ f', run f (navigate (propertyPath p) :: navigate (propertyPath q) :: _) = (false, f') ∧ _
    cases hp : D.property? p with
    | none => exact fails _ (by rw [navigate_property h, hp]; rfl)
    | some x =>
      rw [navigate, run_check_ok (by rw [navigate_property h, hp]; rfl)]
      cases hq : (D.property? q).isSome with
      | false => exact fails _ (by rw [navigate_property h]; exact hq)
      | true =>
        rw [navigate, run_check_ok (by rw [navigate_property h]; exact hq)]
        cases hx : x.timeDisc with
        | none => exact absurd ⟨⟨x, hp, hx⟩, hq⟩ ha
        | some e =>
          have hf : f.get (propertyPath p) = some (.group (propertyAttrs x)) := by
            have := render_property D p []
            rw [List.append_nil, hp] at this
            rw [h.nodes]; exact this
          obtain ⟨f', hr, hget⟩ := run_attr_again (n := .timeDisc) (s := discretizations.asString t) hf (by
              show x.timeDisc.map _ = _
              rw [hx, Discretization.unique t e.1]; rfl) [.link (propertyPath p) (.tag .timeDisc) (propertyPath q)]
          refine ⟨f', ?_, hget⟩
          rw [hr]
          refine run_link_fail (addNode_exists (m := .soft (propertyPath e.2)) _ ?_) _
          rw [hget, h.nodes, render_property, hp]
          show x.timeDisc.map _ = _
          rw [hx]; rfl
  | discretizeSpace p t q =>
    show ∃ f', run f (navigate (propertyPath p) :: navigate (propertyPath q) :: _) = (false, f') ∧ _
    cases hp : D.property? p with
    | none => exact fails _ (by rw [navigate_property h, hp]; rfl)
    | some x =>
      rw [navigate, run_check_ok (by rw [navigate_property h, hp]; rfl)]
      cases hq : (D.property? q).isSome with
      | false => exact fails _ (by rw [navigate_property h]; exact hq)
      | true =>
        rw [navigate, run_check_ok (by rw [navigate_property h]; exact hq)]
        cases hx : x.spaceDisc with
        | none => exact absurd ⟨⟨x, hp, hx⟩, hq⟩ ha
        | some e =>
          have hf : f.get (propertyPath p) = some (.group (propertyAttrs x)) := by
            have := render_property D p []
            rw [List.append_nil, hp] at this
            rw [h.nodes]; exact this
          obtain ⟨f', hr, hget⟩ := run_attr_again (n := .spaceDisc) (s := discretizations.asString t) hf (by
              show x.spaceDisc.map _ = _
              rw [hx, Discretization.unique t e.1]; rfl) [.link (propertyPath p) (.tag .spaceDisc) (propertyPath q)]
          refine ⟨f', ?_, hget⟩
          rw [hr]
          refine run_link_fail (addNode_exists (m := .soft (propertyPath e.2)) _ ?_) _
          rw [hget, h.nodes, render_property, hp]
          show x.spaceDisc.map _ = _
          rw [hx]; rfl
  | discretizePresence s q =>
    show ∃ f', run f (navigate (setPath s) :: navigate (propertyPath q) :: _) = (false, f') ∧ _
    cases hS : D.set? s with
    | none => exact fails _ (by rw [navigate_set h, hS]; rfl)
    | some S =>
      rw [navigate, run_check_ok (by rw [navigate_set h, hS]; rfl)]
      cases hq : (D.property? q).isSome with
      | false => exact fails _ (by rw [navigate_property h]; exact hq)
      | true =>
        rw [navigate, run_check_ok (by rw [navigate_property h]; exact hq)]
        refine ⟨f, ?_, rfl⟩
        cases hx : S.space with
        | none =>
          refine run_link_fail (addNode_noGroup _ ?_) _
          unfold isGroup
          rw [h.nodes, render_set, hS]
          show (match renderSpace S.space [] with | some (.group _) => true | _ => false) = false
          rw [hx]; rfl
        | some x =>
          cases hpr : x.presence with
          | none => exact absurd ⟨⟨S, x, hS, hx, hpr⟩, hq⟩ ha
          | some q' =>
            refine run_link_fail (addNode_exists (m := .soft (propertyPath q')) _ ?_) _
            rw [List.append_assoc, h.nodes, render_set, hS]
            show renderSpace S.space [.tag .presence] = _
            rw [hx]
            show x.presence.map _ = _
            rw [hpr]; rfl

theorem perform_refused' {f : File} {D : DatasetD} (h : Rep f D) (hl : Linked D) (op : Op) (ha : ¬ Allowed D op) :
    ∃ f', perform f op = (false, f') ∧ Rep f' D := by
  obtain ⟨f', hr, hget⟩ := perform_refused h hl op ha
  refine ⟨f', hr, ?_, by rw [hget]; exact h.nodes⟩
  have := h.closed.run (steps op)
  rwa [show run f (steps op) = (false, f') from hr] at this

/-! ## Creating a dataset -/

/-- A new file -/
theorem closed_new : Closed [([], .group Attrs.empty)] := by
  refine ⟨by unfold AMap.Ok; simp, ⟨Attrs.empty, rfl⟩, ?_⟩
  intro p c n hn
  have : AMap.get [([], Node.group Attrs.empty)] (p ++ [c]) = none := by simp [AMap.get]
  rw [this] at hn; cases hn

theorem does_createDataset (v d : String) (hv : v ≠ "") :
    Does (createUniverses [] ++ createPhenomena [] ++ [.attr [] .version (.str v)] ++ writeDescription [] d) [] fresh
      (render (DatasetD.new v d)) := by
  have h1 : Does (createUniverses []) [] fresh (graft [.tag .universes] fresh fresh) :=
    Does.cons (does_refuse0 rfl) (does_group0 rfl fun q => rfl)
  have h2 : Does (createPhenomena []) [] (graft [.tag .universes] fresh fresh)
      (graft [.tag .phenomena] fresh (graft [.tag .universes] fresh fresh)) :=
    Does.cons (does_refuse0 rfl) (does_group0 (a := Attrs.empty) rfl fun q => rfl)
  have hattrs : ([.attr [] .version (.str v)] ++ writeDescription [] d : List Step) =
      ((AttrName.version, Attr.str v) :: (if d ≠ "" then [(AttrName.description, Attr.str d)] else [])).map
        fun e => Step.attr [] e.1 e.2 := by
    unfold writeDescription
    split <;> rfl
  have h3 := does_attrs (P := []) ((AttrName.version, Attr.str v) :: (if d ≠ "" then [(AttrName.description, Attr.str d)] else []))
    (t := graft [.tag .phenomena] fresh (graft [.tag .universes] fresh fresh)) (a := Attrs.empty) rfl
    (by split <;> simp) (by intro e _; rfl) (by
      intro e he
      rcases List.mem_cons.mp he with rfl | he
      · simpa using hv
      · split at he
        · rename_i hd
          rw [List.mem_singleton] at he
          subst he
          simpa using hd
        · cases he)
  rw [← hattrs] at h3
  have := (h1.append h2).append h3
  rw [← List.append_assoc] at this
  refine this.congr ?_
  funext q
  match q with
  | [] =>
    show some (Node.group _) = some (Node.group _)
    congr 2
    funext m
    show _ = rootAttrs (DatasetD.new v d) m
    by_cases hd : d = ""
    · subst hd
      cases m <;> rfl
    · rw [if_pos hd]
      cases m <;> first | rfl | (show _ = descriptionAttrs d _; unfold descriptionAttrs; rw [if_pos hd]; rfl)
  | [.tag x] => cases x <;> rfl
  | [.user n] => rfl
  | .tag x :: e :: q =>
    cases x with
    | phenomena => cases e <;> rfl
    | universes => cases e <;> rfl
    | _ => rfl
  | .user n :: e :: q => rfl

theorem createDataset_rep (v d : String) (hv : v ≠ "") : ∃ f, createDataset v d = (true, f) ∧ Rep f (DatasetD.new v d) := by
  obtain ⟨f, hr, hG⟩ := does_createDataset v d hv _ closed_new (by
    intro q
    match q with
    | [] => rfl
    | c :: q => simp [AMap.get, fresh])
  have hR : Rep f (DatasetD.new v d) := by
    refine ⟨by
      have := closed_new.run
        (createUniverses [] ++ createPhenomena [] ++ [.attr [] .version (.str v)] ++ writeDescription [] d)
      rwa [hr] at this, ?_⟩
    funext q
    exact hG.inside q
  refine ⟨f, run_end hr ?_, hR⟩
  obtain ⟨w, hw, _⟩ := openDataset_shows hR (wf_new v d)
  rw [hw]; rfl

end Lue.Structure

import Verif.Structure.Refuse

/-!
# Opening a dataset shows the structure that was created
-/
namespace Lue.Structure

theorem history_spec (ops : List Op) : ∀ {f : File} {D : DatasetD}, Rep f D → Wf D → AllStorable D ops →
    (history f ops).1 = (outcome D ops).1 ∧ Rep (history f ops).2 (outcome D ops).2 ∧ Wf (outcome D ops).2 := by
  induction ops with
  | nil => intro f D h hw _; exact ⟨rfl, h, hw⟩
  | cons op ops ih =>
    intro f D h hw hs
    unfold AllStorable at hs
    unfold outcome
    by_cases ha : Allowed D op
    · rw [if_pos ha] at hs ⊢
      obtain ⟨f', hr, hR⟩ := perform_allowed h hw op ha hs.1
      obtain ⟨h1, h2, h3⟩ := ih hR (wf_apply hw op ha hs.1) hs.2
      simp only [history, hr]
      exact ⟨by rw [h1], h2, h3⟩
    · rw [if_neg ha] at hs ⊢
      obtain ⟨f', hr, hR⟩ := perform_refused' h hw.linked op ha
      obtain ⟨h1, h2, h3⟩ := ih hR hw hs
      simp only [history, hr]
      exact ⟨by rw [h1], h2, h3⟩

/-- C69. Whatever a user adds to a new dataset, in whatever order: exactly the operations that are allowed succeed, and the dataset that
is opened afterwards is the one the user has described. Operations that are refused have no effect. -/
theorem dataset_structure (version description : String) (hv : version ≠ "") (ops : List Op)
    (hs : AllStorable (DatasetD.new version description) ops) :
    ∃ f, createDataset version description = (true, f) ∧
      (history f ops).1 = (outcome (DatasetD.new version description) ops).1 ∧
      ∃ v, openDataset (history f ops).2 = some v ∧ Shows (outcome (DatasetD.new version description) ops).2 v := by
  obtain ⟨f, hf, hR⟩ := createDataset_rep version description hv
  obtain ⟨h1, h2, h3⟩ := history_spec ops hR (wf_new _ _) hs
  exact ⟨f, hf, h1, openDataset_shows h2 h3⟩

/-- Without a property-set in between that can't be stored, a dataset can be opened after each operation. -/
theorem dataset_never_broken (version description : String) (hv : version ≠ "") (before after : List Op)
    (hs : AllStorable (DatasetD.new version description) (before ++ after)) :
    ∃ f, createDataset version description = (true, f) ∧ (openDataset (history f before).2).isSome := by
  have key : ∀ (l : List Op) (D : DatasetD), AllStorable D (l ++ after) → AllStorable D l := by
    intro l
    induction l with
    | nil => intro D _; trivial
    | cons op l ih =>
      intro D h
      unfold AllStorable at h ⊢
      rw [List.cons_append] at h
      by_cases ha : Allowed D op
      · simp only [if_pos ha] at h ⊢
        exact ⟨h.1, ih _ h.2⟩
      · simp only [if_neg ha] at h ⊢
        exact ih _ h
  obtain ⟨f, hf, _, v, hv', _⟩ := dataset_structure version description hv before (key before _ hs)
  exact ⟨f, hf, by rw [hv']; rfl⟩

/-! ## Discretization properties -/

theorem linkedProperty_eq {f : File} {D : DatasetD} (h : Rep f D) {p : Path} {c : Comp} {q : PropertyAddr} {y : PropertyD}
    (hf : f.get (p ++ [c]) = some (.soft (propertyPath q))) (hq : D.property? q = some y) :
    linkedProperty f p c = some (propertyPath q, y.description) := by
  have hg : f.get (propertyPath q) = some (.group (propertyAttrs y)) := by
    have := render_property D q []
    rw [List.append_nil, hq] at this
    rw [h.nodes]; exact this
  have hres : openGroupAt f [] (propertyPath q) = some (propertyPath q) := by
    unfold openGroupAt
    rw [resolve_eq h.closed maxLinks [] (propertyPath q) (by simp [propertyPath]) (m := .group (propertyAttrs y)) hg]
    show (if isGroup f (propertyPath q) then _ else _) = _
    rw [if_pos (Structure.isGroup_iff.mpr ⟨_, hg⟩)]
    rfl
  unfold linkedProperty softLinkPath
  rw [hf]
  show (openGroupAt f [] (propertyPath q) >>= _) = _
  rw [hres]
  show (readDescription f (propertyPath q) >>= _) = _
  rw [readDescription_eq y.description hg rfl]
  rfl

/-- The dataset after a history, with what the user has put into it -/
structure After (version description : String) (ops : List Op) (f : File) (D : DatasetD) : Prop where
  storable : AllStorable (DatasetD.new version description) ops
  versioned : version ≠ ""
  file : ∃ f0, createDataset version description = (true, f0) ∧ f = (history f0 ops).2
  described : D = (outcome (DatasetD.new version description) ops).2

theorem After.rep {version description : String} {ops : List Op} {f : File} {D : DatasetD} (h : After version description ops f D) :
    Rep f D ∧ Wf D := by
  obtain ⟨f0, hf0, rfl⟩ := h.file
  obtain ⟨f1, hf1, hR⟩ := createDataset_rep version description h.versioned
  rw [hf0] at hf1
  cases hf1
  obtain ⟨_, h2, h3⟩ := history_spec ops hR (wf_new _ _) h.storable
  rw [h.described]
  exact ⟨h2, h3⟩

/-- Asking a property for its discretization through time: the kind of discretization and the property that has been set. -/
theorem time_discretization_found {version description : String} {ops : List Op} {f : File} {D : DatasetD}
    (h : After version description ops f D) {p q : PropertyAddr} {x : PropertyD} {t : Discretization} (hp : D.property? p = some x)
    (hx : x.timeDisc = some (t, q)) :
    ∃ y, D.property? q = some y ∧ timeDiscretization f (propertyPath p) = some (t, propertyPath q, y.description) := by
  obtain ⟨hR, hw⟩ := h.rep
  obtain ⟨y, hy⟩ := Option.isSome_iff_exists.mp (hw.timeDiscs p x t q hp hx)
  refine ⟨y, hy, ?_⟩
  have hg : f.get (propertyPath p) = some (.group (propertyAttrs x)) := by
    have := render_property D p []
    rw [List.append_nil, hp] at this
    rw [hR.nodes]; exact this
  have h1 : readStr f (propertyPath p) .timeDisc = some (discretizations.asString t) := by
    unfold readStr
    rw [attrsOf_eq hg, show propertyAttrs x .timeDisc = some (.str (discretizations.asString t)) by
      show x.timeDisc.map _ = _
      rw [hx]; rfl]
  unfold timeDiscretization
  simp only [h1, Option.bind_eq_bind, Option.bind_some, discretization_value]
  rw [linkedProperty_eq hR (q := q) (y := y) (by
    rw [hR.nodes, render_property, hp]
    show x.timeDisc.map _ = _
    rw [hx]; rfl) hy]
  rfl

/-- Asking a property for its discretization through space: the kind of discretization and the property that has been set. -/
theorem space_discretization_found {version description : String} {ops : List Op} {f : File} {D : DatasetD}
    (h : After version description ops f D) {p q : PropertyAddr} {x : PropertyD} {t : Discretization} (hp : D.property? p = some x)
    (hx : x.spaceDisc = some (t, q)) :
    ∃ y, D.property? q = some y ∧ spaceDiscretization f (propertyPath p) = some (t, propertyPath q, y.description) := by
  obtain ⟨hR, hw⟩ := h.rep
  obtain ⟨y, hy⟩ := Option.isSome_iff_exists.mp (hw.spaceDiscs p x t q hp hx)
  refine ⟨y, hy, ?_⟩
  have hg : f.get (propertyPath p) = some (.group (propertyAttrs x)) := by
    have := render_property D p []
    rw [List.append_nil, hp] at this
    rw [hR.nodes]; exact this
  have h1 : readStr f (propertyPath p) .spaceDisc = some (discretizations.asString t) := by
    unfold readStr
    rw [attrsOf_eq hg, show propertyAttrs x .spaceDisc = some (.str (discretizations.asString t)) by
      show x.spaceDisc.map _ = _
      rw [hx]; rfl]
  unfold spaceDiscretization
  simp only [h1, Option.bind_eq_bind, Option.bind_some, discretization_value]
  rw [linkedProperty_eq hR (q := q) (y := y) (by
    rw [hR.nodes, render_property, hp]
    show x.spaceDisc.map _ = _
    rw [hx]; rfl) hy]
  rfl

/-- Asking a space domain for the property that discretizes the presence -/
theorem presence_discretization_found {version description : String} {ops : List Op} {f : File} {D : DatasetD}
    (h : After version description ops f D) {s : SetAddr} {S : SetD} {x : SpaceD} {q : PropertyAddr} (hs : D.set? s = some S)
    (hS : S.space = some x) (hx : x.presence = some q) :
    ∃ y, D.property? q = some y ∧ presenceDiscretization f (setPath s) = some (propertyPath q, y.description) := by
  obtain ⟨hR, hw⟩ := h.rep
  obtain ⟨y, hy⟩ := Option.isSome_iff_exists.mp (hw.presences s S x q hs hS hx)
  refine ⟨y, hy, ?_⟩
  have hg : f.get (setPath s ++ [.tag .spaceDomain]) = some (.group (spaceAttrs x.mobility x.item)) := by
    rw [hR.set_sub hs]
    show renderSpace S.space [] = _
    rw [hS]; rfl
  unfold presenceDiscretization
  rw [openGroup_node hR.closed hg]
  show linkedProperty f (setPath s ++ [.tag .spaceDomain]) (.tag .presence) = _
  refine linkedProperty_eq hR ?_ hy
  rw [List.append_assoc, hR.set_sub hs]
  show renderSpace S.space [.tag .presence] = _
  rw [hS]
  show x.presence.map _ = _
  rw [hx]; rfl

/-- The name of a property identifies it within a property-set: there are never two with the same name in different collections. -/
theorem property_names_unique {version description : String} {ops : List Op} {f : File} {D : DatasetD}
    (h : After version description ops f D) (s : SetAddr) (k k' : Kind) (n : Name) (h1 : (D.property? ⟨s, k, n⟩).isSome)
    (h2 : (D.property? ⟨s, k', n⟩).isSome) : k = k' := by
  obtain ⟨_, hw⟩ := h.rep
  unfold DatasetD.property? at h1 h2
  cases hS : D.set? s with
  | none => rw [hS] at h1; cases h1
  | some S =>
    rw [hS] at h1 h2
    exact hw.names s S k k' n hS h1 h2

/-! ## The specification tells which names there are -/

/-- Two collections of items shown by the same list have the same names. -/
theorem showsItems_names {α β γ : Type} {R : Name → α → β → Prop} {R' : Name → α → γ → Prop} {l : List (Name × α)}
    {c : Name → Option β} {c' : Name → Option γ} (h : ShowsItems R l c) (h' : ShowsItems R' l c') (n : Name) :
    (c n).isSome = (c' n).isSome := by
  rw [Bool.eq_iff_iff]
  constructor
  · intro hn
    obtain ⟨b, hb⟩ := Option.isSome_iff_exists.mp hn
    obtain ⟨a, ha⟩ := h.2.2 n b hb
    obtain ⟨b', hb', _⟩ := h'.2.1 n a ha
    rw [hb']; rfl
  · intro hn
    obtain ⟨b, hb⟩ := Option.isSome_iff_exists.mp hn
    obtain ⟨a, ha⟩ := h'.2.2 n b hb
    obtain ⟨b', hb', _⟩ := h.2.1 n a ha
    rw [hb']; rfl

end Lue.Structure

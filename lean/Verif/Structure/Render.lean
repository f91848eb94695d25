import Verif.Structure.Tree
import Mathlib.Tactic.Convert

/-!
# The file that stores a description
-/
namespace Lue.Structure

def descriptionAttrs (d : String) : Attrs := if d ≠ "" then Attrs.empty.set .description (.str d) else Attrs.empty

def renderItems {α : Type} (r : α → Tree) (c : Name → Option α) : Tree
  | [] => some (.group Attrs.empty)
  | .user n :: rest => (c n).bind fun a => r a rest
  | .tag _ :: _ => none

def renderTracker : TrackerD → Tree
  | .own, [] => some (.group Attrs.empty)
  | .own, [.tag .activeObjectId] => some .array
  | .own, [.tag .activeSetIndex] => some .array
  | .own, [.tag .activeObjectIndex] => some .array
  | .shared s, [] => some (.soft (trackerPath s))
  | _, _ => none

def Epoch.kindOf : Epoch → EpochKind
  | .kind k => k
  | .origin k _ => k
  | .calendar k _ _ => k

def Epoch.origin? : Epoch → Option String
  | .kind _ => none
  | .origin _ o => some o
  | .calendar _ o _ => some o

def Epoch.calendar? : Epoch → Option Calendar
  | .calendar _ _ c => some c
  | _ => none

def timeAttrs (i : TimeItem) (c : Clock) : Attrs
  | .epochKind => some (.str (epochKinds.asString c.epoch.kindOf))
  | .epochOrigin => c.epoch.origin?.map .str
  | .epochCalendar => c.epoch.calendar?.map fun x => .str (calendars.asString x)
  | .timeUnit => some (.str (units.asString c.unit))
  | .nrUnits => some (.num c.nrUnits)
  | .timeItem => some (.str (timeItems.asString i))
  | _ => none

def renderTime : TimeD → Tree
  | .own i c, [] => some (.group (timeAttrs i c))
  | .own _ _, [.tag .coordinates] => some .array
  | .shared s, [] => some (.soft (timePath s))
  | _, _ => none

def spaceAttrs (m : Mobility) (i : SpaceItem) : Attrs
  | .mobility => some (.str (mobilities.asString m))
  | .spaceItem => some (.str (spaceItems.asString i))
  | _ => none

def renderSpace : Option SpaceD → Tree
  | some x, [] => some (.group (spaceAttrs x.mobility x.item))
  | some _, [.tag .coordinates] => some .array
  | some x, [.tag .presence] => x.presence.map fun q => .soft (propertyPath q)
  | _, _ => none

def propertyAttrs (x : PropertyD) : Attrs
  | .description => descriptionAttrs x.description .description
  | .timeDisc => x.timeDisc.map fun e => .str (discretizations.asString e.1)
  | .spaceDisc => x.spaceDisc.map fun e => .str (discretizations.asString e.1)
  | _ => none

def renderProperty (x : PropertyD) : Tree
  | [] => some (.group (propertyAttrs x))
  | [.tag .value] => some .array
  | [.tag .timeDisc] => x.timeDisc.map fun e => .soft (propertyPath e.2)
  | [.tag .spaceDisc] => x.spaceDisc.map fun e => .soft (propertyPath e.2)
  | _ => none

def renderProperties (ps : Kind → Name → Option PropertyD) : Tree
  | [] => some (.group Attrs.empty)
  | .tag (.kind k) :: rest => renderItems renderProperty (ps k) rest
  | _ => none

def renderSet (S : SetD) : Tree
  | [] => some (.group Attrs.empty)
  | .tag .tracker :: rest => renderTracker S.tracker rest
  | .tag .timeDomain :: rest => renderTime S.time rest
  | .tag .spaceDomain :: rest => renderSpace S.space rest
  | .tag .properties :: rest => renderProperties S.properties rest
  | _ => none

def renderPhenomenon (P : PhenomenonD) : Tree
  | [] => some (.group (descriptionAttrs P.description))
  | [.tag .objectId] => some .array
  | .tag (.sets c) :: rest => renderItems renderSet (P.sets c) rest
  | _ => none

/-- The part of a universe, or of the dataset, with the phenomena -/
def renderPhenomena (W : WorldD) : Tree
  | .tag .phenomena :: rest => renderItems renderPhenomenon W rest
  | _ => none

def renderUniverse (W : WorldD) : Tree
  | [] => some (.group Attrs.empty)
  | c :: rest => renderPhenomena W (c :: rest)

def rootAttrs (D : DatasetD) : Attrs
  | .version => some (.str D.version)
  | .description => descriptionAttrs D.description .description
  | _ => none

def render (D : DatasetD) : Tree
  | [] => some (.group (rootAttrs D))
  | .tag .universes :: rest => renderItems renderUniverse D.universes rest
  | c :: rest => renderPhenomena D.phenomena (c :: rest)

/-! ## Looking up -/

theorem render_world (D : DatasetD) (w : Option Name) (q : Path) :
    render D (worldPath w ++ .tag .phenomena :: q) = (D.world? w).bind fun W => renderItems renderPhenomenon W q := by
  cases w with
  | none => rfl
  | some u => rfl

theorem render_phenomenon (D : DatasetD) (a : PhenomenonAddr) (q : Path) :
    render D (phenomenonPath a ++ q) = (D.phenomenon? a).bind fun P => renderPhenomenon P q := by
  have := render_world D a.world (.user a.name :: q)
  unfold phenomenonPath
  rw [List.append_assoc]
  refine this.trans ?_
  unfold DatasetD.phenomenon?
  cases D.world? a.world with
  | none => rfl
  | some W => rfl

theorem render_set (D : DatasetD) (s : SetAddr) (q : Path) :
    render D (setPath s ++ q) = (D.set? s).bind fun S => renderSet S q := by
  unfold setPath
  rw [List.append_assoc, render_phenomenon]
  unfold DatasetD.set?
  cases D.phenomenon? s.phenomenon with
  | none => rfl
  | some P => rfl

theorem render_property (D : DatasetD) (p : PropertyAddr) (q : Path) :
    render D (propertyPath p ++ q) = (D.property? p).bind fun x => renderProperty x q := by
  unfold propertyPath
  rw [List.append_assoc, render_set]
  unfold DatasetD.property?
  cases D.set? p.set with
  | none => rfl
  | some S => rfl

/-! ## Changing -/

theorem graft_items {α : Type} (r : α → Tree) (c : Name → Option α) (n : Name) (a : α) :
    Grafted [.user n] (r a) (renderItems r c) (renderItems r (upd c n a)) where
  inside q := by
    show ((upd c n a) n).bind _ = _
    simp [upd]
  outside p hp := by
    match p with
    | [] => rfl
    | .tag _ :: _ => rfl
    | .user m :: q =>
      show ((upd c n a) m).bind _ = (c m).bind _
      unfold upd
      rw [if_neg]
      intro h
      exact hp q (by rw [h]; rfl)

theorem graft_phenomenon (P : PhenomenonD) (c : Coll) (n : Name) (S : SetD) :
    Grafted [.tag (.sets c), .user n] (renderSet S) (renderPhenomenon P)
      (renderPhenomenon { P with sets := fun c' => if c' = c then upd (P.sets c') n S else P.sets c' }) := by
  refine Grafted.lift (P := [.tag (.sets c)]) (Q := [.user n]) ?_ ?_
  · have := graft_items renderSet (P.sets c) n S
    convert this using 1
    · funext q; cases q <;> rfl
    · funext q
      have : ∀ P' : PhenomenonD, renderPhenomenon P' ([.tag (.sets c)] ++ q) = renderItems renderSet (P'.sets c) q := by
        intro P'; cases q <;> rfl
      rw [this]
      simp only [if_true]
  · intro p hp
    unfold renderPhenomenon
    split
    · rfl
    · rfl
    · rename_i c' rest
      have : c' ≠ c := fun h => hp rest (by rw [h]; rfl)
      simp only [if_neg this]
    · rfl

theorem graft_world (D : DatasetD) (w : Option Name) (W W' : WorldD) (Q : Path) (u : Tree) (hw : D.world? w = some W)
    (h : Grafted Q u (renderItems renderPhenomenon W) (renderItems renderPhenomenon W')) :
    Grafted (worldPath w ++ .tag .phenomena :: Q) u (render D) (render (D.setWorld w W')) := by
  cases w with
  | none =>
    cases hw
    refine Grafted.lift (P := [.tag .phenomena]) (Q := Q) h ?_
    intro p hp
    unfold render
    split
    · rfl
    · rfl
    · rename_i c rest _
      unfold renderPhenomena
      split
      · rename_i rest' heq
        exact absurd heq (hp _)
      · rfl
  | some x =>
    have hu : D.universes x = some W := hw
    refine Grafted.lift (P := [.tag .universes]) (Q := .user x :: .tag .phenomena :: Q) ?_ ?_
    · show Grafted _ _ (renderItems renderUniverse D.universes) (renderItems renderUniverse (upd D.universes x W'))
      have hg := graft_items renderUniverse D.universes x W'
      refine Grafted.lift (P := [.user x]) (Q := .tag .phenomena :: Q) ?_ hg.outside
      refine Grafted.lift (P := [.tag .phenomena]) (Q := Q) ?_ ?_
      · refine ⟨fun q => ?_, fun p hp => ?_⟩
        · show renderItems renderUniverse (upd D.universes x W') ([.user x] ++ .tag .phenomena :: (Q ++ q)) = _
          rw [hg.inside]
          exact h.inside q
        · show renderItems renderUniverse (upd D.universes x W') ([.user x] ++ .tag .phenomena :: p) = (D.universes x).bind _
          rw [hg.inside, hu]
          exact h.outside p hp
      · intro p hp
        show renderItems renderUniverse (upd D.universes x W') ([.user x] ++ p) = (D.universes x).bind _
        rw [hg.inside, hu]
        show renderUniverse W' p = renderUniverse W p
        unfold renderUniverse
        split
        · rfl
        · unfold renderPhenomena
          split
          · rename_i heq
            exact absurd heq (hp _)
          · rfl
    · intro p hp
      unfold render
      split
      · rfl
      · rename_i rest
        exact absurd rfl (hp rest)
      · rfl

theorem graft_setPhenomenon (D : DatasetD) (a : PhenomenonAddr) (P : PhenomenonD) (h : (D.world? a.world).isSome) :
    Grafted (phenomenonPath a) (renderPhenomenon P) (render D) (render (D.setPhenomenon a P)) := by
  obtain ⟨W, hW⟩ := Option.isSome_iff_exists.mp h
  unfold DatasetD.setPhenomenon
  simp only [hW]
  exact graft_world D a.world W _ [.user a.name] _ hW (graft_items _ _ _ _)

theorem world_isSome {D : DatasetD} {a : PhenomenonAddr} (h : (D.phenomenon? a).isSome) : (D.world? a.world).isSome := by
  unfold DatasetD.phenomenon? at h
  cases hw : D.world? a.world with
  | none => rw [hw] at h; cases h
  | some W => rfl

theorem phenomenon_isSome {D : DatasetD} {s : SetAddr} (h : (D.set? s).isSome) : (D.phenomenon? s.phenomenon).isSome := by
  unfold DatasetD.set? at h
  cases hw : D.phenomenon? s.phenomenon with
  | none => rw [hw] at h; cases h
  | some W => rfl

theorem set_isSome {D : DatasetD} {p : PropertyAddr} (h : (D.property? p).isSome) : (D.set? p.set).isSome := by
  unfold DatasetD.property? at h
  cases hw : D.set? p.set with
  | none => rw [hw] at h; cases h
  | some W => rfl

theorem graft_setSet (D : DatasetD) (s : SetAddr) (S : SetD) (h : (D.phenomenon? s.phenomenon).isSome) :
    Grafted (setPath s) (renderSet S) (render D) (render (D.setSet s S)) := by
  obtain ⟨P, hP⟩ := Option.isSome_iff_exists.mp h
  unfold DatasetD.setSet
  simp only [hP]
  have hg := graft_setPhenomenon D s.phenomenon
    { P with sets := fun c => if c = s.coll then upd (P.sets c) s.name S else P.sets c } (world_isSome h)
  refine Grafted.lift ?_ hg.outside
  have hp := graft_phenomenon P s.coll s.name S
  refine ⟨fun q => ?_, fun p hq => ?_⟩
  · show render _ (phenomenonPath s.phenomenon ++ _) = _
    rw [hg.inside]; exact hp.inside q
  · show render _ (phenomenonPath s.phenomenon ++ p) = render D (phenomenonPath s.phenomenon ++ p)
    rw [hg.inside, render_phenomenon, hP]; exact hp.outside p hq

theorem graft_properties (ps : Kind → Name → Option PropertyD) (k : Kind) (n : Name) (x : PropertyD) :
    Grafted [.tag (.kind k), .user n] (renderProperty x) (renderProperties ps)
      (renderProperties fun k' => if k' = k then upd (ps k') n x else ps k') := by
  refine Grafted.lift (P := [.tag (.kind k)]) (Q := [.user n]) ?_ ?_
  · have := graft_items renderProperty (ps k) n x
    convert this using 1
    · funext q; cases q <;> rfl
    · funext q
      have : ∀ ps', renderProperties ps' ([.tag (.kind k)] ++ q) = renderItems renderProperty (ps' k) q := by
        intro P'; cases q <;> rfl
      rw [this]
      simp only [if_true]
  · intro p hp
    unfold renderProperties
    split
    · rfl
    · rename_i k' rest
      have : k' ≠ k := fun h => hp rest (by rw [h]; rfl)
      simp only [if_neg this]
    · rfl

theorem graft_setProperty (D : DatasetD) (p : PropertyAddr) (x : PropertyD) (h : (D.set? p.set).isSome) :
    Grafted (propertyPath p) (renderProperty x) (render D) (render (D.setProperty p x)) := by
  obtain ⟨S, hS⟩ := Option.isSome_iff_exists.mp h
  unfold DatasetD.setProperty
  simp only [hS]
  have hg := graft_setSet D p.set
    { S with properties := fun k => if k = p.kind then upd (S.properties k) p.name x else S.properties k } (phenomenon_isSome h)
  refine Grafted.lift ?_ hg.outside
  refine Grafted.lift (P := [.tag .properties]) (Q := [.tag (.kind p.kind), .user p.name]) ?_ ?_
  · have hp := graft_properties S.properties p.kind p.name x
    refine ⟨fun q => ?_, fun r hr => ?_⟩
    · show render _ (setPath p.set ++ _) = _
      rw [hg.inside]; exact hp.inside q
    · show render _ (setPath p.set ++ _) = render D (setPath p.set ++ _)
      rw [hg.inside, render_set, hS]; exact hp.outside r hr
  · intro q hq
    show render _ (setPath p.set ++ q) = render D (setPath p.set ++ q)
    rw [hg.inside, render_set, hS]
    show renderSet _ q = renderSet S q
    unfold renderSet
    split <;> try rfl
    rename_i rest
    exact absurd rfl (hq rest)

theorem graft_universe (D : DatasetD) (u : Name) (W : WorldD) :
    Grafted [.tag .universes, .user u] (renderUniverse W) (render D) (render { D with universes := upd D.universes u W }) := by
  refine Grafted.lift (P := [.tag .universes]) (Q := [.user u]) (graft_items renderUniverse D.universes u W) ?_
  intro p hp
  unfold render
  split
  · rfl
  · rename_i rest
    exact absurd rfl (hp rest)
  · rfl

end Lue.Structure

import Verif.Structure.Lookup

/-!
# Opening a file that stores a description
-/
namespace Lue.Structure

/-- The file stores the description. -/
structure Rep (f : File) (D : DatasetD) : Prop where
  closed : Closed f
  nodes : f.get = render D

/-! ## Collections -/

theorem mem_groupNames {f : File} (h : Closed f) (p : Path) (n : Name) :
    n ∈ groupNames f p ↔ isGroup f (p ++ [.user n]) = true := by
  unfold groupNames
  rw [List.mem_filterMap]
  constructor
  · rintro ⟨e, _, he⟩
    split at he
    · rename_i m _
      split at he
      · rename_i hc
        simp only [Option.some.injEq] at he
        subst he
        rw [← hc.1]; exact hc.2
      · cases he
    · cases he
  · intro hg
    obtain ⟨a, ha⟩ := isGroup_iff.mp hg
    refine ⟨(p ++ [.user n], .group a), (AMap.mem_iff_get h.keys _ _).mpr ha, ?_⟩
    simp [hg]

theorem nodup_groupNames {f : File} (h : Closed f) (p : Path) : (groupNames f p).Nodup := by
  unfold groupNames
  have key : ∀ l : List (Path × Node), (l.map Prod.fst).Nodup → (l.filterMap fun e =>
      match e.1.getLast? with
      | some (.user n) => if e.1 = p ++ [.user n] ∧ isGroup f e.1 = true then some n else none
      | _ => none).Nodup := by
    intro l hl
    induction l with
    | nil => exact List.nodup_nil
    | cons e l ih =>
      obtain ⟨h1, h2⟩ := List.nodup_cons.mp hl
      rw [List.filterMap_cons]
      split
      · exact ih h2
      · rename_i n hn
        refine List.nodup_cons.mpr ⟨?_, ih h2⟩
        intro hmem
        obtain ⟨e', he', hn'⟩ := List.mem_filterMap.mp hmem
        apply h1
        have at_ : ∀ e : Path × Node, (match e.1.getLast? with
            | some (.user n) => if e.1 = p ++ [.user n] ∧ isGroup f e.1 = true then some n else none
            | _ => none) = some n → e.1 = p ++ [.user n] := by
          intro e he
          split at he
          · split at he
            · rename_i hc
              simp only [Option.some.injEq] at he
              rw [← he]; exact hc.1
            · cases he
          · cases he
        rw [at_ e hn, ← at_ e' hn']
        exact List.mem_map_of_mem (f := Prod.fst) he'
  exact key f h.keys

theorem mapM_some {α β : Type} (g : α → Option β) (v : α → β) (l : List α) (h : ∀ a ∈ l, g a = some (v a)) :
    l.mapM g = some (l.map v) := by
  induction l with
  | nil => rfl
  | cons a l ih =>
    rw [List.mapM_cons, h a (List.mem_cons_self ..), ih fun b hb => h b (List.mem_cons_of_mem _ hb)]
    rfl

theorem mapM_none {α β : Type} (g : α → Option β) (l : List α) (a : α) (ha : a ∈ l) (h : g a = none) : l.mapM g = none := by
  induction l with
  | nil => cases ha
  | cons b l ih =>
    rw [List.mapM_cons]
    rcases List.mem_cons.mp ha with rfl | hm
    · rw [h]; rfl
    · rw [ih hm]
      cases g b <;> rfl

/-- The items of a collection are opened, each one at its place. -/
theorem openItems_shows {α β : Type} {f : File} (hc : Closed f) {p : Path} {r : β → Tree} {c : Name → Option β}
    (hf : ∀ q, f.get (p ++ q) = renderItems r c q) (hr : ∀ b, ∃ a, r b [] = some (.group a)) {item : Path → Option α}
    {R : Name → α → β → Prop} (hi : ∀ n b, c n = some b → ∃ v, item (p ++ [.user n]) = some v ∧ R n v b) :
    ∃ l, openItems f p item = some l ∧ ShowsItems R l c := by
  have hgroup : ∀ n, isGroup f (p ++ [.user n]) = true ↔ (c n).isSome := by
    intro n
    rw [isGroup_iff, hf]
    show (∃ a, (c n).bind _ = _) ↔ _
    cases hn : c n with
    | none => simp
    | some b => simpa using hr b
  have hrec : ∀ l : List Name, (∀ n ∈ l, (c n).isSome) → ∃ vs : List (Name × α),
      (l.mapM fun n => (openGroup f p (.user n)).bind fun r => (item r).map fun a => (n, a)) = some vs ∧
      vs.map Prod.fst = l ∧ ∀ n a, (n, a) ∈ vs → ∃ b, c n = some b ∧ R n a b := by
    intro l
    induction l with
    | nil => intro _; exact ⟨[], rfl, rfl, by intro n a h; cases h⟩
    | cons n l ih =>
      intro hl
      obtain ⟨vs, h1, h2, h3⟩ := ih fun m hm => hl m (List.mem_cons_of_mem _ hm)
      obtain ⟨b, hb⟩ := Option.isSome_iff_exists.mp (hl n (List.mem_cons_self ..))
      obtain ⟨v, hv, hR⟩ := hi n b hb
      obtain ⟨at_, ha⟩ := isGroup_iff.mp ((hgroup n).mpr (by rw [hb]; rfl))
      refine ⟨(n, v) :: vs, ?_, by rw [List.map_cons, h2], ?_⟩
      · rw [List.mapM_cons, h1, openGroup_node hc ha]
        show ((item (p ++ [.user n])).map _ >>= _) = _
        rw [hv]; rfl
      · intro m a hm
        rcases List.mem_cons.mp hm with he | hm
        · cases he; exact ⟨b, hb, hR⟩
        · exact h3 m a hm
  obtain ⟨vs, h1, h2, h3⟩ := hrec (groupNames f p) fun n hn => (hgroup n).mp ((mem_groupNames hc p n).mp hn)
  refine ⟨vs, h1, ?_, h3, ?_⟩
  · rw [h2]; exact nodup_groupNames hc p
  · intro n b hb
    have : n ∈ vs.map Prod.fst := by
      rw [h2, mem_groupNames hc, hgroup, hb]; rfl
    obtain ⟨e, he, rfl⟩ := List.mem_map.mp this
    exact ⟨e.2, he⟩

theorem openItems_none {α : Type} {f : File} (hc : Closed f) {p : Path} {n : Name} {a : Attrs}
    (hg : f.get (p ++ [.user n]) = some (.group a)) {item : Path → Option α} (hi : item (p ++ [.user n]) = none) :
    openItems f p item = none := by
  refine mapM_none _ _ n ((mem_groupNames hc p n).mpr (isGroup_iff.mpr ⟨a, hg⟩)) ?_
  rw [openGroup_node hc hg]
  show (item _).map _ = _
  rw [hi]; rfl

theorem openCollection_shows {α β : Type} {f : File} (hc : Closed f) {p : Path} {t : Comp} {r : β → Tree} {c : Name → Option β}
    (hf : ∀ q, f.get (p ++ [t] ++ q) = renderItems r c q) (hr : ∀ b, ∃ a, r b [] = some (.group a)) {item : Path → Option α}
    {R : Name → α → β → Prop} (hi : ∀ n b, c n = some b → ∃ v, item (p ++ [t] ++ [.user n]) = some v ∧ R n v b) :
    ∃ l, openCollection f p t item = some l ∧ ShowsItems R l c := by
  have hg : f.get (p ++ [t]) = some (.group Attrs.empty) := by
    have := hf []
    rw [List.append_nil] at this
    exact this
  unfold openCollection
  rw [openGroup_node hc hg]
  exact openItems_shows hc hf hr hi

/-! ## Attributes -/

theorem attrsOf_eq {f : File} {h : Path} {a : Attrs} (hf : f.get h = some (.group a)) : attrsOf f h = a := by
  unfold attrsOf; rw [hf]

theorem readDescription_eq {f : File} {h : Path} {a : Attrs} (d : String) (hf : f.get h = some (.group a))
    (ha : a .description = descriptionAttrs d .description) : readDescription f h = some d := by
  unfold readDescription attrExists readStr
  rw [attrsOf_eq hf, ha]
  unfold descriptionAttrs
  by_cases hd : d = ""
  · subst hd; rfl
  · rw [if_pos hd]; rfl

theorem epochKind_value (k : EpochKind) : epochKinds.asValue (epochKinds.asString k) = some k := by cases k <;> decide
theorem calendar_value (k : Calendar) : calendars.asValue (calendars.asString k) = some k := by cases k; decide
theorem unit_value (k : Unit') : units.asValue (units.asString k) = some k := by cases k <;> decide
theorem timeItem_value (k : TimeItem) : timeItems.asValue (timeItems.asString k) = some k := by cases k <;> decide
theorem mobility_value (k : Mobility) : mobilities.asValue (mobilities.asString k) = some k := by cases k <;> decide
theorem spaceItem_value (k : SpaceItem) : spaceItems.asValue (spaceItems.asString k) = some k := by cases k <;> decide
theorem discretization_value (k : Discretization) : discretizations.asValue (discretizations.asString k) = some k := by
  cases k; decide

theorem readClock_eq {f : File} {h : Path} (i : TimeItem) (c : Clock) (hf : f.get h = some (.group (timeAttrs i c))) :
    readClock f h = some c := by
  obtain ⟨e, u, n⟩ := c
  have h1 : readStr f h .epochKind = some (epochKinds.asString e.kindOf) := by unfold readStr; rw [attrsOf_eq hf]; rfl
  have h2 : readStr f h .timeUnit = some (units.asString u) := by unfold readStr; rw [attrsOf_eq hf]; rfl
  have h3 : readNum f h .nrUnits = some n := by unfold readNum; rw [attrsOf_eq hf]; rfl
  have h4 : readEpoch f h = some e := by
    unfold readEpoch
    rw [h1]
    show (epochKinds.asValue _ >>= _) = _
    rw [epochKind_value]
    unfold attrExists readStr
    rw [attrsOf_eq hf]
    cases e with
    | kind k => rfl
    | origin k o => rfl
    | calendar k o c =>
      show ((calendars.asValue (calendars.asString c)).bind fun c' => some (Epoch.calendar k o c')) = _
      rw [calendar_value]; rfl
  unfold readClock
  rw [h4, h2, h3]
  show (units.asValue _ >>= _) = _
  rw [unit_value]; rfl

/-! ## Shared things -/

/-- Following links amounts to looking for the owner. -/
theorem resolve_owner {f : File} (hc : Closed f) (src : SetAddr → Option (Option SetAddr)) (loc : SetAddr → Path)
    (h1 : ∀ s, src s = some none → ∃ a, f.get (loc s) = some (.group a))
    (h2 : ∀ s t, src s = some (some t) → f.get (loc s) = some (.soft (loc t)))
    (hex : ∀ s t, src s = some (some t) → (src t).isSome) (hl : ∀ s, loc s ≠ []) :
    ∀ (n : Nat) (s : SetAddr), (src s).isSome → ∀ pre rest, rest ≠ [] → pre ++ rest = loc s →
      resolve f n pre rest = (owner src n s).map loc := by
  intro n
  induction n with
  | zero =>
    intro s hs pre rest hr he
    obtain ⟨x, hx⟩ := Option.isSome_iff_exists.mp hs
    cases x with
    | none =>
      obtain ⟨a, ha⟩ := h1 s hx
      rw [resolve_eq hc 0 pre rest hr (by rw [he]; exact ha), owner_own hx, he]; rfl
    | some t =>
      rw [resolve_eq hc 0 pre rest hr (by rw [he]; exact h2 s t hx)]
      unfold owner
      rw [hx]; rfl
  | succ n ih =>
    intro s hs pre rest hr he
    obtain ⟨x, hx⟩ := Option.isSome_iff_exists.mp hs
    cases x with
    | none =>
      obtain ⟨a, ha⟩ := h1 s hx
      rw [resolve_eq hc _ pre rest hr (by rw [he]; exact ha), owner_own hx, he]; rfl
    | some t =>
      rw [resolve_eq hc _ pre rest hr (by rw [he]; exact h2 s t hx), owner_shared hx]
      exact ih t (hex s t hx) [] (loc t) (hl t) rfl

theorem Rep.set_sub {f : File} {D : DatasetD} (h : Rep f D) {s : SetAddr} {S : SetD} (hs : D.set? s = some S) (q : Path) :
    f.get (setPath s ++ q) = renderSet S q := by
  rw [h.nodes, render_set, hs]; rfl

/-- All property-sets that are shared from exist. -/
structure Linked (D : DatasetD) : Prop where
  trackers : ∀ s t, D.trackerFrom s = some (some t) → (D.trackerFrom t).isSome
  times : ∀ s t, D.timeFrom s = some (some t) → (D.timeFrom t).isSome

theorem owner_isSome {src : SetAddr → Option (Option SetAddr)} {n : Nat} {s : SetAddr} (h : (owner src n s).isSome) :
    (src s).isSome := by
  cases hs : src s with
  | some x => rfl
  | none => cases n <;> (unfold owner at h; rw [hs] at h; cases h)

theorem Wf.linked {D : DatasetD} (h : Wf D) : Linked D := by
  constructor
  · intro s t hs
    have h1 := hs
    rw [trackerFrom_eq] at h1
    cases hS : D.set? s with
    | none => rw [hS] at h1; cases h1
    | some S =>
      have := h.trackers s S hS
      rw [show maxLinks = 15 + 1 from rfl, owner_shared hs] at this
      exact owner_isSome this
  · intro s t hs
    have h1 := hs
    rw [timeFrom_eq] at h1
    cases hS : D.set? s with
    | none => rw [hS] at h1; cases h1
    | some S =>
      rw [hS] at h1
      have hne : S.time ≠ .absent := by
        intro he
        rw [show (some S).bind (fun S => S.time.source) = S.time.source from rfl, he] at h1
        cases h1
      have := h.times s S hS hne
      rw [show maxLinks = 15 + 1 from rfl, owner_shared hs] at this
      exact owner_isSome this

theorem tracker_own {f : File} {D : DatasetD} (h : Rep f D) (s : SetAddr) (hs : D.trackerFrom s = some none) :
    ∀ q, f.get (trackerPath s ++ q) = renderTracker .own q := by
  intro q
  rw [trackerFrom_eq] at hs
  cases hS : D.set? s with
  | none => rw [hS] at hs; cases hs
  | some S =>
    rw [hS] at hs
    unfold trackerPath
    rw [List.append_assoc, h.set_sub hS]
    show renderTracker S.tracker q = _
    cases ht : S.tracker with
    | own => rfl
    | shared t => simp [ht, TrackerD.source] at hs

theorem tracker_resolve {f : File} {D : DatasetD} (h : Rep f D) (hl : Linked D) (n : Nat) (s : SetAddr) (hs : (D.set? s).isSome) :
    resolve f n (setPath s) [.tag .tracker] = (owner D.trackerFrom n s).map trackerPath := by
  refine resolve_owner h.closed D.trackerFrom trackerPath ?_ ?_ hl.trackers ?_ n s ?_ _ _ (by simp) rfl
  · intro s hs
    exact ⟨Attrs.empty, by have := tracker_own h s hs []; rwa [List.append_nil] at this⟩
  · intro s t hs
    rw [trackerFrom_eq] at hs
    cases hS : D.set? s with
    | none => rw [hS] at hs; cases hs
    | some S =>
      rw [hS] at hs
      unfold trackerPath
      rw [h.set_sub hS]
      show renderTracker S.tracker [] = _
      cases ht : S.tracker with
      | own => simp [ht, TrackerD.source] at hs
      | shared t' =>
        simp [ht, TrackerD.source] at hs
        subst hs; rfl
  · intro s; simp [trackerPath]
  · obtain ⟨S, hS⟩ := Option.isSome_iff_exists.mp hs
    rw [trackerFrom_eq, hS]; rfl

theorem time_own {f : File} {D : DatasetD} (h : Rep f D) (s : SetAddr) (hs : D.timeFrom s = some none) :
    ∃ S i c, D.set? s = some S ∧ S.time = .own i c ∧ ∀ q, f.get (timePath s ++ q) = renderTime (.own i c) q := by
  rw [timeFrom_eq] at hs
  cases hS : D.set? s with
  | none => rw [hS] at hs; cases hs
  | some S =>
    rw [hS] at hs
    have hs' : S.time.source = some none := hs
    cases ht : S.time with
    | absent => rw [ht] at hs'; cases hs'
    | shared t => rw [ht] at hs'; cases hs'
    | own i c =>
      refine ⟨S, i, c, rfl, ht, fun q => ?_⟩
      unfold timePath
      rw [List.append_assoc, h.set_sub hS]
      show renderTime S.time q = _
      rw [ht]

theorem time_resolve {f : File} {D : DatasetD} (h : Rep f D) (hl : Linked D) (n : Nat) (s : SetAddr) (hs : (D.timeFrom s).isSome) :
    resolve f n (setPath s) [.tag .timeDomain] = (owner D.timeFrom n s).map timePath := by
  refine resolve_owner h.closed D.timeFrom timePath ?_ ?_ hl.times ?_ n s hs _ _ (by simp) rfl
  · intro s hs
    obtain ⟨S, i, c, _, _, hq⟩ := time_own h s hs
    exact ⟨timeAttrs i c, by have := hq []; rwa [List.append_nil] at this⟩
  · intro s t hs
    rw [timeFrom_eq] at hs
    cases hS : D.set? s with
    | none => rw [hS] at hs; cases hs
    | some S =>
      rw [hS] at hs
      have hs' : S.time.source = some (some t) := hs
      unfold timePath
      rw [h.set_sub hS]
      show renderTime S.time [] = _
      cases ht : S.time with
      | absent => rw [ht] at hs'; cases hs'
      | own i c => rw [ht] at hs'; cases hs'
      | shared t' => rw [ht] at hs'; cases hs'; rfl
  · intro s; simp [timePath]

/-! ## Property-sets -/

theorem openTracker_eq {f : File} {D : DatasetD} (h : Rep f D) (hl : Linked D) (s : SetAddr) (hs : (D.set? s).isSome) :
    openTracker f (setPath s) = (owner D.trackerFrom maxLinks s).map trackerPath := by
  unfold openTracker openGroup openGroupAt
  rw [tracker_resolve h hl _ _ hs]
  cases ho : owner D.trackerFrom maxLinks s with
  | none => rfl
  | some o =>
    have hq := tracker_own h o (owner_owns _ _ _ ho)
    have hg : f.get (trackerPath o) = some (.group Attrs.empty) := by have := hq []; rwa [List.append_nil] at this
    show ((if isGroup f (trackerPath o) then some (trackerPath o) else none) >>= _) = _
    rw [if_pos (isGroup_iff.mpr ⟨_, hg⟩)]
    show (openArray f (trackerPath o) _ >>= _) = _
    rw [openArray_node h.closed (hq [.tag .activeObjectId])]
    show (openArray f (trackerPath o) _ >>= _) = _
    rw [openArray_node h.closed (hq [.tag .activeSetIndex])]
    show (openArray f (trackerPath o) _ >>= _) = _
    rw [openArray_node h.closed (hq [.tag .activeObjectIndex])]
    rfl

/-- A time domain with its owner, as it is shown -/
def timeView (owned : Bool) : SetAddr × TimeItem × Clock → TimeView := fun e => ⟨timePath e.1, owned, e.2.1, e.2.2⟩

theorem openTimeDomain_eq {f : File} {D : DatasetD} (h : Rep f D) (hl : Linked D) (s : SetAddr) (hs : (D.timeFrom s).isSome) :
    openTimeDomain f (setPath s) = (D.timeDomain? s).map (timeView (!softLinkExists f (setPath s) (.tag .timeDomain))) := by
  unfold openTimeDomain openGroup openGroupAt DatasetD.timeDomain?
  rw [time_resolve h hl _ _ hs]
  cases ho : owner D.timeFrom maxLinks s with
  | none => rfl
  | some o =>
    obtain ⟨S, i, c, hS, ht, hq⟩ := time_own h o (owner_owns _ _ _ ho)
    have hg : f.get (timePath o) = some (.group (timeAttrs i c)) := by have := hq []; rwa [List.append_nil] at this
    show ((if isGroup f (timePath o) then some (timePath o) else none) >>= _) = _
    rw [if_pos (isGroup_iff.mpr ⟨_, hg⟩)]
    have h1 : readStr f (timePath o) .timeItem = some (timeItems.asString i) := by unfold readStr; rw [attrsOf_eq hg]; rfl
    show ((readStr f (timePath o) .timeItem) >>= _) = _
    rw [h1]
    show (timeItems.asValue _ >>= _) = _
    rw [timeItem_value]
    show (readClock f (timePath o) >>= _) = _
    rw [readClock_eq i c hg]
    simp only [Option.bind_some, hS, ht, Option.map_some]
    rfl

theorem openSpaceDomain_eq {f : File} {p : Path} {x : SpaceD} (hc : Closed f)
    (hf : ∀ q, f.get (p ++ [.tag .spaceDomain] ++ q) = renderSpace (some x) q) :
    openSpaceDomain f p = some ⟨x.mobility, x.item, x.presence.isSome⟩ := by
  have hg : f.get (p ++ [.tag .spaceDomain]) = some (.group (spaceAttrs x.mobility x.item)) := by
    have := hf []; rwa [List.append_nil] at this
  unfold openSpaceDomain
  rw [openGroup_node hc hg]
  have h1 : readStr f (p ++ [.tag .spaceDomain]) .mobility = some (mobilities.asString x.mobility) := by
    unfold readStr; rw [attrsOf_eq hg]; rfl
  have h2 : readStr f (p ++ [.tag .spaceDomain]) .spaceItem = some (spaceItems.asString x.item) := by
    unfold readStr; rw [attrsOf_eq hg]; rfl
  show (readStr f (p ++ [.tag .spaceDomain]) .mobility >>= _) = _
  rw [h1]
  show (mobilities.asValue _ >>= _) = _
  rw [mobility_value]
  show (readStr f (p ++ [.tag .spaceDomain]) .spaceItem >>= _) = _
  rw [h2]
  show (spaceItems.asValue _ >>= _) = _
  rw [spaceItem_value]
  show some _ = _
  congr 2
  unfold softLinkExists
  rw [hf]
  show _ = x.presence.isSome
  cases hp : x.presence with
  | none => simp [renderSpace, hp]
  | some q => simp [renderSpace, hp]

theorem openProperty_shows {f : File} {x : PropertyD} (hc : Closed f) (p : PropertyAddr)
    (hf : ∀ q, f.get (propertyPath p ++ q) = renderProperty x q) :
    ∃ v, openProperty f (propertyPath p) = some v ∧ ShowsProperty p v x := by
  have hg : f.get (propertyPath p) = some (.group (propertyAttrs x)) := by have := hf []; rwa [List.append_nil] at this
  refine ⟨⟨propertyPath p, x.description, x.timeDisc.isSome, x.spaceDisc.isSome⟩, ?_, rfl, rfl, rfl, rfl⟩
  unfold openProperty
  rw [readDescription_eq x.description hg rfl]
  show (openArray f _ _ >>= _) = _
  rw [openArray_node hc (hf [.tag .value])]
  unfold attrExists
  rw [attrsOf_eq hg]
  show some _ = some _
  congr 2
  · show ((x.timeDisc.map _).isSome) = _; simp
  · show ((x.spaceDisc.map _).isSome) = _; simp

theorem openProperties_shows {f : File} {D : DatasetD} (h : Rep f D) {s : SetAddr} {S : SetD} (hs : D.set? s = some S) :
    ∃ v, openProperties f (setPath s) = some v ∧
      ∀ k, ShowsItems (fun n => ShowsProperty ⟨s, k, n⟩) (v.get k) (S.properties k) := by
  have hsub : ∀ q, f.get (setPath s ++ [.tag .properties] ++ q) = renderProperties S.properties q := by
    intro q; rw [List.append_assoc, h.set_sub hs]; rfl
  have hg : f.get (setPath s ++ [.tag .properties]) = some (.group Attrs.empty) := by
    have := hsub []; rwa [List.append_nil] at this
  have hk : ∀ k, ∃ l, openCollection f (setPath s ++ [.tag .properties]) (.tag (.kind k)) (openProperty f) = some l ∧
      ShowsItems (fun n => ShowsProperty ⟨s, k, n⟩) l (S.properties k) := by
    intro k
    refine openCollection_shows h.closed (r := renderProperty) ?_ (fun b => ⟨_, rfl⟩) ?_
    · intro q
      rw [List.append_assoc, hsub]
      cases q <;> rfl
    · intro n b hb
      have := openProperty_shows (x := b) h.closed ⟨s, k, n⟩ (by
        intro q
        rw [h.nodes, render_property]
        unfold DatasetD.property?
        rw [hs]
        show (S.properties k n).bind _ = _
        rw [hb]; rfl)
      have he : propertyPath ⟨s, k, n⟩ = setPath s ++ [.tag .properties] ++ [.tag (.kind k)] ++ [.user n] := by
        simp [propertyPath]
      rwa [he] at this
  obtain ⟨a, ha, ha'⟩ := hk .same
  obtain ⟨b, hb, hb'⟩ := hk .sameConstant
  obtain ⟨c, hc, hc'⟩ := hk .sameVariable
  obtain ⟨d, hd, hd'⟩ := hk .different
  obtain ⟨e, he, he'⟩ := hk .differentConstant
  obtain ⟨g, hgg, hg'⟩ := hk .differentVariable
  refine ⟨⟨a, b, c, d, e, g⟩, ?_, ?_⟩
  · unfold openProperties
    rw [openGroup_node h.closed hg]
    show (openCollection f _ _ _ >>= _) = _
    rw [ha]
    show (openCollection f _ _ _ >>= _) = _
    rw [hb]
    show (openCollection f _ _ _ >>= _) = _
    rw [hc]
    show (openCollection f _ _ _ >>= _) = _
    rw [hd]
    show (openCollection f _ _ _ >>= _) = _
    rw [he]
    show (openCollection f _ _ _ >>= _) = _
    rw [hgg]
    rfl
  · intro k
    cases k
    · exact ha'
    · exact hb'
    · exact hc'
    · exact hd'
    · exact he'
    · exact hg'

theorem openSet_shows {f : File} {D : DatasetD} (h : Rep f D) (hl : Linked D) {s : SetAddr} {S : SetD} (hs : D.set? s = some S)
    (ht : (owner D.trackerFrom maxLinks s).isSome) (hm : S.time ≠ .absent → (owner D.timeFrom maxLinks s).isSome) :
    ∃ v, openSet f (setPath s) = some v ∧ ShowsSet D s v S := by
  obtain ⟨o, ho⟩ := Option.isSome_iff_exists.mp ht
  have htr := openTracker_eq h hl s (by rw [hs]; rfl)
  rw [ho] at htr
  obtain ⟨ps, hps, hps'⟩ := openProperties_shows h hs
  have hnode : ∀ c, f.get (setPath s ++ [c]) = renderSet S [c] := fun c => h.set_sub hs [c]
  -- the time domain
  have htime : ∃ v, openOptional (groupExists f (setPath s) (.tag .timeDomain)) (openTimeDomain f (setPath s)) = some v ∧
      ShowsTime D s v S.time := by
    have hn := hnode (.tag .timeDomain)
    have hfrom : D.timeFrom s = S.time.source := by rw [timeFrom_eq, hs]; rfl
    cases htm : S.time with
    | absent =>
      refine ⟨none, ?_, trivial⟩
      rw [groupExists_none (by rw [hn]; show renderTime S.time [] = none; rw [htm]; rfl)]
      rfl
    | own i c =>
      refine ⟨some ⟨timePath s, true, i, c⟩, ?_, rfl⟩
      have hn' : f.get (setPath s ++ [.tag .timeDomain]) = some (.group (timeAttrs i c)) := by
        rw [hn]; show renderTime S.time [] = _; rw [htm]; rfl
      rw [groupExists_group h.closed hn', openTimeDomain_eq h hl s (by rw [hfrom, htm]; rfl)]
      have : D.timeDomain? s = some (s, i, c) := by
        unfold DatasetD.timeDomain?
        rw [owner_own (by rw [hfrom, htm]; rfl)]
        simp only [Option.bind_some, hs, htm]
      rw [this]
      unfold softLinkExists
      rw [hn']
      rfl
    | shared t =>
      have hne : S.time ≠ .absent := by rw [htm]; intro hx; cases hx
      obtain ⟨o', ho'⟩ := Option.isSome_iff_exists.mp (hm hne)
      obtain ⟨S', i, c, hS', ht', hq⟩ := time_own h o' (owner_owns _ _ _ ho')
      have hdom : D.timeDomain? s = some (o', i, c) := by
        unfold DatasetD.timeDomain?
        rw [ho']
        simp only [Option.bind_some, hS', ht']
      refine ⟨some ⟨timePath o', false, i, c⟩, ?_, o', i, c, hdom, rfl⟩
      have hn' : f.get (setPath s ++ [.tag .timeDomain]) = some (.soft (timePath t)) := by
        rw [hn]; show renderTime S.time [] = _; rw [htm]; rfl
      have hsome : (D.timeFrom s).isSome := by rw [hfrom, htm]; rfl
      have hex : groupExists f (setPath s) (.tag .timeDomain) = some true := by
        unfold groupExists linkExists
        rw [hn', Option.isSome_some, if_pos rfl, nodeOf, time_resolve h hl _ _ hsome, ho']
        show (f.get (timePath o')).map _ = _
        have := hq []
        rw [List.append_nil] at this
        rw [this]; rfl
      rw [hex, openTimeDomain_eq h hl s hsome, hdom]
      unfold softLinkExists
      rw [hn']
      rfl
  obtain ⟨tv, htv, htv'⟩ := htime
  -- the space domain
  have hspace : openOptional (groupExists f (setPath s) (.tag .spaceDomain)) (openSpaceDomain f (setPath s)) =
      some (S.space.map fun x => ⟨x.mobility, x.item, x.presence.isSome⟩) := by
    have hn := hnode (.tag .spaceDomain)
    cases hsp : S.space with
    | none =>
      rw [groupExists_none (by rw [hn]; show renderSpace S.space [] = none; rw [hsp]; rfl)]
      rfl
    | some x =>
      have hn' : f.get (setPath s ++ [.tag .spaceDomain]) = some (.group (spaceAttrs x.mobility x.item)) := by
        rw [hn]; show renderSpace S.space [] = _; rw [hsp]; rfl
      rw [groupExists_group h.closed hn', openSpaceDomain_eq h.closed (x := x)]
      · rfl
      · intro q
        rw [List.append_assoc, h.set_sub hs]
        show renderSpace S.space q = _
        rw [hsp]
  refine ⟨⟨trackerPath o, !softLinkExists f (setPath s) (.tag .tracker), tv,
    S.space.map fun x => ⟨x.mobility, x.item, x.presence.isSome⟩, ps⟩, ?_, ?_, htv', rfl, hps'⟩
  · unfold openSet
    rw [htr, hps, htv, hspace]; rfl
  · have hn := hnode (.tag .tracker)
    have hfrom : D.trackerFrom s = some S.tracker.source := by rw [trackerFrom_eq, hs]; rfl
    have hn' : f.get (setPath s ++ [.tag .tracker]) = renderTracker S.tracker [] := hn
    cases htk : S.tracker with
    | own =>
      have : o = s := by
        rw [owner_own (by rw [hfrom, htk]; rfl)] at ho
        cases ho; rfl
      refine ⟨by rw [this], ?_⟩
      unfold softLinkExists
      rw [hn', htk]; rfl
    | shared t =>
      refine ⟨⟨o, ho, rfl⟩, ?_⟩
      unfold softLinkExists
      rw [hn', htk]; rfl

/-! ## Phenomena, universes, dataset -/

theorem openPhenomenon_shows {f : File} {D : DatasetD} (h : Rep f D) (hw : Wf D) {a : PhenomenonAddr} {P : PhenomenonD}
    (ha : D.phenomenon? a = some P) : ∃ v, openPhenomenon f (phenomenonPath a) = some v ∧ ShowsPhenomenon D a v P := by
  have hsub : ∀ q, f.get (phenomenonPath a ++ q) = renderPhenomenon P q := by
    intro q; rw [h.nodes, render_phenomenon, ha]; rfl
  have hg : f.get (phenomenonPath a) = some (.group (descriptionAttrs P.description)) := by
    have := hsub []; rwa [List.append_nil] at this
  have hk : ∀ c, ∃ l, openCollection f (phenomenonPath a) (.tag (.sets c)) (openSet f) = some l ∧
      ShowsItems (fun n => ShowsSet D ⟨a, c, n⟩) l (P.sets c) := by
    intro c
    refine openCollection_shows h.closed (r := renderSet) ?_ (fun b => ⟨_, rfl⟩) ?_
    · intro q
      rw [List.append_assoc, hsub]
      cases q <;> rfl
    · intro n b hb
      have hset : D.set? ⟨a, c, n⟩ = some b := by
        unfold DatasetD.set?
        rw [ha]
        exact hb
      have := openSet_shows h hw.linked hset (hw.trackers _ _ hset) (hw.times _ _ hset)
      have he : setPath ⟨a, c, n⟩ = phenomenonPath a ++ [.tag (.sets c)] ++ [.user n] := by simp [setPath]
      rwa [he] at this
  obtain ⟨x, hx, hx'⟩ := hk .collection
  obtain ⟨y, hy, hy'⟩ := hk .objects
  refine ⟨⟨P.description, x, y⟩, ?_, rfl, ?_⟩
  · unfold openPhenomenon
    rw [readDescription_eq P.description hg rfl]
    show (openArray f _ _ >>= _) = _
    rw [openArray_node h.closed (hsub [.tag .objectId])]
    show (openCollection f _ _ _ >>= _) = _
    rw [hx]
    show (openCollection f _ _ _ >>= _) = _
    rw [hy]
    rfl
  · intro c
    cases c
    · exact hx'
    · exact hy'

theorem openWorld_shows {f : File} {D : DatasetD} (h : Rep f D) (hw : Wf D) {w : Option Name} {W : WorldD}
    (hW : D.world? w = some W) : ∃ v, openWorld f (worldPath w) = some v ∧ ShowsWorld D w v W := by
  refine openCollection_shows h.closed (r := renderPhenomenon) ?_ (fun b => ⟨_, rfl⟩) ?_
  · intro q
    rw [List.append_assoc, h.nodes]
    show render D (worldPath w ++ .tag .phenomena :: q) = _
    rw [render_world, hW]; rfl
  · intro n P hP
    have hp : D.phenomenon? ⟨w, n⟩ = some P := by
      unfold DatasetD.phenomenon?
      rw [hW]; exact hP
    have := openPhenomenon_shows h hw hp
    have he : phenomenonPath ⟨w, n⟩ = worldPath w ++ [.tag .phenomena] ++ [.user n] := by simp [phenomenonPath]
    rwa [he] at this

theorem openDataset_shows {f : File} {D : DatasetD} (h : Rep f D) (hw : Wf D) : ∃ v, openDataset f = some v ∧ Shows D v := by
  have hg : f.get [] = some (.group (rootAttrs D)) := by rw [h.nodes]; rfl
  obtain ⟨us, hus, hus'⟩ : ∃ l, openCollection f [] (.tag .universes) (openWorld f) = some l ∧
      ShowsItems (fun u => ShowsWorld D (some u)) l D.universes := by
    refine openCollection_shows h.closed (r := renderUniverse) ?_ (fun b => ⟨_, rfl⟩) ?_
    · intro q
      rw [h.nodes]
      cases q <;> rfl
    · intro u W hW
      exact openWorld_shows h hw (w := some u) hW
  obtain ⟨w, hw1, hw2⟩ := openWorld_shows h hw (w := none) rfl
  refine ⟨⟨D.version, D.description, us, w⟩, ?_, rfl, rfl, hw2, hus'⟩
  unfold openDataset
  rw [readDescription_eq D.description hg rfl, hus]
  show (openWorld f [] >>= _) = _
  rw [show openWorld f [] = some w from hw1]
  show (readStr f [] .version >>= _) = _
  unfold readStr
  rw [attrsOf_eq hg]
  rfl

end Lue.Structure

import Verif.Dot.Events

/-!
# Which items are written
-/
namespace Lue.Dot
open Lue.Structure

def Item.phenomenonAddr : Item → PhenomenonAddr
  | .phenomenon a => a
  | .objectId a => a
  | .set s => s.phenomenon
  | .tracker s => s.phenomenon
  | .time s => s.phenomenon
  | .space s => s.phenomenon
  | .property p => p.set.phenomenon
  | .activeSetIndex s => s.phenomenon
  | .activeObjectIndex s => s.phenomenon
  | .activeObjectId s => s.phenomenon
  | .timeValue s => s.phenomenon
  | .timeCount s => s.phenomenon
  | .spaceValue s => s.phenomenon
  | .value p => p.set.phenomenon

def Item.setAddr : Item → Option SetAddr
  | .phenomenon _ => none
  | .objectId _ => none
  | .set s => some s
  | .tracker s => some s
  | .time s => some s
  | .space s => some s
  | .property p => some p.set
  | .activeSetIndex s => some s
  | .activeObjectIndex s => some s
  | .activeObjectId s => some s
  | .timeValue s => some s
  | .timeCount s => some s
  | .spaceValue s => some s
  | .value p => some p.set

def Item.propertyAddr : Item → Option PropertyAddr
  | .property p => some p
  | .value p => some p
  | _ => none

theorem Item.world_eq (i : Item) : i.world = i.phenomenonAddr.world := by cases i <;> rfl

theorem Item.phenomenon_eq {i : Item} {s : SetAddr} (h : i.setAddr = some s) : i.phenomenonAddr = s.phenomenon := by
  cases i <;> cases h <;> rfl

theorem Item.setAddr_eq {i : Item} {p : PropertyAddr} (h : i.propertyAddr = some p) : i.setAddr = some p.set := by
  cases i <;> cases h <;> rfl

/-! ## Parts of property-sets -/

theorem node_value {c : Settings} {i j : Item} : Ev.node i ∈ valueEvents c j ↔ c.showValue = true ∧ i = j := by
  unfold valueEvents
  cases c.showValue <;> simp

theorem not_node_disc {b : Bool} {p : PropertyAddr} {o : Option (Discretization × PropertyAddr)} {i : Item} :
    Ev.node i ∉ discEvents b p o := by
  cases o <;> simp [discEvents]

theorem node_property {c : Settings} {p : PropertyAddr} {x : PropertyD} {i : Item} :
    Ev.node i ∈ propertyEvents c p x ↔ i = .property p ∨ (c.showValue = true ∧ i = .value p) := by
  unfold propertyEvents
  simp [node_value, not_node_disc]

theorem node_property? {D : DatasetD} {c : Settings} {p : PropertyAddr} {i : Item} :
    Ev.node i ∈ propertyEvents? D c p ↔ (D.property? p).isSome ∧ (i = .property p ∨ (c.showValue = true ∧ i = .value p)) := by
  unfold propertyEvents?
  cases D.property? p with
  | none => simp
  | some x => simp [node_property]

theorem not_node_shared {s : SetAddr} {g : SetAddr → Item} {o : Option SetAddr} {i : Item} : Ev.node i ∉ sharedEvents s g o := by
  cases o <;> simp [sharedEvents]

theorem node_tracker {D : DatasetD} {c : Settings} {s : SetAddr} {t : TrackerD} {i : Item} :
    Ev.node i ∈ trackerEvents D c s t ↔ t = .own ∧ c.showTracker = true ∧ (i = .tracker s ∨ (c.showValue = true ∧
      (i = .activeSetIndex s ∨ i = .activeObjectIndex s ∨ i = .activeObjectId s))) := by
  cases t with
  | own =>
    unfold trackerEvents trackerOwnEvents
    cases c.showTracker with
    | false => simp
    | true => simp [node_value]; tauto
  | shared o =>
    unfold trackerEvents
    cases c.showTracker with
    | false => simp
    | true => simp [not_node_shared]

theorem node_count {s : SetAddr} {k : TimeItem} {i : Item} : Ev.node i ∈ countEvents s k ↔ k = .cell ∧ i = .timeCount s := by
  cases k <;> simp [countEvents]

theorem node_time {D : DatasetD} {c : Settings} {s : SetAddr} {t : TimeD} {i : Item} :
    Ev.node i ∈ timeEvents D c s t ↔ ∃ j k, t = .own j k ∧ (i = .time s ∨ (c.showValue = true ∧
      (i = .timeValue s ∨ (j = .cell ∧ i = .timeCount s)))) := by
  cases t with
  | absent => simp [timeEvents]
  | own j k =>
    unfold timeEvents timeOwnEvents
    cases c.showValue with
    | false => simp
    | true => simp [node_count]
  | shared o => simp [timeEvents, not_node_shared]

theorem node_space {c : Settings} {s : SetAddr} {o : Option SpaceD} {i : Item} :
    Ev.node i ∈ spaceEvents c s o ↔ (∃ x, o = some x) ∧ (i = .space s ∨ (c.showValue = true ∧ i = .spaceValue s)) := by
  cases o with
  | none => simp [spaceEvents]
  | some x =>
    have : Ev.node i ∉ presenceEvents s x.presence := by cases x.presence <;> simp [presenceEvents]
    simp [spaceEvents, node_value, this]

theorem kinds_mem (k : Kind) : k ∈ kinds := by cases k <;> decide

theorem colls_mem (c : Coll) : c ∈ colls := by cases c <;> decide

theorem property?_eq {D : DatasetD} {s : SetAddr} {S : SetD} (hs : D.set? s = some S) (k : Kind) (n : Name) :
    D.property? ⟨s, k, n⟩ = S.properties k n := by
  unfold DatasetD.property?
  rw [hs]; rfl

/-- The names of the items that are shown are those in the collection. -/
theorem names_mem {α β : Type} {R : Name → α → β → Prop} {l : List (Name × α)} {c : Name → Option β} (h : ShowsItems R l c) (n : Name) :
    (∃ a, (n, a) ∈ l) ↔ (c n).isSome := by
  constructor
  · rintro ⟨a, ha⟩
    obtain ⟨b, hb, _⟩ := h.2.1 n a ha
    rw [hb]; rfl
  · intro hn
    obtain ⟨b, hb⟩ := Option.isSome_iff_exists.mp hn
    exact h.2.2 n b hb

theorem mem_properties {D : DatasetD} {c : Settings} {s : SetAddr} {v : SetView} {S : SetD} (hs : D.set? s = some S)
    (hv : ∀ k, ShowsItems (fun n => ShowsProperty ⟨s, k, n⟩) (v.properties.get k) (S.properties k)) {e : Ev} :
    e ∈ kinds.flatMap (fun k => (v.properties.get k).flatMap fun e => propertyEvents? D c ⟨s, k, e.1⟩) ↔
      ∃ p x, p.set = s ∧ D.property? p = some x ∧ e ∈ propertyEvents c p x := by
  simp only [List.mem_flatMap]
  constructor
  · rintro ⟨k, _, a, ha, he⟩
    obtain ⟨x, hx, _⟩ := (hv k).2.1 a.1 a.2 ha
    refine ⟨⟨s, k, a.1⟩, x, rfl, by rw [property?_eq hs]; exact hx, ?_⟩
    unfold propertyEvents? at he
    rw [property?_eq hs, hx] at he
    exact he
  · rintro ⟨⟨s', k, n⟩, x, rfl, hx, he⟩
    rw [property?_eq hs] at hx
    obtain ⟨a, ha⟩ := (hv k).2.2 n x hx
    refine ⟨k, kinds_mem k, (n, a), ha, ?_⟩
    unfold propertyEvents?
    rw [property?_eq hs, hx]
    exact he

theorem node_set {D : DatasetD} {c : Settings} {s : SetAddr} {v : SetView} {S : SetD} (hs : D.set? s = some S)
    (hv : ShowsSet D s v S) {i : Item} : Ev.node i ∈ setEvents D c s v S ↔ Shown D c i ∧ i.setAddr = some s := by
  unfold setEvents
  simp only [List.mem_append, List.mem_cons, mem_properties hs hv.2.2.2, node_tracker, node_time, node_space, node_property,
    List.not_mem_nil, or_false, reduceCtorEq, Ev.node.injEq]
  constructor
  · rintro ((((rfl | ⟨h1, h2, h3⟩) | ⟨j, k, h1, h2⟩) | ⟨⟨x, h1⟩, h2⟩) | ⟨p, x, rfl, hx, h2⟩)
    · exact ⟨by simp [Shown, hs], rfl⟩
    · rcases h3 with rfl | ⟨h4, rfl | rfl | rfl⟩ <;> simp [Shown, hs, h1, h2, Item.setAddr]
      all_goals exact h4
    · rcases h2 with rfl | ⟨h4, rfl | ⟨rfl, rfl⟩⟩ <;> simp [Shown, hs, h1, Item.setAddr]
      all_goals exact h4
    · rcases h2 with rfl | ⟨h4, rfl⟩ <;> simp [Shown, hs, h1, Item.setAddr]
      all_goals exact h4
    · rcases h2 with rfl | ⟨h4, rfl⟩ <;> simp [Shown, hx, Item.setAddr]
      all_goals exact h4
  · rintro ⟨h1, h2⟩
    cases i with
    | phenomenon a => cases h2
    | objectId a => cases h2
    | set s' => cases h2; simp
    | tracker s' => cases h2; simp only [Shown, hs] at h1; simp_all
    | activeSetIndex s' => cases h2; simp only [Shown, hs] at h1; simp_all
    | activeObjectIndex s' => cases h2; simp only [Shown, hs] at h1; simp_all
    | activeObjectId s' => cases h2; simp only [Shown, hs] at h1; simp_all
    | time s' => cases h2; simp only [Shown, hs] at h1; simp_all
    | timeValue s' => cases h2; simp only [Shown, hs] at h1; simp_all
    | timeCount s' => cases h2; simp only [Shown, hs] at h1; simp_all
    | space s' => cases h2; simp only [Shown, hs] at h1; simp_all
    | spaceValue s' => cases h2; simp only [Shown, hs] at h1; simp_all
    | property p =>
      cases h2
      obtain ⟨x, hx⟩ := Option.isSome_iff_exists.mp h1
      exact Or.inr ⟨p, x, rfl, hx, Or.inl rfl⟩
    | value p =>
      cases h2
      obtain ⟨x, hx⟩ := Option.isSome_iff_exists.mp h1.1
      exact Or.inr ⟨p, x, rfl, hx, Or.inr ⟨h1.2, rfl⟩⟩

/-! ## References -/

theorem dashed_value {c : Settings} {i j k : Item} {l : Text} : Ev.dashed i j l ∉ valueEvents c k := by
  unfold valueEvents
  cases c.showValue <;> simp

theorem dashed_disc {b : Bool} {p : PropertyAddr} {o : Option (Discretization × PropertyAddr)} {i j : Item} {l : Text} :
    Ev.dashed i j l ∈ discEvents b p o ↔ ∃ k q, o = some (k, q) ∧ i = .property p ∧ j = .property q ∧
      l = if b then (discretizations.asString k).toList else [] := by
  cases o with
  | none => simp [discEvents]
  | some kq =>
    obtain ⟨k, q⟩ := kq
    simp only [discEvents, List.mem_cons, List.not_mem_nil, or_false, Ev.dashed.injEq]
    constructor
    · rintro ⟨rfl, rfl, rfl⟩
      exact ⟨k, q, rfl, rfl, rfl, rfl⟩
    · rintro ⟨k', q', h, rfl, rfl, rfl⟩
      cases h
      exact ⟨rfl, rfl, rfl⟩

theorem dashed_property {c : Settings} {p : PropertyAddr} {x : PropertyD} {i j : Item} {l : Text} :
    Ev.dashed i j l ∈ propertyEvents c p x ↔
      Ev.dashed i j l ∈ discEvents c.timeDetails p x.timeDisc ∨ Ev.dashed i j l ∈ discEvents c.spaceDetails p x.spaceDisc := by
  unfold propertyEvents
  simp [dashed_value]

theorem dashed_shared {s : SetAddr} {g : SetAddr → Item} {o : Option SetAddr} {i j : Item} {l : Text} :
    Ev.dashed i j l ∈ sharedEvents s g o ↔ ∃ t, o = some t ∧ i = .set s ∧ j = g t ∧ l = [] := by
  cases o <;> simp [sharedEvents]

theorem dashed_tracker {D : DatasetD} {c : Settings} {s : SetAddr} {t : TrackerD} {i j : Item} {l : Text} :
    Ev.dashed i j l ∈ trackerEvents D c s t ↔ c.showTracker = true ∧ (∃ u, t = .shared u) ∧
      ∃ o, owner D.trackerFrom maxLinks s = some o ∧ i = .set s ∧ j = .tracker o ∧ l = [] := by
  cases t with
  | own =>
    unfold trackerEvents trackerOwnEvents
    cases c.showTracker <;> simp [dashed_value]
  | shared u =>
    unfold trackerEvents
    cases c.showTracker with
    | false => simp
    | true => simp [dashed_shared]

theorem dashed_time {D : DatasetD} {c : Settings} {s : SetAddr} {t : TimeD} {i j : Item} {l : Text} :
    Ev.dashed i j l ∈ timeEvents D c s t ↔ (∃ u, t = .shared u) ∧
      ∃ o, owner D.timeFrom maxLinks s = some o ∧ i = .set s ∧ j = .time o ∧ l = [] := by
  cases t with
  | absent => simp [timeEvents]
  | own a k =>
    have h1 : Ev.dashed i j l ∉ countEvents s a := by cases a <;> simp [countEvents]
    unfold timeEvents timeOwnEvents
    cases c.showValue <;> simp [h1]
  | shared u => simp [timeEvents, dashed_shared]

theorem dashed_space {c : Settings} {s : SetAddr} {o : Option SpaceD} {i j : Item} {l : Text} :
    Ev.dashed i j l ∈ spaceEvents c s o ↔ ∃ x q, o = some x ∧ x.presence = some q ∧ i = .space s ∧ j = .property q ∧ l = [] := by
  cases o with
  | none => simp [spaceEvents]
  | some x =>
    simp only [spaceEvents, List.mem_append, List.mem_cons, reduceCtorEq, dashed_value, List.not_mem_nil, or_false, false_or]
    cases h : x.presence with
    | none => simp [presenceEvents, h]
    | some q => simp [presenceEvents, h]

theorem dashed_set {D : DatasetD} {c : Settings} {s : SetAddr} {v : SetView} {S : SetD} (hs : D.set? s = some S)
    (hv : ShowsSet D s v S) {i j : Item} {l : Text} :
    Ev.dashed i j l ∈ setEvents D c s v S ↔ Refers D c i j l ∧ i.setAddr = some s := by
  unfold setEvents
  simp only [List.mem_append, List.mem_cons, mem_properties hs hv.2.2.2, dashed_tracker, dashed_time, dashed_space, dashed_property,
    dashed_disc, List.not_mem_nil, or_false, reduceCtorEq, false_or]
  constructor
  · rintro (((⟨h1, ⟨u, h2⟩, o, h3, rfl, rfl, rfl⟩ | ⟨⟨u, h2⟩, o, h3, rfl, rfl, rfl⟩) | ⟨x, q, h1, h2, rfl, rfl, rfl⟩) |
      ⟨p, x, rfl, hx, ⟨k, q, h1, rfl, rfl, rfl⟩ | ⟨k, q, h1, rfl, rfl, rfl⟩⟩)
    · exact ⟨.tracker hs h2 h3 h1, rfl⟩
    · exact ⟨.time hs h2 h3, rfl⟩
    · exact ⟨.presence hs h1 h2, rfl⟩
    · exact ⟨.timeDiscretization hx h1, rfl⟩
    · exact ⟨.spaceDiscretization hx h1, rfl⟩
  · rintro ⟨h1, h2⟩
    cases h1 with
    | tracker hs' ht ho hc =>
      cases h2
      rw [hs] at hs'; cases hs'
      exact Or.inl (Or.inl (Or.inl ⟨hc, ⟨_, ht⟩, _, ho, rfl, rfl, rfl⟩))
    | time hs' ht ho =>
      cases h2
      rw [hs] at hs'; cases hs'
      exact Or.inl (Or.inl (Or.inr ⟨⟨_, ht⟩, _, ho, rfl, rfl, rfl⟩))
    | presence hs' hx hq =>
      cases h2
      rw [hs] at hs'; cases hs'
      exact Or.inl (Or.inr ⟨_, _, hx, hq, rfl, rfl, rfl⟩)
    | timeDiscretization hp hx =>
      cases h2
      exact Or.inr ⟨_, _, rfl, hp, Or.inl ⟨_, _, hx, rfl, rfl, rfl⟩⟩
    | spaceDiscretization hp hx =>
      cases h2
      exact Or.inr ⟨_, _, rfl, hp, Or.inr ⟨_, _, hx, rfl, rfl, rfl⟩⟩

/-! ## Phenomena and worlds -/

theorem set?_eq {D : DatasetD} {a : PhenomenonAddr} {P : PhenomenonD} (ha : D.phenomenon? a = some P) (c : Coll) (n : Name) :
    D.set? ⟨a, c, n⟩ = P.sets c n := by
  unfold DatasetD.set?
  rw [ha]; rfl

theorem mem_sets {D : DatasetD} {c : Settings} {a : PhenomenonAddr} {v : PhenomenonView} {P : PhenomenonD}
    (ha : D.phenomenon? a = some P) (hv : ∀ co, ShowsItems (fun n => ShowsSet D ⟨a, co, n⟩) (v.sets co) (P.sets co)) {e : Ev} :
    e ∈ colls.flatMap (fun co => (v.sets co).flatMap fun e => setEvents? D c ⟨a, co, e.1⟩ e.2) ↔
      ∃ s S V, s.phenomenon = a ∧ D.set? s = some S ∧ (s.name, V) ∈ v.sets s.coll ∧ ShowsSet D s V S ∧ e ∈ setEvents D c s V S := by
  simp only [List.mem_flatMap]
  constructor
  · rintro ⟨co, _, b, hb, he⟩
    obtain ⟨S, hS, hR⟩ := (hv co).2.1 b.1 b.2 hb
    refine ⟨⟨a, co, b.1⟩, S, b.2, rfl, by rw [set?_eq ha]; exact hS, hb, hR, ?_⟩
    unfold setEvents? at he
    rw [set?_eq ha, hS] at he
    exact he
  · rintro ⟨⟨a', co, n⟩, S, V, rfl, hS, hV, _, he⟩
    refine ⟨co, colls_mem co, (n, V), hV, ?_⟩
    unfold setEvents?
    rw [hS]
    exact he

theorem shown_set {D : DatasetD} {c : Settings} {i : Item} {s : SetAddr} (h : Shown D c i) (hs : i.setAddr = some s) :
    (D.set? s).isSome := by
  have hp : ∀ p, (D.property? p).isSome → (D.set? p.set).isSome := by
    intro p hp
    unfold DatasetD.property? at hp
    cases hS : D.set? p.set with
    | none => rw [hS] at hp; cases hp
    | some S => rfl
  cases i <;> cases hs <;> simp only [Shown] at h
  · exact h
  · obtain ⟨⟨S, h1, _⟩, _⟩ := h; rw [h1]; rfl
  · obtain ⟨S, _, _, h1, _⟩ := h; rw [h1]; rfl
  · obtain ⟨S, _, h1, _⟩ := h; rw [h1]; rfl
  · exact hp _ h
  · obtain ⟨⟨S, h1, _⟩, _⟩ := h; rw [h1]; rfl
  · obtain ⟨⟨S, h1, _⟩, _⟩ := h; rw [h1]; rfl
  · obtain ⟨⟨S, h1, _⟩, _⟩ := h; rw [h1]; rfl
  · obtain ⟨⟨S, _, _, h1, _⟩, _⟩ := h; rw [h1]; rfl
  · obtain ⟨⟨S, _, h1, _⟩, _⟩ := h; rw [h1]; rfl
  · obtain ⟨⟨S, _, h1, _⟩, _⟩ := h; rw [h1]; rfl
  · exact hp _ h.1

theorem refers_set {D : DatasetD} {c : Settings} {i j : Item} {l : Text} (h : Refers D c i j l) :
    ∃ s, i.setAddr = some s ∧ (D.set? s).isSome := by
  have hp : ∀ p x, D.property? p = some x → (D.set? p.set).isSome := by
    intro p x hp
    unfold DatasetD.property? at hp
    cases hS : D.set? p.set with
    | none => rw [hS] at hp; cases hp
    | some S => rfl
  cases h with
  | tracker hs _ _ _ => exact ⟨_, rfl, by rw [hs]; rfl⟩
  | time hs _ _ => exact ⟨_, rfl, by rw [hs]; rfl⟩
  | presence hs _ _ => exact ⟨_, rfl, by rw [hs]; rfl⟩
  | timeDiscretization hx _ => exact ⟨_, rfl, hp _ _ hx⟩
  | spaceDiscretization hx _ => exact ⟨_, rfl, hp _ _ hx⟩

/-- The property-set of an item that is shown, with its view -/
theorem set_view {D : DatasetD} {a : PhenomenonAddr} {v : PhenomenonView} {P : PhenomenonD} (ha : D.phenomenon? a = some P)
    (hv : ∀ co, ShowsItems (fun n => ShowsSet D ⟨a, co, n⟩) (v.sets co) (P.sets co)) {s : SetAddr} (hs : (D.set? s).isSome)
    (hp : s.phenomenon = a) : ∃ S V, D.set? s = some S ∧ (s.name, V) ∈ v.sets s.coll ∧ ShowsSet D s V S := by
  obtain ⟨a', co, n⟩ := s
  cases hp
  obtain ⟨S, hS⟩ := Option.isSome_iff_exists.mp hs
  have hS' := hS
  rw [set?_eq ha] at hS'
  obtain ⟨V, hV⟩ := (hv co).2.2 n S hS'
  obtain ⟨S1, h1, hR⟩ := (hv co).2.1 n V hV
  rw [hS'] at h1; cases h1
  exact ⟨S, V, hS, hV, hR⟩

theorem node_phenomenon {D : DatasetD} {c : Settings} {a : PhenomenonAddr} {v : PhenomenonView} {P : PhenomenonD}
    (ha : D.phenomenon? a = some P) (hv : ShowsPhenomenon D a v P) {i : Item} :
    Ev.node i ∈ phenomenonEvents D c a v ↔ Shown D c i ∧ i.phenomenonAddr = a := by
  unfold phenomenonEvents
  simp only [List.cons_append, List.mem_cons, List.mem_append, mem_sets ha hv.2, Ev.node.injEq]
  constructor
  · rintro (rfl | h | ⟨s, S, V, hp, hS, hV, hR, he⟩)
    · exact ⟨by simp [Shown, ha], rfl⟩
    · cases hc : c.showTracker with
      | false => rw [hc] at h; simp at h
      | true =>
        rw [hc, if_pos rfl, node_value] at h
        obtain ⟨h1, rfl⟩ := h
        exact ⟨⟨by rw [ha]; rfl, hc, h1⟩, rfl⟩
    · rw [node_set hS hR] at he
      exact ⟨he.1, by rw [Item.phenomenon_eq he.2]; exact hp⟩
  · rintro ⟨h1, h2⟩
    cases hs : i.setAddr with
    | some s =>
      obtain ⟨S, V, hS, hV, hR⟩ := set_view ha hv.2 (shown_set h1 hs) (by rw [← Item.phenomenon_eq hs]; exact h2)
      exact Or.inr (Or.inr ⟨s, S, V, by rw [← Item.phenomenon_eq hs]; exact h2, hS, hV, hR, (node_set hS hR).mpr ⟨h1, hs⟩⟩)
    | none =>
      cases i <;> cases hs
      · cases h2; exact Or.inl rfl
      · cases h2
        refine Or.inr (Or.inl ?_)
        rw [h1.2.1, if_pos rfl, node_value]
        exact ⟨h1.2.2, rfl⟩

theorem dashed_phenomenon {D : DatasetD} {c : Settings} {a : PhenomenonAddr} {v : PhenomenonView} {P : PhenomenonD}
    (ha : D.phenomenon? a = some P) (hv : ShowsPhenomenon D a v P) {i j : Item} {l : Text} :
    Ev.dashed i j l ∈ phenomenonEvents D c a v ↔ Refers D c i j l ∧ i.phenomenonAddr = a := by
  unfold phenomenonEvents
  simp only [List.cons_append, List.mem_cons, List.mem_append, mem_sets ha hv.2, reduceCtorEq, false_or]
  constructor
  · rintro (h | ⟨s, S, V, hp, hS, hV, hR, he⟩)
    · cases hc : c.showTracker with
      | false => rw [hc] at h; simp at h
      | true => rw [hc, if_pos rfl] at h; exact absurd h dashed_value
    · rw [dashed_set hS hR] at he
      exact ⟨he.1, by rw [Item.phenomenon_eq he.2]; exact hp⟩
  · rintro ⟨h1, h2⟩
    obtain ⟨s, hs, hss⟩ := refers_set h1
    obtain ⟨S, V, hS, hV, hR⟩ := set_view ha hv.2 hss (by rw [← Item.phenomenon_eq hs]; exact h2)
    exact Or.inr ⟨s, S, V, by rw [← Item.phenomenon_eq hs]; exact h2, hS, hV, hR, (dashed_set hS hR).mpr ⟨h1, hs⟩⟩

theorem shown_phenomenon {D : DatasetD} {c : Settings} {i : Item} (h : Shown D c i) : (D.phenomenon? i.phenomenonAddr).isSome := by
  cases hs : i.setAddr with
  | none => cases i <;> cases hs <;> simp only [Shown] at h
            · exact h
            · exact h.1
  | some s =>
    have h1 := shown_set h hs
    rw [Item.phenomenon_eq hs]
    unfold DatasetD.set? at h1
    cases hP : D.phenomenon? s.phenomenon with
    | none => rw [hP] at h1; cases h1
    | some P => rfl

theorem refers_phenomenon {D : DatasetD} {c : Settings} {i j : Item} {l : Text} (h : Refers D c i j l) :
    (D.phenomenon? i.phenomenonAddr).isSome := by
  obtain ⟨s, hs, h1⟩ := refers_set h
  rw [Item.phenomenon_eq hs]
  unfold DatasetD.set? at h1
  cases hP : D.phenomenon? s.phenomenon with
  | none => rw [hP] at h1; cases h1
  | some P => rfl

theorem phenomenon?_eq {D : DatasetD} {w : Option Name} {W : WorldD} (hw : D.world? w = some W) (n : Name) :
    D.phenomenon? ⟨w, n⟩ = W n := by
  unfold DatasetD.phenomenon?
  rw [hw]; rfl

theorem node_world {D : DatasetD} {c : Settings} {w : Option Name} {v : WorldView} {W : WorldD} (hw : D.world? w = some W)
    (hv : ShowsWorld D w v W) {i : Item} : Ev.node i ∈ worldEvents D c w v ↔ Shown D c i ∧ i.world = w := by
  unfold worldEvents
  simp only [List.mem_flatMap]
  constructor
  · rintro ⟨e, he, hi⟩
    obtain ⟨P, hP, hR⟩ := hv.2.1 e.1 e.2 he
    rw [node_phenomenon (by rw [phenomenon?_eq hw]; exact hP) hR] at hi
    exact ⟨hi.1, by rw [Item.world_eq, hi.2]⟩
  · rintro ⟨h1, h2⟩
    have h3 := shown_phenomenon h1
    have ha : i.phenomenonAddr = ⟨w, i.phenomenonAddr.name⟩ := by rw [Item.world_eq] at h2; rw [← h2]
    rw [ha, phenomenon?_eq hw] at h3
    obtain ⟨P, hP⟩ := Option.isSome_iff_exists.mp h3
    obtain ⟨V, hV⟩ := hv.2.2 _ P hP
    obtain ⟨P1, hP1, hR⟩ := hv.2.1 _ V hV
    exact ⟨_, hV, (node_phenomenon (by rw [phenomenon?_eq hw]; exact hP1) hR).mpr ⟨h1, ha⟩⟩

theorem dashed_world {D : DatasetD} {c : Settings} {w : Option Name} {v : WorldView} {W : WorldD} (hw : D.world? w = some W)
    (hv : ShowsWorld D w v W) {i j : Item} {l : Text} :
    Ev.dashed i j l ∈ worldEvents D c w v ↔ Refers D c i j l ∧ i.world = w := by
  unfold worldEvents
  simp only [List.mem_flatMap]
  constructor
  · rintro ⟨e, he, hi⟩
    obtain ⟨P, hP, hR⟩ := hv.2.1 e.1 e.2 he
    rw [dashed_phenomenon (by rw [phenomenon?_eq hw]; exact hP) hR] at hi
    exact ⟨hi.1, by rw [Item.world_eq, hi.2]⟩
  · rintro ⟨h1, h2⟩
    have h3 := refers_phenomenon h1
    have ha : i.phenomenonAddr = ⟨w, i.phenomenonAddr.name⟩ := by rw [Item.world_eq] at h2; rw [← h2]
    rw [ha, phenomenon?_eq hw] at h3
    obtain ⟨P, hP⟩ := Option.isSome_iff_exists.mp h3
    obtain ⟨V, hV⟩ := hv.2.2 _ P hP
    obtain ⟨P1, hP1, hR⟩ := hv.2.1 _ V hV
    exact ⟨_, hV, (dashed_phenomenon (by rw [phenomenon?_eq hw]; exact hP1) hR).mpr ⟨h1, ha⟩⟩

end Lue.Dot

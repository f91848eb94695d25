import Verif.Dot.Items

/-!
# Items are written once
-/
namespace Lue.Dot
open Lue.Structure

def Ev.node? : Ev → Option Item
  | .node i => some i
  | _ => none

def Ev.solid? : Ev → Option Item
  | .solid i => some i
  | _ => none

def nodesOf (es : List Ev) : List Item := es.filterMap Ev.node?
def solidsOf (es : List Ev) : List Item := es.filterMap Ev.solid?

theorem mem_nodesOf {es : List Ev} {i : Item} : i ∈ nodesOf es ↔ Ev.node i ∈ es := by
  unfold nodesOf
  rw [List.mem_filterMap]
  constructor
  · rintro ⟨e, he, h⟩
    cases e <;> cases h
    exact he
  · exact fun h => ⟨_, h, rfl⟩

theorem mem_solidsOf {es : List Ev} {i : Item} : i ∈ solidsOf es ↔ Ev.solid i ∈ es := by
  unfold solidsOf
  rw [List.mem_filterMap]
  constructor
  · rintro ⟨e, he, h⟩
    cases e <;> cases h
    exact he
  · exact fun h => ⟨_, h, rfl⟩

theorem nodesOf_append (a b : List Ev) : nodesOf (a ++ b) = nodesOf a ++ nodesOf b := List.filterMap_append

theorem solidsOf_append (a b : List Ev) : solidsOf (a ++ b) = solidsOf a ++ solidsOf b := List.filterMap_append

theorem nodesOf_flatMap {α : Type} (l : List α) (g : α → List Ev) : nodesOf (l.flatMap g) = l.flatMap fun a => nodesOf (g a) := by
  induction l with
  | nil => rfl
  | cons a l ih => rw [List.flatMap_cons, nodesOf_append, ih, List.flatMap_cons]

theorem solidsOf_flatMap {α : Type} (l : List α) (g : α → List Ev) : solidsOf (l.flatMap g) = l.flatMap fun a => solidsOf (g a) := by
  induction l with
  | nil => rfl
  | cons a l ih => rw [List.flatMap_cons, solidsOf_append, ih, List.flatMap_cons]

/-! ## Each node comes with an edge -/

def Balanced (es : List Ev) : Prop := (solidsOf es).Perm (nodesOf es)

theorem Balanced.nil : Balanced [] := List.Perm.refl _

theorem Balanced.append {a b : List Ev} (ha : Balanced a) (hb : Balanced b) : Balanced (a ++ b) := by
  unfold Balanced
  rw [solidsOf_append, nodesOf_append]
  exact List.Perm.append ha hb

theorem Balanced.flatMap {α : Type} {l : List α} {g : α → List Ev} (h : ∀ a ∈ l, Balanced (g a)) : Balanced (l.flatMap g) := by
  induction l with
  | nil => exact Balanced.nil
  | cons a l ih => exact (h a (by simp)).append (ih fun x hx => h x (by simp [hx]))

theorem Balanced.wrap {es : List Ev} (h : Balanced es) (i : Item) : Balanced (.node i :: es ++ [.solid i]) := by
  unfold Balanced
  rw [solidsOf_append, nodesOf_append]
  show (solidsOf es ++ [i]).Perm (i :: nodesOf es ++ [])
  rw [List.append_nil]
  exact (List.perm_append_comm).trans (h.cons i)

theorem Balanced.dashed (i j : Item) (l : Text) : Balanced [.dashed i j l] := List.Perm.refl _

theorem balanced_value (c : Settings) (i : Item) : Balanced (valueEvents c i) := by
  unfold valueEvents
  split
  · exact Balanced.nil.wrap i
  · exact Balanced.nil

theorem balanced_disc (b : Bool) (p : PropertyAddr) (o : Option (Discretization × PropertyAddr)) : Balanced (discEvents b p o) := by
  cases o with
  | none => exact Balanced.nil
  | some kq => exact Balanced.dashed _ _ _

theorem balanced_property (D : DatasetD) (c : Settings) (p : PropertyAddr) : Balanced (propertyEvents? D c p) := by
  unfold propertyEvents?
  cases D.property? p with
  | none => exact Balanced.nil
  | some x =>
    show Balanced (propertyEvents c p x)
    have h := (((balanced_disc c.timeDetails p x.timeDisc).append (balanced_disc c.spaceDetails p x.spaceDisc)).append
      (balanced_value c (.value p))).wrap (.property p)
    unfold propertyEvents
    simpa only [List.cons_append, List.append_assoc] using h

theorem balanced_shared (s : SetAddr) (g : SetAddr → Item) (o : Option SetAddr) : Balanced (sharedEvents s g o) := by
  cases o with
  | none => exact Balanced.nil
  | some o => exact Balanced.dashed _ _ _

theorem balanced_tracker (D : DatasetD) (c : Settings) (s : SetAddr) (t : TrackerD) : Balanced (trackerEvents D c s t) := by
  cases t with
  | own =>
    unfold trackerEvents
    simp only []
    split
    · have h := (((balanced_value c (.activeSetIndex s)).append (balanced_value c (.activeObjectIndex s))).append
        (balanced_value c (.activeObjectId s))).wrap (.tracker s)
      unfold trackerOwnEvents
      simpa only [List.cons_append, List.append_assoc] using h
    · exact Balanced.nil
  | shared o =>
    unfold trackerEvents
    simp only []
    split
    · exact balanced_shared _ _ _
    · exact Balanced.nil

theorem balanced_time (D : DatasetD) (c : Settings) (s : SetAddr) (t : TimeD) : Balanced (timeEvents D c s t) := by
  cases t with
  | absent => exact Balanced.nil
  | own i k =>
    unfold timeEvents timeOwnEvents
    simp only []
    have h1 : Balanced (countEvents s i) := by
      cases i with
      | cell => exact Balanced.nil.wrap (.timeCount s)
      | _ => exact Balanced.nil
    split
    · exact (h1.wrap (.timeValue s)).wrap (.time s)
    · exact Balanced.nil.wrap (.time s)
  | shared o => exact balanced_shared _ _ _

theorem balanced_space (c : Settings) (s : SetAddr) (o : Option SpaceD) : Balanced (spaceEvents c s o) := by
  cases o with
  | none => exact Balanced.nil
  | some x =>
    unfold spaceEvents
    refine ((balanced_value c (.spaceValue s)).wrap (.space s)).append ?_
    cases x.presence with
    | none => exact Balanced.nil
    | some q => exact Balanced.dashed _ _ _

theorem balanced_set (D : DatasetD) (c : Settings) (s : SetAddr) (v : SetView) : Balanced (setEvents? D c s v) := by
  unfold setEvents?
  cases D.set? s with
  | none => exact Balanced.nil
  | some S =>
    show Balanced (setEvents D c s v S)
    have h := ((((balanced_tracker D c s S.tracker).append (balanced_time D c s S.time)).append (balanced_space c s S.space)).append
      (Balanced.flatMap (l := kinds) fun k _ => Balanced.flatMap (l := v.properties.get k)
        fun e _ => balanced_property D c ⟨s, k, e.1⟩)).wrap (.set s)
    unfold setEvents
    simpa only [List.cons_append, List.append_assoc] using h

/-- All items but the phenomena are pointed at. -/
theorem solids_phenomenon (D : DatasetD) (c : Settings) (a : PhenomenonAddr) (v : PhenomenonView) :
    (.phenomenon a :: solidsOf (phenomenonEvents D c a v)).Perm (nodesOf (phenomenonEvents D c a v)) := by
  have h : Balanced ((if c.showTracker then valueEvents c (.objectId a) else [])
      ++ colls.flatMap fun co => (v.sets co).flatMap fun e => setEvents? D c ⟨a, co, e.1⟩ e.2) := by
    refine Balanced.append ?_ (Balanced.flatMap fun co _ => Balanced.flatMap fun e _ => balanced_set D c ⟨a, co, e.1⟩ e.2)
    split
    · exact balanced_value _ _
    · exact Balanced.nil
  unfold phenomenonEvents
  rw [List.cons_append]
  exact h.cons (.phenomenon a)

theorem solids_world (D : DatasetD) (c : Settings) (w : Option Name) (v : WorldView) :
    ((v.map fun e => Item.phenomenon ⟨w, e.1⟩) ++ solidsOf (worldEvents D c w v)).Perm (nodesOf (worldEvents D c w v)) := by
  unfold worldEvents
  induction v with
  | nil => exact List.Perm.refl _
  | cons e v ih =>
    rw [List.flatMap_cons, solidsOf_append, nodesOf_append, List.map_cons]
    refine List.Perm.trans ?_ (List.Perm.append (solids_phenomenon D c ⟨w, e.1⟩ e.2) ih)
    rw [List.cons_append, List.cons_append]
    refine List.Perm.cons _ ?_
    rw [← List.append_assoc, ← List.append_assoc]
    exact List.Perm.append_right _ List.perm_append_comm

/-! ## No item is written twice -/

theorem nodup_flatMap_key {α β κ : Type} {l : List α} {f : α → List β} (key : β → κ) (k : α → κ) (hl : (l.map k).Nodup)
    (hf : ∀ a ∈ l, (f a).Nodup) (hk : ∀ a ∈ l, ∀ b ∈ f a, key b = k a) : (l.flatMap f).Nodup := by
  induction l with
  | nil => exact List.nodup_nil
  | cons a l ih =>
    rw [List.flatMap_cons]
    rw [List.map_cons, List.nodup_cons] at hl
    refine List.Nodup.append (hf a (by simp)) (ih hl.2 (fun x hx => hf x (by simp [hx])) fun x hx => hk x (by simp [hx])) ?_
    intro b hb hb'
    obtain ⟨x, hx, hb''⟩ := List.mem_flatMap.mp hb'
    refine hl.1 ?_
    rw [← hk a (by simp) b hb, hk x (by simp [hx]) b hb'']
    exact List.mem_map_of_mem hx

theorem nodup_names {α κ : Type} {l : List (Name × α)} (h : (l.map Prod.fst).Nodup) {g : Name → κ} (hg : Function.Injective g) :
    (l.map fun e => g e.1).Nodup := by
  have := h.map hg
  rwa [List.map_map] at this

theorem nodup_value (c : Settings) (i : Item) : (nodesOf (valueEvents c i)).Nodup := by
  unfold valueEvents
  split
  · exact List.nodup_singleton i
  · exact List.nodup_nil

theorem nodup_property (D : DatasetD) (c : Settings) (p : PropertyAddr) : (nodesOf (propertyEvents? D c p)).Nodup := by
  unfold propertyEvents?
  cases D.property? p with
  | none => exact List.nodup_nil
  | some x =>
    have h1 : ∀ b o, nodesOf (discEvents b p o) = [] := by intro b o; cases o <;> rfl
    show (nodesOf (propertyEvents c p x)).Nodup
    unfold propertyEvents
    rw [nodesOf_append, nodesOf_append, nodesOf_append, h1]
    show ((Item.property p :: nodesOf (discEvents c.timeDetails p x.timeDisc)) ++ [] ++ nodesOf (valueEvents c (.value p)) ++ []).Nodup
    rw [h1]
    unfold valueEvents
    split
    · show [Item.property p, Item.value p].Nodup
      simp
    · exact List.nodup_singleton _

theorem nodup_tracker (D : DatasetD) (c : Settings) (s : SetAddr) (t : TrackerD) : (nodesOf (trackerEvents D c s t)).Nodup := by
  cases t with
  | own =>
    unfold trackerEvents trackerOwnEvents valueEvents
    cases c.showTracker
    · exact List.nodup_nil
    · cases c.showValue
      · exact List.nodup_singleton _
      · show [Item.tracker s, Item.activeSetIndex s, Item.activeObjectIndex s, Item.activeObjectId s].Nodup
        simp
  | shared o =>
    have h1 : ∀ o, nodesOf (sharedEvents s .tracker o) = [] := by intro o; cases o <;> rfl
    unfold trackerEvents
    simp only []
    split
    · rw [h1]; exact List.nodup_nil
    · exact List.nodup_nil

theorem nodup_time (D : DatasetD) (c : Settings) (s : SetAddr) (t : TimeD) : (nodesOf (timeEvents D c s t)).Nodup := by
  cases t with
  | absent => exact List.nodup_nil
  | own i k =>
    unfold timeEvents timeOwnEvents
    cases c.showValue
    · exact List.nodup_singleton _
    · cases i with
      | cell =>
        show [Item.time s, Item.timeValue s, Item.timeCount s].Nodup
        simp
      | point =>
        show [Item.time s, Item.timeValue s].Nodup
        simp
      | box =>
        show [Item.time s, Item.timeValue s].Nodup
        simp
  | shared o =>
    have h1 : ∀ o, nodesOf (sharedEvents s .time o) = [] := by intro o; cases o <;> rfl
    unfold timeEvents
    rw [h1]; exact List.nodup_nil

theorem nodup_space (c : Settings) (s : SetAddr) (o : Option SpaceD) : (nodesOf (spaceEvents c s o)).Nodup := by
  cases o with
  | none => exact List.nodup_nil
  | some x =>
    have h1 : nodesOf (presenceEvents s x.presence) = [] := by cases x.presence <;> rfl
    unfold spaceEvents
    rw [nodesOf_append, h1, List.append_nil]
    unfold valueEvents
    cases c.showValue
    · exact List.nodup_singleton _
    · show [Item.space s, Item.spaceValue s].Nodup
      simp

/-- The part of the property-set an item is in -/
def Item.part : Item → Nat
  | .tracker _ | .activeSetIndex _ | .activeObjectIndex _ | .activeObjectId _ => 1
  | .time _ | .timeValue _ | .timeCount _ => 2
  | .space _ | .spaceValue _ => 3
  | .property _ | .value _ => 4
  | _ => 0

theorem nodup_set {D : DatasetD} {c : Settings} {s : SetAddr} {v : SetView} {S : SetD} (hs : D.set? s = some S)
    (hv : ShowsSet D s v S) : (nodesOf (setEvents D c s v S)).Nodup := by
  have hp : (nodesOf (kinds.flatMap fun k => (v.properties.get k).flatMap fun e => propertyEvents? D c ⟨s, k, e.1⟩)).Nodup := by
    have hk : ∀ p, ∀ i ∈ nodesOf (propertyEvents? D c p), i.propertyAddr = some p := by
      intro p i hi
      rw [mem_nodesOf, node_property?] at hi
      rcases hi.2 with rfl | ⟨_, rfl⟩ <;> rfl
    rw [nodesOf_flatMap]
    refine nodup_flatMap_key (fun i => i.propertyAddr.map PropertyAddr.kind) some (by decide) (fun k _ => ?_) fun k _ i hi => ?_
    · rw [nodesOf_flatMap]
      refine nodup_flatMap_key Item.propertyAddr (fun e => some ⟨s, k, e.1⟩)
        (nodup_names (hv.2.2.2 k).1 (g := fun n => some (⟨s, k, n⟩ : PropertyAddr)) fun a b h => by cases h; rfl)
        (fun e _ => nodup_property D c _) fun e _ i hi => hk _ i hi
    · rw [nodesOf_flatMap] at hi
      obtain ⟨e, _, hi⟩ := List.mem_flatMap.mp hi
      rw [hk _ i hi]; rfl
  have a1 : ∀ i ∈ nodesOf (trackerEvents D c s S.tracker), i.part = 1 := by
    intro i hi
    rw [mem_nodesOf, node_tracker] at hi
    rcases hi.2.2 with rfl | ⟨_, rfl | rfl | rfl⟩ <;> rfl
  have a2 : ∀ i ∈ nodesOf (timeEvents D c s S.time), i.part = 2 := by
    intro i hi
    rw [mem_nodesOf, node_time] at hi
    obtain ⟨_, _, _, hi⟩ := hi
    rcases hi with rfl | ⟨_, rfl | ⟨_, rfl⟩⟩ <;> rfl
  have a3 : ∀ i ∈ nodesOf (spaceEvents c s S.space), i.part = 3 := by
    intro i hi
    rw [mem_nodesOf, node_space] at hi
    rcases hi.2 with rfl | ⟨_, rfl⟩ <;> rfl
  have a4 : ∀ i ∈ nodesOf (kinds.flatMap fun k => (v.properties.get k).flatMap fun e => propertyEvents? D c ⟨s, k, e.1⟩),
      i.part = 4 := by
    intro i hi
    rw [mem_nodesOf, mem_properties hs hv.2.2.2] at hi
    obtain ⟨p, x, _, _, hi⟩ := hi
    rw [node_property] at hi
    rcases hi with rfl | ⟨_, rfl⟩ <;> rfl
  have key : ∀ l : List (List Item), l.length = 5 → (∀ k (h : k < l.length), l[k].Nodup ∧ ∀ i ∈ l[k], i.part = k) → l.flatten.Nodup := by
    intro l _ h
    rw [List.nodup_flatten]
    refine ⟨fun x hx => ?_, ?_⟩
    · obtain ⟨k, hk, rfl⟩ := List.getElem_of_mem hx
      exact (h k hk).1
    · rw [List.pairwise_iff_getElem]
      intro i j hi hj hij x hx hx'
      have e1 := (h i hi).2 x hx
      have e2 := (h j hj).2 x hx'
      omega
  have := key [[.set s], nodesOf (trackerEvents D c s S.tracker), nodesOf (timeEvents D c s S.time), nodesOf (spaceEvents c s S.space),
    nodesOf (kinds.flatMap fun k => (v.properties.get k).flatMap fun e => propertyEvents? D c ⟨s, k, e.1⟩)] rfl (by
      intro k hk
      match k, hk with
      | 0, _ => exact ⟨List.nodup_singleton _, fun i hi => by simp at hi; subst hi; rfl⟩
      | 1, _ => exact ⟨nodup_tracker D c s _, a1⟩
      | 2, _ => exact ⟨nodup_time D c s _, a2⟩
      | 3, _ => exact ⟨nodup_space c s _, a3⟩
      | 4, _ => exact ⟨hp, a4⟩)
  have e : nodesOf (setEvents D c s v S) = [[.set s], nodesOf (trackerEvents D c s S.tracker), nodesOf (timeEvents D c s S.time),
      nodesOf (spaceEvents c s S.space),
      nodesOf (kinds.flatMap fun k => (v.properties.get k).flatMap fun e => propertyEvents? D c ⟨s, k, e.1⟩)].flatten := by
    unfold setEvents
    rw [nodesOf_append, nodesOf_append, nodesOf_append, nodesOf_append, show nodesOf [Ev.solid (.set s)] = [] from rfl,
      show nodesOf (Ev.node (.set s) :: trackerEvents D c s S.tracker) = [.set s] ++ nodesOf (trackerEvents D c s S.tracker) from rfl]
    simp only [List.flatten_cons, List.flatten_nil, List.append_nil, List.append_assoc]
  rw [e]
  exact this

theorem nodup_phenomenon {D : DatasetD} {c : Settings} {a : PhenomenonAddr} {v : PhenomenonView} {P : PhenomenonD}
    (ha : D.phenomenon? a = some P) (hv : ShowsPhenomenon D a v P) : (nodesOf (phenomenonEvents D c a v)).Nodup := by
  have hk : ∀ co, ∀ e ∈ v.sets co, (nodesOf (setEvents? D c ⟨a, co, e.1⟩ e.2)).Nodup ∧
      ∀ i ∈ nodesOf (setEvents? D c ⟨a, co, e.1⟩ e.2), i.setAddr = some ⟨a, co, e.1⟩ := by
    intro co e he
    obtain ⟨S, hS, hR⟩ := (hv.2 co).2.1 e.1 e.2 he
    have hS' : D.set? ⟨a, co, e.1⟩ = some S := by rw [set?_eq ha]; exact hS
    unfold setEvents?
    rw [hS']
    refine ⟨nodup_set hS' hR, fun i hi => ?_⟩
    exact ((node_set hS' hR).mp (mem_nodesOf.mp hi)).2
  have hp : (nodesOf (colls.flatMap fun co => (v.sets co).flatMap fun e => setEvents? D c ⟨a, co, e.1⟩ e.2)).Nodup := by
    rw [nodesOf_flatMap]
    refine nodup_flatMap_key (fun i => i.setAddr.map SetAddr.coll) some (by decide) (fun co _ => ?_) fun co _ i hi => ?_
    · rw [nodesOf_flatMap]
      exact nodup_flatMap_key Item.setAddr (fun e => some ⟨a, co, e.1⟩)
        (nodup_names (hv.2 co).1 (g := fun n => some (⟨a, co, n⟩ : SetAddr)) fun x y h => by cases h; rfl)
        (fun e he => (hk co e he).1) fun e he i hi => (hk co e he).2 i hi
    · rw [nodesOf_flatMap] at hi
      obtain ⟨e, he, hi⟩ := List.mem_flatMap.mp hi
      rw [(hk co e he).2 i hi]; rfl
  have hs : ∀ i ∈ nodesOf (colls.flatMap fun co => (v.sets co).flatMap fun e => setEvents? D c ⟨a, co, e.1⟩ e.2), i.setAddr.isSome := by
    intro i hi
    rw [nodesOf_flatMap] at hi
    obtain ⟨co, _, hi⟩ := List.mem_flatMap.mp hi
    rw [nodesOf_flatMap] at hi
    obtain ⟨e, he, hi⟩ := List.mem_flatMap.mp hi
    rw [(hk co e he).2 i hi]; rfl
  have h0 : ∀ i ∈ nodesOf (if c.showTracker then valueEvents c (.objectId a) else []), i = .objectId a := by
    intro i hi
    rw [mem_nodesOf] at hi
    split at hi
    · exact (node_value.mp hi).2
    · cases hi
  have h1 : (nodesOf (if c.showTracker then valueEvents c (.objectId a) else [])).Nodup := by
    split
    · exact nodup_value _ _
    · exact List.nodup_nil
  unfold phenomenonEvents
  rw [List.cons_append]
  show (Item.phenomenon a :: nodesOf (_ ++ _)).Nodup
  rw [nodesOf_append, List.nodup_cons]
  refine ⟨fun hm => ?_, h1.append hp fun i hi hi' => ?_⟩
  · rcases List.mem_append.mp hm with hm | hm
    · cases h0 _ hm
    · cases hs _ hm
  · rw [h0 i hi] at hi'
    cases hs _ hi'

theorem nodup_world {D : DatasetD} {c : Settings} {w : Option Name} {v : WorldView} {W : WorldD} (hw : D.world? w = some W)
    (hv : ShowsWorld D w v W) : (nodesOf (worldEvents D c w v)).Nodup := by
  unfold worldEvents
  rw [nodesOf_flatMap]
  have hk : ∀ e ∈ v, (nodesOf (phenomenonEvents D c ⟨w, e.1⟩ e.2)).Nodup ∧
      ∀ i ∈ nodesOf (phenomenonEvents D c ⟨w, e.1⟩ e.2), i.phenomenonAddr = ⟨w, e.1⟩ := by
    intro e he
    obtain ⟨P, hP, hR⟩ := hv.2.1 e.1 e.2 he
    have ha : D.phenomenon? ⟨w, e.1⟩ = some P := by rw [phenomenon?_eq hw]; exact hP
    exact ⟨nodup_phenomenon ha hR, fun i hi => ((node_phenomenon ha hR).mp (mem_nodesOf.mp hi)).2⟩
  exact nodup_flatMap_key Item.phenomenonAddr (fun e => ⟨w, e.1⟩)
    (nodup_names hv.1 (g := fun n => (⟨w, n⟩ : PhenomenonAddr)) fun x y h => by cases h; rfl)
    (fun e he => (hk e he).1) fun e he i hi => (hk e he).2 i hi

/-- Items which are pointed at: those that are shown, and that are part of something -/
theorem solid_world {D : DatasetD} {c : Settings} {w : Option Name} {v : WorldView} {W : WorldD} (hw : D.world? w = some W)
    (hv : ShowsWorld D w v W) {j : Item} :
    Ev.solid j ∈ worldEvents D c w v ↔ Shown D c j ∧ j.world = w ∧ j.parent.isSome := by
  have hperm := solids_world D c w v
  have hn := nodup_world (c := c) hw hv
  have hn' := hperm.nodup_iff.mpr hn
  rw [List.nodup_append] at hn'
  constructor
  · intro h
    have h1 : j ∈ nodesOf (worldEvents D c w v) := hperm.subset (List.mem_append_right _ (mem_solidsOf.mpr h))
    obtain ⟨h2, h3⟩ := (node_world hw hv).mp (mem_nodesOf.mp h1)
    refine ⟨h2, h3, ?_⟩
    cases j with
    | phenomenon a =>
      exfalso
      have h4 : (D.phenomenon? a).isSome := h2
      have ha : a = ⟨w, a.name⟩ := by rw [← (show a.world = w from h3)]
      rw [ha, phenomenon?_eq hw] at h4
      obtain ⟨V, hV⟩ := (names_mem hv a.name).mpr h4
      refine hn'.2.2 (.phenomenon a) ?_ _ (mem_solidsOf.mpr h) rfl
      rw [List.mem_map]
      exact ⟨_, hV, by rw [← ha]⟩
    | _ => rfl
  · rintro ⟨h1, h2, h3⟩
    have h4 : j ∈ nodesOf (worldEvents D c w v) := mem_nodesOf.mpr ((node_world hw hv).mpr ⟨h1, h2⟩)
    rcases List.mem_append.mp (hperm.symm.subset h4) with h | h
    · obtain ⟨e, _, rfl⟩ := List.mem_map.mp h
      cases h3
    · exact mem_solidsOf.mp h

theorem nodup_solids_world {D : DatasetD} {c : Settings} {w : Option Name} {v : WorldView} {W : WorldD} (hw : D.world? w = some W)
    (hv : ShowsWorld D w v W) : (solidsOf (worldEvents D c w v)).Nodup := by
  have hn' := (solids_world D c w v).nodup_iff.mpr (nodup_world hw hv)
  rw [List.nodup_append] at hn'
  exact hn'.2.1

/-! ## Locations -/

/-- The item in a property-set, given the rest of the path -/
def decodeSet (s : SetAddr) : Path → Option Item
  | [] => some (.set s)
  | [.tag .tracker] => some (.tracker s)
  | [.tag .tracker, .tag .activeSetIndex] => some (.activeSetIndex s)
  | [.tag .tracker, .tag .activeObjectIndex] => some (.activeObjectIndex s)
  | [.tag .tracker, .tag .activeObjectId] => some (.activeObjectId s)
  | [.tag .timeDomain] => some (.time s)
  | [.tag .timeDomain, .tag .coordinates] => some (.timeValue s)
  | [.tag .timeDomain, .tag .timeDisc] => some (.timeCount s)
  | [.tag .spaceDomain] => some (.space s)
  | [.tag .spaceDomain, .tag .coordinates] => some (.spaceValue s)
  | [.tag .properties, .tag (.kind k), .user n] => some (.property ⟨s, k, n⟩)
  | [.tag .properties, .tag (.kind k), .user n, .tag .value] => some (.value ⟨s, k, n⟩)
  | _ => none

def decodePhenomenon (a : PhenomenonAddr) : Path → Option Item
  | [] => some (.phenomenon a)
  | [.tag .objectId] => some (.objectId a)
  | .tag (.sets c) :: .user n :: p => decodeSet ⟨a, c, n⟩ p
  | _ => none

def decodeWorld (w : Option Name) : Path → Option Item
  | .tag .phenomena :: .user n :: p => decodePhenomenon ⟨w, n⟩ p
  | _ => none

def decode : Path → Option Item
  | .tag .universes :: .user u :: p => decodeWorld (some u) p
  | p => decodeWorld none p

theorem decode_set (s : SetAddr) (p : Path) : decode (setPath s ++ p) = decodeSet s p := by
  obtain ⟨⟨w, a⟩, c, n⟩ := s
  unfold setPath phenomenonPath
  cases w <;> rfl

theorem decode_location (i : Item) : decode i.location = some i := by
  cases i with
  | phenomenon a => obtain ⟨w, n⟩ := a; cases w <;> rfl
  | objectId a => obtain ⟨w, n⟩ := a; cases w <;> rfl
  | set s => have := decode_set s []; rw [List.append_nil] at this; exact this
  | tracker s => exact decode_set s _
  | time s => exact decode_set s _
  | space s => exact decode_set s _
  | property p => exact decode_set p.set _
  | activeSetIndex s => show decode (trackerPath s ++ _) = _; unfold trackerPath; rw [List.append_assoc, decode_set]; rfl
  | activeObjectIndex s => show decode (trackerPath s ++ _) = _; unfold trackerPath; rw [List.append_assoc, decode_set]; rfl
  | activeObjectId s => show decode (trackerPath s ++ _) = _; unfold trackerPath; rw [List.append_assoc, decode_set]; rfl
  | timeValue s => show decode (timePath s ++ _) = _; unfold timePath; rw [List.append_assoc, decode_set]; rfl
  | timeCount s => show decode (timePath s ++ _) = _; unfold timePath; rw [List.append_assoc, decode_set]; rfl
  | spaceValue s => exact decode_set s _
  | value p => show decode (propertyPath p ++ _) = _; unfold propertyPath; rw [List.append_assoc, decode_set]; rfl

theorem location_injective : Function.Injective Item.location := by
  intro i j h
  have := congrArg decode h
  rw [decode_location, decode_location] at this
  exact Option.some.inj this

theorem location_ne_world (i : Item) (w : Option Name) : i.location ≠ worldPath w := by
  intro h
  have := congrArg decode h
  rw [decode_location] at this
  cases w <;> cases this

theorem worldPath_injective : Function.Injective worldPath := by
  intro a b h
  cases a <;> cases b <;> cases h <;> rfl

end Lue.Dot

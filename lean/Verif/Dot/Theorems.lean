import Verif.Dot.Unique
import Verif.DataModel.Proofs

/-!
# The exported graph depicts the dataset
-/
namespace Lue.Dot
open Lue.Structure

/-! ## What is written can be read -/

theorem Plain.append {a b : Text} (ha : Plain a) (hb : Plain b) : Plain (a ++ b) := by
  unfold Plain at *
  simp only [List.mem_append]
  tauto

theorem plain_comma (l : List Nat) : Plain (commaSeparated l) := by
  induction l with
  | nil => exact ⟨by simp [commaSeparated], by simp [commaSeparated], by simp [commaSeparated]⟩
  | cons n l ih =>
    cases l with
    | nil => exact number_plain n
    | cons m l =>
      have h : Plain ", ".toList := by unfold Plain; decide
      exact ((number_plain n).append h).append ih

/-- All brackets that are opened are closed. -/
def Closed (t : Text) : Prop := depth 0 t = some 0

theorem closed_plain {t : Text} (h : Plain t) : Closed t := depth_plain h 0

theorem Closed.append {a b : Text} (ha : Closed a) (hb : Closed b) : Closed (a ++ b) := by
  unfold Closed at *
  rw [depth_append ha, hb]

theorem Closed.flatMap {α : Type} {l : List α} {f : α → Text} (h : ∀ a ∈ l, Closed (f a)) : Closed (l.flatMap f) := by
  induction l with
  | nil => exact (rfl : depth 0 [] = some 0)
  | cons a l ih => exact (h a (by simp)).append (ih fun x hx => h x (by simp [hx]))

theorem closed_table {title : Text} {rows : List (Text × Text)} (ht : Plain title) (hr : ∀ r ∈ rows, Plain r.1 ∧ Plain r.2) :
    Closed (table title rows) := by
  have h1 : Closed "<table border=\"0\"><tr><td align=\"center\" colspan=\"2\">".toList := by unfold Closed; decide
  have h2 : Closed "</td></tr>".toList := by unfold Closed; decide
  have h3 : Closed "<tr><td align=\"left\">".toList := by unfold Closed; decide
  have h4 : Closed "</td><td align=\"left\">".toList := by unfold Closed; decide
  have h5 : Closed "</table>".toList := by unfold Closed; decide
  exact (((h1.append (closed_plain ht)).append h2).append (Closed.flatMap fun r hm =>
    (((h3.append (closed_plain (hr r hm).1)).append h4).append (closed_plain (hr r hm).2)).append h2)).append h5

theorem plain_details (k : Kind) {i : ValueInfo} (h : Plain i.datatype) : ∀ r ∈ arrayDetails k i, Plain r.1 ∧ Plain r.2 := by
  have h1 : Plain "shape_per_object".toList ∧ Plain (shapePerObject k) := by unfold Plain; cases k <;> decide
  have h2 : ∀ r ∈ shapeVariability k, Plain r.1 ∧ Plain r.2 := by unfold Plain; cases k <;> decide
  have hn := number_plain
  have hs : Plain ('(' :: commaSeparated i.arrayShape ++ [')']) := by
    have a : Plain ['('] := by unfold Plain; decide
    have b : Plain [')'] := by unfold Plain; decide
    exact (a.append (plain_comma _)).append b
  have p1 : Plain "nr_arrays".toList := by unfold Plain; decide
  have p2 : Plain "array_shape".toList := by unfold Plain; decide
  have p3 : Plain "rank".toList := by unfold Plain; decide
  have p4 : Plain "nr_objects".toList := by unfold Plain; decide
  have p5 : Plain "nr_locations_in_time".toList := by unfold Plain; decide
  have two : ∀ {x y : Text × Text}, Plain x.1 ∧ Plain x.2 → Plain y.1 ∧ Plain y.2 → ∀ r ∈ [x, y], Plain r.1 ∧ Plain r.2 := by
    intro x y hx hy r hr
    simp only [List.mem_cons, List.not_mem_nil, or_false] at hr
    rcases hr with rfl | rfl
    · exact hx
    · exact hy
  have h3 : ∀ r ∈ arraySizes i k, Plain r.1 ∧ Plain r.2 := by
    cases k with
    | same => exact two ⟨p1, hn _⟩ ⟨p2, hs⟩
    | sameConstant => exact two ⟨p1, hn _⟩ ⟨p2, hs⟩
    | different =>
      intro r hr
      rw [show r = ("rank".toList, number i.rank) from List.mem_singleton.mp hr]
      exact ⟨p3, hn _⟩
    | differentConstant => exact two ⟨p4, hn _⟩ ⟨p3, hn _⟩
    | sameVariable => exact two ⟨p5, hn _⟩ ⟨p3, hn _⟩
    | differentVariable => exact two ⟨p5, hn _⟩ ⟨p3, hn _⟩
  intro r hr
  unfold arrayDetails at hr
  simp only [List.mem_append, List.mem_cons, List.not_mem_nil, or_false] at hr
  rcases hr with ((rfl | hr) | hr) | rfl
  · exact h1
  · exact h2 r hr
  · exact h3 r hr
  · exact ⟨by show Plain "file_datatype".toList; unfold Plain; decide, h⟩

theorem plain_name {D : DatasetD} {c : Settings} (hn : PlainNames D) {i : Item} (h : Shown D c i) : Plain i.name := by
  cases i with
  | phenomenon a => exact hn.phenomena a h
  | set s => exact hn.sets s h
  | property p => exact hn.properties p h
  | objectId _ => show Plain "lue_object_id".toList; unfold Plain; decide
  | tracker _ => show Plain "lue_object_tracker".toList; unfold Plain; decide
  | time _ => show Plain "lue_time_domain".toList; unfold Plain; decide
  | space _ => show Plain "lue_space_domain".toList; unfold Plain; decide
  | activeSetIndex _ => show Plain "lue_active_set_index".toList; unfold Plain; decide
  | activeObjectIndex _ => show Plain "lue_active_object_index".toList; unfold Plain; decide
  | activeObjectId _ => show Plain "lue_active_object_id".toList; unfold Plain; decide
  | timeValue _ => show Plain "lue_coordinates".toList; unfold Plain; decide
  | timeCount _ => show Plain "lue_time_discretization".toList; unfold Plain; decide
  | spaceValue _ => show Plain "lue_coordinates".toList; unfold Plain; decide
  | value _ => show Plain "lue_value".toList; unfold Plain; decide

theorem closed_label {D : DatasetD} {E : Env} (hn : PlainNames D) (hd : ∀ p, Plain (E.info p).datatype) {i : Item}
    (h : Shown D E.cfg i) : Closed (i.label D E) := by
  have hp := plain_name hn h
  have harr : Closed (match i.arrayKind D, E.cfg.valueDetails with
    | some k, true => table i.name (arrayDetails k (E.info i.location))
    | _, _ => i.name) := by
    split
    · exact closed_table hp (plain_details _ (hd _))
    · exact closed_plain hp
  cases i with
  | time s =>
    unfold Item.label
    simp only []
    split
    · rename_i t k _ _
      refine closed_table hp fun r hr => ?_
      simp only [List.mem_cons, List.not_mem_nil, or_false] at hr
      rcases hr with rfl | rfl | rfl
      · unfold Plain; cases k.unit <;> decide
      · exact ⟨by show Plain "nr_units".toList; unfold Plain; decide, number_plain _⟩
      · unfold Plain; cases t <;> decide
    · exact closed_plain hp
  | space s =>
    unfold Item.label
    simp only []
    split
    · rename_i x _ _
      refine closed_table hp fun r hr => ?_
      simp only [List.mem_cons, List.not_mem_nil, or_false] at hr
      rcases hr with rfl | rfl
      · unfold Plain; cases x.mobility <;> decide
      · unfold Plain; cases x.item <;> decide
    · exact closed_plain hp
  | _ => exact harr

theorem quotable_shape {D : DatasetD} {c : Settings} (hq : QuotableSettings c) (i : Item) : Quotable (i.shape D c) := by
  unfold Item.shape
  split
  · exact hq.datasetShape
  · exact hq.datasetShape
  · exact hq.groupShape

theorem quotable_fill {c : Settings} (hq : QuotableSettings c) (i : Item) : Quotable (i.fill c) := by
  cases i with
  | phenomenon a => exact hq.phenomenonFill
  | set a => exact hq.setFill
  | tracker a => exact hq.trackerFill
  | time a => exact hq.timeFill
  | space a => exact hq.spaceFill
  | property a => exact hq.propertyFill
  | _ => exact hq.valueFill

theorem nodeName_ok (E : Env) (p : Path) : ∃ n, nodeName E p = "node_".toList ++ number n := ⟨_, rfl⟩

theorem refers_label {D : DatasetD} {c : Settings} {i j : Item} {l : Text} (h : Refers D c i j l) : Closed l := by
  have hd : ∀ (b : Bool) (k : Discretization), Closed (if b then (discretizations.asString k).toList else []) := by
    intro b k; unfold Closed; cases b <;> cases k <;> decide
  cases h with
  | timeDiscretization => exact hd _ _
  | spaceDiscretization => exact hd _ _
  | _ => exact (rfl : depth 0 [] = some 0)

theorem events_ok {D : DatasetD} {E : Env} (hn : PlainNames D) (hd : ∀ p, Plain (E.info p).datatype) (hq : QuotableSettings E.cfg)
    {w : Option Name} {v : WorldView} {W : WorldD} (hw : D.world? w = some W) (hv : ShowsWorld D w v W) :
    ∀ s ∈ (worldEvents D E.cfg w v).map (Ev.stmt D E), s.Ok := by
  intro s hs
  obtain ⟨e, he, rfl⟩ := List.mem_map.mp hs
  cases e with
  | node i =>
    have hi := ((node_world hw hv).mp he).1
    exact ⟨nodeName_ok E _, closed_label hn hd hi, quotable_shape hq i, quotable_fill hq i⟩
  | solid j => exact ⟨nodeName_ok E _, nodeName_ok E _, by unfold Quotable; decide, rfl⟩
  | dashed i j l => exact ⟨nodeName_ok E _, nodeName_ok E _, by unfold Quotable; decide, refers_label ((dashed_world hw hv).mp he).1⟩

theorem events_flat {D : DatasetD} {E : Env} (es : List Ev) : ∀ s ∈ es.map (Ev.stmt D E), s.Flat := by
  intro s hs
  obtain ⟨e, he, rfl⟩ := List.mem_map.mp hs
  cases e <;> exact trivial

theorem emptyStmts_ok {E : Env} {w : Option Name} {b : Bool} : ∀ s ∈ emptyStmts E w b, s.Ok ∧ s.Flat := by
  intro s hs
  unfold emptyStmts at hs
  split at hs
  · rw [List.mem_singleton] at hs
    subst hs
    exact ⟨nodeName_ok E _, trivial⟩
  · cases hs

/-! ## Nodes and edges -/

theorem nodes_of_events {D : DatasetD} {E : Env} (cl : List Text) (es : List Ev) :
    (es.map (Ev.stmt D E)).flatMap (Stmt.nodes cl) = (nodesOf es).map fun i => { i.node D E with clusters := cl } := by
  induction es with
  | nil => rfl
  | cons e es ih =>
    rw [List.map_cons, List.flatMap_cons, ih]
    cases e <;> rfl

theorem edges_of_events {D : DatasetD} {E : Env} (es : List Ev) (e : Edge) :
    e ∈ (es.map (Ev.stmt D E)).flatMap Stmt.edges ↔
      (∃ j, Ev.solid j ∈ es ∧ e = ⟨nodeName E ((j.parent.map Item.location).getD []), nodeName E j.location,
        edgeAttrs j.weight "solid".toList []⟩) ∨
      (∃ i j l, Ev.dashed i j l ∈ es ∧ e = edgeOf E i j "dashed".toList 0 l) := by
  simp only [List.mem_flatMap, List.mem_map]
  constructor
  · rintro ⟨s, ⟨ev, hev, rfl⟩, he⟩
    cases ev with
    | node i => cases he
    | solid j =>
      have : e = _ := List.mem_singleton.mp he
      exact Or.inl ⟨j, hev, this⟩
    | dashed i j l =>
      have : e = _ := List.mem_singleton.mp he
      exact Or.inr ⟨i, j, l, hev, this⟩
  · rintro (⟨j, hj, rfl⟩ | ⟨i, j, l, hj, rfl⟩)
    · exact ⟨_, ⟨_, hj, rfl⟩, List.mem_singleton.mpr rfl⟩
    · exact ⟨_, ⟨_, hj, rfl⟩, List.mem_singleton.mpr rfl⟩

theorem solids_of_events {D : DatasetD} {E : Env} (es : List Ev) :
    (((es.map (Ev.stmt D E)).flatMap Stmt.edges).filter fun e => ("style".toList, Val.text "solid".toList) ∈ e.attrs).map Edge.head
      = (solidsOf es).map fun j => nodeName E j.location := by
  induction es with
  | nil => rfl
  | cons e es ih =>
    rw [List.map_cons, List.flatMap_cons, List.filter_append, List.map_append, ih]
    cases e with
    | node i => rfl
    | solid j =>
      have h : decide (("style".toList, Val.text "solid".toList) ∈ edgeAttrs j.weight "solid".toList []) = true :=
        decide_eq_true (by unfold edgeAttrs; simp)
      show (List.filter _ [_]).map Edge.head ++ _ = nodeName E j.location :: _
      rw [List.filter_cons_of_pos (by exact h)]
      rfl
    | dashed i j l =>
      have h : ¬ decide (("style".toList, Val.text "solid".toList) ∈ edgeAttrs 0 "dashed".toList l) = true := by
        rw [decide_eq_true_iff]
        unfold edgeAttrs
        intro hm
        simp only [List.mem_cons, Prod.mk.injEq, List.not_mem_nil, or_false] at hm
        have h1 : "style".toList ≠ "weight".toList := by decide
        have h2 : "style".toList ≠ "label".toList := by decide
        have h3 : Val.text "solid".toList ≠ Val.text "dashed".toList := by decide
        tauto
      show (List.filter _ [_]).map Edge.head ++ _ = _
      rw [List.filter_cons_of_neg (by exact h)]
      rfl

/-! ## All worlds -/

/-- The universes and the dataset itself, what is in them, and whether or not nothing is in them -/
def worlds (v : DatasetView) : List (Option Name × WorldView × Bool) :=
  (v.universes.map fun e => (some e.1, e.2, e.2.isEmpty)) ++ [(none, v.phenomena, v.universes.isEmpty && v.phenomena.isEmpty)]

theorem isEmpty_items {α β : Type} {R : Name → α → β → Prop} {l : List (Name × α)} {c : Name → Option β} (h : ShowsItems R l c) :
    l.isEmpty = true ↔ ∀ n, c n = none := by
  constructor
  · intro hl n
    have hl' : l = [] := List.isEmpty_iff.mp hl
    cases hc : c n with
    | none => rfl
    | some b =>
      obtain ⟨a, ha⟩ := h.2.2 n b hc
      rw [hl'] at ha; cases ha
  · intro hc
    cases l with
    | nil => rfl
    | cons e l =>
      obtain ⟨b, hb, _⟩ := h.2.1 e.1 e.2 (by simp)
      rw [hc] at hb; cases hb

theorem worlds_spec {D : DatasetD} {v : DatasetView} (hv : Shows D v) {x : Option Name × WorldView × Bool} (hx : x ∈ worlds v) :
    ∃ W, D.world? x.1 = some W ∧ ShowsWorld D x.1 x.2.1 W ∧ (x.2.2 = true ↔ IsEmpty D x.1) := by
  obtain ⟨_, _, h1, h2⟩ := hv
  unfold worlds at hx
  rcases List.mem_append.mp hx with hx | hx
  · obtain ⟨e, he, rfl⟩ := List.mem_map.mp hx
    obtain ⟨W, hW, hR⟩ := h2.2.1 e.1 e.2 he
    refine ⟨W, hW, hR, ?_⟩
    show e.2.isEmpty = true ↔ ∃ W', D.universes e.1 = some W' ∧ ∀ n, W' n = none
    rw [isEmpty_items hR]
    constructor
    · exact fun h => ⟨W, hW, h⟩
    · rintro ⟨W', hW', h⟩
      rw [hW] at hW'; cases hW'
      exact h
  · rw [List.mem_singleton] at hx
    subst hx
    refine ⟨D.phenomena, rfl, h1, ?_⟩
    show (v.universes.isEmpty && v.phenomena.isEmpty) = true ↔ (∀ u, D.universes u = none) ∧ ∀ n, D.phenomena n = none
    rw [Bool.and_eq_true, isEmpty_items h1, isEmpty_items h2]

theorem worlds_complete {D : DatasetD} {v : DatasetView} (hv : Shows D v) {w : Option Name} (hw : (D.world? w).isSome) :
    ∃ x ∈ worlds v, x.1 = w := by
  cases w with
  | none => exact ⟨_, List.mem_append_right _ (List.mem_singleton.mpr rfl), rfl⟩
  | some u =>
    obtain ⟨W, hW⟩ := Option.isSome_iff_exists.mp hw
    obtain ⟨a, ha⟩ := hv.2.2.2.2.2 u W hW
    exact ⟨_, List.mem_append_left _ (List.mem_map_of_mem ha), rfl⟩

theorem worlds_nodup {D : DatasetD} {v : DatasetView} (hv : Shows D v) : ((worlds v).map Prod.fst).Nodup := by
  unfold worlds
  rw [List.map_append, List.map_map]
  refine List.Nodup.append ?_ (by simp) ?_
  · have := hv.2.2.2.1.map (f := (some : Name → Option Name)) fun a b h => Option.some.inj h
    rw [List.map_map] at this
    exact this
  · intro w hw hw'
    have : w = none := by simpa using hw'
    subst this
    obtain ⟨e, _, he⟩ := List.mem_map.mp hw
    cases he

/-- The statements of a world -/
def worldStmts (D : DatasetD) (E : Env) (x : Option Name × WorldView × Bool) : List Stmt :=
  (worldEvents D E.cfg x.1 x.2.1).map (Ev.stmt D E) ++ emptyStmts E x.1 x.2.2

/-- The graph, in terms of the worlds -/
theorem graph_eq (D : DatasetD) (E : Env) (v : DatasetView) (pathname : Text) :
    (graphOfStmts (nodeName E []) pathname (v.universes.map (universeStmts D E)) (datasetStmts D E v)).nodes
      = (worlds v).flatMap (fun x => (worldStmts D E x).flatMap (Stmt.nodes (clustersOf E x.1))) ∧
    (graphOfStmts (nodeName E []) pathname (v.universes.map (universeStmts D E)) (datasetStmts D E v)).edges
      = (worlds v).flatMap fun x => (worldStmts D E x).flatMap Stmt.edges := by
  unfold graphOfStmts worlds
  simp only [List.flatMap_map, List.flatMap_append, List.flatMap_cons, List.flatMap_nil, List.append_nil]
  exact ⟨rfl, rfl⟩

theorem world_nodes {D : DatasetD} {E : Env} {v : DatasetView} (hv : Shows D v) {x : Option Name × WorldView × Bool} (hx : x ∈ worlds v) :
    (worldStmts D E x).flatMap (Stmt.nodes (clustersOf E x.1))
      = (nodesOf (worldEvents D E.cfg x.1 x.2.1)).map (Item.node D E) ++ if x.2.2 then [emptyNode E x.1] else [] := by
  obtain ⟨W, hW, hR, _⟩ := worlds_spec hv hx
  unfold worldStmts
  rw [List.flatMap_append, nodes_of_events]
  congr 1
  · refine List.map_congr_left fun i hi => ?_
    obtain ⟨_, hw⟩ := (node_world hW hR).mp (mem_nodesOf.mp hi)
    unfold Item.node
    rw [hw]
  · unfold emptyStmts
    cases x.2.2 <;> rfl

theorem empty_edges (E : Env) (w : Option Name) (b : Bool) : (emptyStmts E w b).flatMap Stmt.edges = [] := by
  cases b <;> rfl

theorem shown_world {D : DatasetD} {c : Settings} {i : Item} (h : Shown D c i) : (D.world? i.world).isSome := by
  have h1 := shown_phenomenon h
  rw [Item.world_eq]
  unfold DatasetD.phenomenon? at h1
  cases hW : D.world? i.phenomenonAddr.world with
  | none => rw [hW] at h1; cases h1
  | some W => rfl

theorem refers_world {D : DatasetD} {c : Settings} {i j : Item} {l : Text} (h : Refers D c i j l) : (D.world? i.world).isSome := by
  have h1 := refers_phenomenon h
  rw [Item.world_eq]
  unfold DatasetD.phenomenon? at h1
  cases hW : D.world? i.phenomenonAddr.world with
  | none => rw [hW] at h1; cases h1
  | some W => rfl

theorem shown_parent {D : DatasetD} {c : Settings} {i j : Item} (h : Shown D c j) (hp : j.parent = some i) : Shown D c i := by
  have hpp : ∀ p, (D.property? p).isSome → (D.set? p.set).isSome := by
    intro p hp
    exact shown_set (c := c) (i := .property p) hp rfl
  have hss : ∀ s, (D.set? s).isSome → (D.phenomenon? s.phenomenon).isSome := by
    intro s hs
    exact shown_phenomenon (c := c) (i := .set s) hs
  cases j <;> cases hp
  · exact hss _ h
  · obtain ⟨⟨S, h1, _⟩, _⟩ := h
    show (D.set? _).isSome
    rw [h1]; rfl
  · obtain ⟨S, _, _, h1, _⟩ := h
    show (D.set? _).isSome
    rw [h1]; rfl
  · obtain ⟨S, _, h1, _⟩ := h
    show (D.set? _).isSome
    rw [h1]; rfl
  · exact hpp _ h
  · exact h.1
  · exact ⟨h.1, h.2.1⟩
  · exact ⟨h.1, h.2.1⟩
  · exact ⟨h.1, h.2.1⟩
  · exact h.1
  · obtain ⟨⟨S, k, h1, h2⟩, h3⟩ := h
    exact ⟨⟨S, _, k, h1, h2⟩, h3⟩
  · exact h.1
  · exact h.1

theorem refers_shown {D : DatasetD} (hw : Wf D) {c : Settings} {i j : Item} {l : Text} (h : Refers D c i j l) :
    Shown D c i ∧ Shown D c j := by
  have some' : ∀ {α : Type} {o : Option α} {a : α}, o = some a → o.isSome := fun h => by rw [h]; rfl
  cases h with
  | @tracker s o S t hs ht ho hc =>
    refine ⟨some' hs, ⟨?_, hc⟩⟩
    have := owner_owns _ _ _ ho
    rw [trackerFrom_eq] at this
    cases hS : D.set? o with
    | none => rw [hS] at this; cases this
    | some S' =>
      rw [hS] at this
      refine ⟨S', rfl, ?_⟩
      cases hT : S'.tracker with
      | own => rfl
      | shared x =>
        rw [Option.map_some, hT] at this; cases this
  | @time s o S t hs ht ho =>
    refine ⟨some' hs, ?_⟩
    have := owner_owns _ _ _ ho
    rw [timeFrom_eq] at this
    cases hS : D.set? o with
    | none => rw [hS] at this; cases this
    | some S' =>
      rw [hS, Option.bind_some] at this
      cases hT : S'.time with
      | own a b => exact ⟨S', a, b, hS, hT⟩
      | shared x => rw [hT] at this; cases this
      | absent => rw [hT] at this; cases this
  | presence hs hx hq => exact ⟨⟨_, _, hs, hx⟩, hw.presences _ _ _ _ hs hx hq⟩
  | timeDiscretization hp hx => exact ⟨some' hp, hw.timeDiscs _ _ _ _ hp hx⟩
  | spaceDiscretization hp hx => exact ⟨some' hp, hw.spaceDiscs _ _ _ _ hp hx⟩

theorem nodeName_injective {E : Env} (h : Function.Injective E.addr) : Function.Injective (nodeName E) := by
  intro p q hpq
  unfold nodeName at hpq
  exact h (DataModel.name_inj (List.append_cancel_left hpq))

/-- The world of what is stored at a location -/
def pathWorld : Path → Option Name
  | .tag .universes :: .user u :: _ => some u
  | _ => none

theorem pathWorld_set (s : SetAddr) (p : Path) : pathWorld (setPath s ++ p) = s.phenomenon.world := by
  obtain ⟨⟨w, a⟩, c, n⟩ := s
  unfold setPath phenomenonPath
  cases w <;> rfl

theorem pathWorld_location (i : Item) : pathWorld i.location = i.world := by
  cases i with
  | phenomenon a => obtain ⟨w, n⟩ := a; cases w <;> rfl
  | objectId a => obtain ⟨w, n⟩ := a; cases w <;> rfl
  | set s => have := pathWorld_set s []; rw [List.append_nil] at this; exact this
  | tracker s => exact pathWorld_set s _
  | time s => exact pathWorld_set s _
  | space s => exact pathWorld_set s _
  | property p => exact pathWorld_set p.set _
  | activeSetIndex s => show pathWorld (trackerPath s ++ _) = _; unfold trackerPath; rw [List.append_assoc, pathWorld_set]; rfl
  | activeObjectIndex s => show pathWorld (trackerPath s ++ _) = _; unfold trackerPath; rw [List.append_assoc, pathWorld_set]; rfl
  | activeObjectId s => show pathWorld (trackerPath s ++ _) = _; unfold trackerPath; rw [List.append_assoc, pathWorld_set]; rfl
  | timeValue s => show pathWorld (timePath s ++ _) = _; unfold timePath; rw [List.append_assoc, pathWorld_set]; rfl
  | timeCount s => show pathWorld (timePath s ++ _) = _; unfold timePath; rw [List.append_assoc, pathWorld_set]; rfl
  | spaceValue s => exact pathWorld_set s _
  | value p => show pathWorld (propertyPath p ++ _) = _; unfold propertyPath; rw [List.append_assoc, pathWorld_set]; rfl

/-- The locations of the nodes of a world -/
def places (D : DatasetD) (c : Settings) (x : Option Name × WorldView × Bool) : List Path :=
  (nodesOf (worldEvents D c x.1 x.2.1)).map Item.location ++ if x.2.2 then [worldPath x.1] else []

theorem places_nodup {D : DatasetD} {c : Settings} {v : DatasetView} (hv : Shows D v) : ((worlds v).flatMap (places D c)).Nodup := by
  refine nodup_flatMap_key pathWorld Prod.fst (worlds_nodup hv) (fun x hx => ?_) fun x hx p hp => ?_
  · obtain ⟨W, hW, hR, _⟩ := worlds_spec hv hx
    unfold places
    refine List.Nodup.append ((nodup_world hW hR).map location_injective) ?_ ?_
    · split
      · exact List.nodup_singleton _
      · exact List.nodup_nil
    · intro p hp hp'
      obtain ⟨i, _, rfl⟩ := List.mem_map.mp hp
      split at hp'
      · exact location_ne_world i _ (List.mem_singleton.mp hp')
      · cases hp'
  · obtain ⟨W, hW, hR, _⟩ := worlds_spec hv hx
    unfold places at hp
    rcases List.mem_append.mp hp with hp | hp
    · obtain ⟨i, hi, rfl⟩ := List.mem_map.mp hp
      rw [pathWorld_location]
      exact ((node_world hW hR).mp (mem_nodesOf.mp hi)).2
    · split at hp
      · rw [List.mem_singleton.mp hp]
        cases x.1 <;> rfl
      · cases hp

theorem flatMap_congr' {α β : Type} {l : List α} {f g : α → List β} (h : ∀ a ∈ l, f a = g a) : l.flatMap f = l.flatMap g :=
  List.flatMap_congr h

theorem graph_depicts {D : DatasetD} (hwf : Wf D) {E : Env} (ha : Function.Injective E.addr) {v : DatasetView} (hv : Shows D v)
    (pathname : Text) :
    Depicts D E pathname (graphOfStmts (nodeName E []) pathname (v.universes.map (universeStmts D E)) (datasetStmts D E v)) := by
  obtain ⟨hnodes, hedges⟩ := graph_eq D E v pathname
  rw [flatMap_congr' fun x hx => world_nodes hv hx] at hnodes
  have hnames : ((worlds v).flatMap fun x => (nodesOf (worldEvents D E.cfg x.1 x.2.1)).map (Item.node D E)
      ++ if x.2.2 then [emptyNode E x.1] else []).map Node.name = ((worlds v).flatMap (places D E.cfg)).map (nodeName E) := by
    rw [List.map_flatMap, List.map_flatMap]
    refine List.flatMap_congr fun x _ => ?_
    unfold places
    rw [List.map_append, List.map_append, List.map_map, List.map_map]
    congr 1
    cases x.2.2 <;> rfl
  have hmem : ∀ n, n ∈ ((worlds v).flatMap fun x => (nodesOf (worldEvents D E.cfg x.1 x.2.1)).map (Item.node D E)
      ++ if x.2.2 then [emptyNode E x.1] else []) ↔
      (∃ i, Shown D E.cfg i ∧ n = i.node D E) ∨ (∃ w, IsEmpty D w ∧ n = emptyNode E w) := by
    intro n
    simp only [List.mem_flatMap, List.mem_append, List.mem_map]
    constructor
    · rintro ⟨x, hx, ⟨i, hi, rfl⟩ | hn⟩
      · obtain ⟨W, hW, hR, _⟩ := worlds_spec hv hx
        exact Or.inl ⟨i, ((node_world hW hR).mp (mem_nodesOf.mp hi)).1, rfl⟩
      · obtain ⟨W, hW, hR, he⟩ := worlds_spec hv hx
        split at hn
        · rename_i hb
          exact Or.inr ⟨x.1, he.mp hb, List.mem_singleton.mp hn⟩
        · cases hn
    · rintro (⟨i, hi, rfl⟩ | ⟨w, hw, rfl⟩)
      · obtain ⟨x, hx, hw⟩ := worlds_complete hv (shown_world hi)
        obtain ⟨W, hW, hR, _⟩ := worlds_spec hv hx
        exact ⟨x, hx, Or.inl ⟨i, mem_nodesOf.mpr ((node_world hW hR).mpr ⟨hi, hw.symm⟩), rfl⟩⟩
      · have : (D.world? w).isSome := by
          cases w with
          | none => rfl
          | some u => obtain ⟨W, hW, _⟩ := hw; show (D.universes u).isSome; rw [hW]; rfl
        obtain ⟨x, hx, rfl⟩ := worlds_complete hv this
        obtain ⟨W, hW, hR, he⟩ := worlds_spec hv hx
        refine ⟨x, hx, Or.inr ?_⟩
        rw [if_pos (he.mpr hw)]
        simp
  have hedge : ∀ e, e ∈ ((worlds v).flatMap fun x => (worldStmts D E x).flatMap Stmt.edges) ↔
      (∃ i j, Shown D E.cfg j ∧ j.parent = some i ∧ e = edgeOf E i j "solid".toList j.weight []) ∨
      (∃ i j l, Refers D E.cfg i j l ∧ e = edgeOf E i j "dashed".toList 0 l) := by
    intro e
    rw [List.mem_flatMap]
    constructor
    · rintro ⟨x, hx, he⟩
      obtain ⟨W, hW, hR, _⟩ := worlds_spec hv hx
      unfold worldStmts at he
      rw [List.flatMap_append, empty_edges, List.append_nil, edges_of_events] at he
      rcases he with ⟨j, hj, rfl⟩ | ⟨i, j, l, hj, rfl⟩
      · obtain ⟨h1, _, h3⟩ := (solid_world hW hR).mp hj
        obtain ⟨i, hi⟩ := Option.isSome_iff_exists.mp h3
        refine Or.inl ⟨i, j, h1, hi, ?_⟩
        rw [hi]; rfl
      · exact Or.inr ⟨i, j, l, ((dashed_world hW hR).mp hj).1, rfl⟩
    · rintro (⟨i, j, h1, h2, rfl⟩ | ⟨i, j, l, h1, rfl⟩)
      · obtain ⟨x, hx, hw⟩ := worlds_complete hv (shown_world h1)
        obtain ⟨W, hW, hR, _⟩ := worlds_spec hv hx
        refine ⟨x, hx, ?_⟩
        unfold worldStmts
        rw [List.flatMap_append, empty_edges, List.append_nil, edges_of_events]
        refine Or.inl ⟨j, (solid_world hW hR).mpr ⟨h1, hw.symm, by rw [h2]; rfl⟩, ?_⟩
        rw [h2]; rfl
      · obtain ⟨x, hx, hw⟩ := worlds_complete hv (refers_world h1)
        obtain ⟨W, hW, hR, _⟩ := worlds_spec hv hx
        refine ⟨x, hx, ?_⟩
        unfold worldStmts
        rw [List.flatMap_append, empty_edges, List.append_nil, edges_of_events]
        exact Or.inr ⟨i, j, l, (dashed_world hW hR).mpr ⟨h1, hw.symm⟩, rfl⟩
  refine ⟨?_, ?_, ?_, ?_, ?_, ?_, ?_, ?_⟩
  · rw [hnodes, hnames]
    exact (places_nodup hv).map (nodeName_injective ha)
  · rw [hnodes]; exact hmem
  · rw [hedges]; exact hedge
  · rw [hedges]
    have e1 : (((worlds v).flatMap fun x => (worldStmts D E x).flatMap Stmt.edges).filter
        fun e => ("style".toList, Val.text "solid".toList) ∈ e.attrs).map Edge.head
        = ((worlds v).flatMap fun x => (solidsOf (worldEvents D E.cfg x.1 x.2.1)).map Item.location).map (nodeName E) := by
      rw [List.map_flatMap]
      induction worlds v with
      | nil => rfl
      | cons x l ih =>
        rw [List.flatMap_cons, List.flatMap_cons, List.filter_append, List.map_append, ih]
        congr 1
        unfold worldStmts
        rw [List.flatMap_append, empty_edges, List.append_nil, solids_of_events, List.map_map]
        rfl
    rw [e1]
    refine List.Nodup.map (nodeName_injective ha) ?_
    refine nodup_flatMap_key pathWorld Prod.fst (worlds_nodup hv) (fun x hx => ?_) fun x hx p hp => ?_
    · obtain ⟨W, hW, hR, _⟩ := worlds_spec hv hx
      exact (nodup_solids_world hW hR).map location_injective
    · obtain ⟨W, hW, hR, _⟩ := worlds_spec hv hx
      obtain ⟨i, hi, rfl⟩ := List.mem_map.mp hp
      rw [pathWorld_location]
      exact ((solid_world hW hR).mp (mem_solidsOf.mp hi)).2.1
  · intro e he
    have hin : ∀ i, Shown D E.cfg i → nodeName E i.location ∈
        (graphOfStmts (nodeName E []) pathname (v.universes.map (universeStmts D E)) (datasetStmts D E v)).nodes.map Node.name := by
      intro i hi
      rw [List.mem_map]
      exact ⟨i.node D E, by rw [hnodes, hmem]; exact Or.inl ⟨i, hi, rfl⟩, rfl⟩
    rw [hedges, hedge] at he
    rcases he with ⟨i, j, h1, h2, rfl⟩ | ⟨i, j, l, h1, rfl⟩
    · exact ⟨hin i (shown_parent h1 h2), hin j h1⟩
    · obtain ⟨h2, h3⟩ := refers_shown hwf h1
      exact ⟨hin i h2, hin j h3⟩
  · intro c
    show c ∈ (_ :: List.map _ (v.universes.map (universeStmts D E))) ↔ _
    rw [List.mem_cons, List.map_map, List.mem_map]
    constructor
    · rintro (rfl | ⟨e, he, rfl⟩)
      · exact Or.inl rfl
      · obtain ⟨W, hW, _⟩ := hv.2.2.2.2.1 e.1 e.2 he
        exact Or.inr ⟨e.1, by rw [hW]; rfl, rfl⟩
    · rintro (rfl | ⟨u, hu, rfl⟩)
      · exact Or.inl rfl
      · obtain ⟨a, ha⟩ := (names_mem hv.2.2.2 u).mpr hu
        exact Or.inr ⟨_, ha, rfl⟩
  · show (_ :: List.map _ (v.universes.map (universeStmts D E))).Nodup
    rw [List.nodup_cons, List.map_map]
    constructor
    · intro hm
      obtain ⟨e, _, he⟩ := List.mem_map.mp hm
      have := congrArg Cluster.clusters he
      cases this
    · have := nodup_names hv.2.2.2.1
        (g := fun n => (⟨"cluster_".toList ++ nodeName E (worldPath (some n)), ["cluster_".toList ++ nodeName E []]⟩ : Cluster)) (by
          intro a b hab
          have h1 := congrArg Cluster.name hab
          have h2 := nodeName_injective ha (List.append_cancel_left h1)
          exact Option.some.inj (worldPath_injective h2))
      exact this
  · intro s
    show s ∈ ([_, _, _] ++ List.map _ (v.universes.map (universeStmts D E))) ∧ _ ↔ _
    rw [List.mem_append, List.map_map, List.mem_map]
    simp only [List.mem_cons, List.not_mem_nil, or_false]
    constructor
    · rintro ⟨(rfl | rfl | rfl) | ⟨e, he, rfl⟩, hs⟩
      · exact absurd rfl hs
      · exact absurd rfl hs
      · exact Or.inl rfl
      · obtain ⟨W, hW, _⟩ := hv.2.2.2.2.1 e.1 e.2 he
        exact Or.inr ⟨e.1, by rw [hW]; rfl, rfl⟩
    · rintro (rfl | ⟨u, hu, rfl⟩)
      · exact ⟨Or.inl (Or.inr (Or.inr rfl)), by unfold clustersOf; simp⟩
      · obtain ⟨a, ha⟩ := (names_mem hv.2.2.2 u).mpr hu
        exact ⟨Or.inr ⟨_, ha, rfl⟩, by unfold clustersOf; simp⟩

/-- Exporting a dataset that has been created and extended, one operation after the other, always succeeds. The text that is written is a
graph in the DOT language, which shows the dataset. -/
theorem export_depicts_dataset {version description : String} {ops : List Op} {f : File} {D : DatasetD}
    (h : After version description ops f D) {E : Env} (haddr : Function.Injective E.addr) (hn : PlainNames D)
    (hq : QuotableSettings E.cfg) (hd : ∀ p, Plain (E.info p).datatype ∧ (E.info p).datatype ≠ []) {pathname : Text}
    (hp : Plain pathname) : ∃ text g, exportDot E f pathname = some text ∧ readDot text = some g ∧ Depicts D E pathname g := by
  obtain ⟨hR, hwf⟩ := h.rep
  obtain ⟨v, hv, hS⟩ := openDataset_shows hR hwf
  have h1 := dataset_stmts h (fun p => (hd p).2) hS pathname (E := E)
  refine ⟨header E.cfg.fontcolor
      ++ (allStmts (nodeName E []) pathname (v.universes.map (universeStmts D E)) (datasetStmts D E v)).flatMap Stmt.text ++ "}\n".toList,
    graphOfStmts (nodeName E []) pathname (v.universes.map (universeStmts D E)) (datasetStmts D E v), ?_, ?_,
    graph_depicts hwf haddr hS pathname⟩
  · unfold exportDot
    rw [hv, Option.bind_some, h1, Option.map_some]
  · have hstm : ∀ x ∈ worlds v, ∀ s ∈ worldStmts D E x, s.Ok ∧ s.Flat := by
      intro x hx s hs
      obtain ⟨W, hW, hRW, _⟩ := worlds_spec hS hx
      rcases List.mem_append.mp hs with hs | hs
      · exact ⟨events_ok hn (fun p => (hd p).1) hq hW hRW s hs, events_flat _ s hs⟩
      · exact emptyStmts_ok s hs
    have hu : ∀ u ∈ v.universes.map (universeStmts D E), ∀ s ∈ u.2.2, s.Ok ∧ s.Flat := by
      intro u hu
      obtain ⟨e, he, rfl⟩ := List.mem_map.mp hu
      exact hstm (some e.1, e.2, e.2.isEmpty) (List.mem_append_left _ (List.mem_map_of_mem he))
    have hs : ∀ s ∈ datasetStmts D E v, s.Ok ∧ s.Flat :=
      hstm (none, v.phenomena, v.universes.isEmpty && v.phenomena.isEmpty) (List.mem_append_right _ (by simp))
    refine readDot_all hq.fontcolor ?_ (fun u hm s h' => (hu u hm s h').2) fun s h' => (hs s h').2
    intro s hm
    unfold allStmts at hm
    simp only [List.cons_append, List.mem_cons, List.mem_append, List.mem_flatMap, List.not_mem_nil, or_false] at hm
    rcases hm with rfl | (⟨u, hm, rfl | hm' | rfl⟩ | hm) | rfl
    · exact ⟨nodeName_ok E _, closed_plain hp⟩
    · obtain ⟨e, he, rfl⟩ := List.mem_map.mp hm
      obtain ⟨W, hW, _⟩ := hS.2.2.2.2.1 e.1 e.2 he
      exact ⟨nodeName_ok E _, closed_plain (hn.universes e.1 (by rw [hW]; rfl))⟩
    · exact (hu u hm s hm').1
    · exact trivial
    · exact (hs s hm).1
    · exact trivial

end Lue.Dot

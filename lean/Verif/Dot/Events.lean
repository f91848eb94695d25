import Verif.Dot.Lines
import Verif.Structure.Theorems

/-!
# What is written, in terms of the items of the dataset
-/
namespace Lue.Dot
open Lue.Structure

/-- Something that is written: the node of an item, the edge to an item from what it is part of, or an edge to an item that is referred
to -/
inductive Ev
  | node (i : Item)
  | solid (j : Item)
  | dashed (i j : Item) (l : Text)

def Ev.stmt (D : DatasetD) (E : Env) : Ev → Stmt
  | .node i => .node (nodeName E i.location) (i.label D E) (i.shape D E.cfg) (i.fill E.cfg)
  | .solid j => .edge (nodeName E ((j.parent.map Item.location).getD [])) (nodeName E j.location) j.weight "solid".toList []
  | .dashed i j l => .edge (nodeName E i.location) (nodeName E j.location) 0 "dashed".toList l

/-! ## Events -/

def valueEvents (c : Settings) (i : Item) : List Ev := if c.showValue then [.node i, .solid i] else []

def discEvents (details : Bool) (p : PropertyAddr) : Option (Discretization × PropertyAddr) → List Ev
  | none => []
  | some (k, q) => [.dashed (.property p) (.property q) (if details then (discretizations.asString k).toList else [])]

def propertyEvents (c : Settings) (p : PropertyAddr) (x : PropertyD) : List Ev :=
  .node (.property p) :: discEvents c.timeDetails p x.timeDisc ++ discEvents c.spaceDetails p x.spaceDisc
    ++ valueEvents c (.value p) ++ [.solid (.property p)]

def propertyEvents? (D : DatasetD) (c : Settings) (p : PropertyAddr) : List Ev :=
  ((D.property? p).map (propertyEvents c p)).getD []

/-- An edge to the property-set that owns what is shared -/
def sharedEvents (s : SetAddr) (g : SetAddr → Item) : Option SetAddr → List Ev
  | some o => [.dashed (.set s) (g o) []]
  | none => []

def trackerOwnEvents (c : Settings) (s : SetAddr) : List Ev :=
  .node (.tracker s) :: valueEvents c (.activeSetIndex s) ++ valueEvents c (.activeObjectIndex s) ++ valueEvents c (.activeObjectId s)
    ++ [.solid (.tracker s)]

def trackerEvents (D : DatasetD) (c : Settings) (s : SetAddr) : TrackerD → List Ev
  | .own => if c.showTracker then trackerOwnEvents c s else []
  | .shared _ => if c.showTracker then sharedEvents s .tracker (owner D.trackerFrom maxLinks s) else []

def countEvents (s : SetAddr) : TimeItem → List Ev
  | .cell => [.node (.timeCount s), .solid (.timeCount s)]
  | _ => []

def timeOwnEvents (c : Settings) (s : SetAddr) (i : TimeItem) : List Ev :=
  .node (.time s) :: (if c.showValue then .node (.timeValue s) :: countEvents s i ++ [.solid (.timeValue s)] else [])
    ++ [.solid (.time s)]

def timeEvents (D : DatasetD) (c : Settings) (s : SetAddr) : TimeD → List Ev
  | .absent => []
  | .own i _ => timeOwnEvents c s i
  | .shared _ => sharedEvents s .time (owner D.timeFrom maxLinks s)

def presenceEvents (s : SetAddr) : Option PropertyAddr → List Ev
  | some q => [.dashed (.space s) (.property q) []]
  | none => []

def spaceEvents (c : Settings) (s : SetAddr) : Option SpaceD → List Ev
  | some x => .node (.space s) :: valueEvents c (.spaceValue s) ++ [.solid (.space s)] ++ presenceEvents s x.presence
  | none => []

def kinds : List Kind := [.same, .different, .sameConstant, .differentConstant, .sameVariable, .differentVariable]

def colls : List Coll := [.objects, .collection]

def setEvents (D : DatasetD) (c : Settings) (s : SetAddr) (v : SetView) (S : SetD) : List Ev :=
  .node (.set s) :: trackerEvents D c s S.tracker ++ timeEvents D c s S.time ++ spaceEvents c s S.space
    ++ kinds.flatMap (fun k => (v.properties.get k).flatMap fun e => propertyEvents? D c ⟨s, k, e.1⟩) ++ [.solid (.set s)]

def setEvents? (D : DatasetD) (c : Settings) (s : SetAddr) (v : SetView) : List Ev := ((D.set? s).map (setEvents D c s v)).getD []

def phenomenonEvents (D : DatasetD) (c : Settings) (a : PhenomenonAddr) (v : PhenomenonView) : List Ev :=
  .node (.phenomenon a) :: (if c.showTracker then valueEvents c (.objectId a) else [])
    ++ colls.flatMap fun co => (v.sets co).flatMap fun e => setEvents? D c ⟨a, co, e.1⟩ e.2

def worldEvents (D : DatasetD) (c : Settings) (w : Option Name) (v : WorldView) : List Ev :=
  v.flatMap fun e => phenomenonEvents D c ⟨w, e.1⟩ e.2

/-! ## Labels -/

theorem tableText_eq (title : Text) {rows : List (Text × Text)} (h : ∀ r ∈ rows, r.2 ≠ []) :
    tableText ((title, []) :: rows) = table title rows := by
  have h1 : rows.flatMap recordText = rows.flatMap (fun r =>
      "<tr><td align=\"left\">".toList ++ r.1 ++ "</td><td align=\"left\">".toList ++ r.2 ++ "</td></tr>".toList) := by
    refine List.flatMap_congr fun r hr => ?_
    unfold recordText
    rw [if_neg (by rw [List.isEmpty_iff]; exact h r hr)]
  unfold tableText table
  rw [List.flatMap_cons, h1]
  have h2 : recordText (title, []) = "<tr><td align=\"center\" colspan=\"2\">".toList ++ title ++ "</td></tr>".toList := rfl
  have h3 : "<table border=\"0\"><tr><td align=\"center\" colspan=\"2\">".toList
      = "<table border=\"0\">".toList ++ "<tr><td align=\"center\" colspan=\"2\">".toList := by decide
  rw [h2, h3]
  simp only [List.append_assoc]

theorem joinTexts_eq (l : List Nat) : joinTexts ", ".toList (l.map number) = commaSeparated l := by
  induction l with
  | nil => rfl
  | cons n l ih =>
    cases l with
    | nil => rfl
    | cons m l => 
      show number n ++ ", ".toList ++ joinTexts ", ".toList ((m :: l).map number) = _
      rw [ih]; rfl

theorem shapeText_eq (l : List Nat) : shapeText l = '(' :: commaSeparated l ++ [')'] := by
  unfold shapeText
  rw [joinTexts_eq]; rfl

theorem valueTable_eq (name : Text) (k : Kind) (i : ValueInfo) : valueTable name k i = (name, []) :: arrayDetails k i := by
  cases k with
  | same => show [_, _, _, (_, shapeText _), _] = _; rw [shapeText_eq]; rfl
  | sameConstant => show [_, _, _, _, (_, shapeText _), _] = _; rw [shapeText_eq]; rfl
  | _ => rfl

theorem arrayDetails_ne (k : Kind) {i : ValueInfo} (h : i.datatype ≠ []) : ∀ r ∈ arrayDetails k i, r.2 ≠ [] := by
  have hn : ∀ n, number n ≠ [] := fun n => (number_word n).1
  have h1 : shapePerObject k ≠ [] := by cases k <;> decide
  have h2 : ∀ r ∈ shapeVariability k, r.2 ≠ [] := by cases k <;> decide
  have h3 : ∀ r ∈ arraySizes i k, r.2 ≠ [] := by
    intro r hr
    cases k <;> simp only [arraySizes, List.mem_cons, List.not_mem_nil, or_false] at hr
    all_goals first
      | (subst hr; exact hn _)
      | (rcases hr with rfl | rfl
         · exact hn _
         · first | exact hn _ | (intro hc; cases hc))
  intro r hr
  unfold arrayDetails at hr
  simp only [List.mem_append, List.mem_cons, List.not_mem_nil, or_false] at hr
  rcases hr with ((rfl | hr) | hr) | rfl
  · exact h1
  · exact h2 r hr
  · exact h3 r hr
  · exact h

/-- The label of an array -/
theorem label_value {D : DatasetD} {E : Env} (hd : ∀ p, (E.info p).datatype ≠ []) {i : Item} {k : Kind} (h : i.arrayKind D = some k)
    (ht : ∀ s, i ≠ .time s) (hs : ∀ s, i ≠ .space s) :
    i.label D E = labelText E.cfg.valueDetails i.name (valueTable i.name k (E.info i.location)) := by
  have h1 : i.label D E = match i.arrayKind D, E.cfg.valueDetails with
    | some k, true => table i.name (arrayDetails k (E.info i.location))
    | _, _ => i.name := by
    cases i with
    | time s => exact absurd rfl (ht s)
    | space s => exact absurd rfl (hs s)
    | _ => rfl
  rw [h1, h, valueTable_eq, labelText]
  cases E.cfg.valueDetails with
  | false => rfl
  | true =>
    rw [if_pos rfl, tableText_eq _ (arrayDetails_ne k (hd _))]

theorem shape_value {D : DatasetD} {c : Settings} {i : Item} {k : Kind} (h : i.arrayKind D = some k) : i.shape D c = valueShape c k := by
  unfold Item.shape
  rw [h]
  cases k <;> rfl

/-- The statement of an array -/
theorem valueToDot_eq {D : DatasetD} {E : Env} (hd : ∀ p, (E.info p).datatype ≠ []) {i : Item} {k : Kind} (h : i.arrayKind D = some k) :
    valueToDot E k i.name i.location = Ev.stmt D E (.node i) := by
  have ht : ∀ s, i ≠ .time s := by rintro s rfl; cases h
  have hs : ∀ s, i ≠ .space s := by rintro s rfl; cases h
  have hf : i.fill E.cfg = E.cfg.valueFill := by
    cases i <;> first | rfl | cases h
  show _ = Stmt.node (nodeName E i.location) (i.label D E) (i.shape D E.cfg) (i.fill E.cfg)
  rw [label_value hd h ht hs, shape_value (c := E.cfg) h, hf]
  rfl

/-- An array and the edge to it -/
theorem valuePart_eq {D : DatasetD} {E : Env} (hd : ∀ p, (E.info p).datatype ≠ []) {i j : Item} {k : Kind} (h : i.arrayKind D = some k)
    (hp : i.parent = some j) : valuePart E k i.name j.location i.location = (valueEvents E.cfg i).map (Ev.stmt D E) := by
  unfold valuePart valueEvents
  cases hv : E.cfg.showValue with
  | false => rfl
  | true =>
    rw [if_pos rfl, if_pos rfl, valueToDot_eq hd h]
    have hw : i.weight = 10 := by cases i <;> first | rfl | cases h
    have h2 : link E j.location i.location = Ev.stmt D E (.solid i) := by
      show _ = Stmt.edge (nodeName E ((i.parent.map Item.location).getD [])) (nodeName E i.location) i.weight "solid".toList []
      rw [hp, hw]
      rfl
    rw [h2]
    rfl

/-! ## Properties -/

theorem bind_parts {α β : Type} {a : Option α} {b : Option β} {x : α} {y : β}
    (h : (a.bind fun t => b.bind fun p => some (t, p)) = some (x, y)) : a = some x ∧ b = some y := by
  cases a with
  | none => cases h
  | some a =>
    cases b with
    | none => cases h
    | some b => cases h; exact ⟨rfl, rfl⟩

theorem timeDiscretization_eq (f : File) (h : Path) :
    timeDiscretization f h = ((readStr f h .timeDisc).bind discretizations.asValue).bind fun t =>
      (linkedProperty f h (.tag .timeDisc)).bind fun p => some (t, p) := by
  unfold timeDiscretization
  cases readStr f h .timeDisc <;> rfl

theorem spaceDiscretization_eq (f : File) (h : Path) :
    spaceDiscretization f h = ((readStr f h .spaceDisc).bind discretizations.asValue).bind fun t =>
      (linkedProperty f h (.tag .spaceDisc)).bind fun p => some (t, p) := by
  unfold spaceDiscretization
  cases readStr f h .spaceDisc <;> rfl

theorem discretizationLink_eq {D : DatasetD} {E : Env} {f : File} {details : Bool} {tag : Tag} {attr : AttrName} {p : PropertyAddr}
    {o : Option (Discretization × PropertyAddr)}
    (h : ∀ k q, o = some (k, q) → (readStr f (propertyPath p) attr).bind discretizations.asValue = some k ∧
      ∃ d, linkedProperty f (propertyPath p) (.tag tag) = some (propertyPath q, d)) :
    discretizationLink E f details o.isSome tag attr (propertyPath p) = some ((discEvents details p o).map (Ev.stmt D E)) := by
  unfold discretizationLink
  cases o with
  | none => rfl
  | some kq =>
    obtain ⟨k, q⟩ := kq
    obtain ⟨h1, d, h2⟩ := h k q rfl
    rw [show (some (k, q)).isSome = true from rfl, if_pos rfl, h2, h1, Option.bind_some]
    unfold discretizationLabel
    cases details <;> rfl

theorem property_stmts {version description : String} {ops : List Op} {f : File} {D : DatasetD} (h : After version description ops f D)
    {E : Env} (hd : ∀ p, (E.info p).datatype ≠ []) {p : PropertyAddr} {v : PropertyView} {x : PropertyD} (hp : D.property? p = some x)
    (hv : ShowsProperty p v x) :
    ((propertyToDot E f p.kind p.name v).map fun g => g ++ [link E (setPath p.set) v.path 0])
      = some ((propertyEvents? D E.cfg p).map (Ev.stmt D E)) := by
  obtain ⟨h1, _, h2, h3⟩ := hv
  have a : discretizationLink E f E.cfg.timeDetails x.timeDisc.isSome .timeDisc .timeDisc (propertyPath p)
      = some ((discEvents E.cfg.timeDetails p x.timeDisc).map (Ev.stmt D E)) := by
    refine discretizationLink_eq fun k q hx => ?_
    obtain ⟨y, _, hq⟩ := time_discretization_found h hp hx
    rw [timeDiscretization_eq] at hq
    exact ⟨(bind_parts hq).1, _, (bind_parts hq).2⟩
  have b : discretizationLink E f E.cfg.spaceDetails x.spaceDisc.isSome .spaceDisc .spaceDisc (propertyPath p)
      = some ((discEvents E.cfg.spaceDetails p x.spaceDisc).map (Ev.stmt D E)) := by
    refine discretizationLink_eq fun k q hx => ?_
    obtain ⟨y, _, hq⟩ := space_discretization_found h hp hx
    rw [spaceDiscretization_eq] at hq
    exact ⟨(bind_parts hq).1, _, (bind_parts hq).2⟩
  have c := valuePart_eq (D := D) hd (i := .value p) (j := .property p) (k := p.kind) rfl rfl
  unfold propertyToDot propertyGroupToDot propertyEvents?
  rw [h1, h2, h3, a, b, hp]
  simp only [Option.bind_some, Option.map_some, Option.getD_some]
  rw [show valuePart E p.kind "lue_value".toList (propertyPath p) (propertyPath p ++ [.tag .value]) = _ from c]
  unfold propertyEvents
  simp only [List.map_append, List.map_cons, List.map_nil, List.cons_append]
  rfl

theorem items_eq {α : Type} {g : α → Option (List Stmt)} {k : α → List Stmt} {l : List α} (h : ∀ a ∈ l, g a = some (k a)) :
    items g l = some (l.flatMap k) := by
  induction l with
  | nil => rfl
  | cons a l ih =>
    unfold items
    rw [h a (by simp), ih fun x hx => h x (by simp [hx])]
    rfl

theorem map_flatMap {α : Type} (D : DatasetD) (E : Env) (l : List α) (g : α → List Ev) :
    (l.flatMap fun a => (g a).map (Ev.stmt D E)) = (l.flatMap g).map (Ev.stmt D E) := by
  rw [List.map_flatMap]

/-! ## Property-sets -/

theorem properties_stmts {version description : String} {ops : List Op} {f : File} {D : DatasetD} (h : After version description ops f D)
    {E : Env} (hd : ∀ p, (E.info p).datatype ≠ []) {s : SetAddr} {S : SetD} (hs : D.set? s = some S) (k : Kind)
    {l : List (Name × PropertyView)} (hl : ShowsItems (fun n => ShowsProperty ⟨s, k, n⟩) l (S.properties k)) :
    propertiesPart E f (setPath s) k l = some ((l.flatMap fun e => propertyEvents? D E.cfg ⟨s, k, e.1⟩).map (Ev.stmt D E)) := by
  rw [← map_flatMap]
  refine items_eq fun e he => ?_
  obtain ⟨x, hx, hR⟩ := hl.2.1 e.1 e.2 he
  refine property_stmts h hd (p := ⟨s, k, e.1⟩) ?_ hR
  unfold DatasetD.property?
  rw [hs]; exact hx

theorem tracker_stmts {D : DatasetD} {E : Env} (hd : ∀ p, (E.info p).datatype ≠ []) {s : SetAddr} {v : SetView} {t : TrackerD}
    (hv : ShowsTracker D s v.tracker v.ownsTracker t) :
    trackerPart E (setPath s) v = (trackerEvents D E.cfg s t).map (Ev.stmt D E) := by
  unfold trackerPart
  cases t with
  | own =>
    obtain ⟨h1, h2⟩ := hv
    rw [h1, h2]
    unfold trackerEvents
    cases hc : E.cfg.showTracker with
    | false => rfl
    | true =>
      have a := valuePart_eq (D := D) hd (i := .activeSetIndex s) (j := .tracker s) rfl rfl
      have b := valuePart_eq (D := D) hd (i := .activeObjectIndex s) (j := .tracker s) rfl rfl
      have c := valuePart_eq (D := D) hd (i := .activeObjectId s) (j := .tracker s) rfl rfl
      rw [if_pos rfl, if_pos rfl, if_pos rfl]
      unfold trackerToDot trackerOwnEvents
      simp only [List.map_append, List.map_cons, List.map_nil, List.cons_append, ← a, ← b, ← c]
      rfl
  | shared o' =>
    obtain ⟨⟨o, h1, h2⟩, h3⟩ := hv
    rw [h2, h3]
    unfold trackerEvents
    rw [h1]
    cases hc : E.cfg.showTracker <;> rfl

theorem time_label {D : DatasetD} {E : Env} {s : SetAddr} {S : SetD} (hs : D.set? s = some S) {i : TimeItem} {k : Clock}
    (ht : S.time = .own i k) :
    labelText E.cfg.timeDetails "lue_time_domain".toList
        [("lue_time_domain".toList, []), ("unit".toList, (units.asString k.unit).toList),
         ("nr_units".toList, number k.nrUnits), ("item_type".toList, (timeItems.asString i).toList)]
      = (Item.time s).label D E := by
  unfold labelText Item.label
  simp only [hs, Option.map_some, ht]
  cases E.cfg.timeDetails with
  | false => rfl
  | true =>
    rw [if_pos rfl]
    refine tableText_eq _ fun r hr => ?_
    simp only [List.mem_cons, List.not_mem_nil, or_false] at hr
    rcases hr with rfl | rfl | rfl
    · cases k.unit <;> decide
    · exact (number_word _).1
    · cases i <;> decide

theorem time_stmts {D : DatasetD} {E : Env} (hd : ∀ p, (E.info p).datatype ≠ []) {s : SetAddr} {S : SetD} (hs : D.set? s = some S)
    {v : Option TimeView} (hv : ShowsTime D s v S.time) :
    timePart E (setPath s) v = (timeEvents D E.cfg s S.time).map (Ev.stmt D E) := by
  cases ht : S.time with
  | absent =>
    rw [ht] at hv
    cases v with
    | none => rfl
    | some v => exact hv.elim
  | shared o' =>
    rw [ht] at hv
    cases v with
    | none => exact hv.elim
    | some v =>
      obtain ⟨o, i, k, h1, rfl⟩ := hv
      have : owner D.timeFrom maxLinks s = some o := by
        unfold DatasetD.timeDomain? at h1
        cases ho : owner D.timeFrom maxLinks s with
        | none => rw [ho] at h1; cases h1
        | some o1 =>
          rw [ho, Option.bind_some] at h1
          cases hS : D.set? o1 with
          | none => rw [hS] at h1; cases h1
          | some S1 =>
            rw [hS, Option.bind_some] at h1
            split at h1
            · cases h1; rfl
            · cases h1
      unfold timeEvents
      rw [this]; rfl
  | own i k =>
    rw [ht] at hv
    cases v with
    | none => exact hv.elim
    | some v =>
      have hv' : v = ⟨timePath s, true, i, k⟩ := hv
      subst hv'
      have hl := time_label (E := E) hs ht
      have a := valueToDot_eq (D := D) hd (i := .timeValue s) rfl
      have b := valueToDot_eq (D := D) hd (i := .timeCount s) rfl
      show timeToDot E ⟨timePath s, true, i, k⟩ ++ [link E (setPath s) (timePath s)] = _
      unfold timeToDot timeEvents timeOwnEvents
      simp only []
      rw [hl]
      cases hc : E.cfg.showValue with
      | false => rfl
      | true =>
        rw [if_pos rfl, if_pos rfl]
        cases i with
        | cell =>
          unfold timeValueToDot
          simp only [List.map_append, List.map_cons, List.map_nil, List.cons_append, List.nil_append, countEvents, ← a, ← b]
          rfl
        | point =>
          unfold timeValueToDot
          simp only [List.map_append, List.map_cons, List.map_nil, List.cons_append, List.nil_append, countEvents, ← a]
          rfl
        | box =>
          unfold timeValueToDot
          simp only [List.map_append, List.map_cons, List.map_nil, List.cons_append, List.nil_append, countEvents, ← a]
          rfl

theorem space_label {D : DatasetD} {E : Env} {s : SetAddr} {S : SetD} (hs : D.set? s = some S) {x : SpaceD} (hx : S.space = some x) :
    labelText E.cfg.spaceDetails "lue_space_domain".toList
        [("lue_space_domain".toList, []), ("mobility".toList, (mobilities.asString x.mobility).toList),
         ("item_type".toList, (spaceItems.asString x.item).toList)]
      = (Item.space s).label D E := by
  unfold labelText Item.label
  simp only [hs, Option.bind_some, hx]
  cases E.cfg.spaceDetails with
  | false => rfl
  | true =>
    rw [if_pos rfl]
    refine tableText_eq _ fun r hr => ?_
    simp only [List.mem_cons, List.not_mem_nil, or_false] at hr
    rcases hr with rfl | rfl
    · cases x.mobility <;> decide
    · cases x.item <;> decide

theorem space_stmts {version description : String} {ops : List Op} {f : File} {D : DatasetD} (h : After version description ops f D)
    {E : Env} (hd : ∀ p, (E.info p).datatype ≠ []) {s : SetAddr} {S : SetD} (hs : D.set? s = some S)
    {v : Option SpaceView} (hv : v = S.space.map (fun x => ⟨x.mobility, x.item, x.presence.isSome⟩)) :
    spacePart E f (setPath s) v = some ((spaceEvents E.cfg s S.space).map (Ev.stmt D E)) := by
  subst hv
  cases hx : S.space with
  | none => rfl
  | some x =>
    have hp : presencePart E f (setPath s) ⟨x.mobility, x.item, x.presence.isSome⟩
        = some ((presenceEvents s x.presence).map (Ev.stmt D E)) := by
      unfold presencePart
      cases hq : x.presence with
      | none => rfl
      | some q =>
        obtain ⟨y, _, hy⟩ := presence_discretization_found h hs hx hq
        rw [hy]; rfl
    have hk : (Item.spaceValue s).arrayKind D = some (coordinatesKind x.mobility) := by
      unfold Item.arrayKind
      simp only [hs, Option.bind_some, hx, Option.map_some]
      cases x.mobility <;> rfl
    have a := valuePart_eq (D := D) hd (i := .spaceValue s) (j := .space s) hk rfl
    have hl := space_label (E := E) hs hx
    have a' : valuePart E (coordinatesKind x.mobility) "lue_coordinates".toList (setPath s ++ [.tag .spaceDomain])
        (setPath s ++ [.tag .spaceDomain] ++ [.tag .coordinates]) = (valueEvents E.cfg (.spaceValue s)).map (Ev.stmt D E) := by
      rw [List.append_assoc]; exact a
    show (presencePart E f (setPath s) ⟨x.mobility, x.item, x.presence.isSome⟩).map _ = _
    rw [hp, Option.map_some]
    unfold spaceToDot spaceEvents
    simp only []
    rw [a', hl]
    simp only [List.map_append, List.map_cons, List.map_nil, List.cons_append]
    rfl

theorem set_stmts {version description : String} {ops : List Op} {f : File} {D : DatasetD} (h : After version description ops f D)
    {E : Env} (hd : ∀ p, (E.info p).datatype ≠ []) {s : SetAddr} {v : SetView} {S : SetD} (hs : D.set? s = some S)
    (hv : ShowsSet D s v S) :
    ((setToDot E f s.name (setPath s) v).map fun g => g ++ [link E (phenomenonPath s.phenomenon) (setPath s) 0])
      = some ((setEvents? D E.cfg s v).map (Ev.stmt D E)) := by
  obtain ⟨h1, h2, h3, h4⟩ := hv
  have hp : ∀ k, propertiesPart E f (setPath s) k (v.properties.get k)
      = some (((v.properties.get k).flatMap fun e => propertyEvents? D E.cfg ⟨s, k, e.1⟩).map (Ev.stmt D E)) :=
    fun k => properties_stmts h hd hs k (h4 k)
  have e : setToDot E f s.name (setPath s) v = some (Stmt.node (dotName E (setPath s)) s.name.toList E.cfg.groupShape E.cfg.setFill
      :: (trackerEvents D E.cfg s S.tracker).map (Ev.stmt D E) ++ (timeEvents D E.cfg s S.time).map (Ev.stmt D E)
      ++ (spaceEvents E.cfg s S.space).map (Ev.stmt D E)
      ++ ((v.properties.get .same).flatMap fun e => propertyEvents? D E.cfg ⟨s, .same, e.1⟩).map (Ev.stmt D E)
      ++ ((v.properties.get .different).flatMap fun e => propertyEvents? D E.cfg ⟨s, .different, e.1⟩).map (Ev.stmt D E)
      ++ ((v.properties.get .sameConstant).flatMap fun e => propertyEvents? D E.cfg ⟨s, .sameConstant, e.1⟩).map (Ev.stmt D E)
      ++ ((v.properties.get .differentConstant).flatMap fun e => propertyEvents? D E.cfg ⟨s, .differentConstant, e.1⟩).map (Ev.stmt D E)
      ++ ((v.properties.get .sameVariable).flatMap fun e => propertyEvents? D E.cfg ⟨s, .sameVariable, e.1⟩).map (Ev.stmt D E)
      ++ ((v.properties.get .differentVariable).flatMap fun e => propertyEvents? D E.cfg ⟨s, .differentVariable, e.1⟩).map (Ev.stmt D E)) := by
    unfold setToDot
    rw [space_stmts h hd hs h3, ← tracker_stmts hd h1, ← time_stmts hd hs h2]
    rw [show v.properties.same = v.properties.get .same from rfl, show v.properties.different = v.properties.get .different from rfl,
      show v.properties.sameConstant = v.properties.get .sameConstant from rfl,
      show v.properties.differentConstant = v.properties.get .differentConstant from rfl,
      show v.properties.sameVariable = v.properties.get .sameVariable from rfl,
      show v.properties.differentVariable = v.properties.get .differentVariable from rfl, hp, hp, hp, hp, hp, hp]
    rfl
  rw [e, setEvents?, hs]
  simp only [Option.map_some, Option.getD_some, setEvents, kinds, List.flatMap_cons, List.flatMap_nil, List.map_append, List.map_cons,
    List.map_nil, List.cons_append, List.append_assoc, List.append_nil]
  rfl

/-! ## Phenomena, universes -/

theorem sets_stmts {version description : String} {ops : List Op} {f : File} {D : DatasetD} (h : After version description ops f D)
    {E : Env} (hd : ∀ p, (E.info p).datatype ≠ []) {a : PhenomenonAddr} {P : PhenomenonD} (ha : D.phenomenon? a = some P) (c : Coll)
    {l : List (Name × SetView)} (hl : ShowsItems (fun n => ShowsSet D ⟨a, c, n⟩) l (P.sets c)) :
    setsPart E f (phenomenonPath a) c l = some ((l.flatMap fun e => setEvents? D E.cfg ⟨a, c, e.1⟩ e.2).map (Ev.stmt D E)) := by
  rw [← map_flatMap]
  refine items_eq fun e he => ?_
  obtain ⟨S, hS, hR⟩ := hl.2.1 e.1 e.2 he
  refine set_stmts h hd (s := ⟨a, c, e.1⟩) ?_ hR
  unfold DatasetD.set?
  rw [ha]; exact hS

theorem phenomenon_stmts {version description : String} {ops : List Op} {f : File} {D : DatasetD} (h : After version description ops f D)
    {E : Env} (hd : ∀ p, (E.info p).datatype ≠ []) {a : PhenomenonAddr} {v : PhenomenonView} {P : PhenomenonD}
    (ha : D.phenomenon? a = some P) (hv : ShowsPhenomenon D a v P) :
    phenomenonToDot E f a.name (phenomenonPath a) v = some ((phenomenonEvents D E.cfg a v).map (Ev.stmt D E)) := by
  have hp : ∀ c, setsPart E f (phenomenonPath a) c (v.sets c) = _ := fun c => sets_stmts h hd ha c (hv.2 c)
  have hi := valuePart_eq (D := D) hd (i := .objectId a) (j := .phenomenon a) rfl rfl
  have hi' : (if E.cfg.showTracker then valuePart E .same "lue_object_id".toList (phenomenonPath a) (phenomenonPath a ++ [.tag .objectId])
      else []) = (if E.cfg.showTracker then valueEvents E.cfg (.objectId a) else []).map (Ev.stmt D E) := by
    cases E.cfg.showTracker with
    | false => rfl
    | true => exact hi
  unfold phenomenonToDot
  rw [show v.objects = v.sets .objects from rfl, show v.collection = v.sets .collection from rfl, hp, hp, hi']
  show some _ = some _
  unfold phenomenonEvents
  simp only [colls, List.flatMap_cons, List.flatMap_nil, List.map_append, List.map_cons, List.cons_append, List.append_assoc,
    List.append_nil]
  rfl

theorem world_stmts {version description : String} {ops : List Op} {f : File} {D : DatasetD} (h : After version description ops f D)
    {E : Env} (hd : ∀ p, (E.info p).datatype ≠ []) {w : Option Name} {v : WorldView} {W : WorldD}
    (hw : D.world? w = some W) (hv : ShowsWorld D w v W) :
    worldToDot E f (worldPath w) v = some ((worldEvents D E.cfg w v).map (Ev.stmt D E)) := by
  unfold worldEvents
  rw [← map_flatMap]
  refine items_eq fun e he => ?_
  obtain ⟨P, hP, hR⟩ := hv.2.1 e.1 e.2 he
  refine phenomenon_stmts h hd (a := ⟨w, e.1⟩) ?_ hR
  unfold DatasetD.phenomenon?
  rw [hw]; exact hP

/-- What is shown if there is nothing else to show -/
def emptyStmts (E : Env) (w : Option Name) (b : Bool) : List Stmt := if b then [.empty (nodeName E (worldPath w))] else []

/-- The statements of a universe: its name, its label and what is in it -/
def universeStmts (D : DatasetD) (E : Env) (e : Name × WorldView) : Text × Text × List Stmt :=
  (nodeName E (worldPath (some e.1)), e.1.toList,
    (worldEvents D E.cfg (some e.1) e.2).map (Ev.stmt D E) ++ emptyStmts E (some e.1) e.2.isEmpty)

/-- The statements of the dataset itself -/
def datasetStmts (D : DatasetD) (E : Env) (v : DatasetView) : List Stmt :=
  (worldEvents D E.cfg none v.phenomena).map (Ev.stmt D E) ++ emptyStmts E none (v.universes.isEmpty && v.phenomena.isEmpty)

theorem dataset_stmts {version description : String} {ops : List Op} {f : File} {D : DatasetD} (h : After version description ops f D)
    {E : Env} (hd : ∀ p, (E.info p).datatype ≠ []) {v : DatasetView} (hv : Shows D v) (pathname : Text) :
    datasetToDot E f pathname v
      = some (allStmts (nodeName E []) pathname (v.universes.map (universeStmts D E)) (datasetStmts D E v)) := by
  obtain ⟨_, _, h1, h2⟩ := hv
  have hu : items (fun e => universeToDot E f e.1 e.2) v.universes = some (v.universes.flatMap fun e =>
      Stmt.enter (universeStmts D E e).1 (universeStmts D E e).2.1 :: (universeStmts D E e).2.2 ++ [.leave]) := by
    refine items_eq fun e he => ?_
    obtain ⟨W, hW, hR⟩ := h2.2.1 e.1 e.2 he
    have := world_stmts h hd (w := some e.1) (v := e.2) hW hR
    unfold universeToDot
    rw [show [Comp.tag .universes, .user e.1] = worldPath (some e.1) from rfl, this]
    show some _ = some _
    unfold universeStmts emptyStmts
    simp only [List.cons_append, List.append_assoc]
    rfl
  have hw := world_stmts h hd (w := none) (v := v.phenomena) rfl h1
  unfold datasetToDot
  rw [hu, Option.bind_some, show ([] : Path) = worldPath none from rfl, hw, Option.map_some]
  unfold allStmts datasetStmts emptyStmts
  rw [List.flatMap_map]
  simp only [List.cons_append, List.append_assoc]
  rfl

end Lue.Dot

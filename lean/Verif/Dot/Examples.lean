import Verif.Dot.Theorems
import Verif.Structure.Examples
import Mathlib.Logic.Equiv.List

/-!
# Examples: exporting datasets, and names that result in text that isn't in the DOT language
-/
namespace Lue.Dot.Examples
open Lue.Structure Lue.Structure.Examples

/-! ## The hypotheses of the theorem can be met -/

/-- The names in an opened world -/
def worldNames (w : WorldView) : List Name :=
  w.flatMap fun e => e.1 :: colls.flatMap fun co => (e.2.sets co).flatMap fun s => s.1 :: kinds.flatMap fun k =>
    (s.2.properties.get k).map Prod.fst

/-- The names in an opened dataset -/
def viewNames (v : DatasetView) : List Name := v.universes.flatMap (fun e => e.1 :: worldNames e.2) ++ worldNames v.phenomena

/-- Whether or not names are plain can be seen by opening the dataset. -/
theorem plainNames_of_view {D : DatasetD} {v : DatasetView} (hv : Shows D v) (h : ∀ n ∈ viewNames v, Plain n.toList) : PlainNames D := by
  have hworld : ∀ w, (D.world? w).isSome → ∃ W V, D.world? w = some W ∧ ShowsWorld D w V W ∧ ∀ n ∈ worldNames V, n ∈ viewNames v := by
    intro w hw
    cases w with
    | none => exact ⟨D.phenomena, v.phenomena, rfl, hv.2.2.1, fun n hn => List.mem_append_right _ hn⟩
    | some u =>
      obtain ⟨W, hW⟩ := Option.isSome_iff_exists.mp hw
      obtain ⟨V, hV⟩ := hv.2.2.2.2.2 u W hW
      obtain ⟨W', hW', hR⟩ := hv.2.2.2.2.1 u V hV
      exact ⟨W', V, hW', hR, fun n hn => List.mem_append_left _ (List.mem_flatMap.mpr ⟨_, hV, List.mem_cons_of_mem _ hn⟩)⟩
  have hphen : ∀ a, (D.phenomenon? a).isSome → ∃ P V, D.phenomenon? a = some P ∧ ShowsPhenomenon D a V P ∧
      ∀ n ∈ a.name :: colls.flatMap (fun co => (V.sets co).flatMap fun s => s.1 :: kinds.flatMap fun k =>
        (s.2.properties.get k).map Prod.fst), n ∈ viewNames v := by
    intro a ha
    obtain ⟨W, V, hW, hR, hin⟩ := hworld a.world (shown_world (c := {}) (i := .phenomenon a) ha)
    obtain ⟨w, n⟩ := a
    obtain ⟨P, hP⟩ := Option.isSome_iff_exists.mp ha
    have hP' := hP
    rw [phenomenon?_eq hW] at hP'
    obtain ⟨Q, hQ⟩ := hR.2.2 n P hP'
    obtain ⟨P1, h1, h2⟩ := hR.2.1 n Q hQ
    rw [hP'] at h1; cases h1
    exact ⟨P, Q, hP, h2, fun m hm => hin m (List.mem_flatMap.mpr ⟨_, hQ, hm⟩)⟩
  have hset : ∀ s, (D.set? s).isSome → ∃ S V, D.set? s = some S ∧ ShowsSet D s V S ∧
      ∀ n ∈ s.name :: kinds.flatMap (fun k => (V.properties.get k).map Prod.fst), n ∈ viewNames v := by
    intro s hs
    obtain ⟨P, V, hP, hR, hin⟩ := hphen s.phenomenon (shown_phenomenon (c := {}) (i := .set s) hs)
    obtain ⟨S, Q, hS, hQ, hRS⟩ := set_view hP hR.2 hs rfl
    exact ⟨S, Q, hS, hRS, fun m hm => hin m (List.mem_cons_of_mem _
      (List.mem_flatMap.mpr ⟨s.coll, colls_mem _, List.mem_flatMap.mpr ⟨_, hQ, hm⟩⟩))⟩
  refine ⟨fun u hu => ?_, fun a ha => ?_, fun s hs => ?_, fun p hp => ?_⟩
  · obtain ⟨V, hV⟩ := (names_mem hv.2.2.2 u).mpr hu
    exact h u (List.mem_append_left _ (List.mem_flatMap.mpr ⟨_, hV, List.mem_cons_self ..⟩))
  · obtain ⟨_, _, _, _, hin⟩ := hphen a ha
    exact h _ (hin _ (List.mem_cons_self ..))
  · obtain ⟨_, _, _, _, hin⟩ := hset s hs
    exact h _ (hin _ (List.mem_cons_self ..))
  · obtain ⟨S, V, hS, hR, hin⟩ := hset p.set (shown_set (c := {}) (i := .property p) hp rfl)
    obtain ⟨s, k, n⟩ := p
    rw [property?_eq hS] at hp
    obtain ⟨x, hx⟩ := (names_mem (hR.2.2.2 k) n).mpr hp
    exact h _ (hin _ (List.mem_cons_of_mem _ (List.mem_flatMap.mpr ⟨k, kinds_mem k, List.mem_map.mpr ⟨_, hx, rfl⟩⟩)))

def tagCode : Tag → List Nat
  | .universes => [0]
  | .phenomena => [1]
  | .objectId => [2]
  | .sets .collection => [3]
  | .sets .objects => [4]
  | .tracker => [5]
  | .activeObjectId => [6]
  | .activeSetIndex => [7]
  | .activeObjectIndex => [8]
  | .timeDomain => [9]
  | .coordinates => [10]
  | .spaceDomain => [11]
  | .presence => [12]
  | .properties => [13]
  | .kind .same => [14]
  | .kind .sameConstant => [15]
  | .kind .sameVariable => [16]
  | .kind .different => [17]
  | .kind .differentConstant => [18]
  | .kind .differentVariable => [19]
  | .value => [20]
  | .timeDisc => [21]
  | .spaceDisc => [22]

def tagOf : List Nat → Option Tag
  | [0] => some .universes
  | [1] => some .phenomena
  | [2] => some .objectId
  | [3] => some (.sets .collection)
  | [4] => some (.sets .objects)
  | [5] => some .tracker
  | [6] => some .activeObjectId
  | [7] => some .activeSetIndex
  | [8] => some .activeObjectIndex
  | [9] => some .timeDomain
  | [10] => some .coordinates
  | [11] => some .spaceDomain
  | [12] => some .presence
  | [13] => some .properties
  | [14] => some (.kind .same)
  | [15] => some (.kind .sameConstant)
  | [16] => some (.kind .sameVariable)
  | [17] => some (.kind .different)
  | [18] => some (.kind .differentConstant)
  | [19] => some (.kind .differentVariable)
  | [20] => some .value
  | [21] => some .timeDisc
  | [22] => some .spaceDisc
  | _ => none

theorem tagOf_tagCode (t : Tag) : tagOf (tagCode t) = some t := by
  cases t with
  | sets c => cases c <;> rfl
  | kind k => cases k <;> rfl
  | _ => rfl

def compCode : Comp → List Nat
  | .tag t => tagCode t
  | .user n => 23 :: n.toList.map Char.toNat

theorem compCode_injective : Function.Injective compCode := by
  have h1 : ∀ t l, tagCode t ≠ 23 :: l := by
    intro t l h
    cases t with
    | sets c => cases c <;> cases h
    | kind k => cases k <;> cases h
    | _ => cases h
  intro a b h
  cases a with
  | tag t =>
    cases b with
    | tag u =>
      have := congrArg tagOf (show tagCode t = tagCode u from h)
      rw [tagOf_tagCode, tagOf_tagCode] at this
      cases this; rfl
    | user n => exact absurd h (h1 t _)
  | user n =>
    cases b with
    | tag u => exact absurd h.symm (h1 u _)
    | user m =>
      have h2 : n.toList.map Char.toNat = m.toList.map Char.toNat := (List.cons.inj h).2
      have h3 : Function.Injective Char.toNat := fun x y hxy => Char.ext (UInt32.toNat_inj.mp hxy)
      have h4 := (List.map_injective_iff.mpr h3) h2
      rw [String.ext_iff.mpr h4]

/-- Different locations have different addresses. -/
theorem address_injective : Function.Injective fun p : Path => Encodable.encode (p.map compCode) :=
  Encodable.encode_injective.comp (List.map_injective_iff.mpr compCode_injective)

def details : Settings :=
  { showTracker := true, showValue := true, valueDetails := true, timeDetails := true, spaceDetails := true,
    propertyFill := "lightblue".toList }

def arrays : ValueInfo := ⟨5, [3, 4], 2, 5, 7, "uint64".toList⟩

theorem details_quotable : QuotableSettings details := by
  constructor <;> (unfold Quotable; decide)

theorem simple_names : (openDataset (history (createDataset "0.4" "test").2 simple).2).map viewNames
    = some ["areas", "elevation", "shape", "dem"] := by decide +kernel

/-- All hypotheses are met by a dataset with a time domain, a space domain, and a discretized property. -/
example : ∃ f D E text g, After "0.4" "test" simple f D ∧ exportDot E f "areas.lue".toList = some text ∧ readDot text = some g ∧
    Depicts D E "areas.lue".toList g := by
  have h : After "0.4" "test" simple (history (createDataset "0.4" "test").2 simple).2
      (outcome (DatasetD.new "0.4" "test") simple).2 :=
    ⟨allStorable_simple simple (by
      intro op hop
      simp only [simple, List.mem_cons, List.not_mem_nil, or_false] at hop
      rcases hop with rfl | rfl | rfl | rfl | rfl | rfl <;> try trivial
      refine ⟨(by intro t h; cases h), (by intro t h; cases h), ?_⟩
      intro i c h
      cases h
      show "2019-01-01" ≠ ""
      decide) _, by decide,
    (createDataset_rep "0.4" "test" (by decide)).elim fun f0 h => ⟨f0, h.1, by
      rw [show f0 = (createDataset "0.4" "test").2 by rw [h.1]]⟩, rfl⟩
  obtain ⟨hR, hwf⟩ := h.rep
  obtain ⟨v, hv, hS⟩ := openDataset_shows hR hwf
  have hn : viewNames v = ["areas", "elevation", "shape", "dem"] := by
    have := simple_names
    rw [hv] at this
    exact Option.some.inj this
  obtain ⟨text, g, h1, h2, h3⟩ := export_depicts_dataset h (E := ⟨details, _, fun _ => arrays⟩) address_injective
    (plainNames_of_view hS (by rw [hn]; unfold Plain; decide)) details_quotable
    (fun _ => by show Plain "uint64".toList ∧ "uint64".toList ≠ []; unfold Plain; decide) (pathname := "areas.lue".toList)
    (by unfold Plain; decide)
  exact ⟨_, _, _, text, g, h, h1, h2, h3⟩

/-! ## A graph -/

/-- The graph of a dataset, given the objects in the file -/
def graph (c : Settings) (places : List Path) (f : File) : Option Graph :=
  (exportDot ⟨c, fun p => places.idxOf p, fun _ => arrays⟩ f "test.lue".toList).bind readDot

def edgesOf (g : Graph) : List (String × String) := g.edges.map fun e => (String.ofList e.tail, String.ofList e.head)

/-- Two phenomena, one of them in a universe. The property-set in the universe shares the time domain of the other one. -/
def small : List Op :=
  [.addPhenomenon areas "all areas", .addUniverse "scenario", .addUniverse "other", .addPhenomenon world "",
   .addSet elevation (.time .box clock), .addSet rain (.sharedTime elevation), .addProperty amount "mm"]

example : ((graph {} [[], phenomenonPath areas, setPath elevation, timePath elevation, phenomenonPath world, setPath rain,
    propertyPath amount, worldPath (some "scenario"), worldPath (some "other")] (history (createDataset "0.4" "test").2 small).2).map
      fun g => (g.nodes.map (fun n => String.ofList n.name), edgesOf g, g.clusters.map fun c => String.ofList c.name))
    = some (["node_4", "node_5", "node_6", "node_8", "node_1", "node_2", "node_3"],
      [("node_5", "node_3"), ("node_5", "node_6"), ("node_4", "node_5"), ("node_2", "node_3"), ("node_1", "node_2")],
      ["cluster_node_0", "cluster_node_7", "cluster_node_8"]) := by decide +kernel

/-- The export of a dataset with a single phenomenon -/
def single (n : Name) : Option Text :=
  exportDot ⟨{}, fun p => p.length, fun _ => arrays⟩ (history (createDataset "0.4" "").2 [.addPhenomenon ⟨none, n⟩ ""]).2 "a.lue".toList

example : ((single "a").bind readDot).isSome = true := by decide +kernel

/-- Names are not escaped: the text that is written for a phenomenon named `a<b` can't be read. -/
example : ((single "a<b").isSome, ((single "a<b").bind readDot).isSome) = (true, false) := by decide +kernel

/-- The name may even change the graph. -/
example : ((single "a> shape=<b").bind readDot).map (fun g => g.nodes.map Node.attrs) =
    some [[("label".toList, .html "a".toList), ("shape".toList, .html "b".toList), ("shape".toList, .text "oval".toList),
      ("fillcolor".toList, .text "transparent".toList)]] := by decide +kernel

end Lue.Dot.Examples

import Verif.Allocate.Proofs
import Mathlib.Tactic.NormNum

/-!
Properties of `integrate_and_allocate`, for all routes, inputs, zones, and executions.
-/
namespace Lue.Allocate

open Lue.FirstN (Piece Route RoutePartition WellFormed nrActions)
open Lue.Walk (Steps Sys Enabled Timely perform Action Msg init run)

variable {nrCrops : Nat} {path : Int → List Piece} {demand production : AMap Int (List Rat)} {inputs : Nat → List Cell}
variable {R : Route} {s : Sys (List (Option Rat)) Data} {k : Nat}

theorem unmet_consistent : Walk.Consistent (algo nrCrops inputs demand production) noEffect path := by
  rintro p i v v' ⟨r, h⟩ _
  rw [not_written] at h
  simp at h

/-- Whatever has happened before, whatever happens next goes right. -/
theorem allocate_safe (hn : 0 < nrCrops) (hw : WellFormed R path) (hd : CellsDistinct path) (hs : SameShape inputs R)
    (hz : Zones nrCrops path demand production) (h : Steps (algo nrCrops inputs demand production) R k s) {a : Action Data}
    (he : Enabled R s a) (ht : Timely s a) : ∃ s', perform (algo nrCrops inputs demand production) R s a = .ok s' := by
  cases hk : (Data.new demand production).keepWalking with
  | false => exact Walk.walk_safe hw (correct_unmet R hk) unmet_consistent h he ht
  | true => exact Walk.walk_safe hw (correct_met hn hs hz hk) (consistent_met hn hs hz hk hd) h he ht

/-- All executions end. -/
theorem allocate_terminates (hn : 0 < nrCrops) (hw : WellFormed R path) (hd : CellsDistinct path) (hs : SameShape inputs R)
    (hz : Zones nrCrops path demand production) (h : Steps (algo nrCrops inputs demand production) R k s) :
    k ≤ nrActions R path := by
  cases hk : (Data.new demand production).keepWalking with
  | false => exact Walk.walk_terminates hw (correct_unmet R hk) unmet_consistent h
  | true => exact Walk.walk_terminates hw (correct_met hn hs hz hk) (consistent_met hn hs hz hk hd) h

/-- When nothing is left to do, all results are available. -/
theorem allocate_finishes (hn : 0 < nrCrops) (hw : WellFormed R path) (hd : CellsDistinct path) (hs : SameShape inputs R)
    (hz : Zones nrCrops path demand production) (h : Steps (algo nrCrops inputs demand production) R k s)
    (hq : ∀ a, ¬ Enabled R s a) : ∀ p < R.nrParts, (s.comp p).finished = true := by
  cases hk : (Data.new demand production).keepWalking with
  | false => exact Walk.walk_finishes hw (correct_unmet R hk) unmet_consistent h hq
  | true => exact Walk.walk_finishes hw (correct_met hn hs hz hk) (consistent_met hn hs hz hk hd) h hq

/-- When a demand is not met in some zone, nothing is allocated in any zone: all crop fractions of all cells are no-data. -/
theorem allocate_nothing (hn : 0 < nrCrops) (hw : WellFormed R path) (hz : Zones nrCrops path demand production)
    (h : Steps (algo nrCrops inputs demand production) R k s) {p : Nat} (hp : p < R.nrParts) (hf : (s.comp p).finished = true)
    {z : Int} {D P : List Rat} (hD : demand.get z = some D) (hP : production.get z = some P) (hu : Unmet D P) :
    (s.comp p).out = List.replicate (R.parts p).nrCells (List.replicate nrCrops none) := by
  have hk := (keepWalking_new hz hn).2 ⟨z, D, P, hD, hP, hu⟩
  have hr := Walk.walk_result hw (correct_unmet (inputs := inputs) (nrCrops := nrCrops) R hk) unmet_consistent h hp hf
  apply List.ext_getElem?
  intro i
  by_cases hi : i < (R.parts p).nrCells
  · rw [(hr.2 i hi).2, List.getElem?_replicate, if_pos hi]
    · rfl
    · rintro v ⟨r, hv⟩
      rw [not_written] at hv
      simp at hv
  · rw [List.getElem?_eq_none (by rw [hr.1]; omega), List.getElem?_eq_none (by simp; omega)]

/-- When all demands are met, the visited cells contain grass only: its fraction depends on those of the preceding cells in
the same piece of the route. A piece is visited up to the first cell that misses an input. -/
theorem allocate_grass (hn : 0 < nrCrops) (hw : WellFormed R path) (hd : CellsDistinct path) (hs : SameShape inputs R)
    (hz : Zones nrCrops path demand production) (h : Steps (algo nrCrops inputs demand production) R k s) {p : Nat}
    (hp : p < R.nrParts) (hf : (s.comp p).finished = true)
    (hm : ∀ z D P, demand.get z = some D → production.get z = some P → ¬ Unmet D P) {i : Nat} {cells : List Nat} {j : Nat}
    (hc : InPiece path p i cells j) (hpres : ∀ a ∈ cells.take (j + 1), Present (inputs p) a) :
    ∃ fractions : List Rat, (s.comp p).out[i]? = some (fractions.map some) ∧ fractions.length = nrCrops ∧
      fractions[0]? = some (grassAlong (inputs p) (cells.take (j + 1))) ∧ ∀ c, 0 < c → c < nrCrops → fractions[c]? = some 0 := by
  have hk : (Data.new demand production).keepWalking = true := by
    by_contra hne
    obtain ⟨z, D, P, h1, h2, h3⟩ := (keepWalking_new hz hn).1 (by simpa using hne)
    exact hm z D P h1 h2 h3
  have hi : i < (R.parts p).nrCells := by
    obtain ⟨r, h1, h2⟩ := hc
    exact (hw.parts r _ h1).2 i (List.mem_of_getElem? h2)
  have hr := Walk.walk_result hw (correct_met hn hs hz hk) (consistent_met hn hs hz hk hd) h hp hf
  refine ⟨_, (hr.2 i hi).1 _ ((written_met hn hs hz hk p i _).2 ⟨cells, j, hc, hpres, rfl⟩), ?_, ?_, ?_⟩
  · simp [onlyGrass, perCrop]
  · simp [onlyGrass, perCrop, hn]
  · intro c h1 h2
    simp [onlyGrass, perCrop, h2]
    omega

/-- All other cells contain no-data. -/
theorem allocate_no_data (hn : 0 < nrCrops) (hw : WellFormed R path) (hd : CellsDistinct path) (hs : SameShape inputs R)
    (hz : Zones nrCrops path demand production) (h : Steps (algo nrCrops inputs demand production) R k s) {p : Nat}
    (hp : p < R.nrParts) (hf : (s.comp p).finished = true) {i : Nat} (hi : i < (R.parts p).nrCells)
    (hno : ∀ cells j, InPiece path p i cells j → ∃ a ∈ cells.take (j + 1), ¬ Present (inputs p) a) :
    (s.comp p).out[i]? = some (List.replicate nrCrops none) := by
  cases hk : (Data.new demand production).keepWalking with
  | false =>
    refine ((Walk.walk_result hw (correct_unmet R hk) unmet_consistent h hp hf).2 i hi).2 ?_
    rintro v ⟨r, hv⟩
    rw [not_written] at hv
    simp at hv
  | true =>
    refine ((Walk.walk_result hw (correct_met hn hs hz hk) (consistent_met hn hs hz hk hd) h hp hf).2 i hi).2 ?_
    intro v hv
    obtain ⟨cells, j, h1, h2, _⟩ := (written_met hn hs hz hk p i v).1 hv
    obtain ⟨a, ha, hna⟩ := hno cells j h1
    exact hna (h2 a ha)

/-! ### The productions -/

theorem addProductions_zero {m : AMap Int (List Rat)} (hm : ∀ z l, m.get z = some l → l = List.replicate nrCrops 0)
    (z' : Int) : ∀ z l, (addProductions m (z', List.replicate nrCrops 0)).get z = some l → l = List.replicate nrCrops 0 := by
  intro z l h
  unfold addProductions at h
  simp only at h
  cases hg : m.get z' with
  | none =>
    rw [hg] at h
    simp only at h
    rw [AMap.get_put] at h
    split at h
    · injection h with h; exact h.symm
    · exact hm z l h
  | some l' =>
    rw [hg] at h
    simp only at h
    rw [AMap.get_put] at h
    split at h
    · injection h with h
      rw [← h, hm z' l' hg]
      apply List.ext_getElem
      · simp
      · intro i h1 h2; simp
    · exact hm z l h

theorem addProductions_get (m : AMap Int (List Rat)) (z' : Int) (l' : List Rat) (z : Int) :
    ((addProductions m (z', l')).get z).isSome ↔ z = z' ∨ (m.get z).isSome := by
  unfold addProductions
  simp only
  cases hg : m.get z' with
  | none =>
    simp only [AMap.get_put]
    by_cases h : z' = z
    · simp [h]
    · simp [h, Ne.symm h]
  | some l'' =>
    simp only [AMap.get_put]
    by_cases h : z' = z
    · simp [h]
    · simp [h, Ne.symm h]

/-- Whatever is allocated, the zonal productions returned are zero, for all crops and for all zones with a route. -/
theorem allocate_productions (hw : WellFormed R path) (nrCrops : Nat) (z : Int) :
    (aggregate nrCrops R).get z = if path z = [] then none else some (List.replicate nrCrops 0) := by
  have hgen : ∀ (es : List (Int × List Rat)) (m : AMap Int (List Rat)), (∀ e ∈ es, e.2 = List.replicate nrCrops 0) →
      (∀ z l, m.get z = some l → l = List.replicate nrCrops 0) →
      (∀ z l, (es.foldl addProductions m).get z = some l → l = List.replicate nrCrops 0) ∧
      ∀ z, ((es.foldl addProductions m).get z).isSome ↔ (m.get z).isSome ∨ z ∈ es.map Prod.fst := by
    intro es
    induction es with
    | nil => intro m _ h; exact ⟨h, by simp⟩
    | cons e es ih =>
      intro m h1 h2
      obtain ⟨z', l'⟩ := e
      have hl' : l' = List.replicate nrCrops 0 := h1 (z', l') (by simp)
      subst hl'
      obtain ⟨h3, h4⟩ := ih (addProductions m (z', List.replicate nrCrops 0)) (fun e he => h1 e (List.mem_cons_of_mem _ he))
        (addProductions_zero h2 z')
      refine ⟨h3, ?_⟩
      intro z
      rw [List.foldl_cons, h4, addProductions_get]
      simp only [List.map_cons, List.mem_cons]
      constructor
      · rintro ((h | h) | h)
        · exact Or.inr (Or.inl h)
        · exact Or.inl h
        · exact Or.inr (Or.inr h)
      · rintro (h | h | h)
        · exact Or.inl (Or.inr h)
        · exact Or.inl (Or.inl h)
        · exact Or.inr h
  have hes : ∀ e ∈ (List.range R.nrParts).flatMap fun p => zonalProductions nrCrops (R.parts p), e.2 = List.replicate nrCrops 0 := by
    intro e he
    simp only [List.mem_flatMap, zonalProductions, List.mem_map] at he
    obtain ⟨_, _, _, _, rfl⟩ := he
    rfl
  obtain ⟨h1, h2⟩ := hgen _ [] hes (by intro z l h; simp [AMap.get_nil] at h)
  have hkeys : z ∈ (((List.range R.nrParts).flatMap fun p => zonalProductions nrCrops (R.parts p)).map Prod.fst) ↔ path z ≠ [] := by
    constructor
    · intro h
      simp only [List.mem_map, List.mem_flatMap, List.mem_range, zonalProductions] at h
      obtain ⟨_, ⟨p, hp, e, he, rfl⟩, rfl⟩ := h
      intro hnil
      have hg := (AMap.mem_iff_get (hw.frags_ok p hp) e.1 e.2).1 he
      rw [hw.frags p hp, hnil] at hg
      simp [Lue.FirstN.fragmentsIn, Lue.FirstN.fragmentsOf] at hg
    · intro h
      cases hpath : path z with
      | nil => exact absurd hpath h
      | cons e l =>
        obtain ⟨hp, _⟩ := hw.parts z e (by rw [hpath]; simp)
        have hg := hw.frags e.1 hp z
        have hne : Lue.FirstN.fragmentsIn e.1 (path z) ≠ [] := by
          rw [hpath]
          simp [Lue.FirstN.fragmentsIn, Lue.FirstN.fragmentsOf]
        rw [if_neg hne] at hg
        have hmem := AMap.mem_of_get hg
        simp only [List.mem_map, List.mem_flatMap, List.mem_range, zonalProductions]
        exact ⟨_, ⟨e.1, hp, _, hmem, rfl⟩, rfl⟩
  have h3 := h2 z
  rw [hkeys] at h3
  unfold aggregate
  by_cases hnil : path z = []
  · rw [if_pos hnil]
    have : ¬ (AMap.get (List.foldl addProductions [] ((List.range R.nrParts).flatMap fun p => zonalProductions nrCrops (R.parts p))) z).isSome
        = true := by
      rw [h3]
      simp [AMap.get_nil, hnil]
    simpa using this
  · rw [if_neg hnil]
    obtain ⟨l, hl⟩ := Option.isSome_iff_exists.1 (h3.2 (Or.inr hnil))
    rw [hl, h1 z l hl]

/-! ### Examples: the routes of `Verif.FirstN.Properties` (7 and 8), two crops -/

open Lue.FirstN (exampleRoute examplePath)

def exampleCell (irrigated : Rat) : Cell := ⟨[some 1, some 1], [some 1, some 1], [some 0, some 0], some irrigated⟩

def exampleInputs : Nat → List Cell := fun p =>
  if p = 0 then [exampleCell (1 / 4), exampleCell 0, exampleCell (1 / 2)] else [⟨[], [], [], none⟩, exampleCell 0]

/-- The demand of zone 8 is not met: nothing is allocated in zone 7 either. -/
example : Unmet [5, 5] [5, 4] := ⟨1, 5, 4, by norm_num, by norm_num, by norm_num, by norm_num⟩

/-- The demand of the second crop is not met, but nothing tells so: only the first difference counts. -/
example : ¬ Unmet [5, 5] [6, 0] := by
  rintro ⟨j, a, b, h1, h2, h3, h4⟩
  match j with
  | 0 => simp at h2 h3; subst h2; subst h3; norm_num at h4
  | j + 1 => simp at h1

theorem example_zones : Zones 2 examplePath [(7, [5, 5]), (8, [1, 1])] [(7, [5, 5]), (8, [2, 0])] where
  ok := by unfold AMap.Ok; decide
  crops := by
    intro z D h
    simp only [AMap.get_cons, AMap.get_nil] at h
    split at h
    · injection h with h; subst h; rfl
    · split at h
      · injection h with h; subst h; rfl
      · cases h
  prod := by
    intro z D h
    simp only [AMap.get_cons, AMap.get_nil] at h ⊢
    split at h
    · rename_i h7; exact ⟨_, if_pos h7, rfl⟩
    · rename_i h7
      split at h
      · rename_i h8
        refine ⟨[2, 0], ?_, rfl⟩
        rw [if_neg h7, if_pos h8]
      · cases h
  routes := by
    intro r h
    unfold examplePath at h
    simp only [AMap.get_cons, AMap.get_nil]
    split at h
    · rename_i h7; exact ⟨_, if_pos h7.symm⟩
    · split at h
      · rename_i h7 h8; exact ⟨[1, 1], by rw [if_neg (Ne.symm h7), if_pos h8.symm]⟩
      · exact absurd rfl h

theorem example_sameShape : SameShape exampleInputs exampleRoute := by unfold SameShape; decide

set_option synthInstance.maxSize 2000 in
set_option synthInstance.maxHeartbeats 400000 in
theorem example_distinct : CellsDistinct examplePath := by
  have hin : ∀ p cells, (∃ r, (p, cells) ∈ examplePath r) → (p, cells) ∈ [(0, [2, 0]), (1, [1]), (0, [1]), (1, [0])] := by
    rintro p cells ⟨r, h⟩
    unfold examplePath at h
    split at h
    · simp only [List.mem_cons, List.not_mem_nil, or_false] at h ⊢
      rcases h with h | h | h <;> simp [h]
    · split at h
      · simp only [List.mem_cons, List.not_mem_nil, or_false] at h ⊢
        simp [h]
      · simp at h
  have hall : ∀ e ∈ ([(0, [2, 0]), (1, [1]), (0, [1]), (1, [0])] : List Piece), ∀ e' ∈ ([(0, [2, 0]), (1, [1]), (0, [1]), (1, [0])] : List Piece),
      ∀ j : Nat, j < 2 → ∀ j' : Nat, j' < 2 → e.1 = e'.1 → e.2[j]? ≠ none → e.2[j]? = e'.2[j']? → e.2 = e'.2 ∧ j = j' := by decide
  have hlen : ∀ e ∈ ([(0, [2, 0]), (1, [1]), (0, [1]), (1, [0])] : List Piece), e.2.length ≤ 2 := by decide
  rintro p i cells j cells' j' ⟨r, h1, h2⟩ ⟨r', h3, h4⟩
  have hj := (List.getElem?_eq_some_iff.1 h2).1
  have hj' := (List.getElem?_eq_some_iff.1 h4).1
  have hl := hlen _ (hin p cells ⟨r, h1⟩)
  have hl' := hlen _ (hin p cells' ⟨r', h3⟩)
  refine hall _ (hin p cells ⟨r, h1⟩) _ (hin p cells' ⟨r', h3⟩) j ?_ j' ?_ rfl (by rw [h2]; simp) (by rw [h2, h4])
  · simp only at hl; omega
  · simp only at hl'; omega

/-- In the first piece of route 7 (cells 2 and 0): half of the first cell, and a quarter of the second one (the grass of the
first cell is counted again). -/
example : grassAlong (exampleInputs 0) [2] = 1 / 2 ∧ grassAlong (exampleInputs 0) [2, 0] = 1 / 4 := by
  constructor <;> norm_num [grassAlong, exampleInputs, exampleCell, grass]

end Lue.Allocate

import Verif.Allocate.Spec
import Verif.Walk.Properties
import Mathlib.Algebra.Order.Ring.Rat
import Mathlib.Tactic.Ring

/-! `integrate_and_allocate`: what is done while walking. -/
namespace Lue.Allocate

open Lue.FirstN (Piece Route need need_some ok_bind)
open Lue.Walk

theorem lexLe_eq_false {D P : List Rat} (h : D.length = P.length) : lexLe D P = false ↔ Unmet D P := by
  induction D generalizing P with
  | nil =>
    simp only [lexLe, Bool.true_eq_false, false_iff]
    rintro ⟨k, a, b, _, h, _⟩
    simp at h
  | cons a D ih =>
    cases P with
    | nil => simp at h
    | cons b P =>
      unfold lexLe
      by_cases hab : a < b
      · simp only [hab, if_true, Bool.true_eq_false, false_iff]
        rintro ⟨k, x, y, h1, h2, h3, h4⟩
        cases k with
        | zero =>
          simp only [List.getElem?_cons_zero, Option.some.injEq] at h2 h3
          subst h2; subst h3
          exact absurd hab (not_lt_of_gt h4)
        | succ k =>
          simp only [List.take_succ_cons, List.cons.injEq] at h1
          exact absurd hab (by rw [h1.1]; exact lt_irrefl _)
      · by_cases hba : b < a
        · simp only [hab, hba, if_true, if_false, true_iff]
          exact ⟨0, a, b, rfl, rfl, rfl, hba⟩
        · simp only [hab, hba, if_false]
          have he : a = b := le_antisymm (not_lt.1 hba) (not_lt.1 hab)
          rw [ih (by simpa using h)]
          subst he
          constructor
          · rintro ⟨k, x, y, h1, h2, h3, h4⟩
            exact ⟨k + 1, x, y, by simp [h1], h2, h3, h4⟩
          · rintro ⟨k, x, y, h1, h2, h3, h4⟩
            cases k with
            | zero =>
              simp only [List.getElem?_cons_zero, Option.some.injEq] at h2 h3
              subst h2; subst h3
              exact absurd h4 (lt_irrefl _)
            | succ k => exact ⟨k, x, y, by simpa using h1, by simpa using h2, by simpa using h3, h4⟩

theorem get_map_key {V W : Type} (m : AMap Int V) (f : Int → V → W) (k : Int) :
    AMap.get (m.map fun e => (e.1, f e.1 e.2)) k = (m.get k).map (f k) := by
  induction m with
  | nil => rfl
  | cons e m ih =>
    obtain ⟨a, b⟩ := e
    rw [List.map_cons, AMap.get_cons, AMap.get_cons, ih]
    by_cases h : a = k
    · subst h; simp
    · simp [h]

variable {nrCrops : Nat} {path : Int → List Piece} {demand production : AMap Int (List Rat)} {inputs : Nat → List Cell}

theorem keepWalking_new (hz : Zones nrCrops path demand production) (hn : 0 < nrCrops) :
    (Data.new demand production).keepWalking = false ↔
      ∃ z D P, demand.get z = some D ∧ production.get z = some P ∧ Unmet D P := by
  have hkey : ∀ e ∈ demand, ∃ P, production.get e.1 = some P ∧
      ((perCrop e.2.length fun _ => lexLe e.2 ((production.get e.1).getD [])).all fun b => b) = lexLe e.2 P ∧ e.2.length = P.length := by
    intro e he
    have hg := (AMap.mem_iff_get hz.ok e.1 e.2).1 he
    obtain ⟨P, hP, hPl⟩ := hz.prod _ _ hg
    have hl := hz.crops _ _ hg
    refine ⟨P, hP, ?_, hl.trans hPl.symm⟩
    rw [hP, hl]
    obtain ⟨m, rfl⟩ : ∃ m, nrCrops = m + 1 := ⟨nrCrops - 1, by omega⟩
    cases hb : lexLe e.2 P with
    | true => simp [perCrop, hb]
    | false =>
      simp only [perCrop, Option.getD_some, hb, List.all_map]
      rw [List.all_eq_false]
      exact ⟨0, by simp, by simp⟩
  have hall : (Data.new demand production).keepWalking = demand.all fun e =>
      ((perCrop e.2.length fun _ => lexLe e.2 ((production.get e.1).getD [])).all fun b => b) := by
    unfold Data.keepWalking Data.new
    rw [List.all_map]
    rfl
  rw [hall, List.all_eq_false]
  constructor
  · rintro ⟨e, he, h⟩
    obtain ⟨P, hP, h1, hl⟩ := hkey e he
    rw [h1] at h
    exact ⟨e.1, e.2, P, (AMap.mem_iff_get hz.ok _ _).1 he, hP, (lexLe_eq_false hl).1 (by simpa using h)⟩
  · rintro ⟨z, D, P, hD, hP, hu⟩
    have he := AMap.mem_of_get hD
    obtain ⟨P', hP', h1, hl⟩ := hkey (z, D) he
    rw [hP] at hP'
    injection hP' with hP'
    subst hP'
    refine ⟨_, he, ?_⟩
    rw [h1, (lexLe_eq_false hl).2 hu]
    simp

/-! ### A demand is not met: nothing is done -/

/-- Nothing is written, the data does not change. -/
def noEffect : Effect (List (Option Rat)) Data where
  writes := fun _ _ _ _ => []
  next := fun _ _ _ d => d

theorem correct_unmet (R : Route) (hk : (Data.new demand production).keepWalking = false) :
    Correct (algo nrCrops inputs demand production) noEffect R path (fun _ d => d = Data.new demand production) where
  start := fun _ _ => rfl
  next := fun _ _ _ _ h => h
  visit := by
    intro p _ r cells out d hd _ _
    subst hd
    show visitCells _ _ _ _ _ _ _ = _
    cases cells with
    | nil => rfl
    | cons i l =>
      unfold visitCells
      rw [hk]
      rfl

theorem not_written (r : Int) (l : List Piece) (d : Data) :
    writesAlong (algo nrCrops inputs demand production) noEffect r l d = [] := by
  induction l generalizing d with
  | nil => rfl
  | cons e l ih =>
    obtain ⟨p, cells⟩ := e
    have h1 : (noEffect.writes p r cells d).map (fun w => (p, w.1, w.2)) = [] := rfl
    rw [writesAlong, h1, ih]
    simp

/-! ### All demands are met -/

theorem at_perCrop (n : Nat) (f : Nat → Rat) (i : Nat) (h : i < n) : at_ (perCrop n f) i = f i := by
  simp [at_, perCrop, h]

theorem total_zero (n : Nat) : total (perCrop n fun _ => 0) = 0 := by
  unfold total perCrop
  induction n with
  | zero => rfl
  | succ n ih => rw [List.range_succ, List.map_append, List.foldl_append, ih]; simp

/-- Fractions of crops: only grass. -/
def onlyGrass (n : Nat) (g : Rat) : List Rat := perCrop n fun i => if i = 0 then g else 0

theorem total_onlyGrass (n : Nat) (hn : 0 < n) (g : Rat) : total (onlyGrass n g) = g := by
  unfold total onlyGrass perCrop
  induction n with
  | zero => omega
  | succ n ih =>
    rw [List.range_succ, List.map_append, List.foldl_append]
    by_cases h : n = 0
    · subst h; simp
    · rw [ih (by omega)]; simp [h]

theorem perCrop_congr {γ : Type} (n : Nat) {f g : Nat → γ} (h : ∀ i < n, f i = g i) : perCrop n f = perCrop n g := by
  unfold perCrop
  exact List.map_congr_left fun i hi => h i (List.mem_range.1 hi)

theorem perCrop_at (P : List Rat) : perCrop P.length (fun i => at_ P i) = P := by
  apply List.ext_getElem
  · simp [perCrop]
  · intro i h1 h2
    simp [perCrop, at_, h2]

/-- The productions after a cell: the grass of the previous cell is counted. -/
def nextProduction (n : Nat) (P : List Rat) (c : Cell) (g : Rat) : List Rat :=
  perCrop n fun i => at_ P i + at_ (onlyGrass n g) i * at' c.yield i

theorem onlyGrass_set (n : Nat) (g g' : Rat) : (onlyGrass n g).set 0 g' = onlyGrass n g' := by
  unfold onlyGrass perCrop
  apply List.ext_getElem
  · simp
  · intro i h1 h2
    rw [List.getElem_set]
    by_cases h : i = 0
    · subst h; simp
    · simp [h, Ne.symm h]

theorem allocate_met (hn : 0 < nrCrops) (D P : List Rat) (hP : P.length = nrCrops) (c : Cell) (g : Rat) :
    allocate nrCrops D P (perCrop nrCrops fun _ => true) c (onlyGrass nrCrops g) =
      (onlyGrass nrCrops (grass (c.irrigated.getD 0) g), nextProduction nrCrops P c g,
        onlyGrass nrCrops (grass (c.irrigated.getD 0) g)) := by
  have hmet : ∀ i < nrCrops, ((perCrop nrCrops fun _ => true)[i]?).getD false = true := by
    intro i hi; simp [perCrop, hi]
  have hcur : (perCrop nrCrops fun i => adjust (((perCrop nrCrops fun _ => true)[i]?).getD false) (at_ D i) (at_ P i) (at' c.current i)
      (at' c.yield i)) = perCrop nrCrops fun _ => 0 := by
    apply perCrop_congr
    intro i hi
    simp only [adjust, hmet i hi, if_true]
  have hprod : (perCrop nrCrops fun i => at_ P i + at_ (perCrop nrCrops fun _ => 0) i * at' c.yield i) = P := by
    rw [← hP]
    conv_rhs => rw [← perCrop_at P]
    apply perCrop_congr
    intro i hi
    rw [at_perCrop _ _ _ hi]; ring
  have hrem : (perCrop nrCrops fun i => if ((perCrop nrCrops fun _ => true)[i]?).getD false = true then 0 else at_ D i - at_ P i) =
      perCrop nrCrops fun _ => 0 := by
    apply perCrop_congr
    intro i hi
    simp only [hmet i hi, if_true]
  have hsdp : (perCrop nrCrops fun i => at_ (perCrop nrCrops fun _ => 0) i * at' c.sdp i) = perCrop nrCrops fun _ => 0 := by
    apply perCrop_congr
    intro i hi
    rw [at_perCrop _ _ _ hi]; ring
  have hext : (perCrop nrCrops fun i => if i ≠ 0 then adjust (((perCrop nrCrops fun _ => true)[i]?).getD false) (at_ D i) (at_ P i)
      (at_ (onlyGrass nrCrops g) i) (at' c.yield i) else at_ (onlyGrass nrCrops g) i) = onlyGrass nrCrops g := by
    conv_rhs => unfold onlyGrass
    apply perCrop_congr
    intro i hi
    by_cases h : i = 0
    · subst h
      rw [onlyGrass, at_perCrop _ _ _ hi]; simp
    · simp only [ne_eq, h, not_false_eq_true, if_true, adjust, hmet i hi, if_false]
  have hgrass : (if total (perCrop nrCrops fun _ => (0 : Rat)) + c.irrigated.getD 0 + total (onlyGrass nrCrops g) < 1 then
      (onlyGrass nrCrops g).set 0 (1 - (total (perCrop nrCrops fun _ => (0 : Rat)) + c.irrigated.getD 0 + total (onlyGrass nrCrops g)))
      else onlyGrass nrCrops g) = onlyGrass nrCrops (grass (c.irrigated.getD 0) g) := by
    rw [total_zero, total_onlyGrass _ hn, zero_add, onlyGrass_set]
    unfold grass
    split <;> rfl
  unfold allocate
  simp only [hcur, hprod, hrem, hsdp, total_zero, lt_irrefl, gt_iff_lt, if_false, hext]
  rw [total_zero] at hgrass
  rw [hgrass]
  refine Prod.ext ?_ (Prod.ext rfl rfl)
  show (perCrop nrCrops fun i => at_ (perCrop nrCrops fun _ => 0) i + at_ (onlyGrass nrCrops (grass (c.irrigated.getD 0) g)) i) = _
  conv_rhs => rw [onlyGrass]
  apply perCrop_congr
  intro i hi
  rw [at_perCrop _ _ _ hi, onlyGrass, at_perCrop _ _ _ hi, zero_add]

/-- The data after a cell. -/
def nextData (n : Nat) (r : Int) (c : Cell) (g : Rat) (d : Data) : Data :=
  { d with production := d.production.put r (nextProduction n ((d.production.get r).getD []) c g) }

/-- What visiting the cells of a fragment does: the values written, and the new data. -/
def walkMet (n : Nat) (inputs : List Cell) (r : Int) : List Nat → Rat → Data → List (Nat × List (Option Rat)) × Data
  | [], _, d => ([], d)
  | i :: l, g, d =>
    if ((inputs[i]?.map Cell.noData).getD true) = true then ([], d)
    else
      let c := inputs[i]?.getD ⟨[], [], [], none⟩
      let g' := grass (c.irrigated.getD 0) g
      let rest := walkMet n inputs r l g' (nextData n r c g d)
      ((i, (onlyGrass n g').map some) :: rest.1, rest.2)

/-- What is known about the data of the walk along a route when all demands are met. -/
def Good (nrCrops : Nat) (r : Int) (d : Data) : Prop :=
  d.keepWalking = true ∧ (∃ D, d.demand.get r = some D) ∧ (∃ P, d.production.get r = some P ∧ P.length = nrCrops) ∧
    d.met.get r = some (perCrop nrCrops fun _ => true)

theorem good_next {r : Int} {d : Data} (h : Good nrCrops r d) (c : Cell) (g : Rat) : Good nrCrops r (nextData nrCrops r c g d) := by
  obtain ⟨h1, h2, h3, h4⟩ := h
  refine ⟨h1, h2, ⟨nextProduction nrCrops ((d.production.get r).getD []) c g, ?_, ?_⟩, h4⟩
  · simp only [nextData]
    rw [AMap.get_put, if_pos rfl]
  · simp [nextProduction, perCrop]

theorem good_walkMet {r : Int} (ins : List Cell) (cells : List Nat) (g : Rat) {d : Data} (h : Good nrCrops r d) :
    Good nrCrops r (walkMet nrCrops ins r cells g d).2 := by
  induction cells generalizing g d with
  | nil => exact h
  | cons i l ih =>
    unfold walkMet
    split
    · exact h
    · exact ih _ (good_next h _ _)

theorem visitCells_eq (hn : 0 < nrCrops) (ins : List Cell) (r : Int) (cells : List Nat) (g : Rat) (out : List (List (Option Rat)))
    (d : Data) (hg : Good nrCrops r d) (hl : ins.length = out.length) (hc : ∀ i ∈ cells, i < out.length) :
    visitCells nrCrops ins r cells (onlyGrass nrCrops g) out d =
      .ok (applyWrites (walkMet nrCrops ins r cells g d).1 out, (walkMet nrCrops ins r cells g d).2) := by
  induction cells generalizing g out d with
  | nil => rfl
  | cons i l ih =>
    have hi : i < out.length := hc i (by simp)
    have hi' : i < ins.length := by omega
    have hg' := hg
    obtain ⟨h1, ⟨D, h2⟩, ⟨P, h3, h3'⟩, h4⟩ := hg'
    unfold visitCells walkMet
    simp only [h1, if_true]
    rw [need_some (List.getElem?_eq_getElem hi'), ok_bind, List.getElem?_eq_getElem hi']
    simp only [Option.map_some, Option.getD_some]
    cases hnd : (ins[i]).noData with
    | true => rfl
    | false =>
      simp only [Bool.false_eq_true, if_false]
      rw [need_some h2, ok_bind, need_some h3, ok_bind, need_some h4, ok_bind, allocate_met hn D P h3']
      simp only [hi, if_true]
      have hd : nextData nrCrops r ins[i] g d = { d with production := d.production.put r (nextProduction nrCrops P ins[i] g) } := by
        simp [nextData, h3]
      rw [← hd, ih _ _ _ (good_next hg _ _) (by rw [List.length_set]; exact hl)
        (by intro j hj; rw [List.length_set]; exact hc j (List.mem_cons_of_mem _ hj))]
      rfl

/-- The effect when all demands are met. -/
def effectMet (nrCrops : Nat) (inputs : Nat → List Cell) : Effect (List (Option Rat)) Data where
  writes := fun p r cells d => (walkMet nrCrops (inputs p) r cells 0 d).1
  next := fun p r cells d => (walkMet nrCrops (inputs p) r cells 0 d).2

theorem replicate_zero (n : Nat) : List.replicate n (0 : Rat) = onlyGrass n 0 := by
  unfold onlyGrass perCrop
  apply List.ext_getElem
  · simp
  · intro i h1 h2; simp

theorem correct_met (hn : 0 < nrCrops) {R : Route} (hs : SameShape inputs R) (hz : Zones nrCrops path demand production)
    (hk : (Data.new demand production).keepWalking = true) :
    Correct (algo nrCrops inputs demand production) (effectMet nrCrops inputs) R path (Good nrCrops) where
  start := by
    intro r hr
    obtain ⟨D, hD⟩ := hz.routes r hr
    obtain ⟨P, hP, hPl⟩ := hz.prod r D hD
    refine ⟨hk, ⟨D, hD⟩, ⟨P, hP, hPl⟩, ?_⟩
    have hmet : (Data.new demand production).met.get r =
        some (perCrop D.length fun _ => lexLe D ((production.get r).getD [])) := by
      show AMap.get (demand.map fun e => (e.1, perCrop e.2.length fun _ => lexLe e.2 ((production.get e.1).getD []))) r = _
      rw [get_map_key demand (fun k v => perCrop v.length fun _ => lexLe v ((production.get k).getD [])) r, hD]
      rfl
    show (Data.new demand production).met.get r = _
    rw [hmet, hz.crops r D hD, hP]
    have hlex : lexLe D P = true := by
      by_contra hne
      have hu := (lexLe_eq_false ((hz.crops r D hD).trans hPl.symm)).1 (by simpa using hne)
      have := (keepWalking_new hz hn).2 ⟨r, D, P, hD, hP, hu⟩
      rw [hk] at this
      cases this
    simp [hlex]
  next := fun p r cells d h => good_walkMet _ _ _ h
  visit := by
    intro p hp r cells out d hg hout hc
    show visitCells _ _ _ _ _ _ _ = _
    rw [replicate_zero]
    exact visitCells_eq hn _ r cells 0 out d hg (by rw [hs p hp, hout]) (by rw [hout]; exact hc)

theorem mem_walkMet (ins : List Cell) (r : Int) (cells : List Nat) (g : Rat) (d : Data) (i : Nat) (v : List (Option Rat)) :
    (i, v) ∈ (walkMet nrCrops ins r cells g d).1 ↔ ∃ j : Nat, cells[j]? = some i ∧ (∀ a ∈ cells.take (j + 1), Present ins a) ∧
      v = (onlyGrass nrCrops ((cells.take (j + 1)).foldl (fun g i => grass ((ins[i]?.bind Cell.irrigated).getD 0) g) g)).map some := by
  induction cells generalizing g d with
  | nil => simp [walkMet]
  | cons a l ih =>
    have hpres : Present ins a ↔ ¬ ((ins[a]?.map Cell.noData).getD true) = true := by
      unfold Present
      cases h : ins[a]? with
      | none => simp
      | some c => simp
    unfold walkMet
    by_cases hp : ((ins[a]?.map Cell.noData).getD true) = true
    · rw [if_pos hp]
      simp only [List.not_mem_nil, false_iff]
      rintro ⟨j, _, h, _⟩
      exact hpres.1 (h a (by simp)) hp
    · rw [if_neg hp]
      have hirr : ((ins[a]?.getD ⟨[], [], [], none⟩).irrigated).getD 0 = (ins[a]?.bind Cell.irrigated).getD 0 := by
        cases ins[a]? <;> rfl
      simp only [List.mem_cons, Prod.mk.injEq]
      rw [ih, hirr]
      constructor
      · rintro (⟨rfl, rfl⟩ | ⟨j, h1, h2, h3⟩)
        · refine ⟨0, rfl, ?_, by simp⟩
          intro b hb
          simp only [Nat.zero_add, List.take_succ_cons, List.take_zero, List.mem_singleton] at hb
          subst hb
          exact hpres.2 hp
        · refine ⟨j + 1, h1, ?_, ?_⟩
          · intro b hb
            rw [List.take_succ_cons] at hb
            rcases List.mem_cons.1 hb with rfl | hb
            · exact hpres.2 hp
            · exact h2 b hb
          · rw [h3, List.take_succ_cons (i := j + 1), List.foldl_cons]
      · rintro ⟨j, h1, h2, h3⟩
        cases j with
        | zero =>
          left
          simp only [List.getElem?_cons_zero, Option.some.injEq] at h1
          refine ⟨h1.symm, ?_⟩
          rw [h3]
          simp
        | succ j =>
          right
          refine ⟨j, h1, ?_, ?_⟩
          · intro b hb
            exact h2 b (by rw [List.take_succ_cons]; exact List.mem_cons_of_mem _ hb)
          · rw [h3, List.take_succ_cons (i := j + 1), List.foldl_cons]

theorem mem_writesAlong_met (r : Int) (l : List Piece) (d : Data) (hg : Good nrCrops r d) (p i : Nat) (v : List (Option Rat)) :
    (p, i, v) ∈ writesAlong (algo nrCrops inputs demand production) (effectMet nrCrops inputs) r l d ↔
    ∃ cells, (p, cells) ∈ l ∧ ∃ j : Nat, cells[j]? = some i ∧ (∀ a ∈ cells.take (j + 1), Present (inputs p) a) ∧
      v = (onlyGrass nrCrops (grassAlong (inputs p) (cells.take (j + 1)))).map some := by
  induction l generalizing d with
  | nil => simp [writesAlong]
  | cons e l ih =>
    obtain ⟨q, cells⟩ := e
    have hgn : Good nrCrops r ((effectMet nrCrops inputs).next q r cells d) := good_walkMet _ _ _ hg
    have hkw : (algo nrCrops inputs demand production).keepWalking ((effectMet nrCrops inputs).next q r cells d) = true := hgn.1
    rw [writesAlong]
    simp only [hkw, if_true, List.mem_append]
    rw [ih _ hgn]
    have hhead : (p, i, v) ∈ ((effectMet nrCrops inputs).writes q r cells d).map (fun w => (q, w.1, w.2)) ↔
        q = p ∧ ∃ j : Nat, cells[j]? = some i ∧ (∀ a ∈ cells.take (j + 1), Present (inputs p) a) ∧
          v = (onlyGrass nrCrops (grassAlong (inputs p) (cells.take (j + 1)))).map some := by
      simp only [List.mem_map, Prod.mk.injEq]
      constructor
      · rintro ⟨⟨a, b⟩, h, rfl, rfl, rfl⟩
        exact ⟨rfl, (mem_walkMet _ _ _ _ _ _ _).1 h⟩
      · rintro ⟨rfl, h⟩
        exact ⟨(i, v), (mem_walkMet _ _ _ _ _ _ _).2 h, rfl, rfl, rfl⟩
    rw [hhead]
    constructor
    · rintro (⟨rfl, h⟩ | ⟨cs, h1, h2⟩)
      · exact ⟨cells, by simp, h⟩
      · exact ⟨cs, List.mem_cons_of_mem _ h1, h2⟩
    · rintro ⟨cs, h1, h2⟩
      rcases List.mem_cons.1 h1 with h | h
      · injection h with h3 h4
        subst h3; subst h4
        exact Or.inl ⟨rfl, h2⟩
      · exact Or.inr ⟨cs, h, h2⟩

theorem written_met (hn : 0 < nrCrops) {R : Route} (hs : SameShape inputs R) (hz : Zones nrCrops path demand production)
    (hk : (Data.new demand production).keepWalking = true) (p i : Nat) (v : List (Option Rat)) :
    Written (algo nrCrops inputs demand production) (effectMet nrCrops inputs) path p i v ↔
    ∃ cells j, InPiece path p i cells j ∧ (∀ a ∈ cells.take (j + 1), Present (inputs p) a) ∧
      v = (onlyGrass nrCrops (grassAlong (inputs p) (cells.take (j + 1)))).map some := by
  unfold Written
  constructor
  · rintro ⟨r, h⟩
    have hne : path r ≠ [] := by
      intro h0
      rw [h0] at h
      simp [writesAlong] at h
    have hg := (correct_met hn hs hz hk).start r hne
    obtain ⟨cells, h1, j, h2, h3, h4⟩ := (mem_writesAlong_met r _ _ hg p i v).1 h
    exact ⟨cells, j, ⟨r, h1, h2⟩, h3, h4⟩
  · rintro ⟨cells, j, ⟨r, h1, h2⟩, h3, h4⟩
    have hg := (correct_met hn hs hz hk).start r (List.ne_nil_of_mem h1)
    exact ⟨r, (mem_writesAlong_met r _ _ hg p i v).2 ⟨cells, h1, j, h2, h3, h4⟩⟩

theorem consistent_met (hn : 0 < nrCrops) {R : Route} (hs : SameShape inputs R) (hz : Zones nrCrops path demand production)
    (hk : (Data.new demand production).keepWalking = true) (hd : CellsDistinct path) :
    Consistent (algo nrCrops inputs demand production) (effectMet nrCrops inputs) path := by
  intro p i v v' h h'
  obtain ⟨cells, j, h1, _, h2⟩ := (written_met hn hs hz hk p i v).1 h
  obtain ⟨cells', j', h3, _, h4⟩ := (written_met hn hs hz hk p i v').1 h'
  obtain ⟨rfl, rfl⟩ := hd p i cells j cells' j' h1 h3
  rw [h2, h4]

end Lue.Allocate

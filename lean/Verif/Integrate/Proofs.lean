import Verif.Integrate.Spec
import Verif.Walk.Properties

/-! `integrate`: from fragments to whole routes. -/
namespace Lue.Integrate

open Lue.FirstN (Piece cellsOf CellCounter need need_some ok_bind)
open Lue.Walk

variable {α : Type} (add : α → α → α) (zero : α) (integrand : Nat → List (Option α))

/-- The accumulated value after a cell. -/
def accNext (c : Nat × Nat) (a : α) : α := ((valueAt integrand c).map (add a)).getD a

/-- The values written along a list of cells of which `m` are visited at most. -/
def flatWrites : List (Nat × Nat) → Nat → α → List (Nat × Nat × Option α)
  | [], _, _ => []
  | _ :: _, 0, _ => []
  | c :: cs, m + 1, a =>
    ((valueAt integrand c).map fun x => (c.1, c.2, some (add a x))).toList ++ flatWrites cs m (accNext add integrand c a)

/-- The accumulated value after a list of cells of which `m` are visited at most. -/
def flatAcc : List (Nat × Nat) → Nat → α → α
  | [], _, a => a
  | _ :: _, 0, a => a
  | c :: cs, m + 1, a => flatAcc cs m (accNext add integrand c a)

theorem flatWrites_zero (cs : List (Nat × Nat)) (a : α) : flatWrites add integrand cs 0 a = [] := by cases cs <;> rfl

theorem flatAcc_zero (cs : List (Nat × Nat)) (a : α) : flatAcc add integrand cs 0 a = a := by cases cs <;> rfl

theorem flatWrites_append (cs cs' : List (Nat × Nat)) (m : Nat) (a : α) : flatWrites add integrand (cs ++ cs') m a =
    flatWrites add integrand cs m a ++ flatWrites add integrand cs' (m - cs.length) (flatAcc add integrand cs m a) := by
  induction cs generalizing m a with
  | nil => simp [flatWrites, flatAcc]
  | cons c cs ih =>
    cases m with
    | zero => simp [flatWrites_zero]
    | succ m => simp [flatWrites, flatAcc, ih]

theorem flatAcc_append (cs cs' : List (Nat × Nat)) (m : Nat) (a : α) : flatAcc add integrand (cs ++ cs') m a =
    flatAcc add integrand cs' (m - cs.length) (flatAcc add integrand cs m a) := by
  induction cs generalizing m a with
  | nil => simp [flatAcc]
  | cons c cs ih =>
    cases m with
    | zero => simp [flatAcc_zero]
    | succ m => simp [flatAcc, ih]

theorem mem_flatWrites (cs : List (Nat × Nat)) (m : Nat) (a : α) (p i : Nat) (v : Option α) :
    (p, i, v) ∈ flatWrites add integrand cs m a ↔ ∃ k, cs[k]? = some (p, i) ∧ k < m ∧ (valueAt integrand (p, i)).isSome ∧
      v = some (sumOfFirst add a integrand cs (k + 1)) := by
  induction cs generalizing m a with
  | nil => simp [flatWrites]
  | cons c cs ih =>
    cases m with
    | zero => simp [flatWrites_zero]
    | succ m =>
      have hsum : ∀ k, sumOfFirst add a integrand (c :: cs) (k + 1) = sumOfFirst add (accNext add integrand c a) integrand cs k := by
        intro k
        unfold sumOfFirst accNext
        rw [List.take_succ_cons, List.filterMap_cons]
        cases valueAt integrand c <;> simp
      have h0 : ∀ b, sumOfFirst add b integrand cs 0 = b := fun b => by simp [sumOfFirst]
      rw [flatWrites, List.mem_append, ih]
      simp only [hsum]
      constructor
      · rintro (h | ⟨k, h1, h2, h3, h4⟩)
        · rw [Option.mem_toList, Option.map_eq_some_iff] at h
          obtain ⟨x, hx, h⟩ := h
          simp only [Prod.mk.injEq] at h
          obtain ⟨rfl, rfl, rfl⟩ := h
          refine ⟨0, rfl, by omega, ?_, ?_⟩
          · show (valueAt integrand c).isSome = true
            rw [hx]; rfl
          · rw [h0, accNext, hx]; rfl
        · refine ⟨k + 1, h1, by omega, h3, ?_⟩
          rw [h4]
      · rintro ⟨k, h1, h2, h3, h4⟩
        cases k with
        | zero =>
          simp only [List.getElem?_cons_zero, Option.some.injEq] at h1
          subst h1
          obtain ⟨x, hx⟩ := Option.isSome_iff_exists.1 h3
          left
          rw [h4, h0, accNext, hx]
          simp
        | succ k => exact Or.inr ⟨k, h1, by omega, h3, h4⟩

/-- The number of cells that may still be visited. -/
def budget (d : Data α) : Nat := (d.counter.max - d.counter.visited).toNat

/-- The effect of visiting the cells of a piece. -/
def effect : Effect (Option α) (Data α) where
  writes := fun p r cells d =>
    (flatWrites add integrand (cells.map fun i => (p, i)) (budget d) (d.value zero r)).map fun w => (w.2.1, w.2.2)
  next := fun p r cells d =>
    { counter := { d.counter with visited := d.counter.visited + (min cells.length (budget d) : Nat) }
      values := d.values.put r (flatAcc add integrand (cells.map fun i => (p, i)) (budget d) (d.value zero r)) }

theorem put_put (m : AMap Int α) (r : Int) (a b : α) : (m.put r a).put r b = m.put r b := by
  induction m with
  | nil => simp [AMap.put]
  | cons e m ih =>
    obtain ⟨k, v⟩ := e
    simp only [AMap.put]
    split
    · rename_i h; simp [AMap.put, h]
    · rename_i h; simp [AMap.put, h, ih]

theorem value_setValue (d : Data α) (r : Int) (a : α) : (d.setValue r a).value zero r = a := by
  simp [Data.setValue, Data.value, AMap.get_put]

theorem visitCells_eq (p : Nat) (r : Int) (cells : List Nat) (out : List (Option α)) (counter : CellCounter) (values : AMap Int α) (a : α)
    (hl : (integrand p).length = out.length) (hc : ∀ i ∈ cells, i < out.length) :
    visitCells add zero (integrand p) r cells out ⟨counter, values.put r a⟩ =
      .ok (applyWrites ((flatWrites add integrand (cells.map fun i => (p, i)) (counter.max - counter.visited).toNat a).map
        fun w => (w.2.1, w.2.2)) out,
        ⟨{ counter with visited := counter.visited + (min cells.length (counter.max - counter.visited).toNat : Nat) },
          values.put r (flatAcc add integrand (cells.map fun i => (p, i)) (counter.max - counter.visited).toNat a)⟩) := by
  induction cells generalizing out counter a with
  | nil => simp [visitCells, flatWrites, flatAcc, applyWrites]
  | cons i cells ih =>
    have hi : i < out.length := hc i (by simp)
    unfold visitCells
    by_cases hk : counter.visited < counter.max
    · obtain ⟨m, hm⟩ : ∃ m, (counter.max - counter.visited).toNat = m + 1 := ⟨(counter.max - counter.visited).toNat - 1, by omega⟩
      have hm' : (counter.inc.max - counter.inc.visited).toNat = m := by simp only [CellCounter.inc]; omega
      simp only [CellCounter.keepWalking, hk, decide_true, if_true]
      rw [need_some (List.getElem?_eq_getElem (by omega : i < (integrand p).length)), ok_bind]
      have hva : valueAt integrand (p, i) = (integrand p)[i]'(by omega) := by
        show ((integrand p)[i]?).join = _
        rw [List.getElem?_eq_getElem (by omega : i < (integrand p).length)]
        rfl
      have hfin : ∀ (out' : List (Option α)) (b : α), out'.length = out.length →
          visitCells add zero (integrand p) r cells out' (Data.inc ⟨counter, values.put r b⟩) =
          .ok (applyWrites ((flatWrites add integrand (cells.map fun i => (p, i)) m b).map fun w => (w.2.1, w.2.2)) out',
            ⟨{ counter with visited := counter.visited + (min (i :: cells).length (m + 1) : Nat) },
              values.put r (flatAcc add integrand (cells.map fun i => (p, i)) m b)⟩) := by
        intro out' b hout
        have := ih out' counter.inc b (by omega) (by intro j hj; rw [hout]; exact hc j (List.mem_cons_of_mem _ hj))
        rw [hm'] at this
        simp only [Data.inc]
        rw [this]
        congr 3
        simp only [CellCounter.inc, List.length_cons]
        congr 1
        omega
      rw [hm]
      simp only [List.map_cons, flatWrites, flatAcc, accNext, hva]
      cases (integrand p)[i]'(by omega) with
      | none =>
        simp only [visitCell, ok_bind]
        rw [hfin out a rfl]
        simp
      | some x =>
        have hval : Data.value zero ⟨counter, values.put r a⟩ r = a := by simp [Data.value, AMap.get_put]
        simp only [visitCell, hval, hi, if_true, ok_bind, Data.setValue, put_put]
        rw [hfin (out.set i (some (add a x))) (add a x) (by simp)]
        simp [applyWrites]
    · have h0 : (counter.max - counter.visited).toNat = 0 := by omega
      simp only [CellCounter.keepWalking, hk, decide_false, Bool.false_eq_true, if_false, h0, flatWrites_zero, flatAcc_zero]
      simp [applyWrites]

theorem correct {R : Lue.FirstN.Route} (hn : ∀ p < R.nrParts, (integrand p).length = (R.parts p).nrCells) (maxNrCells : Int)
    (path : Int → List Piece) :
    Correct (algo add zero integrand maxNrCells) (effect add zero integrand) R path (fun _ _ => True) where
  start := fun _ _ => trivial
  next := fun _ _ _ _ _ => trivial
  visit := by
    intro p hp r cells out d _ hout hc
    show visitCells _ _ _ _ _ _ _ = _
    rw [Data.setValue, visitCells_eq add zero integrand p r cells out d.counter d.values _ (by rw [hn p hp, hout])
      (by rw [hout]; exact hc)]
    rfl

/-- Along a route. -/
theorem writesAlong_eq (maxNrCells : Int) (r : Int) (l : List Piece) (d : Data α) :
    writesAlong (algo add zero integrand maxNrCells) (effect add zero integrand) r l d =
      flatWrites add integrand (cellsOf l) (budget d) (d.value zero r) := by
  induction l generalizing d with
  | nil => rfl
  | cons e l ih =>
    obtain ⟨p, cells⟩ := e
    have hb : budget ((effect add zero integrand).next p r cells d) = budget d - (cells.map fun i => (p, i)).length := by
      simp only [budget, effect, List.length_map]
      omega
    have hv : ((effect add zero integrand).next p r cells d).value zero r =
        flatAcc add integrand (cells.map fun i => (p, i)) (budget d) (d.value zero r) := by
      simp [effect, Data.value, AMap.get_put]
    have hw : ((effect add zero integrand).writes p r cells d).map (fun w => (p, w.1, w.2)) =
        flatWrites add integrand (cells.map fun i => (p, i)) (budget d) (d.value zero r) := by
      simp only [effect, List.map_map]
      conv_rhs => rw [← List.map_id (flatWrites _ _ _ _ _)]
      apply List.map_congr_left
      rintro ⟨q, i, v⟩ h
      obtain ⟨k, hk, _⟩ := (mem_flatWrites add integrand _ _ _ q i v).1 h
      obtain ⟨j, _, hj⟩ := List.mem_map.1 (List.mem_of_getElem? hk)
      injection hj with hj _
      subst hj
      rfl
    have hcells : cellsOf ((p, cells) :: l) = (cells.map fun i => (p, i)) ++ cellsOf l := rfl
    rw [writesAlong, hw, hcells, flatWrites_append]
    congr 1
    show (if (CellCounter.keepWalking ((effect add zero integrand).next p r cells d).counter) = true then _ else _) = _
    rw [← hb, ← hv]
    by_cases hk : CellCounter.keepWalking ((effect add zero integrand).next p r cells d).counter = true
    · rw [if_pos hk, ih]
    · rw [if_neg hk]
      have : budget ((effect add zero integrand).next p r cells d) = 0 := by
        simp only [CellCounter.keepWalking, decide_eq_true_eq] at hk
        unfold budget
        omega
      rw [this, flatWrites_zero]

theorem written_iff (maxNrCells : Int) (path : Int → List Piece) (p i : Nat) (v : Option α) :
    Written (algo add zero integrand maxNrCells) (effect add zero integrand) path p i v ↔
    ∃ (r : Int) (k : Nat), (cellsOf (path r))[k]? = some (p, i) ∧ k < maxNrCells.toNat ∧ (valueAt integrand (p, i)).isSome ∧
      v = some (sumOfFirst add zero integrand (cellsOf (path r)) (k + 1)) := by
  unfold Written
  apply exists_congr
  intro r
  rw [writesAlong_eq, mem_flatWrites]
  have h1 : budget (algo add zero integrand maxNrCells).start = maxNrCells.toNat := by
    simp [algo, budget, Data.new, CellCounter.new]
  have h2 : (algo add zero integrand maxNrCells).start.value zero r = zero := rfl
  rw [h1, h2]

theorem consistent (maxNrCells : Int) {path : Int → List Piece} (hd : CellsDistinct path) :
    Consistent (algo add zero integrand maxNrCells) (effect add zero integrand) path := by
  intro p i v v' h h'
  obtain ⟨r, k, h1, _, _, h2⟩ := (written_iff add zero integrand maxNrCells path p i v).1 h
  obtain ⟨r', k', h3, _, _, h4⟩ := (written_iff add zero integrand maxNrCells path p i v').1 h'
  obtain ⟨rfl, rfl⟩ := hd r r' k k' _ h1 h3
  rw [h2, h4]

end Lue.Integrate

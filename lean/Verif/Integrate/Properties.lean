import Verif.Integrate.Proofs

/-!
Properties of `integrate`, for all routes, integrands, maxima, and executions: all orders in which tasks run and messages are
delivered. The addition of elements is arbitrary: results do not depend on it being associative or commutative.
-/
namespace Lue.Integrate

open Lue.FirstN (Piece cellsOf Route WellFormed nrActions)
open Lue.Walk (Steps Sys Enabled Timely perform Action Msg init run)

variable {α : Type} [DecidableEq α] {add : α → α → α} {zero : α} {integrand : Nat → List (Option α)} {n : Int}
variable {R : Route} {path : Int → List Piece} {s : Sys (Option α) (Data α)} {k : Nat}

/-- The partitions of the integrand have the same number of cells as those of the route. -/
def SameShape (integrand : Nat → List (Option α)) (R : Route) : Prop := ∀ p < R.nrParts, (integrand p).length = (R.parts p).nrCells

/-- Whatever has happened before, whatever happens next goes right. -/
theorem integrate_safe (hw : WellFormed R path) (hd : CellsDistinct path) (hs : SameShape integrand R)
    (h : Steps (algo add zero integrand n) R k s) {a : Action (Data α)} (he : Enabled R s a) (ht : Timely s a) :
    ∃ s', perform (algo add zero integrand n) R s a = .ok s' :=
  Walk.walk_safe hw (correct add zero integrand hs n path) (consistent add zero integrand n hd) h he ht

/-- All executions end. -/
theorem integrate_terminates (hw : WellFormed R path) (hd : CellsDistinct path) (hs : SameShape integrand R)
    (h : Steps (algo add zero integrand n) R k s) : k ≤ nrActions R path :=
  Walk.walk_terminates hw (correct add zero integrand hs n path) (consistent add zero integrand n hd) h

/-- When nothing is left to do, all partitions are finished. -/
theorem integrate_finishes (hw : WellFormed R path) (hd : CellsDistinct path) (hs : SameShape integrand R)
    (h : Steps (algo add zero integrand n) R k s) (hq : ∀ a, ¬ Enabled R s a) : ∀ p < R.nrParts, (s.comp p).finished = true :=
  Walk.walk_finishes hw (correct add zero integrand hs n path) (consistent add zero integrand n hd) h hq

/-- A finished partition stays as it is. -/
theorem integrate_once (hw : WellFormed R path) (hd : CellsDistinct path) (hs : SameShape integrand R)
    (h : Steps (algo add zero integrand n) R k s) {a : Action (Data α)} (he : Enabled R s a) (ht : Timely s a)
    {s' : Sys (Option α) (Data α)} (hp : perform (algo add zero integrand n) R s a = .ok s') {p : Nat}
    (hf : (s.comp p).finished = true) : (s'.comp p).finished = true ∧ (s'.comp p).out = (s.comp p).out :=
  Walk.walk_once hw (correct add zero integrand hs n path) (consistent add zero integrand n hd) h he ht hp hf

/-- As soon as a partition is finished: each cell that is number `j` (counting from zero) of a route, with `j` less than the
maximum, and that has a value in the integrand, contains the sum of the values of the integrand of the cells of the route up to
and including this cell. -/
theorem integrate_sum (hw : WellFormed R path) (hd : CellsDistinct path) (hs : SameShape integrand R)
    (h : Steps (algo add zero integrand n) R k s) {p : Nat} (hp : p < R.nrParts) (hf : (s.comp p).finished = true) {r : Int} {j i : Nat}
    (hc : (cellsOf (path r))[j]? = some (p, i)) (hj : j < n.toNat) (hv : (valueAt integrand (p, i)).isSome) :
    (s.comp p).out[i]? = some (some (sumOfFirst add zero integrand (cellsOf (path r)) (j + 1))) := by
  have hi : i < (R.parts p).nrCells := by
    have hm := List.mem_of_getElem? hc
    unfold cellsOf at hm
    simp only [List.mem_flatMap, List.mem_map, Prod.mk.injEq] at hm
    obtain ⟨e, he, i', hi', rfl, rfl⟩ := hm
    exact (hw.parts r e he).2 _ hi'
  exact ((Walk.walk_result hw (correct add zero integrand hs n path) (consistent add zero integrand n hd) h hp hf).2 i hi).1 _
    ((written_iff add zero integrand n path p i _).2 ⟨r, j, hc, hj, hv, rfl⟩)

/-- All other cells contain no-data. -/
theorem integrate_no_data (hw : WellFormed R path) (hd : CellsDistinct path) (hs : SameShape integrand R)
    (h : Steps (algo add zero integrand n) R k s) {p : Nat} (hp : p < R.nrParts) (hf : (s.comp p).finished = true) :
    (s.comp p).out.length = (R.parts p).nrCells ∧
    ∀ i < (R.parts p).nrCells, ¬ Integrable integrand path n p i → (s.comp p).out[i]? = some none := by
  have hr := Walk.walk_result hw (correct add zero integrand hs n path) (consistent add zero integrand n hd) h hp hf
  refine ⟨hr.1, fun i hi hn => (hr.2 i hi).2 ?_⟩
  intro v hv
  obtain ⟨r, j, h1, h2, h3, _⟩ := (written_iff add zero integrand n path p i v).1 hv
  exact hn ⟨r, j, h1, h2, h3⟩

/-- When the walk has finished a partition before `result_partition()` is called, that call throws: the array returned
contains a partition that never becomes valid. -/
theorem integrate_overtaken (hw : WellFormed R path) (hd : CellsDistinct path) (hs : SameShape integrand R)
    (h : Steps (algo add zero integrand n) R k s) {p : Nat} (he : Enabled R s (.result p)) (ht : ¬ Timely s (.result p)) :
    perform (algo add zero integrand n) R s (.result p) = .error .promiseAlreadySatisfied :=
  Walk.walk_overtaken hw (correct add zero integrand hs n path) (consistent add zero integrand n hd) h he ht

/-! ### An example: the routes of `Verif.FirstN.Properties`: route 7 visits cells 2 and 0 of partition 0, cell 1 of partition
1, and cell 1 of partition 0; route 8 visits cell 0 of partition 1 -/

open Lue.FirstN (exampleRoute examplePath)

def exampleIntegrand : Nat → List (Option Int) := fun p => if p = 0 then [none, some 5, some 10] else [some 3, some 1]

/-- Only the first three cells of each route. -/
example : (run (algo (· + ·) 0 exampleIntegrand 3) exampleRoute [.configure 1, .result 1, .configure 0, .start,
    .deliver (.walk 1 8 ⟨⟨0, 3⟩, []⟩), .result 0, .deliver (.walk 0 7 ⟨⟨0, 3⟩, []⟩), .deliver (.walk 1 7 ⟨⟨2, 3⟩, [(7, 10)]⟩),
    .deliver (.skip 0 7)] (init (algo (· + ·) 0 exampleIntegrand 3) exampleRoute)).toOption.map
    (fun s => ((s.comp 0).out, (s.comp 1).out, (s.comp 0).finished, (s.comp 1).finished)) =
    some ([none, none, some 10], [some 3, some 11], true, true) := by decide

example : sumOfFirst (· + ·) 0 exampleIntegrand (cellsOf (examplePath 7)) 3 = 11 := by decide

theorem example_distinct : CellsDistinct examplePath := by
  intro r r' k k' c h h'
  have h7 : cellsOf (examplePath 7) = [(0, 2), (0, 0), (1, 1), (0, 1)] := by decide
  have h8 : cellsOf (examplePath 8) = [(1, 0)] := by decide
  have hr : ∀ (r : Int) (k : Nat), (cellsOf (examplePath r))[k]? = some c → r = 7 ∨ r = 8 := by
    intro r k h
    by_contra hn
    have : examplePath r = [] := by
      unfold examplePath
      rw [if_neg (fun h => hn (Or.inl h)), if_neg (fun h => hn (Or.inr h))]
    rw [this] at h
    simp [cellsOf] at h
  have hn7 : (cellsOf (examplePath 7)).Nodup := by decide
  have hm : c ∈ cellsOf (examplePath 7) → c ∈ cellsOf (examplePath 8) → False := by
    rw [h7, h8]
    intro h1 h2
    rw [List.mem_singleton.1 h2] at h1
    revert h1; decide
  have hk : ∀ r : Int, (cellsOf (examplePath r)).Nodup → (cellsOf (examplePath r))[k]? = some c →
      (cellsOf (examplePath r))[k']? = some c → k = k' := by
    intro r hnd h1 h2
    obtain ⟨hl, e1⟩ := List.getElem?_eq_some_iff.1 h1
    obtain ⟨hl', e2⟩ := List.getElem?_eq_some_iff.1 h2
    exact (hnd.getElem_inj_iff (hi := hl) (hj := hl')).1 (e1.trans e2.symm)
  rcases hr r k h with rfl | rfl <;> rcases hr r' k' h' with rfl | rfl
  · exact ⟨rfl, hk 7 hn7 h h'⟩
  · exact (hm (List.mem_of_getElem? h) (List.mem_of_getElem? h')).elim
  · exact (hm (List.mem_of_getElem? h') (List.mem_of_getElem? h)).elim
  · exact ⟨rfl, hk 8 (by decide) h h'⟩

theorem example_sameShape : SameShape exampleIntegrand exampleRoute := by
  unfold SameShape; decide

end Lue.Integrate

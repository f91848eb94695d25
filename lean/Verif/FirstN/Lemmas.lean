import Verif.FirstN.Spec
import Mathlib.Data.List.Basic
import Mathlib.Algebra.BigOperators.Group.List.Basic

/-! Lemmas about maps, routes, and the loop over the cells of a fragment. -/
namespace Lue

namespace AMap

variable {K V : Type} [DecidableEq K]

theorem get_erase (m : AMap K V) (k k' : K) : get (erase m k) k' = if k = k' then none else get m k' := by
  induction m with
  | nil => simp [erase, get_nil]
  | cons e m ih =>
    obtain ⟨a, b⟩ := e
    unfold erase at ih ⊢
    rw [List.filter_cons]
    by_cases h : a = k
    · subst h
      simp only [ne_eq, not_true, decide_false, Bool.false_eq_true, if_false, ih, get_cons]
      by_cases h2 : a = k' <;> simp [h2]
    · simp only [ne_eq, h, not_false_eq_true, decide_true, if_true, get_cons, ih]
      by_cases h2 : a = k'
      · subst h2; simp [Ne.symm h]
      · simp [h2]

theorem Ok.erase {m : AMap K V} (h : Ok m) (k : K) : Ok (erase m k) := by
  unfold Ok AMap.erase at *
  exact h.sublist ((List.filter_sublist).map _)

theorem eq_nil_iff_get (m : AMap K V) : m = [] ↔ ∀ k, get m k = none := by
  constructor
  · rintro rfl k; rfl
  · intro h
    cases m with
    | nil => rfl
    | cons e m =>
      obtain ⟨a, b⟩ := e
      have := h a
      rw [get_cons] at this
      simp at this

theorem get_map_const {W : Type} (m : AMap K V) (w : W) (k : K) : get (m.map fun e => (e.1, w)) k = (get m k).map fun _ => w := by
  induction m with
  | nil => rfl
  | cons e m ih =>
    obtain ⟨a, b⟩ := e
    rw [List.map_cons, get_cons, get_cons, ih]
    by_cases h : a = k <;> simp [h]

theorem mem_of_get {m : AMap K V} {k : K} {v : V} (h : get m k = some v) : (k, v) ∈ m := by
  induction m with
  | nil => simp [get_nil] at h
  | cons e m ih =>
    obtain ⟨a, b⟩ := e
    rw [get_cons] at h
    split at h
    · rename_i h2; subst h2; injection h with h; subst h; simp
    · exact List.mem_cons_of_mem _ (ih h)

end AMap

namespace FirstN

/-- The number of pieces in partition `p`. -/
def cnt (p : Nat) (l : List Piece) : Nat := (l.filter fun e => decide (e.1 = p)).length

theorem length_fragmentsIn (p : Nat) (l : List Piece) : (fragmentsIn p l).length = cnt p l := by
  unfold fragmentsIn cnt
  rw [List.length_map]
  induction l with
  | nil => rfl
  | cons e l ih =>
    obtain ⟨q, c⟩ := e
    simp only [fragmentsOf, List.filter_cons]
    split <;> simp [ih]

theorem fragmentsIn_eq_nil {p : Nat} {l : List Piece} : fragmentsIn p l = [] ↔ cnt p l = 0 := by
  rw [← length_fragmentsIn, List.length_eq_zero_iff]

theorem cnt_take_succ {p q : Nat} {l : List Piece} {k : Nat} {cells : List Nat} (h : l[k]? = some (q, cells)) :
    cnt p (l.take (k + 1)) = cnt p (l.take k) + if q = p then 1 else 0 := by
  unfold cnt
  rw [List.take_succ, h, List.filter_append, List.length_append]
  congr 1
  by_cases hq : q = p <;> simp [hq]

theorem cnt_take_le (p : Nat) (l : List Piece) (k : Nat) : cnt p (l.take k) ≤ cnt p l := by
  unfold cnt
  exact ((List.take_sublist k l).filter _).length_le

theorem cnt_take_lt {p : Nat} {l : List Piece} {k : Nat} {cells : List Nat} (h : l[k]? = some (p, cells)) :
    cnt p (l.take k) < cnt p l := by
  have h1 := cnt_take_succ (p := p) h
  have h2 := cnt_take_le p l (k + 1)
  simp only [if_true] at h1
  omega

theorem fragmentsIn_getElem {p : Nat} {l : List Piece} {k : Nat} {cells : List Nat} (h : l[k]? = some (p, cells)) :
    (fragmentsIn p l)[cnt p (l.take k)]? = some ⟨cells, l[k + 1]?.map Prod.fst⟩ := by
  induction l generalizing k with
  | nil => simp at h
  | cons e l ih =>
    obtain ⟨q, c⟩ := e
    cases k with
    | zero =>
      simp only [List.getElem?_cons_zero, Option.some.injEq, Prod.mk.injEq] at h
      obtain ⟨rfl, rfl⟩ := h
      simp only [fragmentsIn, fragmentsOf, cnt, List.take_zero, List.filter_nil, List.length_nil, List.filter_cons, decide_true,
        if_true, List.map_cons, List.getElem?_cons_zero, List.getElem?_cons_succ]
      rw [List.head?_eq_getElem?]
    | succ k =>
      have := ih (k := k) (by simpa using h)
      simp only [fragmentsIn, fragmentsOf, cnt, List.take_succ_cons, List.filter_cons, List.getElem?_cons_succ] at this ⊢
      by_cases hq : q = p
      · simpa [hq] using this
      · simpa [hq] using this

theorem mem_fragmentsIn_next {p q : Nat} {l : List Piece} {k : Nat} {cells : List Nat} (h : l[k]? = some (p, cells))
    (hq : l[k + 1]?.map Prod.fst = some q) : q ∈ (fragmentsIn p l).filterMap Fragment.next :=
  List.mem_filterMap.2 ⟨_, List.mem_of_getElem? (fragmentsIn_getElem h), hq⟩

theorem cellsOf_take_succ {l : List Piece} {k : Nat} {p : Nat} {cells : List Nat} (h : l[k]? = some (p, cells)) :
    cellsOf (l.take (k + 1)) = cellsOf (l.take k) ++ cells.map fun i => (p, i) := by
  unfold cellsOf
  rw [List.take_succ, h]
  simp

/-- The loop over the cells marks the first of them, until enough cells have been visited. -/
theorem walkCells_ok (cells : List Nat) (out : List (Option Int)) (d : CellCounter) (h : ∀ i ∈ cells, i < out.length) :
    ∃ out', walkCells cells out d =
        .ok (out', { d with visited := d.visited + (min cells.length (d.max - d.visited).toNat : Nat) }) ∧
      out'.length = out.length ∧
      ∀ i, out'[i]? = if i ∈ cells.take (d.max - d.visited).toNat then some (some 1) else out[i]? := by
  induction cells generalizing out d with
  | nil =>
    refine ⟨out, ?_, rfl, ?_⟩
    · simp [walkCells]
    · simp
  | cons a cells ih =>
    unfold walkCells
    by_cases hk : d.visited < d.max
    · have ha : a < out.length := h a (by simp)
      simp only [CellCounter.keepWalking, hk, decide_true, if_true, ha]
      obtain ⟨out', h1, h2, h3⟩ := ih (out.set a (some 1)) d.inc (by
        intro i hi; rw [List.length_set]; exact h i (List.mem_cons_of_mem _ hi))
      refine ⟨out', ?_, by rw [h2, List.length_set], ?_⟩
      · rw [h1]
        simp only [CellCounter.inc, List.length_cons]
        congr 3
        omega
      · intro i
        rw [h3]
        have hs : (d.max - d.visited).toNat = (d.inc.max - d.inc.visited).toNat + 1 := by
          simp only [CellCounter.inc]; omega
        rw [hs, List.take_succ_cons]
        simp only [List.mem_cons]
        by_cases hi : i ∈ cells.take (d.inc.max - d.inc.visited).toNat
        · simp [hi]
        · by_cases hia : i = a
          · subst hia; simp [hi, ha]
          · simp only [hi, hia, if_false, or_false]
            rw [List.getElem?_set]
            simp [Ne.symm hia]
    · have h0 : (d.max - d.visited).toNat = 0 := by omega
      refine ⟨out, ?_, rfl, ?_⟩
      · simp [CellCounter.keepWalking, hk, h0]
      · simp [h0]

end FirstN
end Lue

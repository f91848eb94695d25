import Verif.Aggregate.Model
import Mathlib.Data.List.Range
import Mathlib.Algebra.BigOperators.Group.List.Basic

namespace Lue.Aggregate

variable {α ω τ : Type}

/-- Combine all values with `op`, `none` if there are none. -/
def total (op : τ → τ → τ) : List τ → Option τ
  | [] => Option.none
  | x :: xs => some (xs.foldl op x)

/-- The values aggregated: those which are valid and within the domain. -/
def validCells (P : Policies α ω) (l : List α) : List α := l.filter fun x => !P.indp x && P.dp x

/-- The result of the nested loops over a list of values. -/
def fold1 (init : τ → ω) (step : ω → τ → ω) : List τ → Option ω
  | [] => Option.none
  | x :: xs => some (xs.foldl step (init x))

def valsFrom (n : Nat) (valid : Nat → Option τ) (idx : Nat) : List τ := (List.range' idx (n - idx)).filterMap valid

theorem valsFrom_ge {n idx : Nat} (valid : Nat → Option τ) (h : n ≤ idx) : valsFrom n valid idx = [] := by
  simp [valsFrom, Nat.sub_eq_zero_of_le h]

theorem valsFrom_lt {n idx : Nat} (valid : Nat → Option τ) (h : idx < n) :
    valsFrom n valid idx = (match valid idx with | some x => [x] | Option.none => []) ++ valsFrom n valid (idx + 1) := by
  unfold valsFrom
  have : n - idx = (n - (idx + 1)) + 1 := by omega
  rw [this, List.range'_succ, List.filterMap_cons]
  cases valid idx <;> simp

theorem innerLoop_eq (n : Nat) (valid : Nat → Option τ) (step : ω → τ → ω) (idx : Nat) (result : ω) :
    innerLoop n valid step idx result = (max idx n, (valsFrom n valid idx).foldl step result) := by
  fun_induction innerLoop n valid step idx result with
  | case1 idx result h x hx ih => rw [ih, valsFrom_lt valid h, hx]; simp; omega
  | case2 idx result h hx ih => rw [ih, valsFrom_lt valid h, hx]; simp; omega
  | case3 idx result h => rw [valsFrom_ge valid (by omega)]; simp; omega

theorem outerLoop_eq (n : Nat) (valid : Nat → Option τ) (init : τ → ω) (step : ω → τ → ω) (idx : Nat) (result : ω)
    (hi : idx ≤ n) :
    outerLoop n valid init step idx result =
      match valsFrom n valid idx with
      | [] => (n, result)
      | x :: xs => (n + 1, xs.foldl step (init x)) := by
  fun_induction outerLoop n valid init step idx result with
  | case1 idx result h x hx ih =>
    have e := innerLoop_eq n valid step (idx + 1) (init x)
    rw [valsFrom_lt valid h, hx]
    have hm : max (idx + 1) n = n := by omega
    rw [e, hm]
    unfold outerLoop
    simp
  | case2 idx result h hx ih => rw [ih (by omega), valsFrom_lt valid h, hx]; simp
  | case3 idx result h => rw [valsFrom_ge valid (by omega)]; simp; omega

theorem aggregate_eq (n : Nat) (valid : Nat → Option τ) (init : τ → ω) (step : ω → τ → ω) (default : ω)
    (mark : ω → ω) : aggregate n valid init step default mark =
      (fold1 init step ((List.range n).filterMap valid)).getD (mark default) := by
  have hr : (List.range n).filterMap valid = valsFrom n valid 0 := by simp [valsFrom, List.range_eq_range']
  unfold aggregate
  by_cases hn : n = 0
  · subst hn; simp [fold1]
  · simp only [hn, ↓reduceIte]
    rw [outerLoop_eq n valid init step 0 default (by omega), hr]
    cases valsFrom n valid 0 <;> simp [fold1]

theorem filterMap_get? (l : List α) (f : α → Option τ) :
    (List.range l.length).filterMap (fun i => l[i]?.bind f) = l.filterMap f := by
  induction l with
  | nil => rfl
  | cons a l ih =>
    rw [List.length_cons, List.range_succ_eq_map, List.filterMap_cons, List.filterMap_map]
    simp only [List.getElem?_cons_zero, Option.bind_some]
    have : (fun i => ((a :: l)[i]?).bind f) ∘ Nat.succ = fun i => (l[i]?).bind f := by
      funext i; simp
    rw [this, ih, List.filterMap_cons]

theorem filterMap_ite (p : α → Bool) (l : List α) :
    l.filterMap (fun x => if p x then some x else Option.none) = l.filter p := by
  induction l with
  | nil => rfl
  | cons a l ih => by_cases h : p a <;> simp [h, ih]

theorem aggregatePartition_eq (P : Policies α ω) (F : Functor α ω) (data : List α) :
    aggregatePartition P F data = (fold1 F.one F.step (validCells P data)).getD (P.mark F.none) := by
  unfold aggregatePartition
  rw [aggregate_eq, filterMap_get?]
  congr 2
  unfold validCells
  exact filterMap_ite _ _

theorem aggregateResults_eq (P : Policies α ω) (F : Functor α ω) (results : List ω) :
    aggregateResults P F results =
      (total F.part2 ((results.map F.part1).filter fun r => !P.isNoData r)).getD (P.mark F.none) := by
  unfold aggregateResults
  rw [aggregate_eq, filterMap_get?]
  have : results.filterMap (fun r => let p := F.part1 r; if !P.isNoData p then some p else Option.none) =
      (results.map F.part1).filter fun r => !P.isNoData r := by
    rw [← filterMap_ite, List.filterMap_map]; rfl
  rw [this]
  congr 1

/-! ### Totals -/

theorem foldl_assoc (op : τ → τ → τ) (ha : ∀ a b c, op (op a b) c = op a (op b c)) (x y : τ) (l : List τ) :
    l.foldl op (op x y) = op x (l.foldl op y) := by
  induction l generalizing y with
  | nil => rfl
  | cons z l ih => rw [List.foldl_cons, List.foldl_cons, ha, ih]

theorem total_append (op : τ → τ → τ) (ha : ∀ a b c, op (op a b) c = op a (op b c)) (l m : List τ) :
    total op (l ++ m) = Option.merge op (total op l) (total op m) := by
  cases l with
  | nil => cases m <;> simp [total]
  | cons x l =>
    cases m with
    | nil => simp [total]
    | cons y m =>
      simp only [total, List.cons_append, List.foldl_append, List.foldl_cons, Option.merge_some_some]
      rw [foldl_assoc op ha]

theorem total_cons (op : τ → τ → τ) (ha : ∀ a b c, op (op a b) c = op a (op b c)) (x : τ) (m : List τ) :
    total op (x :: m) = Option.merge op (some x) (total op m) := total_append op ha [x] m

theorem total_perm (op : τ → τ → τ) (ha : ∀ a b c, op (op a b) c = op a (op b c)) (hc : ∀ a b, op a b = op b a)
    {l m : List τ} (h : l.Perm m) : total op l = total op m := by
  induction h with
  | nil => rfl
  | cons x _ ih => rw [total_cons op ha, total_cons op ha, ih]
  | swap x y l =>
    rw [total_cons op ha, total_cons op ha, total_cons op ha, total_cons op ha]
    cases total op l <;> simp [hc x y, ← ha]
  | trans _ _ ih1 ih2 => rw [ih1, ih2]

/-- Combining the totals of the non-empty lists. -/
theorem total_flatten (op : τ → τ → τ) (ha : ∀ a b c, op (op a b) c = op a (op b c)) (ls : List (List τ)) :
    total op ls.flatten = total op (ls.filterMap (total op)) := by
  induction ls with
  | nil => rfl
  | cons l ls ih =>
    rw [List.flatten_cons, total_append op ha, ih, List.filterMap_cons]
    cases hl : total op l with
    | none => simp
    | some t => dsimp only; rw [total_cons op ha]

theorem fold1_map (init : α → ω) (step : ω → α → ω) (h : ω → τ) (φ : α → τ) (op : τ → τ → τ)
    (h1 : ∀ x, h (init x) = φ x) (h2 : ∀ r x, h (step r x) = op (h r) (φ x)) (l : List α) :
    (fold1 init step l).map h = total op (l.map φ) := by
  have key : ∀ (l : List α) (r : ω), h (l.foldl step r) = (l.map φ).foldl op (h r) := by
    intro l
    induction l with
    | nil => intro r; rfl
    | cons x l ih => intro r; rw [List.foldl_cons, ih, h2]; rfl
  cases l with
  | nil => rfl
  | cons x l => simp [fold1, total, key, h1]

end Lue.Aggregate

import Verif.Routing.Direction
import Verif.Focal.Properties
import Verif.FocalStats.Lemmas
import Mathlib.Algebra.Order.Group.Defs
import Mathlib.Algebra.Order.Group.Unbundled.Basic
import Mathlib.Logic.Relation
import Mathlib.Data.Finset.Card
import Mathlib.Data.Finset.Prod
import Mathlib.Data.Finset.Range

/-!
C17: D8 flow directions.
`A` below is `source/framework/algorithm/include/lue/framework/algorithm`.
-/
namespace Lue.Routing

open Lue.Focal Lue.FocalStats

variable {α : Type}

/-- `A/definition/d8_flow_direction.hpp:58-66` (and likewise for the other directions): consider flow to a neighbour.
The state is the drop and the direction. -/
def consider [_root_.Sub α] [LT α] [DecidableRel (α := α) (· < ·)] (isNoData : α → Bool) (window : List α) (i j : Nat)
    (direction : Nat) (s : α × Nat) : M (α × Nat) := do
  let neighbour ← windowGet 3 window i j
  if !isNoData neighbour then
    let centre ← windowGet 3 window 1 1
    let otherDrop := centre - neighbour
    if otherDrop > s.1 then return (otherDrop, direction) else return s
  else return s

/-- `A/definition/d8_flow_direction.hpp:23-148` -/
def d8 [_root_.Sub α] [LT α] [DecidableRel (α := α) (· < ·)] [Zero α] (isNoData : α → Bool) (mark : Nat) (window : List α) :
    M Nat := do
  let centre ← windowGet 3 window 1 1
  if isNoData centre then return mark
  else
    let s := (0, sink)
    let s ← consider isNoData window 0 1 north s
    let s ← consider isNoData window 1 0 west s
    let s ← consider isNoData window 1 2 east s
    let s ← consider isNoData window 2 1 south s
    let s ← consider isNoData window 0 0 northWest s
    let s ← consider isNoData window 0 2 northEast s
    let s ← consider isNoData window 2 0 southWest s
    let s ← consider isNoData window 2 2 southEast s
    return s.2

/-- `A/definition/d8_flow_direction.hpp:158-173`: the focal operation, using a box kernel with radius 1. -/
def d8FlowDirection [_root_.Sub α] [LT α] [DecidableRel (α := α) (· < ·)] [Zero α] (isNoData : α → Bool) (mark : Nat) (halo : Halo α)
    (garbage : Nat → α) (garbage' : Nat → Nat) (order : List Nat) (x : PArr α) : M (PArr Nat) :=
  focal1 halo garbage garbage' (boxKernel 1 true).radius (d8 isNoData mark) order x

/-! ### Specification -/

/-- The directions, in the order in which ties are resolved. -/
def precedence : List Nat := [8, 4, 6, 2, 7, 9, 1, 3]

/-- The elevation in the cell a direction points to. `f` is the elevation in the plane. -/
def elevationAt (f : Int → Int → α) (i j : Nat) (code : Nat) : Option α :=
  (move code).map fun d => f (i + d.1) (j + d.2)

/-- `code` is the direction of a valid neighbour which is lower than the cell itself, at least as low as all other valid
neighbours, and strictly lower than the valid neighbours whose direction has precedence. -/
def IsSteepest [LT α] [LE α] (isNoData : α → Bool) (f : Int → Int → α) (i j code : Nat) : Prop :=
  ∃ before after y, precedence = before ++ code :: after ∧ elevationAt f i j code = some y ∧ isNoData y = false ∧ y < f i j ∧
    (∀ c ∈ before, ∀ z, elevationAt f i j c = some z → isNoData z = false → y < z) ∧
    (∀ c ∈ after, ∀ z, elevationAt f i j c = some z → isNoData z = false → y ≤ z)

/-- No valid neighbour is lower. -/
def NoneLower [LE α] (isNoData : α → Bool) (f : Int → Int → α) (i j : Nat) : Prop :=
  ∀ c ∈ precedence, ∀ z, elevationAt f i j c = some z → isNoData z = false → f i j ≤ z

/-! ### Proofs -/

section
variable [AddCommGroup α] [LinearOrder α] [IsOrderedAddMonoid α] {isNoData : α → Bool}

/-- The neighbours considered until now. -/
def State (isNoData : α → Bool) (f : Int → Int → α) (i j : Nat) (l : List Nat) (s : α × Nat) : Prop :=
  (s = (0, sink) ∧ ∀ c ∈ l, ∀ z, elevationAt f i j c = some z → isNoData z = false → f i j ≤ z) ∨
  (∃ before after y, l = before ++ s.2 :: after ∧ elevationAt f i j s.2 = some y ∧ isNoData y = false ∧ y < f i j ∧
    s.1 = f i j - y ∧
    (∀ c ∈ before, ∀ z, elevationAt f i j c = some z → isNoData z = false → y < z) ∧
    (∀ c ∈ after, ∀ z, elevationAt f i j c = some z → isNoData z = false → y ≤ z))

theorem consider_ok {f : Int → Int → α} {i j : Nat} {l : List Nat} {s : α × Nat} (hs : State isNoData f i j l s)
    {a b : Nat} {code : Nat} (ha : a < 3) (hb : b < 3) (hm : move code = some ((a : Int) - 1, (b : Int) - 1)) :
    ∃ s', consider isNoData (windowAt f 1 i j) a b code s = .ok s' ∧ State isNoData f i j (l ++ [code]) s' := by
  have hw := windowGet_ok f 1 i j (d0 := a) (d1 := b) (by omega) (by omega)
  have hc := windowGet_ok f 1 i j (d0 := 1) (d1 := 1) (by omega) (by omega)
  have hcv : at_ f 1 i j (1, 1) = f i j := by
    unfold at_
    simp only [Nat.cast_one, sub_add_cancel]
  set w := at_ f 1 i j (a, b) with hwv
  have he : elevationAt f i j code = some w := by
    rw [elevationAt, hm, Option.map_some, hwv, at_]
    simp only [Nat.cast_one]
    rw [show (i : Int) + (a - 1) = i - 1 + a by omega, show (j : Int) + (b - 1) = j - 1 + b by omega]
  rw [hcv] at hc
  simp only [show 2 * 1 + 1 = 3 from rfl] at hw hc
  unfold consider
  rw [hw, M.bind_ok, hc, M.bind_ok]
  cases hn : isNoData w with
  | true =>
    refine ⟨s, rfl, ?_⟩
    rcases hs with ⟨h1, h2⟩ | ⟨before, after, y, h1, h2, h3, h4, h5, h6, h7⟩
    · refine .inl ⟨h1, fun c hc z hz hz' => ?_⟩
      rcases List.mem_append.mp hc with hc | hc
      · exact h2 c hc z hz hz'
      · rw [List.mem_singleton] at hc; subst hc
        rw [he, Option.some.injEq] at hz; subst hz
        rw [hn] at hz'; cases hz'
    · refine .inr ⟨before, after ++ [code], y, by rw [h1]; simp, h2, h3, h4, h5, h6, fun c hc z hz hz' => ?_⟩
      rcases List.mem_append.mp hc with hc | hc
      · exact h7 c hc z hz hz'
      · rw [List.mem_singleton] at hc; subst hc
        rw [he, Option.some.injEq] at hz; subst hz
        rw [hn] at hz'; cases hz'
  | false =>
    by_cases hgt : f i j - w > s.1
    · refine ⟨(f i j - w, code), by simp only [Bool.not_false, if_true, hgt]; rfl, ?_⟩
      rcases hs with ⟨h1, h2⟩ | ⟨before, after, y, h1, h2, h3, h4, h5, h6, h7⟩
      · rw [h1] at hgt
        simp only [gt_iff_lt, sub_pos] at hgt
        exact .inr ⟨l, [], w, rfl, he, hn, hgt, rfl,
          fun c hc z hz hz' => lt_of_lt_of_le hgt (h2 c hc z hz hz'), by simp⟩
      · rw [h5] at hgt
        have hwy : w < y := by simpa using hgt
        refine .inr ⟨l, [], w, rfl, he, hn, lt_trans hwy h4, rfl, fun c hc z hz hz' => ?_, by simp⟩
        rw [h1] at hc
        rcases List.mem_append.mp hc with hc | hc
        · exact lt_trans hwy (h6 c hc z hz hz')
        · rcases List.mem_cons.mp hc with hc | hc
          · subst hc
            rw [h2, Option.some.injEq] at hz; subst hz; exact hwy
          · exact lt_of_lt_of_le hwy (h7 c hc z hz hz')
    · refine ⟨s, by simp only [Bool.not_false, if_true, hgt, if_false]; rfl, ?_⟩
      rcases hs with ⟨h1, h2⟩ | ⟨before, after, y, h1, h2, h3, h4, h5, h6, h7⟩
      · rw [h1] at hgt
        simp only [gt_iff_lt, sub_pos, not_lt] at hgt
        refine .inl ⟨h1, fun c hc z hz hz' => ?_⟩
        rcases List.mem_append.mp hc with hc | hc
        · exact h2 c hc z hz hz'
        · rw [List.mem_singleton] at hc; subst hc
          rw [he, Option.some.injEq] at hz; subst hz; exact hgt
      · rw [h5] at hgt
        have hwy : y ≤ w := by simpa using hgt
        refine .inr ⟨before, after ++ [code], y, by rw [h1]; simp, h2, h3, h4, h5, h6, fun c hc z hz hz' => ?_⟩
        rcases List.mem_append.mp hc with hc | hc
        · exact h7 c hc z hz hz'
        · rw [List.mem_singleton] at hc; subst hc
          rw [he, Option.some.injEq] at hz; subst hz; exact hwy

/-- The functor. -/
theorem d8_ok (mark : Nat) (f : Int → Int → α) (i j : Nat) :
    ∃ y, d8 isNoData mark (windowAt f 1 i j) = .ok y ∧
      (isNoData (f i j) = true → y = mark) ∧
      (isNoData (f i j) = false → (y = sink ∧ NoneLower isNoData f i j) ∨ IsSteepest isNoData f i j y) := by
  have hc := windowGet_ok f 1 i j (d0 := 1) (d1 := 1) (by omega) (by omega)
  have hcv : at_ f 1 i j (1, 1) = f i j := by
    unfold at_
    simp only [Nat.cast_one, sub_add_cancel]
  rw [hcv] at hc
  simp only [show 2 * 1 + 1 = 3 from rfl] at hc
  unfold d8
  rw [hc, M.bind_ok]
  cases hn : isNoData (f i j) with
  | true => exact ⟨mark, rfl, fun _ => rfl, fun h => by cases h⟩
  | false =>
    have s0 : State isNoData f i j [] (0, sink) := .inl ⟨rfl, by simp⟩
    obtain ⟨s1, e1, s1'⟩ := consider_ok s0 (a := 0) (b := 1) (code := north) (by omega) (by omega) rfl
    obtain ⟨s2, e2, s2'⟩ := consider_ok s1' (a := 1) (b := 0) (code := west) (by omega) (by omega) rfl
    obtain ⟨s3, e3, s3'⟩ := consider_ok s2' (a := 1) (b := 2) (code := east) (by omega) (by omega) rfl
    obtain ⟨s4, e4, s4'⟩ := consider_ok s3' (a := 2) (b := 1) (code := south) (by omega) (by omega) rfl
    obtain ⟨s5, e5, s5'⟩ := consider_ok s4' (a := 0) (b := 0) (code := northWest) (by omega) (by omega) rfl
    obtain ⟨s6, e6, s6'⟩ := consider_ok s5' (a := 0) (b := 2) (code := northEast) (by omega) (by omega) rfl
    obtain ⟨s7, e7, s7'⟩ := consider_ok s6' (a := 2) (b := 0) (code := southWest) (by omega) (by omega) rfl
    obtain ⟨s8, e8, s8'⟩ := consider_ok s7' (a := 2) (b := 2) (code := southEast) (by omega) (by omega) rfl
    refine ⟨s8.2, ?_, fun h => (by cases h), fun _ => ?_⟩
    · simp only [Bool.false_eq_true, if_false, e1, e2, e3, e4, e5, e6, e7, e8, M.bind_ok]
      rfl
    · rcases s8' with ⟨h1, h2⟩ | ⟨before, after, y, h1, h2, h3, h4, _, h6, h7⟩
      · exact .inl ⟨by rw [h1], h2⟩
      · exact .inr ⟨before, after, y, h1, h2, h3, h4, h6, h7⟩

theorem extended_in (h : Halo α) {a0 a1 : Nat} (v : Arr α) {i j : Nat} (hi : i < a0) (hj : j < a1) :
    extended h a0 a1 v i j = v i j := by
  unfold extended
  rw [if_neg (by omega), if_pos (by omega), if_neg (by omega), if_pos (by omega)]
  rfl

/-- A correct result: no-data cells are marked, valid cells drain to the first of the lowest of the lower valid
neighbours, if any. -/
def IsD8 (isNoData : α → Bool) (mark : Nat) (h : Halo α) (a0 a1 : Nat) (v : Arr α) (fd : Arr Nat) : Prop :=
  ∀ i j, i < a0 → j < a1 → (isNoData (v i j) = true → fd i j = mark) ∧
    (isNoData (v i j) = false → (fd i j = sink ∧ NoneLower isNoData (extended h a0 a1 v) i j) ∨
      IsSteepest isNoData (extended h a0 a1 v) i j (fd i j))

/-- d8_flow_direction, for all elevation models, partitionings and orders of evaluation. -/
theorem d8FlowDirection_spec (isNoData : α → Bool) (mark : Nat) (h : Halo α) (garbage : Nat → α) (garbage' : Nat → Nat)
    {x : PArr α} {v : Arr α} (hx : Represents x v) (hl : LargeEnough x.grid 3) {order : List Nat}
    (ho : IsOrder (x.grid.n0 * x.grid.n1) order) :
    ∃ out fd, d8FlowDirection isNoData mark h garbage garbage' order x = .ok out ∧ out.grid = x.grid ∧
      Represents out fd ∧ IsD8 isNoData mark h x.grid.a0 x.grid.a1 v fd := by
  have hw := fun i j => d8_ok (isNoData := isNoData) mark (extended h x.grid.a0 x.grid.a1 v) i j
  choose w hw using hw
  obtain ⟨out, h1, h2, h3⟩ := focal1_spec h garbage garbage' 1 _ hx hl w (fun i j _ _ => (hw i j).1) ho
  refine ⟨out, w, h1, h2, h3, fun i j hi hj => ?_⟩
  have := (hw i j).2
  rwa [extended_in h v hi hj] at this

/-- Material flows to a lower, valid cell. -/
theorem IsD8.lower {mark : Nat} (hm : move mark = none) {h : Halo α} {a0 a1 : Nat} {v : Arr α} {fd : Arr Nat}
    (hd : IsD8 isNoData mark h a0 a1 v fd) {c c' : Cell} (hc : Drains a0 a1 fd c c') :
    isNoData (v c.1 c.2) = false ∧ isNoData (v c'.1 c'.2) = false ∧ v c'.1 c'.2 < v c.1 c.2 := by
  obtain ⟨h1, h2, h3, h4, d, hmv, h5, h6⟩ := hc
  obtain ⟨hn, hv⟩ := hd c.1 c.2 h1 h2
  cases hb : isNoData (v c.1 c.2) with
  | true => rw [hn hb, hm] at hmv; cases hmv
  | false =>
    rcases hv hb with ⟨hs, _⟩ | ⟨_, _, y, _, he, hy, hlt, _⟩
    · rw [hs] at hmv; cases hmv
    · rw [elevationAt, hmv, Option.map_some, Option.some.injEq, ← h5, ← h6, extended_in h v h3 h4] at he
      subst he
      rw [extended_in h v h1 h2] at hlt
      exact ⟨rfl, hy, hlt⟩

/-- Following the flow directions never leads back to a cell visited before. -/
theorem IsD8.acyclic {mark : Nat} (hm : move mark = none) {h : Halo α} {a0 a1 : Nat} {v : Arr α} {fd : Arr Nat}
    (hd : IsD8 isNoData mark h a0 a1 v fd) (c : Cell) : ¬ Relation.TransGen (Drains a0 a1 fd) c c := by
  have key : ∀ c c', Relation.TransGen (Drains a0 a1 fd) c c' → v c'.1 c'.2 < v c.1 c.2 := by
    intro c c' hp
    induction hp with
    | single h => exact (hd.lower hm h).2.2
    | tail _ h ih => exact lt_trans (hd.lower hm h).2.2 ih
  intro hp
  exact lt_irrefl _ (key c c hp)

/-- Each path ends in a sink, or leaves the array. -/
theorem IsD8.path_ends {mark : Nat} (hm : move mark = none) {h : Halo α} {a0 a1 : Nat} {v : Arr α} {fd : Arr Nat}
    (hd : IsD8 isNoData mark h a0 a1 v fd) {c : Cell} (h0 : c.1 < a0) (h1 : c.2 < a1) (hv : isNoData (v c.1 c.2) = false) :
    ∃ e : Cell, Relation.ReflTransGen (Drains a0 a1 fd) c e ∧ e.1 < a0 ∧ e.2 < a1 ∧ isNoData (v e.1 e.2) = false ∧
      (fd e.1 e.2 = sink ∨ ∃ d, move (fd e.1 e.2) = some d ∧
        ¬ (0 ≤ e.1 + d.1 ∧ e.1 + d.1 < a0 ∧ 0 ≤ e.2 + d.2 ∧ e.2 + d.2 < a1)) := by
  -- the number of lower cells decreases
  let lower (c : Cell) : Finset Cell := (Finset.range a0 ×ˢ Finset.range a1).filter fun c' => v c'.1 c'.2 < v c.1 c.2
  have key : ∀ n (c : Cell), (lower c).card < n → c.1 < a0 → c.2 < a1 → isNoData (v c.1 c.2) = false →
      ∃ e : Cell, Relation.ReflTransGen (Drains a0 a1 fd) c e ∧ e.1 < a0 ∧ e.2 < a1 ∧ isNoData (v e.1 e.2) = false ∧
      (fd e.1 e.2 = sink ∨ ∃ d, move (fd e.1 e.2) = some d ∧
        ¬ (0 ≤ e.1 + d.1 ∧ e.1 + d.1 < a0 ∧ 0 ≤ e.2 + d.2 ∧ e.2 + d.2 < a1)) := by
    intro n
    induction n with
    | zero => intro c hc; omega
    | succ n ih =>
      intro c hn h0 h1 hv
      rcases (hd c.1 c.2 h0 h1).2 hv with ⟨hs, _⟩ | ⟨_, _, y, _, he, _⟩
      · exact ⟨c, .refl, h0, h1, hv, .inl hs⟩
      · rw [elevationAt] at he
        cases hmv : move (fd c.1 c.2) with
        | none => rw [hmv] at he; cases he
        | some d =>
          by_cases hin : 0 ≤ (c.1 : Int) + d.1 ∧ (c.1 : Int) + d.1 < a0 ∧ 0 ≤ (c.2 : Int) + d.2 ∧ (c.2 : Int) + d.2 < a1
          · obtain ⟨b1, b2, b3, b4⟩ := hin
            have hdr : Drains a0 a1 fd c (((c.1 : Int) + d.1).toNat, ((c.2 : Int) + d.2).toNat) :=
              ⟨h0, h1, by simp only; omega, by simp only; omega, d, hmv, by simp only; omega, by simp only; omega⟩
            obtain ⟨_, hv', hlt⟩ := hd.lower hm hdr
            have hcard : (lower (((c.1 : Int) + d.1).toNat, ((c.2 : Int) + d.2).toNat)).card < (lower c).card := by
              apply Finset.card_lt_card
              rw [Finset.ssubset_iff_of_subset]
              · refine ⟨(((c.1 : Int) + d.1).toNat, ((c.2 : Int) + d.2).toNat), ?_, ?_⟩
                · simp only [lower, Finset.mem_filter, Finset.mem_product, Finset.mem_range]
                  exact ⟨⟨by omega, by omega⟩, hlt⟩
                · simp only [lower, Finset.mem_filter, not_and]
                  exact fun _ => lt_irrefl _
              · intro z hz
                simp only [lower, Finset.mem_filter] at hz ⊢
                exact ⟨hz.1, lt_trans hz.2 hlt⟩
            obtain ⟨e, he1, he2⟩ := ih _ (by omega) hdr.2.2.1 hdr.2.2.2.1 hv'
            exact ⟨e, .head hdr he1, he2⟩
          · exact ⟨c, .refl, h0, h1, hv, .inr ⟨d, hmv, hin⟩⟩
  exact key _ c (Nat.lt_succ_self _) h0 h1 hv

/-- In case the halo contains no-data, flow does not leave the array: each path ends in a sink. -/
theorem IsD8.path_ends_in_sink {mark : Nat} (hm : move mark = none) {nd : α} (hnd : isNoData nd = true) {a0 a1 : Nat}
    {v : Arr α} {fd : Arr Nat} (hd : IsD8 isNoData mark ⟨nd, nd, nd, nd, nd, nd, nd, nd⟩ a0 a1 v fd) {c : Cell}
    (h0 : c.1 < a0) (h1 : c.2 < a1) (hv : isNoData (v c.1 c.2) = false) :
    ∃ e : Cell, Relation.ReflTransGen (Drains a0 a1 fd) c e ∧ e.1 < a0 ∧ e.2 < a1 ∧ fd e.1 e.2 = sink := by
  obtain ⟨e, h2, h3, h4, h5, h6⟩ := hd.path_ends hm h0 h1 hv
  refine ⟨e, h2, h3, h4, ?_⟩
  rcases h6 with h6 | ⟨d, hmv, hout⟩
  · exact h6
  · exfalso
    rcases (hd e.1 e.2 h3 h4).2 h5 with ⟨hs, _⟩ | ⟨_, _, y, _, he, hy, _⟩
    · rw [hs] at hmv; cases hmv
    · rw [elevationAt, hmv, Option.map_some, Option.some.injEq] at he
      have : extended ⟨nd, nd, nd, nd, nd, nd, nd, nd⟩ a0 a1 v (e.1 + d.1) (e.2 + d.2) = nd := by
        unfold extended
        simp only
        split_ifs <;> first | rfl | (exfalso; omega)
      rw [this] at he
      rw [← he, hnd] at hy
      cases hy

end

/-- A cone with a hole: 3 × 6 cells in two partitions. Two neighbours of the third cell in the second row have the same
drop: the one to the west has precedence. -/
example : (d8FlowDirection (fun y : Int => y == -999) 255 ⟨-999, -999, -999, -999, -999, -999, -999, -999⟩ (fun _ => 7)
      (fun _ => 7) [1, 0]
      ⟨⟨3, 6, 3, 3⟩, [[9, 8, 7, 9, 1, 6, 9, 5, 7], [3, 4, 5, 1, 14, 15, -999, 24, 25]]⟩).map (fun y => y.parts) =
    .ok [[3, 2, 1, 6, 5, 4, 9, 8, 7], [2, 1, 4, 5, 4, 7, 255, 7, 7]] := by
  rfl

end Lue.Routing

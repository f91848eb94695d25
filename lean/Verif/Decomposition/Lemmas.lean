import Mathlib.Data.List.GetD
import Mathlib.Tactic.Set
import Mathlib.Tactic.Push
import Verif.Index.Properties
import Verif.Visitor.Properties
import Verif.Decomposition.Model
import Verif.Decomposition.Dim

namespace Lue.Decomposition

open Lue.Index Lue.Visitor

theorem isSubsetOf_iff : ∀ (s l : List Nat), s.length = l.length →
    (isSubsetOf s l = true ↔ List.Forall₂ (· ≤ ·) s l)
  | [], [], _ => by simp [isSubsetOf]
  | x :: xs, y :: ys, h => by
    have := isSubsetOf_iff xs ys (by simpa using h)
    simp only [isSubsetOf, List.zipWith_cons_cons, List.all_cons, id, Bool.and_eq_true, decide_eq_true_eq,
      List.forall₂_cons] at *
    rw [this]

theorem nrElements_eq_zero (s : List Nat) : nrElements s = 0 ↔ 0 ∈ s := by
  induction s with
  | nil => simp
  | cons x xs ih => rw [nrElements_cons, Nat.mul_eq_zero, ih]; simp [eq_comm]

theorem reshapeShapes_apply (shapes : Shapes) (b e : List Nat) (d n : Nat) (h0 : b ≠ [])
    (h : b.length = e.length) (i : List Nat) [Decidable (InHyperslab b e i)] :
    reshapeShapes shapes b e d n i = if InHyperslab b e i then (shapes i).set d n else shapes i := by
  unfold reshapeShapes
  have key : ∀ (l : List (List Nat)) (shapes : Shapes), l.Nodup →
      l.foldl (fun shapes idx => fun i => if i = idx then (shapes i).set d n else shapes i) shapes i =
      if i ∈ l then (shapes i).set d n else shapes i := by
    intro l
    induction l with
    | nil => simp
    | cons x xs ih =>
      intro shapes hn
      rw [List.nodup_cons] at hn
      rw [List.foldl_cons, ih _ hn.2]
      by_cases hx : i = x
      · subst hx
        simp [hn.1]
      · simp [hx]
  rw [key _ _ (visitArray_nodup b e h0 h)]
  have := (visitArray_exactly_once_rowMajor b e h0 h).1 i
  by_cases hi : InHyperslab b e i
  · rw [if_pos (this.2 hi), if_pos hi]
  · rw [if_neg (fun hm => hi (this.1 hm)), if_neg hi]

/-- Extents of the partition at given indices, per dimension. -/
def extents : List Nat → List Nat → List Nat → List Nat
  | a :: as, p :: ps, i :: is => Dim.extent a p i :: extents as ps is
  | _, _, _ => []

theorem extents_length : ∀ (as ps is : List Nat), as.length = ps.length → is.length = ps.length →
    (extents as ps is).length = ps.length
  | [], [], [], _, _ => rfl
  | a :: as, p :: ps, i :: is, h1, h2 => by
    simp only [extents, List.length_cons]
    rw [extents_length as ps is (by simpa using h1) (by simpa using h2)]

theorem extents_getD : ∀ (as ps is : List Nat) (d : Nat), as.length = ps.length → is.length = ps.length →
    d < ps.length → (extents as ps is).getD d 0 = Dim.extent (as.getD d 0) (ps.getD d 0) (is.getD d 0)
  | [], [], [], d, _, _, hd => absurd hd (by simp)
  | a :: as, p :: ps, i :: is, d, h1, h2, hd => by
    cases d with
    | zero => rfl
    | succ d =>
      simp only [extents, List.getD_cons_succ]
      exact extents_getD as ps is d (by simpa using h1) (by simpa using h2) (by simpa using hd)

theorem forall₂_set_le (z : List Nat) (i : List Nat) (h : z.length = i.length) (hz : ∀ x ∈ z, x = 0)
    (d v : Nat) (hd : d < z.length) : List.Forall₂ (· ≤ ·) (z.set d v) i ↔ v ≤ i.getD d 0 := by
  induction z generalizing i d with
  | nil => simp at hd
  | cons x xs ih =>
    cases i with
    | nil => simp at h
    | cons y ys =>
    have hx : x = 0 := hz x (by simp)
    cases d with
    | zero =>
      simp only [List.set_cons_zero, List.forall₂_cons, List.getD_cons_zero]
      refine ⟨fun h => h.1, fun hv => ⟨hv, ?_⟩⟩
      have hxs : ∀ x ∈ xs, x = 0 := fun x hx => hz x (by simp [hx])
      have hl : xs.length = ys.length := by simpa using h
      clear ih h hz hd hv hx
      induction xs generalizing ys with
      | nil => cases ys with
        | nil => exact .nil
        | cons _ _ => simp at hl
      | cons x xs ih => cases ys with
        | nil => simp at hl
        | cons y ys =>
          have := hxs x (by simp)
          subst this
          exact .cons (Nat.zero_le _) (ih _ (fun x hx => hxs x (by simp [hx])) (by simpa using hl))
    | succ d =>
      simp only [List.set_cons_succ, List.forall₂_cons, List.getD_cons_succ]
      rw [ih ys (by simpa using h) (fun x hx => hz x (by simp [hx])) d (by simpa using hd)]
      simp [hx]

theorem set_getD_self (l : List Nat) (d : Nat) : l.set d (l.getD d 0) = l := by
  by_cases h : d < l.length
  · rw [List.getD_eq_getElem _ _ h]; simp
  · rw [List.set_eq_of_length_le (by omega)]

theorem shapes_loop (as ps : List Nat) (h : as.length = ps.length) (hp : ∀ p ∈ ps, 0 < p) (h0 : ps ≠ [])
    (is : List Nat) (his : InShape is (List.zipWith (fun a p => a / p) as ps)) (k : Nat) (hk : k ≤ ps.length) :
    let n := List.zipWith (fun a p => a / p) as ps
    let r := (List.range k).foldl (fun (shapes : Shapes) d =>
      let newExtent := ps.getD d 0 + as.getD d 0 - n.getD d 0 * ps.getD d 0
      if newExtent ≠ ps.getD d 0 then
        reshapeShapes shapes ((n.map fun _ => 0).set d (n.getD d 0 - 1)) (n.set d (n.getD d 0)) d newExtent
      else shapes) (fun _ => ps) is
    r.length = ps.length ∧
    ∀ d, r.getD d 0 = if d < k then (extents as ps is).getD d 0 else ps.getD d 0 := by
  intro n
  have hnl : n.length = ps.length := by simp [n, h]
  have hisl : is.length = ps.length := by rw [← hnl]; exact his.length_eq
  have hex := extents_length as ps is h hisl
  have hnd : ∀ d, d < ps.length → n.getD d 0 = as.getD d 0 / ps.getD d 0 := by
    intro d hd
    simp [n, List.getD, hd, h]
  induction k with
  | zero => simp
  | succ k ih =>
    intro r
    obtain ⟨ih1, ih2⟩ := ih (by omega)
    have hkl : k < ps.length := by omega
    set prev := (List.range k).foldl (fun (shapes : Shapes) d =>
      let newExtent := ps.getD d 0 + as.getD d 0 - n.getD d 0 * ps.getD d 0
      if newExtent ≠ ps.getD d 0 then
        reshapeShapes shapes ((n.map fun _ => 0).set d (n.getD d 0 - 1)) (n.set d (n.getD d 0)) d newExtent
      else shapes) (fun _ => ps) with hprev
    have hE : (extents as ps is).getD k 0 = Dim.extent (as.getD k 0) (ps.getD k 0) (is.getD k 0) :=
      extents_getD as ps is k h hisl hkl
    have hik : is.getD k 0 < n.getD k 0 := by
      have h1 : k < is.length := by omega
      have h2 : k < n.length := by omega
      rw [List.getD_eq_getElem _ _ h1, List.getD_eq_getElem _ _ h2]
      exact List.Forall₂.get his h1 h2
    -- the value at this index after the step
    have hr : r = if is.getD k 0 = n.getD k 0 - 1 then
        (prev is).set k (ps.getD k 0 + as.getD k 0 - n.getD k 0 * ps.getD k 0) else prev is := by
      classical
      simp only [r, List.range_succ, List.foldl_append, List.foldl_cons, List.foldl_nil]
      rw [← hprev]
      by_cases hne : ps.getD k 0 + as.getD k 0 - n.getD k 0 * ps.getD k 0 ≠ ps.getD k 0
      · rw [if_pos hne, reshapeShapes_apply _ _ _ _ _ (by
          intro hnil
          have := congrArg List.length hnil
          simp [hnl] at this; exact h0 (List.eq_nil_of_length_eq_zero (by simp [this]))) (by simp)]
        have hiff : InHyperslab ((n.map fun _ => 0).set k (n.getD k 0 - 1)) (n.set k (n.getD k 0)) is ↔
            is.getD k 0 = n.getD k 0 - 1 := by
          unfold InHyperslab
          rw [set_getD_self, forall₂_set_le _ _ (by simp [hnl, hisl]) (by simp) _ _ (by simp [hnl, hkl])]
          constructor
          · intro ⟨h1, _⟩; omega
          · intro h; exact ⟨by omega, his⟩
        by_cases hl : is.getD k 0 = n.getD k 0 - 1
        · rw [if_pos (hiff.2 hl), if_pos hl]
        · rw [if_neg (fun hh => hl (hiff.1 hh)), if_neg hl]
      · rw [if_neg hne]
        push Not at hne
        rw [hne]
        split
        · rw [← set_getD_self (prev is) k, ih2 k]
          simp
        · rfl
    have hval : (if is.getD k 0 = n.getD k 0 - 1 then
        ps.getD k 0 + as.getD k 0 - n.getD k 0 * ps.getD k 0 else ps.getD k 0) = (extents as ps is).getD k 0 := by
      rw [hE, Dim.extent, hnd k hkl]
    refine ⟨by rw [hr]; split <;> simp [ih1], fun d => ?_⟩
    rw [hr]
    rcases Nat.lt_trichotomy d k with hd | hd | hd
    · have : d < k + 1 := by omega
      rw [if_pos this]
      have := ih2 d
      rw [if_pos hd] at this
      rw [← this]
      split
      · have : k ≠ d := by omega
        simp [List.getD, this]
      · rfl
    · subst hd
      rw [if_pos (Nat.lt_succ_self d), ← hval]
      have hdl : d < (prev is).length := by omega
      split
      · rw [List.getD_eq_getElem _ _ (by simpa using hdl)]; simp
      · have := ih2 d
        rw [if_neg (Nat.lt_irrefl d)] at this
        exact this
    · have : ¬ d < k + 1 := by omega
      rw [if_neg this]
      have := ih2 d
      rw [if_neg (by omega)] at this
      rw [← this]
      split
      · have : k ≠ d := by omega
        simp [List.getD, this]
      · rfl

theorem partitionShapes_ok (as ps : List Nat) (h : as.length = ps.length) (h0 : ps ≠ [])
    (hp : ∀ p ∈ ps, 0 < p) (hle : List.Forall₂ (· ≤ ·) ps as) :
    ∃ shapes, partitionShapes as ps = .ok (List.zipWith (fun a p => a / p) as ps, shapes) ∧
      ∀ is, InShape is (List.zipWith (fun a p => a / p) as ps) → shapes is = extents as ps is := by
  have hp0 : nrElements ps ≠ 0 := by
    rw [Ne, nrElements_eq_zero]; intro hm; exact absurd (hp 0 hm) (by omega)
  have ha0 : nrElements as ≠ 0 := by
    rw [Ne, nrElements_eq_zero]
    intro hm
    clear hp0 h0 h
    induction hle with
    | nil => simp at hm
    | @cons p a ps as hpa _ ih =>
      rcases List.mem_cons.1 hm with h | h
      · have := hp p (by simp)
        have hpa' : p ≤ a := hpa
        omega
      · exact ih (fun p hp' => hp p (by simp [hp'])) h
  have hs : isSubsetOf ps as = true := (isSubsetOf_iff ps as h.symm).2 hle
  unfold partitionShapes
  rw [if_neg ha0, if_neg hp0, if_neg (by simp [hs])]
  refine ⟨_, rfl, fun is his => ?_⟩
  have := shapes_loop as ps h hp h0 is his ps.length (le_refl _)
  rw [← h] at this
  obtain ⟨t1, t2⟩ := this
  have hisl : is.length = ps.length := by
    have := his.length_eq
    simpa [h] using this
  have hex := extents_length as ps is h hisl
  apply List.ext_getElem
  · rw [t1]; omega
  · intro d h1 h2
    have := t2 d
    rw [if_pos (by omega)] at this
    rw [List.getD_eq_getElem _ _ h1, List.getD_eq_getElem _ _ h2] at this
    exact this

theorem partitionOffset_extents : ∀ (as ps is : List Nat),
    InShape is (List.zipWith (fun a p => a / p) as ps) →
    partitionOffset is (extents as ps (is.map fun _ => 0)) = partitionOffset is ps
  | [], _, [], _ => rfl
  | _ :: _, [], [], _ => rfl
  | a :: as, p :: ps, i :: is, h => by
    have h' := List.forall₂_cons.1 h
    have ih := partitionOffset_extents as ps is h'.2
    simp only [partitionOffset, List.map_cons, extents, List.zipWith_cons_cons] at *
    rw [ih]
    congr 1
    rcases Nat.eq_zero_or_pos i with h0 | h0
    · simp [h0]
    · rw [Dim.extent_of_not_last (show 0 + 1 < a / p by omega)]
  | [], _, _ :: _, h => by cases h
  | _ :: _, [], _ :: _, h => by cases h
  | _ :: _, _ :: _, [], h => by cases h

theorem zeros_inShape : ∀ (is n : List Nat), InShape is n → InShape (is.map fun _ => 0) n
  | [], [], _ => .nil
  | _ :: is, _ :: n, h => by
    have h' := List.forall₂_cons.1 h
    exact .cons (Nat.lt_of_le_of_lt (Nat.zero_le _) h'.1) (zeros_inShape is n h'.2)
  | [], _ :: _, h => by cases h
  | _ :: _, [], h => by cases h

theorem extents_bounds : ∀ (as ps is : List Nat), as.length = ps.length → is.length = ps.length →
    (∀ p ∈ ps, 0 < p) → List.Forall₂ (fun p e => p ≤ e ∧ e < 2 * p) ps (extents as ps is)
  | [], [], [], _, _, _ => .nil
  | a :: as, p :: ps, i :: is, h1, h2, hp =>
    .cons ⟨Dim.extent_ge (hp p (by simp)) i, Dim.extent_lt (hp p (by simp)) i⟩
      (extents_bounds as ps is (by simpa using h1) (by simpa using h2) fun q hq => hp q (by simp [hq]))

/-- Existence of the partition of a cell. -/
theorem tile_exists : ∀ (as ps cell : List Nat), List.Forall₂ (· ≤ ·) ps as → (∀ p ∈ ps, 0 < p) →
    InShape cell as → ∃ is ls, InShape is (List.zipWith (fun a p => a / p) as ps) ∧
      InShape ls (extents as ps is) ∧ cell = List.zipWith (· + ·) (partitionOffset is ps) ls
  | [], [], [], _, _, _ => ⟨[], [], .nil, .nil, rfl⟩
  | a :: as, p :: ps, c :: cs, hle, hp, hc => by
    rw [List.forall₂_cons] at hle
    have hc' := List.forall₂_cons.1 hc
    obtain ⟨is, ls, h1, h2, h3⟩ := tile_exists as ps cs hle.2 (fun q hq => hp q (by simp [hq])) hc'.2
    have hp0 := hp p (by simp)
    refine ⟨Dim.locate a p c :: is, (c - Dim.locate a p c * p) :: ls,
      .cons (Dim.locate_lt hp0 hle.1 c) h1, .cons ?_ h2, ?_⟩
    · show c - Dim.locate a p c * p < Dim.extent a p (Dim.locate a p c)
      have := Dim.lt_locate_end hp0 hle.1 hc'.1
      have := @Dim.locate_mul_le a p c
      omega
    · have := @Dim.locate_mul_le a p c
      simp only [partitionOffset, List.zipWith_cons_cons] at *
      rw [← h3]
      congr 1; omega

theorem tile_unique : ∀ (as ps is ls is' ls' : List Nat), List.Forall₂ (· ≤ ·) ps as → (∀ p ∈ ps, 0 < p) →
    InShape is (List.zipWith (fun a p => a / p) as ps) → InShape ls (extents as ps is) →
    InShape is' (List.zipWith (fun a p => a / p) as ps) → InShape ls' (extents as ps is') →
    List.zipWith (· + ·) (partitionOffset is ps) ls = List.zipWith (· + ·) (partitionOffset is' ps) ls' →
    is = is' ∧ ls = ls'
  | [], [], [], [], [], [], _, _, _, _, _, _, _ => ⟨rfl, rfl⟩
  | a :: as, p :: ps, i :: is, l :: ls, i' :: is', l' :: ls', hle, hp, h1, h2, h3, h4, he => by
    rw [List.forall₂_cons] at hle
    have h1' := List.forall₂_cons.1 h1
    have h2' := List.forall₂_cons.1 h2
    have h3' := List.forall₂_cons.1 h3
    have h4' := List.forall₂_cons.1 h4
    simp only [partitionOffset, List.zipWith_cons_cons, List.cons.injEq] at he
    have hp0 := hp p (by simp)
    have := tile_unique as ps is ls is' ls' hle.2 (fun q hq => hp q (by simp [hq])) h1'.2 h2'.2 h3'.2 h4'.2 he.2
    have e1 := Dim.locate_unique hp0 hle.1 h1'.1 h2'.1
    have e2 := Dim.locate_unique hp0 hle.1 h3'.1 h4'.1
    rw [he.1, e2] at e1
    subst e1
    have hl : l = l' := by omega
    rw [this.1, this.2, hl]
    exact ⟨rfl, rfl⟩
  | [], [], [], _ :: _, _, _, _, _, _, h2, _, _, _ => by cases h2
  | [], [], [], [], [], _ :: _, _, _, _, _, _, h4, _ => by cases h4
  | _ :: _, _ :: _, _ :: _, [], _, _, _, _, _, h2, _, _, _ => by cases h2
  | _ :: _, _ :: _, _ :: _, _ :: _, _ :: _, [], _, _, _, _, _, h4, _ => by cases h4
  | _ :: _, _ :: _, _ :: _, _ :: _, [], _, _, _, _, _, h3, _, _ => by cases h3
  | _ :: _, _ :: _, [], _, _, _, _, _, h1, _, _, _, _ => by cases h1
  | [], [], [], [], _ :: _, _, _, _, _, _, h3, _, _ => by cases h3
  | [], [], _ :: _, _, _, _, _, _, h1, _, _, _, _ => by cases h1
  | [], _ :: _, _, _, _, _, hle, _, _, _, _, _, _ => by cases hle
  | _ :: _, [], _, _, _, _, hle, _, _, _, _, _, _ => by cases hle

theorem tile_inside : ∀ (as ps is ls : List Nat), List.Forall₂ (· ≤ ·) ps as → (∀ p ∈ ps, 0 < p) →
    InShape is (List.zipWith (fun a p => a / p) as ps) → InShape ls (extents as ps is) →
    InShape (List.zipWith (· + ·) (partitionOffset is ps) ls) as
  | [], [], [], [], _, _, _, _ => .nil
  | a :: as, p :: ps, i :: is, l :: ls, hle, hp, h1, h2 => by
    rw [List.forall₂_cons] at hle
    have h1' := List.forall₂_cons.1 h1
    have h2' := List.forall₂_cons.1 h2
    exact .cons (Dim.decompose_lt (hp p (by simp)) hle.1 h1'.1 h2'.1)
      (tile_inside as ps is ls hle.2 (fun q hq => hp q (by simp [hq])) h1'.2 h2'.2)
  | [], [], [], _ :: _, _, _, _, h2 => by cases h2
  | _ :: _, _ :: _, _ :: _, [], _, _, _, h2 => by cases h2
  | _ :: _, _ :: _, [], _, _, _, h1, _ => by cases h1
  | [], [], _ :: _, _, _, _, h1, _ => by cases h1
  | [], _ :: _, _, _, hle, _, _, _ => by cases hle
  | _ :: _, [], _, _, hle, _, _, _ => by cases hle

end Lue.Decomposition

import Verif.DecreasingOrder.Spec
import Verif.FirstN.Lemmas
import Mathlib.Algebra.BigOperators.Group.List.Basic
import Mathlib.Data.List.TakeWhile
import Mathlib.Tactic.Common

/-! Lemmas about the loops of `decreasing_order`. -/
namespace Lue.AMap

variable {K V : Type} [DecidableEq K]

/-- The sum of a number per element. -/
def weight (f : V → Nat) (m : AMap K V) : Nat := (m.map fun e => f e.2).sum

theorem weight_nil (f : V → Nat) : weight f ([] : AMap K V) = 0 := rfl

theorem weight_cons (f : V → Nat) (k : K) (v : V) (m : AMap K V) : weight f ((k, v) :: m) = f v + weight f m := by
  simp [weight]

theorem weight_put_new (f : V → Nat) {m : AMap K V} {k : K} (h : get m k = none) (v : V) : weight f (put m k v) = weight f m + f v := by
  induction m with
  | nil => simp [put, weight]
  | cons e m ih =>
    obtain ⟨a, b⟩ := e
    rw [get_cons] at h
    split at h
    · cases h
    · rename_i hne
      simp only [put, hne, if_false, weight_cons, ih h]
      omega

theorem weight_put_old (f : V → Nat) {m : AMap K V} {k : K} {v : V} (h : get m k = some v) (v' : V) :
    weight f (put m k v') + f v = weight f m + f v' := by
  induction m with
  | nil => simp [get_nil] at h
  | cons e m ih =>
    obtain ⟨a, b⟩ := e
    rw [get_cons] at h
    split at h
    · rename_i heq
      subst heq
      injection h with h
      subst h
      simp only [put, if_true, weight_cons]
      omega
    · rename_i hne
      simp only [put, hne, if_false, weight_cons]
      have := ih h
      omega

theorem erase_cons (k' : K) (v : V) (m : AMap K V) (k : K) :
    erase ((k', v) :: m) k = if k' = k then erase m k else (k', v) :: erase m k := by
  unfold erase
  rw [List.filter_cons]
  by_cases h : k' = k <;> simp [h]

theorem weight_erase (f : V → Nat) {m : AMap K V} (hm : Ok m) {k : K} {v : V} (h : get m k = some v) :
    weight f (erase m k) + f v = weight f m := by
  induction m with
  | nil => simp [get_nil] at h
  | cons e m ih =>
    obtain ⟨a, b⟩ := e
    have hm' : Ok m := (List.nodup_cons.1 hm).2
    rw [get_cons] at h
    split at h
    · rename_i heq
      subst heq
      injection h with h
      subst h
      rw [erase_cons, if_pos rfl, weight_cons]
      have : erase m a = m := by
        unfold erase
        rw [List.filter_eq_self]
        intro e he
        have hn := (List.nodup_cons.1 hm).1
        simp only [ne_eq, decide_not, Bool.not_eq_eq_eq_not, Bool.not_true, decide_eq_false_iff_not]
        rintro rfl
        exact hn (List.mem_map.2 ⟨e, he, rfl⟩)
      rw [this]
      omega
    · rename_i hne
      rw [erase_cons, if_neg hne, weight_cons, weight_cons]
      have := ih hm' h
      omega

theorem get_map_val {W : Type} (m : AMap K V) (f : V → W) (k : K) :
    get (m.map fun e => (e.1, f e.2)) k = (get m k).map f := by
  induction m with
  | nil => rfl
  | cons e m ih =>
    obtain ⟨a, b⟩ := e
    rw [List.map_cons, get_cons, get_cons, ih]
    by_cases h : a = k <;> simp [h]

theorem ok_map_val {W : Type} {m : AMap K V} (h : Ok m) (f : V → W) : Ok (m.map fun e => (e.1, f e.2)) := by
  unfold Ok at *
  simpa [Function.comp_def] using h

theorem weight_map_val {W : Type} (m : AMap K V) (g : V → W) (f : W → Nat) :
    weight f (m.map fun e => (e.1, g e.2)) = weight (fun v => f (g v)) m := by
  simp [weight, Function.comp_def]

end Lue.AMap

namespace Lue.DecreasingOrder

open Lue.FirstN (Fragment Piece)

variable {V : Type} [LinearOrder V]

/-- The values and cells in zone `r`, in order of the cells. -/
def localOf (r : Int) : List (Option Int) → List (Option V) → Nat → List (V × Nat)
  | z :: zs, v :: vs, idx =>
    (if z = some r then (match v with | some v => [(v, idx)] | none => []) else []) ++ localOf r zs vs (idx + 1)
  | _, _, _ => []

theorem localOf_cons (r : Int) (z : Option Int) (zs : List (Option Int)) (v : Option V) (vs : List (Option V)) (idx : Nat) :
    localOf r (z :: zs) (v :: vs) idx =
      (if z = some r then (match v with | some v => [(v, idx)] | none => []) else []) ++ localOf r zs vs (idx + 1) := rfl

theorem mem_localOf {r : Int} {zs : List (Option Int)} {vs : List (Option V)} {idx : Nat} {v : V} {i : Nat} :
    (v, i) ∈ localOf r zs vs idx ↔ idx ≤ i ∧ zs[i - idx]? = some (some r) ∧ vs[i - idx]? = some (some v) := by
  induction zs generalizing vs idx with
  | nil => simp [localOf]
  | cons z zs ih =>
    cases vs with
    | nil => simp [localOf]
    | cons w vs =>
      rw [localOf_cons, List.mem_append, ih]
      by_cases hi : i = idx
      · subst hi
        simp only [Nat.sub_self, List.getElem?_cons_zero, Option.some.injEq, le_refl, true_and]
        constructor
        · rintro (h | ⟨h, _⟩)
          · split at h
            · rename_i hz
              cases w with
              | none => simp at h
              | some w => simp at h; exact ⟨hz, by rw [h]⟩
            · simp at h
          · omega
        · rintro ⟨rfl, rfl⟩
          left; simp
      · constructor
        · rintro (h | ⟨h1, h2, h3⟩)
          · split at h
            · cases w with
              | none => simp at h
              | some w => simp at h; exact absurd h.2 hi
            · simp at h
          · have : i - idx = (i - (idx + 1)) + 1 := by omega
            rw [this]
            exact ⟨by omega, h2, h3⟩
        · rintro ⟨h1, h2, h3⟩
          right
          have : i - idx = (i - (idx + 1)) + 1 := by omega
          rw [this] at h2 h3
          exact ⟨by omega, h2, h3⟩

theorem localOf_nodup (r : Int) (zs : List (Option Int)) (vs : List (Option V)) (idx : Nat) :
    ((localOf r zs vs idx).map Prod.snd).Nodup := by
  induction zs generalizing vs idx with
  | nil => simp [localOf]
  | cons z zs ih =>
    cases vs with
    | nil => simp [localOf]
    | cons w vs =>
      rw [localOf_cons, List.map_append, List.nodup_append]
      refine ⟨?_, ih _ _, ?_⟩
      · split
        · cases w <;> simp
        · simp
      · intro a ha b hb
        obtain ⟨⟨v, b⟩, hb', rfl⟩ := List.mem_map.1 hb
        have hb := (mem_localOf.1 hb').1
        have ha : a = idx := by
          split at ha
          · cases w <;> simp at ha; exact ha
          · simp at ha
        simp only
        omega

theorem collect_get (zs : List (Option Int)) (vs : List (Option V)) (idx : Nat) (m : AMap Int (List (V × Nat))) (r : Int) :
    (collect zs vs idx m).get r =
      if localOf r zs vs idx = [] then m.get r else some ((m.get r).getD [] ++ localOf r zs vs idx) := by
  induction zs generalizing vs idx m with
  | nil => simp [localOf, collect]
  | cons z zs ih =>
    cases vs with
    | nil => cases z <;> simp [localOf, collect]
    | cons w vs =>
      cases z with
      | none => simp only [collect, ih, localOf_cons, reduceCtorEq, if_false, List.nil_append]
      | some z =>
        cases w with
        | none => simp only [collect, ih, localOf_cons, ite_self, List.nil_append]
        | some v =>
          rw [collect, ih, localOf_cons, AMap.get_put]
          by_cases hz : z = r
          · subst hz
            by_cases h : localOf z zs vs (idx + 1) = [] <;> simp [h]
          · simp [hz]

theorem collect_ok (zs : List (Option Int)) (vs : List (Option V)) (idx : Nat) {m : AMap Int (List (V × Nat))} (h : m.Ok) :
    (collect zs vs idx m).Ok := by
  induction zs generalizing vs idx m with
  | nil => simpa [collect] using h
  | cons z zs ih =>
    cases vs with
    | nil => cases z <;> simpa [collect] using h
    | cons w vs =>
      cases z with
      | none => simpa only [collect] using ih _ _ h
      | some z =>
        cases w with
        | none => simpa only [collect] using ih _ _ h
        | some v => simpa only [collect] using ih _ _ (h.put _ _)

/-- The number of messages that may be needed for the values of a partition. -/
def load (m : AMap Int (List (V × Nat))) : Nat := m.weight fun l => l.length + 1

theorem collect_load (zs : List (Option Int)) (vs : List (Option V)) (idx : Nat) (m : AMap Int (List (V × Nat))) :
    load (collect zs vs idx m) ≤ load m + 2 * vs.length := by
  induction zs generalizing vs idx m with
  | nil => simp [collect]
  | cons z zs ih =>
    cases vs with
    | nil => cases z <;> simp [collect]
    | cons w vs =>
      have hl : (w :: vs).length = vs.length + 1 := rfl
      cases z with
      | none =>
        simp only [collect]
        have := ih vs (idx + 1) m
        omega
      | some z =>
        cases w with
        | none =>
          simp only [collect]
          have := ih vs (idx + 1) m
          omega
        | some v =>
          simp only [collect]
          have h1 := ih vs (idx + 1) (m.put z ((m.get z).getD [] ++ [(v, idx)]))
          have h2 : load (m.put z ((m.get z).getD [] ++ [(v, idx)])) ≤ load m + 2 := by
            unfold load
            cases hg : m.get z with
            | none => rw [AMap.weight_put_new _ hg]; simp
            | some l =>
              have := AMap.weight_put_old (fun l => l.length + 1) hg (l ++ [(v, idx)])
              simp only [List.length_append, List.length_cons, List.length_nil, Option.getD_some] at this ⊢
              omega
          omega

/-- The loop recording cells takes the first ones. -/
theorem recordCells_ok (remote : V) (max : Int) (l : List (V × Nat)) (cur : Int) :
    ∃ k, recordCells remote max l cur = ((l.take k).map Prod.snd, cur + k) ∧ k ≤ l.length ∧ k ≤ (max - cur).toNat ∧
      (∀ x ∈ l.take k, remote ≤ x.1) ∧ (cur + k < max → ∀ x, l[k]? = some x → x.1 < remote) := by
  induction l generalizing cur with
  | nil => exact ⟨0, by simp [recordCells], by simp, by simp, by simp, by simp⟩
  | cons a l ih =>
    obtain ⟨v, i⟩ := a
    unfold recordCells
    by_cases h1 : cur < max
    · by_cases h2 : remote ≤ v
      · obtain ⟨k, h3, h4, h5, h6, h7⟩ := ih (cur + 1)
        refine ⟨k + 1, ?_, by simp; omega, by omega, ?_, ?_⟩
        · simp only [h1, h2, if_true, h3, List.take_succ_cons, List.map_cons]
          congr 1
          push_cast
          omega
        · intro x hx
          rw [List.take_succ_cons, List.mem_cons] at hx
          rcases hx with rfl | hx
          · exact h2
          · exact h6 x hx
        · intro h8 x hx
          exact h7 (by push_cast at h8; omega) x (by simpa using hx)
      · refine ⟨0, by simp [h1, h2], by simp, by simp, by simp, ?_⟩
        intro _ x hx
        simp only [List.getElem?_cons_zero, Option.some.injEq] at hx
        subst hx
        exact not_le.1 h2
    · refine ⟨0, by simp [h1], by simp, by simp, by simp, ?_⟩
      intro h
      simp at h
      exact absurd h h1

theorem insertMaximum_perm (new : V) (p : Nat) (l : List (V × Nat)) : (insertMaximum new p l).Perm ((new, p) :: l) := by
  unfold insertMaximum
  refine List.perm_middle.trans ?_
  rw [List.takeWhile_append_dropWhile]

theorem insertMaximum_sorted (new : V) (p : Nat) {l : List (V × Nat)} (h : l.Pairwise fun a b => b.1 ≤ a.1) :
    (insertMaximum new p l).Pairwise fun a b => b.1 ≤ a.1 := by
  unfold insertMaximum
  rw [List.pairwise_append]
  have hsplit : l.takeWhile (fun m => decide (new < m.1)) ++ l.dropWhile (fun m => decide (new < m.1)) = l :=
    List.takeWhile_append_dropWhile
  rw [← hsplit, List.pairwise_append] at h
  obtain ⟨h1, h2, h3⟩ := h
  have hdrop : ∀ x ∈ l.dropWhile (fun m => decide (new < m.1)), x.1 ≤ new := by
    intro x hx
    cases hd : l.dropWhile (fun m => decide (new < m.1)) with
    | nil => rw [hd] at hx; simp at hx
    | cons y ys =>
      have hy : y.1 ≤ new := by
        have := List.head_dropWhile_not (fun m : V × Nat => decide (new < m.1)) (w := by rw [hd]; simp)
        simp only [hd, List.head_cons, decide_eq_false_iff_not, not_lt] at this
        exact this
      rw [hd] at hx h2
      rcases List.mem_cons.1 hx with rfl | hx
      · exact hy
      · exact le_trans ((List.pairwise_cons.1 h2).1 x hx) hy
  refine ⟨h1, ?_, ?_⟩
  · rw [List.pairwise_cons]
    exact ⟨hdrop, h2⟩
  · intro a ha b hb
    rcases List.mem_cons.1 hb with rfl | hb
    · have := List.mem_takeWhile_imp ha
      simp only [decide_eq_true_eq] at this
      exact le_of_lt this
    · exact h3 a ha b hb

theorem insertMaximum_head {new vq : V} {p q : Nat} {rest : List (V × Nat)} (h : new < vq) :
    ∃ rest', insertMaximum new p ((vq, q) :: rest) = (vq, q) :: rest' := by
  unfold insertMaximum
  rw [List.takeWhile_cons]
  simp [h]

/-! Collecting the maxima -/

theorem addMaxima_get (p : Nat) {l : AMap Int V} (hl : l.Ok) (m : AMap Int (List (V × Nat))) (r : Int) :
    (addMaxima p l m).get r = match l.get r with
      | none => m.get r
      | some v => some ((m.get r).getD [] ++ [(v, p)]) := by
  induction l generalizing m with
  | nil => simp [addMaxima, AMap.get_nil]
  | cons e l ih =>
    obtain ⟨z, v⟩ := e
    have hl' : AMap.Ok l := (List.nodup_cons.1 hl).2
    have hz : z ∉ l.map Prod.fst := (List.nodup_cons.1 hl).1
    rw [addMaxima, ih hl', AMap.get_cons, AMap.get_put]
    by_cases h : z = r
    · subst h
      have : AMap.get l z = none := by
        cases hg : AMap.get l z with
        | none => rfl
        | some w => exact absurd (AMap.get_isSome.1 ⟨w, hg⟩) hz
      simp [this]
    · simp [h]

theorem addMaxima_ok (p : Nat) (l : AMap Int V) {m : AMap Int (List (V × Nat))} (hm : m.Ok) : (addMaxima p l m).Ok := by
  induction l generalizing m with
  | nil => exact hm
  | cons e l ih =>
    obtain ⟨z, v⟩ := e
    exact ih (hm.put _ _)

/-- The maxima of zone `r`, in order of the partitions. -/
def maximaOf (maxima : Nat → AMap Int V) (r : Int) (n : Nat) : List (V × Nat) :=
  (List.range n).filterMap fun p => ((maxima p).get r).map fun v => (v, p)

theorem collectMaxima_get {maxima : Nat → AMap Int V} {n : Nat} (h : ∀ p < n, (maxima p).Ok) (r : Int) :
    (collectMaxima maxima n).get r = if maximaOf maxima r n = [] then none else some (maximaOf maxima r n) := by
  induction n with
  | zero => simp [collectMaxima, maximaOf, AMap.get_nil]
  | succ n ih =>
    have ih := ih fun p hp => h p (by omega)
    unfold collectMaxima maximaOf at *
    rw [List.range_succ, List.foldl_append, List.filterMap_append]
    simp only [List.foldl_cons, List.foldl_nil]
    rw [addMaxima_get n (h n (by omega)), ih]
    cases hg : (maxima n).get r with
    | none => simp [hg]
    | some v =>
      simp only [List.filterMap_cons, hg, Option.map_some, List.filterMap_nil]
      split
      · rename_i h0; simp [h0]
      · simp

theorem collectMaxima_ok (maxima : Nat → AMap Int V) (n : Nat) : (collectMaxima maxima n).Ok := by
  induction n with
  | zero => exact AMap.ok_nil
  | succ n ih =>
    unfold collectMaxima at *
    rw [List.range_succ, List.foldl_append]
    exact addMaxima_ok _ _ ih

theorem mem_maximaOf {maxima : Nat → AMap Int V} {r : Int} {n : Nat} {v : V} {p : Nat} :
    (v, p) ∈ maximaOf maxima r n ↔ p < n ∧ (maxima p).get r = some v := by
  unfold maximaOf
  simp only [List.mem_filterMap, List.mem_range, Option.map_eq_some_iff, Prod.mk.injEq]
  constructor
  · rintro ⟨q, hq, w, hw, rfl, rfl⟩
    exact ⟨hq, hw⟩
  · rintro ⟨h1, h2⟩
    exact ⟨p, h1, v, h2, rfl, rfl⟩

theorem maximaOf_nodup (maxima : Nat → AMap Int V) (r : Int) (n : Nat) : ((maximaOf maxima r n).map Prod.snd).Nodup := by
  unfold maximaOf
  rw [List.map_filterMap]
  refine List.Nodup.filterMap ?_ List.nodup_range
  intro a b x ha hb
  simp only [Option.map_map, Option.mem_def, Option.map_eq_some_iff, Function.comp_apply] at ha hb
  obtain ⟨_, _, rfl⟩ := ha
  obtain ⟨_, _, rfl⟩ := hb
  rfl

/-! Building the fragments -/

theorem need_some {α : Type} {o : Option α} {a : α} (h : o = some a) : need o = .ok a := by rw [h]; rfl

theorem assert_ok {b : Bool} (h : b = true) : assert b = .ok () := by rw [h]; rfl

theorem ok_bind {α β : Type} (a : α) (f : α → Except Err β) : ((Except.ok a : Except Err α) >>= f) = f a := rfl

/-- The fragments of one route get the locations of the next fragments. -/
theorem endFragments_ok (ends : List (Option Nat)) (idxs : List (Nat × Nat)) (l : List Fragment)
    (hnd : AMap.Ok idxs) (h : ∀ x ∈ idxs, x.1 < l.length ∧ ∃ loc, ends[x.2]? = some (some loc))
    (hnone : ∀ x ∈ idxs, ∀ f, l[x.1]? = some f → f.next = none) :
    ∃ l', endFragments ends idxs l = .ok l' ∧ ∀ j : Nat, l'[j]? = l[j]?.map fun f =>
      match AMap.get idxs j with
      | none => f
      | some e => { f with next := (ends[e]?).join } := by
  induction idxs generalizing l with
  | nil => exact ⟨l, rfl, by intro j; simp [AMap.get_nil]⟩
  | cons x idxs ih =>
    obtain ⟨k, e⟩ := x
    obtain ⟨h1, loc, h2⟩ := h (k, e) (by simp)
    obtain ⟨f, hf⟩ : ∃ f, l[k]? = some f := ⟨l[k], List.getElem?_eq_getElem h1⟩
    have hfn := hnone (k, e) (by simp) f hf
    have hnd' : AMap.Ok idxs := (List.nodup_cons.1 hnd).2
    have hk : k ∉ idxs.map Prod.fst := (List.nodup_cons.1 hnd).1
    obtain ⟨l', h3, h4⟩ := ih (l.set k { f with next := some loc }) hnd'
      (by
        intro x hx
        rw [List.length_set]
        exact h x (List.mem_cons_of_mem _ hx))
      (by
        intro x hx f' hf'
        have : x.1 ≠ k := by rintro rfl; exact hk (List.mem_map.2 ⟨x, hx, rfl⟩)
        rw [List.getElem?_set_ne (Ne.symm this)] at hf'
        exact hnone x (List.mem_cons_of_mem _ hx) f' hf')
    refine ⟨l', ?_, ?_⟩
    · rw [endFragments, need_some hf, ok_bind, need_some (by rw [h2]; rfl), ok_bind, assert_ok (by rw [hfn]; rfl), ok_bind, h3]
    · intro j
      rw [h4 j, AMap.get_cons]
      by_cases hj : k = j
      · subst hj
        have hg : AMap.get idxs k = none := by
          cases hg : AMap.get idxs k with
          | none => rfl
          | some w => exact absurd (AMap.get_isSome.1 ⟨w, hg⟩) hk
        rw [List.getElem?_set_self h1, hf]
        simp [hg, h2]
      · rw [List.getElem?_set_ne hj]
        simp [hj]

/-- The fragments of all routes. -/
theorem endRoutes_ok (ends : List (Option Nat)) (idxs : AMap Int (List (Nat × Nat))) (m : AMap Int (List Fragment))
    (hnd : idxs.Ok) (hm : m.Ok)
    (h : ∀ r l, idxs.get r = some l → ∃ fs, endFragments ends l ((m.get r).getD []) = .ok fs) :
    ∃ m', endRoutes ends idxs m = .ok m' ∧ m'.Ok ∧ ∀ r, match idxs.get r with
      | none => m'.get r = m.get r
      | some l => ∃ fs, endFragments ends l ((m.get r).getD []) = .ok fs ∧ m'.get r = some fs := by
  induction idxs generalizing m with
  | nil => exact ⟨m, rfl, hm, by intro r; simp [AMap.get_nil]⟩
  | cons x idxs ih =>
    obtain ⟨r0, l0⟩ := x
    have hnd' : AMap.Ok idxs := (List.nodup_cons.1 hnd).2
    have hk : r0 ∉ idxs.map Prod.fst := (List.nodup_cons.1 hnd).1
    have hg0 : AMap.get idxs r0 = none := by
      cases hg : AMap.get idxs r0 with
      | none => rfl
      | some w => exact absurd (AMap.get_isSome.1 ⟨w, hg⟩) hk
    obtain ⟨fs, hfs⟩ := h r0 l0 (by rw [AMap.get_cons]; simp)
    obtain ⟨m', h1, h2, h3⟩ := ih (m.put r0 fs) hnd' (hm.put _ _) (by
      intro r l hl
      have hne : r0 ≠ r := by rintro rfl; rw [hg0] at hl; cases hl
      rw [AMap.get_put, if_neg hne]
      exact h r l (by rw [AMap.get_cons, if_neg hne]; exact hl))
    refine ⟨m', ?_, h2, ?_⟩
    · rw [endRoutes, hfs, ok_bind, h1]
    · intro r
      have h3 := h3 r
      rw [AMap.get_cons]
      by_cases hr : r0 = r
      · subst hr
        rw [if_pos rfl]
        rw [hg0] at h3
        simp only [AMap.get_put, if_true] at h3
        exact ⟨fs, hfs, h3⟩
      · rw [if_neg hr]
        rw [AMap.get_put, if_neg hr] at h3
        exact h3

end Lue.DecreasingOrder

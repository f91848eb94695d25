import Verif.FocalRounding.Spec
import Verif.FocalStats.Properties
import Verif.Rounding.Theorems

/-! The functors of focal operations add the values in the window in a certain order. -/
namespace Lue.FocalRounding

open Lue.FloatOps Lue.Focal Lue.FocalStats Lue.Rounding

section
variable {α W : Type} [DecidableEq W] [Zero W] {isNoData : α → Bool} {k : Kernel W} {wt : Nat → Nat → W} {r : Nat}

theorem foldl_flag [Add α] (l : List α) (s : α) (b : Bool) :
    l.foldl (fun (s : α × Bool) x => (s.1 + x, true)) (s, b) = (l.foldl (· + ·) s, b || !l.isEmpty) := by
  induction l generalizing s b with
  | nil => simp
  | cons x l ih => rw [List.foldl_cons, ih]; simp

theorem foldl_count [Add α] (l : List α) (s : α) (n : Nat) :
    l.foldl (fun (s : α × Nat) x => (s.1 + x, s.2 + 1)) (s, n) = (l.foldl (· + ·) s, n + l.length) := by
  induction l generalizing s n with
  | nil => simp
  | cons x l ih => rw [List.foldl_cons, ih]; simp [Nat.add_assoc, Nat.add_comm 1]

theorem focalSum_fold (hk : IsKernel k r wt) [Add α] [Zero α] (mark : α) (f : Int → Int → α) (i j : Nat) :
    FocalStats.focalSum isNoData k mark (windowAt f r i j) =
      .ok (if focalValues isNoData wt f r i j = [] then mark else (focalValues isNoData wt f r i j).foldl (· + ·) 0) := by
  unfold FocalStats.focalSum
  rw [hk.size_eq, cellLoop_ok (g := fun d s => if isNoData (at_ f r i j d) = false ∧ wt d.1 d.2 ≠ 0
      then (s.1 + at_ f r i j d, true) else s)]
  · rw [foldl_focalValues isNoData wt f r i j (fun (s : α × Bool) x => (s.1 + x, true)), foldl_flag, M.bind_ok]
    cases focalValues isNoData wt f r i j <;> simp <;> rfl
  · intro d0 h0 d1 h1 s
    rw [hk.get_eq d0 d1 h0 h1, windowGet_ok f r i j h0 h1]
    simp only [M.bind_ok]
    cases isNoData (at_ f r i j (d0, d1)) <;> by_cases h : wt d0 d1 = 0 <;> simp [h] <;> rfl

theorem focalMean_fold (hk : IsKernel k r wt) [Add α] [Zero α] (div : α → Nat → α) (mark : α) (f : Int → Int → α)
    (i j : Nat) :
    FocalStats.focalMean isNoData k div mark (windowAt f r i j) =
      .ok (if focalValues isNoData wt f r i j = [] then mark
        else div ((focalValues isNoData wt f r i j).foldl (· + ·) 0) (focalValues isNoData wt f r i j).length) := by
  unfold FocalStats.focalMean
  rw [hk.size_eq, cellLoop_ok (g := fun d s => if isNoData (at_ f r i j d) = false ∧ wt d.1 d.2 ≠ 0
      then (s.1 + at_ f r i j d, s.2 + 1) else s)]
  · rw [foldl_focalValues isNoData wt f r i j (fun (s : α × Nat) x => (s.1 + x, s.2 + 1)), foldl_count, M.bind_ok]
    cases focalValues isNoData wt f r i j <;> simp <;> rfl
  · intro d0 h0 d1 h1 s
    rw [hk.get_eq d0 d1 h0 h1, windowGet_ok f r i j h0 h1]
    simp only [M.bind_ok]
    cases isNoData (at_ f r i j (d0, d1)) <;> by_cases h : wt d0 d1 = 0 <;> simp [h] <;> rfl

theorem focalHighPass_fold (hk : IsKernel k r wt) [Add α] [_root_.Sub α] [Mul α] [Zero α] [NatCast α] (mark : α)
    (f : Int → Int → α) (i j : Nat) :
    FocalStats.focalHighPass isNoData k mark (windowAt f r i j) =
      .ok (if neighbourValues isNoData wt f r i j = [] then mark
        else ((2 : Nat) : α) * f i j * ((neighbourValues isNoData wt f r i j).length : α) -
          (neighbourValues isNoData wt f r i j).foldl (· + ·) 0) := by
  unfold FocalStats.focalHighPass
  rw [hk.size_eq, cellLoop_ok (g := fun d (s : α × α × Nat) => if d = (r, r) then (at_ f r i j d, s.2)
      else if isNoData (at_ f r i j d) = false ∧ wt d.1 d.2 ≠ 0 then (s.1, s.2.1 + at_ f r i j d, s.2.2 + 1) else s)]
  · have hc : at_ f r i j (r, r) = f i j := by
      unfold at_
      simp only [show (i : Int) - r + r = i by omega, show (j : Int) - r + r = j by omega]
    have key : ∀ (l : List (Nat × Nat)) (s : α × α × Nat),
        l.foldl (fun (s : α × α × Nat) d => if d = (r, r) then (at_ f r i j d, s.2)
          else if isNoData (at_ f r i j d) = false ∧ wt d.1 d.2 ≠ 0 then (s.1, s.2.1 + at_ f r i j d, s.2.2 + 1) else s) s =
        (if (r, r) ∈ l then f i j else s.1,
          ((l.filter fun d => d ≠ (r, r) ∧ wt d.1 d.2 ≠ 0 ∧ isNoData (at_ f r i j d) = false).map
            (at_ f r i j)).foldl (· + ·) s.2.1,
          s.2.2 + ((l.filter fun d => d ≠ (r, r) ∧ wt d.1 d.2 ≠ 0 ∧ isNoData (at_ f r i j d) = false).map (at_ f r i j)).length) := by
      intro l
      induction l with
      | nil => intro s; simp
      | cons d l ih =>
        intro s
        rw [List.foldl_cons, ih]
        by_cases h1 : d = (r, r)
        · subst h1
          simp [hc]
        · have h1' : (r, r) ≠ d := fun h => h1 h.symm
          by_cases h2 : isNoData (at_ f r i j d) = false ∧ wt d.1 d.2 ≠ 0
          · rw [if_neg h1, if_pos h2, List.filter_cons_of_pos (by simp [h1, h2])]
            simp only [List.mem_cons, h1', false_or]
            simp only [List.map_cons, List.foldl_cons, List.length_cons]
            congr 2
            omega
          · rw [if_neg h1, if_neg h2, List.filter_cons_of_neg (by
              rw [decide_eq_true_eq]; exact fun h => h2 ⟨h.2.2, h.2.1⟩)]
            simp only [List.mem_cons, h1', false_or]
    rw [key, M.bind_ok]
    simp only [mem_offsets, show r < 2 * r + 1 by omega, and_self, if_true, Nat.zero_add]
    show (if (neighbourValues isNoData wt f r i j).length = 0 then (pure mark : M α)
        else pure (((2 : Nat) : α) * f i j * ((neighbourValues isNoData wt f r i j).length : α) -
          (neighbourValues isNoData wt f r i j).foldl (· + ·) 0)) = _
    cases neighbourValues isNoData wt f r i j <;> simp <;> rfl
  · intro d0 h0 d1 h1 s
    rw [hk.get_eq d0 d1 h0 h1, windowGet_ok f r i j h0 h1, hk.radius_eq]
    simp only [M.bind_ok, Prod.mk.injEq]
    by_cases hc : d0 = r ∧ d1 = r
    · simp only [hc, and_self, if_true]; rfl
    · simp only [hc, if_false]
      cases isNoData (at_ f r i j (d0, d1)) <;> by_cases h : wt d0 d1 = 0 <;> simp [h] <;> rfl

end

theorem convolve_fold {α : Type} [Add α] [Mul α] [Zero α] {isNoData : α → Bool} {k : Kernel α} {wt : Nat → Nat → α}
    {r : Nat} (hk : IsKernel k r wt) (mark : α) (f : Int → Int → α) (i j : Nat) :
    FocalStats.convolve isNoData k mark (windowAt f r i j) =
      .ok (if weightedValues isNoData wt f r i j = [] then mark
        else (weightedValues isNoData wt f r i j).foldl (· + ·) 0) := by
  unfold FocalStats.convolve
  rw [hk.size_eq, cellLoop_ok (g := fun d (s : α × Bool) => if isNoData (at_ f r i j d) = false
      then (s.1 + wt d.1 d.2 * at_ f r i j d, true) else s)]
  · have : (offsets r).foldl (fun (s : α × Bool) d => if isNoData (at_ f r i j d) = false
        then (s.1 + wt d.1 d.2 * at_ f r i j d, true) else s) (0, false) =
        (weightedValues isNoData wt f r i j).foldl (fun (s : α × Bool) x => (s.1 + x, true)) (0, false) := by
      unfold weightedValues
      rw [List.foldl_map, List.foldl_filter]
      simp only [decide_eq_true_eq]
    rw [this, foldl_flag, M.bind_ok]
    cases weightedValues isNoData wt f r i j <;> simp <;> rfl
  · intro d0 h0 d1 h1 s
    rw [hk.get_eq d0 d1 h0 h1, windowGet_ok f r i j h0 h1]
    simp only [M.bind_ok]
    cases isNoData (at_ f r i j (d0, d1)) <;> simp <;> rfl

/-! ### Cells of the array in the window -/

/-- Cell with offset `d` in the window around a cell -/
def cellAt (r i j : Nat) (d : Nat × Nat) : Nat × Nat := (i + d.1 - r, j + d.2 - r)

/-- Offsets of cells which are in the array -/
def Inside (g : Grid) (r i j : Nat) (d : Nat × Nat) : Prop :=
  r ≤ i + d.1 ∧ i + d.1 < g.a0 + r ∧ r ≤ j + d.2 ∧ j + d.2 < g.a1 + r

instance (g : Grid) (r i j : Nat) : DecidablePred (Inside g r i j) := fun _ => by unfold Inside; infer_instance

theorem at_inside {g : Grid} {v : Arr Fl} {r i j : Nat} {d : Nat × Nat} (h : Inside g r i j d) :
    at_ (extended nanHalo g.a0 g.a1 v) r i j d = v (cellAt r i j d).1 (cellAt r i j d).2 := by
  obtain ⟨h1, h2, h3, h4⟩ := h
  unfold at_ extended cellAt
  rw [if_neg (by omega), if_pos (by omega), if_neg (by omega), if_pos (by omega)]
  congr 1 <;> omega

theorem at_outside {g : Grid} {v : Arr Fl} {r i j : Nat} {d : Nat × Nat} (h : ¬ Inside g r i j d) :
    at_ (extended nanHalo g.a0 g.a1 v) r i j d = .nan := by
  unfold Inside at h
  unfold at_ extended nanHalo
  split_ifs <;> first | rfl | (exfalso; omega)

/-- The cells in the window, in the order of the offsets or row by row in the array -/
theorem windowCells_perm (g : Grid) (r i j : Nat) (p : Nat × Nat → Bool) :
    (((offsets r).filter fun d => decide (Inside g r i j d) && p (cellAt r i j d)).map (cellAt r i j)).Perm
      ((windowCells g r i j).filter p) := by
  have hn : (cellIdxs g.a0 g.a1).Nodup := nodup_cellIdxs _ _
  refine (List.perm_ext_iff_of_nodup ?_ ((hn.filter _).filter _)).2 ?_
  · refine List.Nodup.map_on ?_ ((nodup_offsets r).filter _)
    intro d hd d' hd' he
    rw [List.mem_filter, Bool.and_eq_true, decide_eq_true_eq] at hd hd'
    obtain ⟨-, ⟨a1, a2, a3, a4⟩, -⟩ := hd
    obtain ⟨-, ⟨b1, b2, b3, b4⟩, -⟩ := hd'
    unfold cellAt at he
    obtain ⟨e1, e2⟩ := Prod.mk.inj he
    exact Prod.ext (by omega) (by omega)
  · intro c
    simp only [List.mem_map, List.mem_filter, mem_offsets, mem_cellIdxs, Bool.and_eq_true, decide_eq_true_eq]
    constructor
    · rintro ⟨d, ⟨⟨h1, h2⟩, ⟨a1, a2, a3, a4⟩, hp⟩, rfl⟩
      refine ⟨⟨?_, ?_⟩, hp⟩ <;> unfold cellAt <;> (try constructor) <;> simp only <;> omega
    · rintro ⟨⟨⟨h1, h2⟩, h3, h4, h5, h6⟩, hp⟩
      have e : cellAt r i j (c.1 + r - i, c.2 + r - j) = c := by
        unfold cellAt
        exact Prod.ext (by simp only; omega) (by simp only; omega)
      refine ⟨(c.1 + r - i, c.2 + r - j), ⟨⟨by simp only; omega, by simp only; omega⟩, ?_, by rw [e]; exact hp⟩, e⟩
      unfold Inside
      simp only
      omega

/-- The offset of a cell -/
theorem weight_cellAt {W : Type} (wt : Nat → Nat → W) {g : Grid} {r i j : Nat} {d : Nat × Nat} (h : Inside g r i j d) :
    weight wt r i j (cellAt r i j d) = wt d.1 d.2 := by
  obtain ⟨h1, h2, h3, h4⟩ := h
  unfold weight cellAt
  congr 1 <;> simp only <;> omega

/-- What is added are the numbers in the cells in the array which are within reach. -/
theorem filterMap_window (g : Grid) (v : Arr Fl) (r i j : Nat) (p : Nat × Nat → Bool) (q : Nat × Nat → Bool)
    (F : Nat × Nat → ℝ → ℝ) (G : Nat × Nat → ℝ → ℝ)
    (hp : ∀ d, Inside g r i j d → (q d = p (cellAt r i j d)) ∧ G d = F (cellAt r i j d)) :
    ((offsets r).filterMap fun d => if q d = true then
        (number (at_ (extended nanHalo g.a0 g.a1 v) r i j d)).map (G d) else none).Perm
      (((windowCells g r i j).filter p).filterMap fun c => (number (v c.1 c.2)).map (F c)) := by
  have h := (windowCells_perm g r i j p).filterMap fun c => (number (v c.1 c.2)).map (F c)
  refine List.Perm.trans (List.Perm.of_eq ?_) h
  rw [List.filterMap_map, List.filterMap_filter]
  refine List.filterMap_congr fun d _ => ?_
  by_cases hi : Inside g r i j d
  · obtain ⟨h1, h2⟩ := hp d hi
    simp only [hi, decide_true, Bool.true_and, ← h1, at_inside hi, h2]
    rfl
  · simp only [hi, decide_false, Bool.false_and, at_outside hi]
    split <;> rfl

end Lue.FocalRounding

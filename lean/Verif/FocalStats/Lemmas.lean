import Verif.FocalStats.Model
import Verif.Partitioned.Loops

namespace Lue.FocalStats

open Lue.Focal

variable {α β γ W : Type}

theorem forLoop_pure {σ : Type} {n : Nat} {body : Nat → σ → M σ} {g : Nat → σ → σ}
    (h : ∀ i < n, ∀ s, body i s = .ok (g i s)) (s : σ) :
    forLoop n body s = .ok ((List.range n).foldl (fun s i => g i s) s) := by
  unfold forLoop
  have key : ∀ (l : List Nat) (s : σ), (∀ i ∈ l, i < n) →
      l.foldlM (fun s i => body i s) s = .ok (l.foldl (fun s i => g i s) s) := by
    intro l
    induction l with
    | nil => intro s _; rfl
    | cons a l ih =>
      intro s hl
      rw [List.foldlM_cons, h a (hl a (by simp)), M.bind_ok, ih _ (fun i hi => hl i (by simp [hi])), List.foldl_cons]
  exact key _ _ (fun i hi => List.mem_range.mp hi)

theorem cellLoop_ok {σ : Type} {r : Nat} {body : Nat → Nat → σ → M σ} {g : Nat × Nat → σ → σ}
    (h : ∀ d0 < 2 * r + 1, ∀ d1 < 2 * r + 1, ∀ s, body d0 d1 s = .ok (g (d0, d1) s)) (s : σ) :
    cellLoop (2 * r + 1) body s = .ok ((offsets r).foldl (fun s d => g d s) s) := by
  unfold cellLoop offsets
  rw [forLoop_pure (g := fun d0 s => (List.range (2 * r + 1)).foldl (fun s d1 => g (d0, d1) s) s)
    (fun d0 h0 s => forLoop_pure (fun d1 h1 s => h d0 h0 d1 h1 s) s)]
  simp only [List.foldl_flatMap, List.foldl_map]

theorem IsKernel.size_eq {k : Kernel W} {r : Nat} {wt : Nat → Nat → W} (h : IsKernel k r wt) : k.size = 2 * r + 1 := by
  simp only [Kernel.size, Kernel.radius, h.extent_eq]; omega

theorem IsKernel.radius_eq {k : Kernel W} {r : Nat} {wt : Nat → Nat → W} (h : IsKernel k r wt) : k.radius = r := by
  simp only [Kernel.radius, h.extent_eq]; omega

theorem windowGet_ok (f : Int → Int → α) (r i j : Nat) {d0 d1 : Nat} (h0 : d0 < 2 * r + 1) (h1 : d1 < 2 * r + 1) :
    windowGet (2 * r + 1) (windowAt f r i j) d0 d1 = .ok (at_ f r i j (d0, d1)) := by
  unfold windowGet
  rw [if_pos ⟨h0, h1⟩]
  apply rd_ok
  unfold windowAt
  rw [List.getElem?_map, List.getElem?_range (idx_lt h0 h1)]
  simp only [Option.map_some, idx_div h1, idx_mod h1]
  rfl

/-- Folding over the cells that contribute. -/
theorem foldl_focalValues {σ : Type} [DecidableEq W] [Zero W] (isNoData : α → Bool) (wt : Nat → Nat → W)
    (f : Int → Int → α) (r i j : Nat) (step : σ → α → σ) (s : σ) :
    (offsets r).foldl (fun s d => if isNoData (at_ f r i j d) = false ∧ wt d.1 d.2 ≠ 0
      then step s (at_ f r i j d) else s) s = (focalValues isNoData wt f r i j).foldl step s := by
  unfold focalValues
  rw [List.foldl_map, List.foldl_filter]
  congr 1
  funext s d
  by_cases h1 : wt d.1 d.2 = 0 <;> by_cases h2 : isNoData (at_ f r i j d) = false <;> simp [h1, h2]

theorem mem_offsets {r : Nat} {d : Nat × Nat} : d ∈ offsets r ↔ d.1 < 2 * r + 1 ∧ d.2 < 2 * r + 1 := by
  obtain ⟨d0, d1⟩ := d
  simp only [offsets, List.mem_flatMap, List.mem_map, List.mem_range, Prod.mk.injEq]
  constructor
  · rintro ⟨a, ha, b, hb, rfl, rfl⟩; exact ⟨ha, hb⟩
  · rintro ⟨h0, h1⟩; exact ⟨d0, h0, d1, h1, rfl, rfl⟩

theorem nodup_offsets (r : Nat) : (offsets r).Nodup := by
  unfold offsets
  rw [List.nodup_flatMap]
  refine ⟨fun a _ => List.nodup_range.map (fun x y h => by simpa using h), ?_⟩
  refine List.nodup_range.pairwise_of_forall_ne ?_
  intro a _ b _ hab
  simp only [Function.onFun, List.disjoint_left, List.mem_map, not_exists, not_and]
  rintro x ⟨y, _, rfl⟩ z _ h
  exact hab (congrArg Prod.fst h).symm

theorem foldl_add_sum [AddCommMonoid α] (l : List α) (s : α) (b : Bool) :
    l.foldl (fun (s : α × Bool) x => (s.1 + x, true)) (s, b) = (s + l.sum, b || !l.isEmpty) := by
  induction l generalizing s b with
  | nil => simp
  | cons a l ih => rw [List.foldl_cons, ih]; simp [add_assoc]

theorem foldl_mean [AddCommMonoid α] (l : List α) (s : α) (n : Nat) :
    l.foldl (fun (s : α × Nat) x => (s.1 + x, s.2 + 1)) (s, n) = (s + l.sum, n + l.length) := by
  induction l generalizing s n with
  | nil => simp
  | cons a l ih => rw [List.foldl_cons, ih]; simp [add_assoc]; omega

theorem foldl_min [LinearOrder α] (l : List α) (s : α) :
    (l.foldl (fun (s : α × Bool) x => if !s.2 then (x, true) else (min s.1 x, s.2)) (s, true)) = (l.foldl min s, true) := by
  induction l generalizing s with
  | nil => rfl
  | cons a l ih => rw [List.foldl_cons, List.foldl_cons, ← ih]; rfl

theorem foldl_max [LinearOrder α] (l : List α) (s : α) :
    (l.foldl (fun (s : α × Bool) x => if !s.2 then (x, true) else (max s.1 x, s.2)) (s, true)) = (l.foldl max s, true) := by
  induction l generalizing s with
  | nil => rfl
  | cons a l ih => rw [List.foldl_cons, List.foldl_cons, ← ih]; rfl

theorem foldl_min_spec [LinearOrder α] (l : List α) (s : α) :
    l.foldl min s ∈ s :: l ∧ ∀ y ∈ s :: l, l.foldl min s ≤ y := by
  induction l generalizing s with
  | nil => simp
  | cons a l ih =>
    rw [List.foldl_cons]
    obtain ⟨h1, h2⟩ := ih (min s a)
    constructor
    · rcases List.mem_cons.mp h1 with h | h
      · rw [h]; rcases min_choice s a with h' | h' <;> simp [h']
      · simp [h]
    · intro y hy
      have h3 := h2 (min s a) (by simp)
      simp only [List.mem_cons] at hy
      rcases hy with rfl | rfl | hy
      · exact le_trans h3 (min_le_left _ _)
      · exact le_trans h3 (min_le_right _ _)
      · exact h2 y (by simp [hy])

theorem foldl_max_spec [LinearOrder α] (l : List α) (s : α) :
    l.foldl max s ∈ s :: l ∧ ∀ y ∈ s :: l, y ≤ l.foldl max s := foldl_min_spec (α := αᵒᵈ) l s

/-- The frequencies of the values. -/
def Frequencies [DecidableEq α] (l : List α) (f : AMap α Nat) : Prop :=
  f.Ok ∧ ∀ y, f.get y = if l.count y = 0 then none else some (l.count y)

theorem frequencies_foldl [DecidableEq α] (l : List α) :
    Frequencies l (l.foldl (fun (s : AMap α Nat) x => s.put x ((s.get x).getD 0 + 1)) []) := by
  induction l using List.reverseRecOn with
  | nil => exact ⟨AMap.ok_nil, fun y => by simp [AMap.get_nil]⟩
  | append_singleton l x h =>
    rw [List.foldl_append, List.foldl_cons, List.foldl_nil]
    refine ⟨h.1.put _ _, fun y => ?_⟩
    rw [AMap.get_put, h.2, h.2, List.count_append]
    by_cases hxy : x = y
    · subst hxy
      by_cases h0 : l.count x = 0 <;> simp [h0]
    · have : List.count y [x] = 0 := by simp [List.count_singleton, hxy]
      simp [hxy, this]

theorem Frequencies.mem [DecidableEq α] {l : List α} {f : AMap α Nat} (hf : Frequencies l f) (y : α) (n : Nat) :
    (y, n) ∈ f ↔ y ∈ l ∧ n = l.count y := by
  rw [AMap.mem_iff_get hf.1, hf.2]
  by_cases h : l.count y = 0
  · simp [h, List.count_eq_zero.mp h]
  · have : y ∈ l := by
      by_contra hn; exact h (List.count_eq_zero.mpr hn)
    simp only [h, if_false, Option.some.injEq, this, true_and]
    exact eq_comm

/-- The smallest of the most frequent values. -/
def IsMajority [LinearOrder α] (l : List α) (r : α) : Prop :=
  r ∈ l ∧ (∀ y ∈ l, l.count y ≤ l.count r) ∧ ∀ y ∈ l, l.count y = l.count r → r ≤ y

/-- One step of the search for the majority. -/
def pick (s e : α × Nat) : α × Nat := if e.2 > s.2 then (e.1, e.2) else s

theorem pick_mono (es : List (α × Nat)) (s : α × Nat) : s.2 ≤ (es.foldl pick s).2 := by
  induction es generalizing s with
  | nil => exact Nat.le_refl _
  | cons a es ih =>
    rw [List.foldl_cons]
    refine le_trans ?_ (ih _)
    unfold pick
    split
    · simp only; omega
    · exact Nat.le_refl _

/-- A value is only replaced by a more frequent one. -/
theorem pick_same (es : List (α × Nat)) (s : α × Nat) (h : (es.foldl pick s).2 = s.2) : es.foldl pick s = s := by
  induction es generalizing s with
  | nil => rfl
  | cons a es ih =>
    rw [List.foldl_cons] at h ⊢
    have hm := pick_mono es (pick s a)
    by_cases hgt : a.2 > s.2
    · simp only [pick, if_pos hgt] at hm
      simp only [pick, if_pos hgt] at h
      rw [h] at hm
      omega
    · have : pick s a = s := by simp only [pick, if_neg hgt]
      rw [this] at h ⊢
      exact ih s h

theorem majority_fold [LinearOrder α] : ∀ (es : List (α × Nat)) (s : α × Nat), es.Pairwise (fun a b => a.1 ≤ b.1) →
    (∀ e ∈ es, s.2 = 0 ∨ s.1 ≤ e.1) → (∀ e ∈ es, 0 < e.2) →
    (es.foldl pick s ∈ es ∨ es.foldl pick s = s) ∧
      ∀ e ∈ es, e.2 ≤ (es.foldl pick s).2 ∧ (e.2 = (es.foldl pick s).2 → (es.foldl pick s).1 ≤ e.1) := by
  intro es
  induction es with
  | nil => intro s _ _ _; simp
  | cons e es ih =>
    intro s hp hs hpos
    obtain ⟨hp1, hp2⟩ := List.pairwise_cons.mp hp
    rw [List.foldl_cons]
    have hpos' : ∀ e ∈ es, 0 < e.2 := fun e he => hpos e (by simp [he])
    have hm := pick_mono es (pick s e)
    by_cases h : e.2 > s.2
    · have hpk : pick s e = e := by simp only [pick, if_pos h]
      rw [hpk] at hm ⊢
      obtain ⟨h1, h3⟩ := ih e hp2 (fun e' he' => .inr (hp1 e' he')) hpos'
      refine ⟨?_, ?_⟩
      · rcases h1 with h1 | h1
        · exact .inl (by simp [h1])
        · left; rw [h1]; simp
      · intro e' he'
        rcases List.mem_cons.mp he' with rfl | he'
        · refine ⟨hm, fun hh => ?_⟩
          rw [pick_same es e' hh.symm]
        · exact h3 e' he'
    · have hpk : pick s e = s := by simp only [pick, if_neg h]
      rw [hpk] at hm ⊢
      obtain ⟨h1, h3⟩ := ih s hp2 (fun e' he' => hs e' (by simp [he'])) hpos'
      refine ⟨?_, ?_⟩
      · rcases h1 with h1 | h1
        · exact .inl (by simp [h1])
        · exact .inr h1
      · intro e' he'
        rcases List.mem_cons.mp he' with rfl | he'
        · refine ⟨by omega, fun hh => ?_⟩
          have h0 := hpos e' (by simp)
          rw [pick_same es s (by omega)]
          rcases hs e' (by simp) with h5 | h5
          · omega
          · exact h5
        · exact h3 e' he'

theorem majority_ok [LinearOrder α] {l : List α} {f : AMap α Nat} (hf : Frequencies l f) (zero : α) (hl : l ≠ []) :
    IsMajority l ((sortedMap f).foldl pick (zero, 0)).1 := by
  have hmem : ∀ y n, (y, n) ∈ sortedMap f ↔ y ∈ l ∧ n = l.count y := by
    intro y n
    rw [sortedMap, List.mem_mergeSort, hf.mem]
  have hp : (sortedMap f).Pairwise (fun a b => a.1 ≤ b.1) := by
    have := List.pairwise_mergeSort (le := fun a b : α × Nat => decide (a.1 ≤ b.1))
      (fun a b c h1 h2 => by simp only [decide_eq_true_eq] at *; exact le_trans h1 h2)
      (fun a b => by simp only [Bool.or_eq_true, decide_eq_true_eq]; exact le_total _ _) f
    unfold sortedMap
    simpa using this
  obtain ⟨h1, h2⟩ := majority_fold (sortedMap f) (zero, 0) hp (fun _ _ => .inl rfl) (by
    rintro ⟨y, n⟩ he
    obtain ⟨h1, h2⟩ := (hmem y n).mp he
    show 0 < n
    rw [h2]; exact List.count_pos_iff.mpr h1)
  obtain ⟨y0, hy0⟩ := List.exists_mem_of_ne_nil l hl
  have hpos0 : 0 < l.count y0 := List.count_pos_iff.mpr hy0
  have hy0' := (h2 (y0, l.count y0) ((hmem _ _).mpr ⟨hy0, rfl⟩)).1
  rcases h1 with h1 | h1
  · obtain ⟨h5, h6⟩ := (hmem _ _).mp h1
    refine ⟨h5, fun y hy => ?_, fun y hy hc => ?_⟩
    · rw [← h6]; exact (h2 (y, l.count y) ((hmem _ _).mpr ⟨hy, rfl⟩)).1
    · exact (h2 (y, l.count y) ((hmem _ _).mpr ⟨hy, rfl⟩)).2 (hc.trans h6.symm)
  · rw [h1] at hy0'
    simp only at hy0'
    omega

theorem frequencies_isEmpty [DecidableEq α] {l : List α} {f : AMap α Nat} (hf : Frequencies l f) :
    f.isEmpty = true ↔ l = [] := by
  rw [List.isEmpty_iff]
  constructor
  · intro h
    by_contra hn
    obtain ⟨y0, hy0⟩ := List.exists_mem_of_ne_nil l hn
    have := (hf.mem y0 (l.count y0)).mpr ⟨hy0, rfl⟩
    rw [h] at this
    simp at this
  · rintro rfl
    by_contra hn
    obtain ⟨⟨y0, n⟩, hy0⟩ := List.exists_mem_of_ne_nil f hn
    simpa using ((hf.mem y0 n).mp hy0).1

theorem stdUnique_cons [DecidableEq α] (x : α) (l : List α) : ∃ t, stdUnique (x :: l) = x :: t := by
  induction l generalizing x with
  | nil => exact ⟨[], rfl⟩
  | cons y l ih =>
    simp only [stdUnique]
    split
    · rename_i h; subst h; exact ih x
    · exact ⟨_, rfl⟩

/-- On a sorted list, the distinct values remain. -/
theorem stdUnique_spec [LinearOrder α] (l : List α) (h : l.Pairwise (· ≤ ·)) :
    (stdUnique l).Pairwise (· < ·) ∧ ∀ y, y ∈ stdUnique l ↔ y ∈ l := by
  induction l with
  | nil => simp [stdUnique]
  | cons x l ih =>
    cases l with
    | nil => simp [stdUnique]
    | cons y l =>
      obtain ⟨h1, h2⟩ := List.pairwise_cons.mp h
      obtain ⟨h3, h4⟩ := ih h2
      simp only [stdUnique]
      split
      · rename_i hxy
        subst hxy
        refine ⟨h3, fun z => ?_⟩
        rw [h4]; simp
      · rename_i hxy
        refine ⟨List.pairwise_cons.mpr ⟨fun z hz => ?_, h3⟩, fun z => ?_⟩
        · have h5 := (h4 z).mp hz
          have h6 := h1 y (by simp)
          rcases List.mem_cons.mp h5 with rfl | h7
          · exact lt_of_le_of_ne h6 hxy
          · exact lt_of_lt_of_le (lt_of_le_of_ne h6 hxy) ((List.pairwise_cons.mp h2).1 z h7)
        · rw [List.mem_cons, h4, List.mem_cons (a := z) (b := x)]

theorem diversity_ok [LinearOrder α] (l : List α) :
    (stdUnique (l.mergeSort (fun a b => a ≤ b))).length = l.toFinset.card := by
  have hp : (l.mergeSort (fun a b => decide (a ≤ b))).Pairwise (fun a b => a ≤ b) := by
    have := List.pairwise_mergeSort (le := fun a b : α => decide (a ≤ b))
      (fun a b c h1 h2 => by simp only [decide_eq_true_eq] at *; exact le_trans h1 h2)
      (fun a b => by simp only [Bool.or_eq_true, decide_eq_true_eq]; exact le_total _ _) l
    simpa using this
  obtain ⟨h1, h2⟩ := stdUnique_spec _ hp
  have hn : (stdUnique (l.mergeSort (fun a b => decide (a ≤ b)))).Nodup := h1.imp (fun h => ne_of_lt h)
  rw [← List.toFinset_card_of_nodup hn]
  congr 1
  ext y
  simp [h2]

end Lue.FocalStats

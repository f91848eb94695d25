import Verif.FocalRounding.Folds

/-! C78: results of focal operations on floating point numbers. -/
namespace Lue.FocalRounding

open Lue.FloatOps Lue.Focal Lue.FocalStats Lue.Rounding Lue.MassBalance

variable {L : Lib} {u η : ℝ}

/-! ### Adding, multiplying -/

/-- The numbers are added to zero. -/
theorem fold_added (hA : Accurate L u η) {l : List Fl} (h : ∀ x ∈ l, IsNumber L x) (hl : l ≠ []) :
    Added L (l.filterMap number) (l.foldl (FloatOps.add L) (.fin 0)) := by
  cases l with
  | nil => exact absurd rfl hl
  | cons a l =>
    obtain ⟨y, rfl, hy⟩ := h a (by simp)
    have h1 := Added.one hy
    rw [List.foldl_cons, h1.zero_add hA]
    have := foldl_added (fun x hx => h x (List.mem_cons_of_mem _ hx)) h1
    simpa [number_fin] using this

theorem magnitude_cons (x : ℝ) (l : List ℝ) : magnitude (x :: l) = |x| + magnitude l := by simp [magnitude]

/-- Products which are not too large -/
theorem products (hA : AccurateSplit L u η) : ∀ l : List (ℝ × ℝ), (∀ p ∈ l, L.Rep p.1 ∧ L.Rep p.2 ∧ |p.1 * p.2| ≤ L.big) →
    ∃ ps : List ℝ, l.map (fun p => FloatOps.mul L (.fin p.1) (.fin p.2)) = ps.map Fl.fin ∧ ps.length = l.length ∧
      (∀ p ∈ ps, L.Rep p) ∧
      |ps.sum - (l.map fun p => p.1 * p.2).sum| ≤ u * magnitude (l.map fun p => p.1 * p.2) + l.length * η ∧
      magnitude ps ≤ (1 + u) * magnitude (l.map fun p => p.1 * p.2) + l.length * η
  | [], _ => ⟨[], rfl, rfl, by simp, by simp [magnitude], by simp [magnitude]⟩
  | p :: l, h => by
    obtain ⟨ps, h1, h2, h3, h4, h5⟩ := products hA l fun q hq => h q (List.mem_cons_of_mem _ hq)
    obtain ⟨ha, hb, hab⟩ := h p (by simp)
    obtain ⟨s, hs⟩ := L.round_fin .multiply _ hab
    have he := hA.multiply _ _ s ha hb hs
    refine ⟨s :: ps, ?_, by simp [h2], ?_, ?_, ?_⟩
    · rw [List.map_cons, List.map_cons, h1]
      congr 1
    · intro q hq
      rcases List.mem_cons.1 hq with rfl | hq
      · exact L.round_rep _ _ _ hs
      · exact h3 q hq
    · rw [List.map_cons, List.sum_cons, List.sum_cons, magnitude_cons, List.length_cons]
      have : s + ps.sum - (p.1 * p.2 + (l.map fun p => p.1 * p.2).sum) =
          (s - p.1 * p.2) + (ps.sum - (l.map fun p => p.1 * p.2).sum) := by ring
      rw [this]
      push_cast
      refine (abs_add_le _ _).trans ?_
      linarith
    · rw [List.map_cons, magnitude_cons, magnitude_cons, List.length_cons]
      have : |s| ≤ |s - p.1 * p.2| + |p.1 * p.2| := by simpa using abs_add_le (s - p.1 * p.2) (p.1 * p.2)
      push_cast
      linarith

theorem mem_magnitude {l : List ℝ} {x : ℝ} (h : x ∈ l) : |x| ≤ magnitude l := by
  have : magnitude [x] ≤ magnitude l := magnitude_sublist (List.singleton_sublist.2 h)
  simpa [magnitude] using this

theorem length_pos_of_ne {α : Type} {l : List α} (h : l ≠ []) : 1 ≤ l.length := List.length_pos_iff.2 h

/-- A sum of products -/
theorem sum_products (hA : AccurateSplit L u η) {l : List (ℝ × ℝ)} (hl : l ≠ []) (h : ∀ p ∈ l, L.Rep p.1 ∧ L.Rep p.2)
    (hfit : FitsProducts L u η (l.map fun p => p.1 * p.2)) :
    IsSumOfProducts u η (l.map fun p => p.1 * p.2)
      ((l.map fun p => FloatOps.mul L (.fin p.1) (.fin p.2)).foldl (FloatOps.add L) (.fin 0)) := by
  have hu := hA.u_nonneg
  have hη := hA.η_nonneg
  have h1u : (1 : ℝ) ≤ 1 + u := by linarith
  unfold FitsProducts at hfit
  unfold IsSumOfProducts
  rw [List.length_map] at hfit ⊢
  set zs := l.map fun p => p.1 * p.2 with hzs
  have hM := magnitude_nonneg zs
  have hn := length_pos_of_ne hl
  obtain ⟨n, hn'⟩ : ∃ n, l.length = n + 1 := ⟨l.length - 1, by omega⟩
  have hE : (1 : ℝ) ≤ (1 + u) ^ l.length := one_le_pow₀ h1u
  have hE1 : (1 : ℝ) ≤ (1 + u) ^ (l.length - 1) := one_le_pow₀ h1u
  have hη' : 0 ≤ (l.length : ℝ) * (1 + u) ^ (l.length - 1) * η := by positivity
  have hbig : ∀ p ∈ l, |p.1 * p.2| ≤ L.big := by
    intro p hp
    have : |p.1 * p.2| ≤ magnitude zs := mem_magnitude (List.mem_map.2 ⟨p, hp, rfl⟩)
    nlinarith
  obtain ⟨ps, h1, h2, h3, h4, h5⟩ := products hA l fun p hp => ⟨(h p hp).1, (h p hp).2, hbig p hp⟩
  have hps : ps ≠ [] := by
    intro e
    rw [e] at h2
    simp only [List.length_nil] at h2
    omega
  have hadd := fold_added hA.toAccurate (l := ps.map Fl.fin) (by
    intro x hx
    obtain ⟨p, hp, rfl⟩ := List.mem_map.1 hx
    exact ⟨p, rfl, h3 p hp⟩) (by simpa using hps)
  have e : (ps.map Fl.fin).filterMap number = ps := by
    rw [List.filterMap_map]
    have : (number ∘ Fl.fin) = some := rfl
    rw [this, List.filterMap_some]
  rw [e] at hadd
  set E := (1 + u) ^ (l.length - 1) with hEdef
  have hpow : (1 + u) ^ l.length = E * (1 + u) := by
    rw [hEdef, hn', Nat.add_sub_cancel, pow_succ]
  rw [hpow] at hfit ⊢
  obtain ⟨v, hv, hv'⟩ := hadd.isSum hA.toAccurate (by
    unfold Rounding.Fits
    rw [h2]
    have := mul_le_mul_of_nonneg_left h5 (by linarith : 0 ≤ E)
    linarith)
  rw [h1]
  refine ⟨v, hv, ?_⟩
  rw [h2] at hv'
  have h6 : |v - zs.sum| ≤ |v - ps.sum| + |ps.sum - zs.sum| := by
    simpa using abs_add_le (v - ps.sum) (ps.sum - zs.sum)
  have h7 : (E - 1) * magnitude ps ≤ (E - 1) * ((1 + u) * magnitude zs + l.length * η) :=
    mul_le_mul_of_nonneg_left h5 (by linarith)
  calc |v - zs.sum| ≤ (E - 1) * ((1 + u) * magnitude zs + l.length * η) + (u * magnitude zs + l.length * η) := by linarith
    _ = (E * (1 + u) - 1) * magnitude zs + l.length * E * η := by ring

/-- A high pass filter -/
theorem highPass (hA : AccurateSplit L u η) {y : ℝ} {xs : List ℝ} {s : Fl} (hy : L.Rep y) (h2 : L.Rep 2)
    (hn : L.Rep (xs.length : ℝ)) (hs : Added L xs s) (hfit : FitsHighPass L u η y xs) :
    IsHighPass u η y xs
      (sub L (mul L (mul L (.fin ((2 : ℕ) : ℝ)) (.fin y)) (.fin (xs.length : ℝ))) s) := by
  have hu := hA.u_nonneg
  have hη := hA.η_nonneg
  have h1u : (1 : ℝ) ≤ 1 + u := by linarith
  have hpos := hs.length_pos
  have hn1 : (1 : ℝ) ≤ (xs.length : ℝ) := by exact_mod_cast hpos
  have hM := magnitude_nonneg xs
  unfold FitsHighPass highPassMagnitude highPassSmall at hfit
  unfold IsHighPass highPassMagnitude highPassSmall
  set n : ℝ := (xs.length : ℝ) with hnn
  set Y := 2 * |y| with hY
  have hY0 : 0 ≤ Y := by positivity
  obtain ⟨K, hK⟩ : ∃ K, max 3 xs.length = K + 1 := ⟨max 3 xs.length - 1, by omega⟩
  rw [hK, pow_succ] at hfit ⊢
  set E := (1 + u) ^ K with hE
  have hE2 : (1 + u) ^ 2 ≤ E := pow_le_pow_right₀ h1u (by omega)
  have hEs : (1 + u) ^ (xs.length - 1) ≤ E := pow_le_pow_right₀ h1u (by omega)
  have hE1 : 1 ≤ E := one_le_pow₀ h1u
  have hEu : E ≤ E * (1 + u) := le_mul_of_one_le_right (by linarith) h1u
  have hYn : 0 ≤ Y * n := by positivity
  have hsm : 0 ≤ (1 + (1 + u) * n) * η := by positivity
  have hsm2 : (1 + (1 + u) * n) * η ≤ (1 + u) * (1 + (1 + u) * n) * η := by
    have := mul_nonneg hu hsm
    nlinarith
  have hYle : Y ≤ Y * n := le_mul_of_one_le_right hY0 hn1
  -- the limit for all results
  have hB : E * (Y * n + magnitude xs) + (1 + (1 + u) * n) * η ≤ L.big := by
    refine le_trans ?_ hfit
    have := mul_le_mul_of_nonneg_right hEu (by linarith : 0 ≤ Y * n + magnitude xs)
    linarith
  -- twice the number
  have a2 : |(2 : ℝ) * y| = Y := by rw [abs_mul, abs_of_pos (by norm_num)]
  have b1 : |(2 : ℝ) * y| ≤ L.big := by
    rw [a2]
    have := mul_le_mul_of_nonneg_right hE1 (by linarith : 0 ≤ Y * n + magnitude xs)
    linarith
  obtain ⟨p, hp⟩ := L.round_fin .multiply _ b1
  have ep := hA.multiply _ _ p h2 hy hp
  rw [a2] at ep
  have hpabs : |p| ≤ (1 + u) * Y + η := by
    have : |p| ≤ |p - 2 * y| + |2 * y| := by simpa using abs_add_le (p - 2 * y) (2 * y)
    rw [a2] at this
    linarith
  -- times the number of neighbours
  have a3 : |p * n| = |p| * n := by rw [abs_mul, abs_of_pos (by linarith : (0 : ℝ) < n)]
  have hpn : |p * n| ≤ ((1 + u) * Y + η) * n := by
    rw [a3]
    exact mul_le_mul_of_nonneg_right hpabs (by linarith)
  have b2 : |p * n| ≤ L.big := by
    refine hpn.trans (le_trans ?_ hB)
    have c1 : (1 + u) * (Y * n) ≤ E * (Y * n) := by
      refine mul_le_mul_of_nonneg_right ?_ hYn
      nlinarith
    have c2 : 0 ≤ E * magnitude xs := by positivity
    have c3 : 0 ≤ u * n * η := by positivity
    nlinarith
  obtain ⟨q, hq⟩ := L.round_fin .multiply _ b2
  have eq := hA.multiply _ _ q (L.round_rep _ _ _ hp) hn hq
  have eq' : |q - 2 * y * n| ≤ (E - 1) * (Y * n) + (1 + (1 + u) * n) * η := by
    have d1 : |q - 2 * y * n| ≤ |q - p * n| + |p * n - 2 * y * n| := by
      simpa using abs_add_le (q - p * n) (p * n - 2 * y * n)
    have d2 : |p * n - 2 * y * n| ≤ (u * Y + η) * n := by
      rw [← sub_mul, abs_mul, abs_of_pos (by linarith : 0 < n)]
      exact mul_le_mul_of_nonneg_right ep (by linarith)
    have d3 : u * |p * n| ≤ u * (((1 + u) * Y + η) * n) := mul_le_mul_of_nonneg_left hpn hu
    have d4 : ((1 + u) ^ 2 - 1) * (Y * n) ≤ (E - 1) * (Y * n) := mul_le_mul_of_nonneg_right (by linarith) hYn
    have d5 : u * (((1 + u) * Y + η) * n) + η + (u * Y + η) * n = ((1 + u) ^ 2 - 1) * (Y * n) + (1 + (1 + u) * n) * η := by
      ring
    linarith
  -- the sum of the neighbours
  obtain ⟨t, rfl, ht⟩ := hs.isSum hA.toAccurate (by
    unfold Rounding.Fits
    have := mul_le_mul_of_nonneg_right hEs hM
    have : 0 ≤ E * (Y * n) := by positivity
    linarith)
  have ht' : |t - xs.sum| ≤ (E - 1) * magnitude xs := ht.trans (mul_le_mul_of_nonneg_right (by linarith) hM)
  -- the difference
  have hdiff : |(q - t) - (2 * y * n - xs.sum)| ≤ (E - 1) * (Y * n + magnitude xs) + (1 + (1 + u) * n) * η := by
    have : (q - t) - (2 * y * n - xs.sum) = (q - 2 * y * n) - (t - xs.sum) := by ring
    rw [this]
    refine (abs_sub _ _).trans ?_
    linarith
  have hsize : |2 * y * n - xs.sum| ≤ Y * n + magnitude xs := by
    refine (abs_sub _ _).trans ?_
    have : |2 * y * n| = Y * n := by rw [abs_mul, a2, abs_of_pos (by linarith : (0 : ℝ) < n)]
    rw [this]
    linarith [sum_le_magnitude xs]
  have hqt : |q - t| ≤ E * (Y * n + magnitude xs) + (1 + (1 + u) * n) * η := by
    have : |q - t| ≤ |(q - t) - (2 * y * n - xs.sum)| + |2 * y * n - xs.sum| := by
      simpa using abs_add_le ((q - t) - (2 * y * n - xs.sum)) (2 * y * n - xs.sum)
    linarith
  obtain ⟨w, hw⟩ := L.round_fin .subtract (q - t) (hqt.trans hB)
  have ew := hA.subtract _ _ w (L.round_rep _ _ _ hq) (hs.rep rfl) hw
  refine ⟨w, ?_, ?_⟩
  · have e1 : mul L (.fin ((2 : ℕ) : ℝ)) (.fin y) = .fin p := by
      rw [Nat.cast_ofNat]
      exact hp
    rw [e1]
    have e2 : mul L (.fin p) (.fin n) = .fin q := hq
    rw [e2]
    exact hw
  · have f1 : |w - (2 * y * n - xs.sum)| ≤ |w - (q - t)| + |(q - t) - (2 * y * n - xs.sum)| := by
      simpa using abs_add_le (w - (q - t)) ((q - t) - (2 * y * n - xs.sum))
    have f2 : u * |q - t| ≤ u * (E * (Y * n + magnitude xs) + (1 + (1 + u) * n) * η) := mul_le_mul_of_nonneg_left hqt hu
    calc |w - (2 * y * n - xs.sum)| ≤ u * (E * (Y * n + magnitude xs) + (1 + (1 + u) * n) * η) +
          ((E - 1) * (Y * n + magnitude xs) + (1 + (1 + u) * n) * η) := by linarith
      _ = (E * (1 + u) - 1) * (Y * n + magnitude xs) + (1 + u) * (1 + (1 + u) * n) * η := by ring

/-! ### Values in windows -/

section
variable {W : Type} [DecidableEq W] [Zero W] {wt : Nat → Nat → W} {r : Nat} {g : Grid} {v : Arr Fl}

/-- The values in an array, and around it -/
abbrev field (g : Grid) (v : Arr Fl) : Int → Int → Fl := extended nanHalo g.a0 g.a1 v

theorem at_element (hv : ∀ i j, i < g.a0 → j < g.a1 → Element L (v i j)) (i j : Nat) (d : Nat × Nat) :
    Element L (at_ (field g v) r i j d) := by
  by_cases h : Inside g r i j d
  · rw [at_inside h]
    obtain ⟨h1, h2, h3, h4⟩ := h
    exact hv _ _ (by unfold cellAt; simp only; omega) (by unfold cellAt; simp only; omega)
  · exact .inl (at_outside h)

/-- Values which are selected are numbers, those of the cells in the array. -/
theorem selected (hv : ∀ i j, i < g.a0 → j < g.a1 → Element L (v i j)) (i j : Nat) (q p : Nat × Nat → Bool)
    (hp : ∀ d, Inside g r i j d → q d = p (cellAt r i j d)) :
    let l := ((offsets r).filter fun d => q d && !isNaN (at_ (field g v) r i j d)).map (at_ (field g v) r i j)
    let xs := ((windowCells g r i j).filter p).filterMap fun c => number (v c.1 c.2)
    (∀ x ∈ l, IsNumber L x) ∧ (l.filterMap number).Perm xs ∧ l.length = xs.length := by
  intro l xs
  have h1 : ∀ x ∈ l, IsNumber L x := by
    intro x hx
    obtain ⟨d, hd, rfl⟩ := List.mem_map.1 hx
    rw [List.mem_filter, Bool.and_eq_true] at hd
    rcases at_element hv i j d with h | h
    · rw [h] at hd
      exact absurd hd.2.2 (by simp [isNaN])
    · exact h
  have h2 : (l.filterMap number).Perm xs := by
    have := filterMap_window g v r i j p q (fun _ y => y) (fun _ y => y) fun d hd => ⟨hp d hd, rfl⟩
    simp only [Option.map_id'] at this
    refine (List.Perm.of_eq ?_).trans this
    show List.filterMap number (List.map _ _) = _
    rw [List.filterMap_map, List.filterMap_filter]
    refine List.filterMap_congr fun d _ => ?_
    by_cases hq : q d
    · simp only [hq, Bool.true_and, if_true, Function.comp_apply]
      cases at_ (field g v) r i j d <;> simp [isNaN, number]
    · simp [hq]
  refine ⟨h1, h2, ?_⟩
  rw [← h2.length_eq]
  clear h2
  generalize l = l at h1
  induction l with
  | nil => rfl
  | cons a l ih =>
    obtain ⟨y, rfl, _⟩ := h1 a (by simp)
    rw [List.filterMap_cons_some (number_fin y), List.length_cons, List.length_cons,
      ih fun x hx => h1 x (List.mem_cons_of_mem _ hx)]

theorem focalValues_numbers (hv : ∀ i j, i < g.a0 → j < g.a1 → Element L (v i j)) (i j : Nat) :
    (∀ x ∈ focalValues isNaN wt (field g v) r i j, IsNumber L x) ∧
    ((focalValues isNaN wt (field g v) r i j).filterMap number).Perm (windowNumbers g v wt r i j) ∧
    (focalValues isNaN wt (field g v) r i j).length = (windowNumbers g v wt r i j).length := by
  have := selected (r := r) hv i j (fun d => decide (wt d.1 d.2 ≠ 0)) (fun c => decide (weight wt r i j c ≠ 0))
    fun d hd => by rw [weight_cellAt wt hd]
  have e : focalValues isNaN wt (field g v) r i j =
      ((offsets r).filter fun d => decide (wt d.1 d.2 ≠ 0) && !isNaN (at_ (field g v) r i j d)).map
        (at_ (field g v) r i j) := by
    unfold focalValues
    congr 1
    refine List.filter_congr fun d _ => ?_
    cases isNaN (at_ (field g v) r i j d) <;> simp
  rw [e]
  exact this

theorem neighbourValues_numbers (hv : ∀ i j, i < g.a0 → j < g.a1 → Element L (v i j)) (i j : Nat) :
    (∀ x ∈ neighbourValues isNaN wt (field g v) r i j, IsNumber L x) ∧
    ((neighbourValues isNaN wt (field g v) r i j).filterMap number).Perm (neighbourNumbers g v wt r i j) ∧
    (neighbourValues isNaN wt (field g v) r i j).length = (neighbourNumbers g v wt r i j).length := by
  have := selected (r := r) hv i j (fun d => decide (d ≠ (r, r) ∧ wt d.1 d.2 ≠ 0))
    (fun c => decide (c ≠ (i, j) ∧ weight wt r i j c ≠ 0)) fun d hd => by
      rw [weight_cellAt wt hd]
      obtain ⟨h1, h2, h3, h4⟩ := hd
      have : cellAt r i j d ≠ (i, j) ↔ d ≠ (r, r) := by
        obtain ⟨d0, d1⟩ := d
        unfold cellAt
        simp only [ne_eq, Prod.mk.injEq] at *
        omega
      simp only [this]
  have e : neighbourValues isNaN wt (field g v) r i j =
      ((offsets r).filter fun d => decide (d ≠ (r, r) ∧ wt d.1 d.2 ≠ 0) && !isNaN (at_ (field g v) r i j d)).map
        (at_ (field g v) r i j) := by
    unfold neighbourValues
    congr 1
    refine List.filter_congr fun d _ => ?_
    cases isNaN (at_ (field g v) r i j d) <;> simp
  rw [e]
  exact this

end

end Lue.FocalRounding

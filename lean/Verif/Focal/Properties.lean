import Verif.Focal.Neighbours

/-!
C14: focal operations compute, for each cell, the functor applied to the window around the cell in the array extended
with halo values, whatever the partitioning.
-/
namespace Lue.Focal

open Decomposition

variable {α β γ : Type}

theorem borderSlice_cases {r : Nat} {b : Blk α} {e0 e1 : Nat} {f : Nat → Nat → α} (hb : Holds b e0 e1 f) (s0 s1 : Nat × Nat)
    (h : r ≤ e0 → r ≤ e1 → s0.2 ≤ e0 ∧ s1.2 ≤ e1) :
    ((e0 < r ∨ e1 < r) ∧ borderSlice r b s0 s1 = .error .thrown) ∨
    ∃ b', r ≤ e0 ∧ r ≤ e1 ∧ borderSlice r b s0 s1 = .ok b' ∧
      Holds b' (s0.2 - s0.1) (s1.2 - s1.1) (fun i j => f (s0.1 + i) (s1.1 + j)) := by
  by_cases hs : e0 < r ∨ e1 < r
  · left
    refine ⟨hs, ?_⟩
    unfold borderSlice
    rw [hb.e0_eq, hb.e1_eq, if_pos hs]; rfl
  · right
    obtain ⟨h0, h1⟩ := h (by omega) (by omega)
    obtain ⟨b', h2, h3⟩ := slice_ok hb h0 h1
    refine ⟨b', by omega, by omega, ?_, h3⟩
    unfold borderSlice
    rw [hb.e0_eq, hb.e1_eq, if_neg hs]
    exact h2

/-- The part of the extended array which is visible from partition (k0, k1). -/
def visible (h : Halo α) (r : Nat) (g : Grid) (v : Arr α) (k0 k1 : Nat) (I J : Nat) : α :=
  extended h g.a0 g.a1 v (pstart g.a0 g.p0 r (k0 + 1) - r + I) (pstart g.a1 g.p1 r (k1 + 1) - r + J)

section

variable {h : Halo α} {r : Nat} {g : Grid} {v : Arr α}

/-- Reading the data from the 3 × 3 partitions succeeds and yields the cells around the focal partition, or an exception
is thrown because one of the partitions is smaller than the kernel radius. -/
theorem readData_cases (hg : g.Ok) {k0 k1 : Nat} (hk0 : k0 < g.n0) (hk1 : k1 < g.n1) {hood : Blk (Blk α)}
    (hh : IsHood h r g v k0 k1 hood) :
    (readData r hood = .error .thrown ∧ ∃ p q, p < 3 ∧ q < 3 ∧
      (pext g.a0 g.p0 r (k0 + p) < r ∨ pext g.a1 g.p1 r (k1 + q) < r)) ∨
    ∃ data, readData r hood = .ok data ∧
      DataOk r (g.rows k0) (g.cols k1) (visible h r g v k0 k1) data := by
  have hk0' : k0 < g.a0 / g.p0 := hk0
  have hk1' : k1 < g.a1 / g.p1 := hk1
  have a0 : pext g.a0 g.p0 r (k0 + 1) = g.rows k0 := pext_inner hk0'
  have a1 : pext g.a1 g.p1 r (k1 + 1) = g.cols k1 := pext_inner hk1'
  have s01 := pstart_succ (r := r) hg.pos0 hg.le0 (show k0 ≤ g.a0 / g.p0 by omega)
  have s02 := pstart_succ (r := r) hg.pos0 hg.le0 (show k0 + 1 ≤ g.a0 / g.p0 by omega)
  have s11 := pstart_succ (r := r) hg.pos1 hg.le1 (show k1 ≤ g.a1 / g.p1 by omega)
  have s12 := pstart_succ (r := r) hg.pos1 hg.le1 (show k1 + 1 ≤ g.a1 / g.p1 by omega)
  rw [a0, show k0 + 1 + 1 = k0 + 2 from rfl] at s02
  rw [a1, show k1 + 1 + 1 = k1 + 2 from rfl] at s12
  obtain ⟨nw, gnw, Hnw⟩ := hh 0 0 (by omega) (by omega)
  obtain ⟨n, gn, Hn⟩ := hh 0 1 (by omega) (by omega)
  obtain ⟨ne, gne, Hne⟩ := hh 0 2 (by omega) (by omega)
  obtain ⟨w, gw, Hw⟩ := hh 1 0 (by omega) (by omega)
  obtain ⟨c, gc, Hc⟩ := hh 1 1 (by omega) (by omega)
  obtain ⟨e, ge, He⟩ := hh 1 2 (by omega) (by omega)
  obtain ⟨sw, gsw, Hsw⟩ := hh 2 0 (by omega) (by omega)
  obtain ⟨s, gs, Hs⟩ := hh 2 1 (by omega) (by omega)
  obtain ⟨se, gse, Hse⟩ := hh 2 2 (by omega) (by omega)
  simp only [Nat.add_zero] at Hnw Hn Hne Hw Hc He Hsw Hs Hse
  have x00 := Hnw.e0_eq
  have x01 := Hnw.e1_eq
  have x10 := Hn.e0_eq
  have x11 := Hn.e1_eq
  have x20 := Hne.e0_eq
  have x21 := Hne.e1_eq
  have x30 := Hw.e0_eq
  have x31 := Hw.e1_eq
  have x50 := He.e0_eq
  have x51 := He.e1_eq
  have x60 := Hsw.e0_eq
  have x61 := Hsw.e1_eq
  have x70 := Hs.e0_eq
  have x71 := Hs.e1_eq
  have x80 := Hse.e0_eq
  have x81 := Hse.e1_eq
  unfold readData
  rw [gnw, M.bind_ok]
  rcases borderSlice_cases (r := r) Hnw (nw.e0 - r, nw.e0) (nw.e1 - r, nw.e1) (by intro _ _; simp only; omega) with ⟨hs', er⟩ | ⟨nw', r00, r01, er, Fnw⟩
  · left; exact ⟨by rw [er]; rfl, 0, 0, by omega, by omega, by simpa using hs'⟩
  rw [er, M.bind_ok, gn, M.bind_ok]
  rcases borderSlice_cases (r := r) Hn (n.e0 - r, n.e0) (0, n.e1) (by intro _ _; simp only; omega) with ⟨hs', er⟩ | ⟨n', r10, r11, er, Fn⟩
  · left; exact ⟨by rw [er]; rfl, 0, 1, by omega, by omega, by simpa using hs'⟩
  rw [er, M.bind_ok, gne, M.bind_ok]
  rcases borderSlice_cases (r := r) Hne (ne.e0 - r, ne.e0) (0, r) (by intro _ _; simp only; omega) with ⟨hs', er⟩ | ⟨ne', r20, r21, er, Fne⟩
  · left; exact ⟨by rw [er]; rfl, 0, 2, by omega, by omega, by simpa using hs'⟩
  rw [er, M.bind_ok, gw, M.bind_ok]
  rcases borderSlice_cases (r := r) Hw (0, w.e0) (w.e1 - r, w.e1) (by intro _ _; simp only; omega) with ⟨hs', er⟩ | ⟨w', r30, r31, er, Fw⟩
  · left; exact ⟨by rw [er]; rfl, 1, 0, by omega, by omega, by simpa using hs'⟩
  rw [er, M.bind_ok, gc, M.bind_ok, ge, M.bind_ok]
  rcases borderSlice_cases (r := r) He (0, e.e0) (0, r) (by intro _ _; simp only; omega) with ⟨hs', er⟩ | ⟨e', r50, r51, er, Fe⟩
  · left; exact ⟨by rw [er]; rfl, 1, 2, by omega, by omega, by simpa using hs'⟩
  rw [er, M.bind_ok, gsw, M.bind_ok]
  rcases borderSlice_cases (r := r) Hsw (0, r) (sw.e1 - r, sw.e1) (by intro _ _; simp only; omega) with ⟨hs', er⟩ | ⟨sw', r60, r61, er, Fsw⟩
  · left; exact ⟨by rw [er]; rfl, 2, 0, by omega, by omega, by simpa using hs'⟩
  rw [er, M.bind_ok, gs, M.bind_ok]
  rcases borderSlice_cases (r := r) Hs (0, r) (0, s.e1) (by intro _ _; simp only; omega) with ⟨hs', er⟩ | ⟨s', r70, r71, er, Fs⟩
  · left; exact ⟨by rw [er]; rfl, 2, 1, by omega, by omega, by simpa using hs'⟩
  rw [er, M.bind_ok, gse, M.bind_ok]
  rcases borderSlice_cases (r := r) Hse (0, r) (0, r) (by intro _ _; simp only; omega) with ⟨hs', er⟩ | ⟨se', r80, r81, er, Fse⟩
  · left; exact ⟨by rw [er]; rfl, 2, 2, by omega, by omega, by simpa using hs'⟩
  rw [er, M.bind_ok]
  right
  refine ⟨⟨3, 3, [nw', n', ne', w', c, e', sw', s', se']⟩, rfl, ?_⟩
  have cast : ∀ {b : Blk α} {e0 e1 e0' e1' : Nat} {f f' : Nat → Nat → α}, Holds b e0 e1 f → e0 = e0' → e1 = e1' →
      (∀ i j, i < e0 → j < e1 → f i j = f' i j) → Holds b e0' e1' f' := by
    intro b e0 e1 e0' e1' f f' hb h0 h1 hf
    subst h0; subst h1; exact hb.congr hf
  intro p q hp hq
  match p, q, hp, hq with
  | 0, 0, _, _ =>
    refine ⟨nw', rfl, cast Fnw (by simp [ext]; omega) (by simp [ext]; omega) ?_⟩
    intro i j hi hj
    simp only [visible, coord] at hi hj ⊢
    congr 1 <;> omega
  | 0, 1, _, _ =>
    refine ⟨n', rfl, cast Fn (by simp [ext]; omega) (by simp [ext]; omega) ?_⟩
    intro i j hi hj
    simp only [visible, coord] at hi hj ⊢
    congr 1 <;> omega
  | 0, 2, _, _ =>
    refine ⟨ne', rfl, cast Fne (by simp [ext]; omega) (by simp [ext]) ?_⟩
    intro i j hi hj
    simp only [visible, coord] at hi hj ⊢
    congr 1 <;> omega
  | 1, 0, _, _ =>
    refine ⟨w', rfl, cast Fw (by simp [ext]; omega) (by simp [ext]; omega) ?_⟩
    intro i j hi hj
    simp only [visible, coord] at hi hj ⊢
    congr 1 <;> omega
  | 1, 1, _, _ =>
    refine ⟨c, rfl, cast Hc (by simp [ext]; omega) (by simp [ext]; omega) ?_⟩
    intro i j hi hj
    simp only [visible, coord] at hi hj ⊢
    congr 1 <;> omega
  | 1, 2, _, _ =>
    refine ⟨e', rfl, cast Fe (by simp [ext]; omega) (by simp [ext]) ?_⟩
    intro i j hi hj
    simp only [visible, coord] at hi hj ⊢
    congr 1 <;> omega
  | 2, 0, _, _ =>
    refine ⟨sw', rfl, cast Fsw (by simp [ext]) (by simp [ext]; omega) ?_⟩
    intro i j hi hj
    simp only [visible, coord] at hi hj ⊢
    congr 1 <;> omega
  | 2, 1, _, _ =>
    refine ⟨s', rfl, cast Fs (by simp [ext]) (by simp [ext]; omega) ?_⟩
    intro i j hi hj
    simp only [visible, coord] at hi hj ⊢
    congr 1 <;> omega
  | 2, 2, _, _ =>
    refine ⟨se', rfl, cast Fse (by simp [ext]) (by simp [ext]) ?_⟩
    intro i j hi hj
    simp only [visible, coord] at hi hj ⊢
    congr 1 <;> omega

end

/-! ### A partition -/

theorem region_ok {n0 n1 : Nat} {cell : Blk View → M γ} (val : Nat → Nat → γ) {s0 c0 s1 c1 : Nat} (h0 : s0 + c0 ≤ n0)
    (h1 : s1 + c1 ≤ n1) {views : Nat → Nat → Blk View}
    (hc : ∀ t0 < c0, ∀ t1 < c1, cell (views t0 t1) = .ok (val (s0 + t0) (s1 + t1))) (out : List γ)
    (hl : out.length = n0 * n1) :
    ∃ out', region n1 cell s0 c0 s1 c1 views out = .ok out' ∧ out'.length = n0 * n1 ∧
      ∀ i j, i < n0 → j < n1 → out'[i * n1 + j]? =
        if (s0 ≤ i ∧ i < s0 + c0) ∧ s1 ≤ j ∧ j < s1 + c1 then some (val i j) else out[i * n1 + j]? := by
  apply forLoop2_region val s0 c0 s1 c1 h0 h1 _ _ out hl
  intro t0 ht0 t1 ht1 out hl
  simp only [hc t0 ht0 t1 ht1, M.bind_ok]
  rw [if_pos (by omega)]
  exact wr_ok _ (by rw [hl]; exact idx_lt (by omega) (by omega))

/-- The shapes of the data read. -/
def ShapesOk (r n0 n1 : Nat) (shape : Nat → Nat → Nat × Nat) : Prop :=
  ∀ p q, p < 3 → q < 3 → shape p q = (ext r n0 p, ext r n1 q)

theorem focalPartition_ok (garbage : Nat → γ) {r n0 n1 : Nat} (hn0 : 2 * r + 1 ≤ n0) (hn1 : 2 * r + 1 ≤ n1)
    {shape : Nat → Nat → Nat × Nat} (hs : ShapesOk r n0 n1 shape) {cell : Blk View → M γ} (val : Nat → Nat → γ)
    (hcell : ∀ f0 f1 l0 l1, f0 < n0 → f1 < n1 → Scheme r n0 f0 l0 → Scheme r n1 f1 l1 →
      cell (product l0 l1) = .ok (val f0 f1)) :
    ∃ out, focalPartition garbage r shape cell = .ok out ∧ out.length = n0 * n1 ∧
      ∀ i j, i < n0 → j < n1 → out[i * n1 + j]? = some (val i j) := by
  have s00 := hs 0 0 (by omega) (by omega)
  have s01 := hs 0 1 (by omega) (by omega)
  have s02 := hs 0 2 (by omega) (by omega)
  have s10 := hs 1 0 (by omega) (by omega)
  have s11 := hs 1 1 (by omega) (by omega)
  have s12 := hs 1 2 (by omega) (by omega)
  have s20 := hs 2 0 (by omega) (by omega)
  have s21 := hs 2 1 (by omega) (by omega)
  have s22 := hs 2 2 (by omega) (by omega)
  simp only [ext] at s00 s01 s02 s10 s11 s12 s20 s21 s22
  norm_num at s00 s01 s02 s10 s11 s12 s20 s21 s22
  -- the views
  have low : ∀ {n f}, f < r → Scheme r n f [(0, f, r), (1, 0, r + 1 + f)] := fun h => .low h
  have v1 : ∀ t0 < n0 - r - r, ∀ t1 < n1 - r - r, cell (innerViews r t0 t1) = .ok (val (r + t0) (r + t1)) := by
    intro t0 h0 t1 h1
    rw [← hcell (r + t0) (r + t1) _ _ (by omega) (by omega) (.mid (by omega)) (.mid (by omega))]
    rfl
  have v2 : ∀ t0 < r, ∀ t1 < r, cell (nwViews r shape t0 t1) = .ok (val (0 + t0) (0 + t1)) := by
    intro t0 h0 t1 h1
    rw [Nat.zero_add, Nat.zero_add, ← hcell t0 t1 _ _ (by omega) (by omega) (.low h0) (.low h1)]
    simp only [nwViews, views22, product, s00, s02, s20, Nat.sub_self, Nat.zero_add]
    rfl
  have v3 : ∀ t0 < r, ∀ t1 < r, cell (neViews r shape t0 t1) = .ok (val (0 + t0) (n1 - r + t1)) := by
    intro t0 h0 t1 h1
    rw [Nat.zero_add, ← hcell t0 (n1 - r + t1) _ _ (by omega) (by omega) (.low h0) (.high h1)]
    simp only [neViews, views22, product, s01, s02, s11, Nat.sub_self, Nat.zero_add, Nat.add_sub_cancel]
    rfl
  have v4 : ∀ t0 < r, ∀ t1 < r, cell (swViews r shape t0 t1) = .ok (val (n0 - r + t0) (0 + t1)) := by
    intro t0 h0 t1 h1
    rw [Nat.zero_add, ← hcell (n0 - r + t0) t1 _ _ (by omega) (by omega) (.high h0) (.low h1)]
    simp only [swViews, views22, product, s10, s11, s20, Nat.sub_self, Nat.zero_add, Nat.add_sub_cancel]
    rfl
  have v5 : ∀ t0 < r, ∀ t1 < r, cell (seViews r shape t0 t1) = .ok (val (n0 - r + t0) (n1 - r + t1)) := by
    intro t0 h0 t1 h1
    rw [← hcell (n0 - r + t0) (n1 - r + t1) _ _ (by omega) (by omega) (.high h0) (.high h1)]
    simp only [seViews, views22, product, s11, s12, s21, Nat.add_sub_cancel]
    rfl
  have v6 : ∀ t0 < r, ∀ t1 < n1 - r - r, cell (nViews r shape t0 t1) = .ok (val (0 + t0) (r + t1)) := by
    intro t0 h0 t1 h1
    rw [Nat.zero_add, ← hcell t0 (r + t1) _ _ (by omega) (by omega) (.low h0) (.mid (by omega))]
    simp only [nViews, product, s01, Nat.sub_self, Nat.zero_add]
    rfl
  have v7 : ∀ t0 < n0 - r - r, ∀ t1 < r, cell (wViews r shape t0 t1) = .ok (val (r + t0) (0 + t1)) := by
    intro t0 h0 t1 h1
    rw [Nat.zero_add, ← hcell (r + t0) t1 _ _ (by omega) (by omega) (.mid (by omega)) (.low h1)]
    simp only [wViews, product, s10, Nat.sub_self, Nat.zero_add]
    rfl
  have v8 : ∀ t0 < n0 - r - r, ∀ t1 < r, cell (eViews r shape t0 t1) = .ok (val (r + t0) (n1 - r + t1)) := by
    intro t0 h0 t1 h1
    rw [← hcell (r + t0) (n1 - r + t1) _ _ (by omega) (by omega) (.mid (by omega)) (.high h1)]
    simp only [eViews, product, s11, Nat.add_sub_cancel]
    rfl
  have v9 : ∀ t0 < r, ∀ t1 < n1 - r - r, cell (sViews r shape t0 t1) = .ok (val (n0 - r + t0) (r + t1)) := by
    intro t0 h0 t1 h1
    rw [← hcell (n0 - r + t0) (r + t1) _ _ (by omega) (by omega) (.high h0) (.mid (by omega))]
    simp only [sViews, product, s11, Nat.add_sub_cancel]
    rfl
  obtain ⟨o1, e1, l1, g1⟩ := region_ok val (n0 := n0) (n1 := n1) (by omega) (by omega) v1 (uninitialised (n0 * n1) garbage)
    (by simp [uninitialised])
  obtain ⟨o2, e2, l2, g2⟩ := region_ok val (n0 := n0) (n1 := n1) (by omega) (by omega) v2 o1 l1
  obtain ⟨o3, e3, l3, g3⟩ := region_ok val (n0 := n0) (n1 := n1) (by omega) (by omega) v3 o2 l2
  obtain ⟨o4, e4, l4, g4⟩ := region_ok val (n0 := n0) (n1 := n1) (by omega) (by omega) v4 o3 l3
  obtain ⟨o5, e5, l5, g5⟩ := region_ok val (n0 := n0) (n1 := n1) (by omega) (by omega) v5 o4 l4
  obtain ⟨o6, e6, l6, g6⟩ := region_ok val (n0 := n0) (n1 := n1) (by omega) (by omega) v6 o5 l5
  obtain ⟨o7, e7, l7, g7⟩ := region_ok val (n0 := n0) (n1 := n1) (by omega) (by omega) v7 o6 l6
  obtain ⟨o8, e8, l8, g8⟩ := region_ok val (n0 := n0) (n1 := n1) (by omega) (by omega) v8 o7 l7
  obtain ⟨o9, e9, l9, g9⟩ := region_ok val (n0 := n0) (n1 := n1) (by omega) (by omega) v9 o8 l8
  refine ⟨o9, ?_, l9, ?_⟩
  · unfold focalPartition
    simp only [s11]
    rw [if_neg (by omega)]
    simp only [e1, e2, e3, e4, e5, e6, e7, e8, M.bind_ok, pure_bind]
    exact e9
  · intro i j hi hj
    by_cases c9 : (n0 - r ≤ i ∧ i < n0 - r + r) ∧ r ≤ j ∧ j < r + (n1 - r - r)
    · rw [g9 i j hi hj, if_pos c9]
    rw [g9 i j hi hj, if_neg c9]
    by_cases c8 : (r ≤ i ∧ i < r + (n0 - r - r)) ∧ n1 - r ≤ j ∧ j < n1 - r + r
    · rw [g8 i j hi hj, if_pos c8]
    rw [g8 i j hi hj, if_neg c8]
    by_cases c7 : (r ≤ i ∧ i < r + (n0 - r - r)) ∧ 0 ≤ j ∧ j < 0 + r
    · rw [g7 i j hi hj, if_pos c7]
    rw [g7 i j hi hj, if_neg c7]
    by_cases c6 : (0 ≤ i ∧ i < 0 + r) ∧ r ≤ j ∧ j < r + (n1 - r - r)
    · rw [g6 i j hi hj, if_pos c6]
    rw [g6 i j hi hj, if_neg c6]
    by_cases c5 : (n0 - r ≤ i ∧ i < n0 - r + r) ∧ n1 - r ≤ j ∧ j < n1 - r + r
    · rw [g5 i j hi hj, if_pos c5]
    rw [g5 i j hi hj, if_neg c5]
    by_cases c4 : (n0 - r ≤ i ∧ i < n0 - r + r) ∧ 0 ≤ j ∧ j < 0 + r
    · rw [g4 i j hi hj, if_pos c4]
    rw [g4 i j hi hj, if_neg c4]
    by_cases c3 : (0 ≤ i ∧ i < 0 + r) ∧ n1 - r ≤ j ∧ j < n1 - r + r
    · rw [g3 i j hi hj, if_pos c3]
    rw [g3 i j hi hj, if_neg c3]
    by_cases c2 : (0 ≤ i ∧ i < 0 + r) ∧ 0 ≤ j ∧ j < 0 + r
    · rw [g2 i j hi hj, if_pos c2]
    rw [g2 i j hi hj, if_neg c2, g1 i j hi hj, if_pos (by omega)]

theorem DataOk.shapes {r n0 n1 : Nat} {f : Nat → Nat → α} {data : Blk (Blk α)} (h : DataOk r n0 n1 f data) :
    ShapesOk r n0 n1 (shapes data) := by
  intro p q hp hq
  obtain ⟨b, hb, hh⟩ := h p q hp hq
  simp only [Focal.shapes, hb, hh.e0_eq, hh.e1_eq]

/-- The window in the visible part of the array is the one around the cell in the extended array. -/
theorem visible_window (h : Halo α) {r : Nat} {g : Grid} {v : Arr α} {k0 k1 l0 l1 : Nat} (hk0 : k0 < g.n0)
    (hk1 : k1 < g.n1) :
    ((List.range ((2 * r + 1) * (2 * r + 1))).map fun e =>
      visible h r g v k0 k1 (l0 + e / (2 * r + 1)) (l1 + e % (2 * r + 1))) =
    windowAt (extended h g.a0 g.a1 v) r (k0 * g.p0 + l0) (k1 * g.p1 + l1) := by
  unfold windowAt visible
  rw [pstart_inner hk0, pstart_inner hk1]
  apply List.map_congr_left
  intro e _
  congr 1 <;> (push_cast; ring)

theorem windowAt_length (f : Int → Int → α) (r i j : Nat) : (windowAt f r i j).length = (2 * r + 1) * (2 * r + 1) := by
  simp [windowAt]

/-- The partitions of an array are at least `n` × `n` cells. -/
def LargeEnough (g : Grid) (n : Nat) : Prop := ∀ k0 k1, k0 < g.n0 → k1 < g.n1 → n ≤ g.rows k0 ∧ n ≤ g.cols k1

/-- Partitions are never smaller than the requested partition shape. -/
theorem largeEnough {g : Grid} (hg : g.Ok) (n : Nat) (h : n ≤ g.p0 ∧ n ≤ g.p1) : LargeEnough g n := by
  obtain ⟨h0, h1⟩ := h
  intro k0 k1 _ _
  exact ⟨Nat.le_trans h0 (Dim.extent_ge hg.pos0 k0), Nat.le_trans h1 (Dim.extent_ge hg.pos1 k1)⟩

theorem hood_data {h : Halo α} {r : Nat} {x : PArr α} {v : Arr α} (hx : Represents x v)
    (hl : LargeEnough x.grid (2 * r + 1)) {k0 k1 : Nat} (hk0 : k0 < x.grid.n0) (hk1 : k1 < x.grid.n1)
    {hood : Blk (Blk α)} (hh : IsHood h r x.grid v k0 k1 hood) :
    ∃ data, readData r hood = .ok data ∧
      DataOk r (x.grid.rows k0) (x.grid.cols k1) (visible h r x.grid v k0 k1) data := by
  rcases readData_cases hx.ok hk0 hk1 hh with ⟨_, p, q, hp, hq, hs⟩ | hd
  · exfalso
    have e : ∀ (a P K : Nat), K ≤ a / P + 1 → (∀ k < a / P, 2 * r + 1 ≤ Dim.extent a P k) → r ≤ pext a P r K := by
      intro a P K hK hP
      unfold pext
      split
      · exact Nat.le_refl _
      · have := hP (K - 1) (by omega); omega
    have hk0' : k0 < x.grid.a0 / x.grid.p0 := hk0
    have hk1' : k1 < x.grid.a1 / x.grid.p1 := hk1
    have f0 := e x.grid.a0 x.grid.p0 (k0 + p) (by omega) (fun k hk => (hl k k1 hk hk1).1)
    have f1 := e x.grid.a1 x.grid.p1 (k1 + q) (by omega) (fun k hk => (hl k0 k hk0 hk).2)
    omega
  · exact hd

/-- C14: for each array, partitioning in partitions of at least the size of the kernel, kernel radius, halo values, and
order in which the tasks complete: the result of a focal operation is, for each cell, the functor applied to the window
around the cell in the whole array, extended with the halo values. Only elements of the partitions are accessed. -/
theorem focal1_spec (h : Halo α) (garbage : Nat → α) (garbage' : Nat → γ) (r : Nat) (functor : List α → M γ)
    {x : PArr α} {v : Arr α} (hx : Represents x v) (hl : LargeEnough x.grid (2 * r + 1)) (w : Arr γ)
    (hf : ∀ i j, i < x.grid.a0 → j < x.grid.a1 →
      functor (windowAt (extended h x.grid.a0 x.grid.a1 v) r i j) = .ok (w i j))
    {order : List Nat} (ho : IsOrder (x.grid.n0 * x.grid.n1) order) :
    ∃ out, focal1 h garbage garbage' r functor order x = .ok out ∧ out.grid = x.grid ∧ Represents out w := by
  have hg := hx.ok
  obtain ⟨slots, hs, hsl⟩ := spawn_ok (Dim.nr_pos hg.pos0 hg.le0) (Dim.nr_pos hg.pos1 hg.le1)
  obtain ⟨parts, h1, h2⟩ := runTasks_represents (g := x.grid) hg ho (w := w) (task := task1 h garbage garbage' r functor x slots) (by
      intro k0 k1 hk0 hk1
      obtain ⟨kind, hkind, hok⟩ := hsl k0 k1 hk0 hk1
      obtain ⟨hood, e1, e2⟩ := neighbourhood_ok h r hx hk0 hk1 hok
      obtain ⟨data, e3, e4⟩ := hood_data hx hl hk0 hk1 e2
      obtain ⟨out, e5, e6, e7⟩ := focalPartition_ok garbage' (hl k0 k1 hk0 hk1).1 (hl k0 k1 hk0 hk1).2 e4.shapes
        (cell := fun views => do
          let w ← window garbage (2 * r + 1) data views
          functor w) (fun l0 l1 => w (k0 * x.grid.p0 + l0) (k1 * x.grid.p1 + l1)) (by
          intro f0 f1 l0 l1 hf0 hf1 s0 s1
          simp only [window_ok garbage e4 (hl k0 k1 hk0 hk1).1 (hl k0 k1 hk0 hk1).2 s0 s1, M.bind_ok,
            visible_window h hk0 hk1]
          exact hf _ _ (Dim.decompose_lt hg.pos0 hg.le0 hk0 hf0) (Dim.decompose_lt hg.pos1 hg.le1 hk1 hf1))
      refine ⟨out, ?_, e6, e7⟩
      have hkind' : slots[k0 * x.grid.n1 + k1]? = some (some kind) := hkind
      simp only [task1, task2, rd_ok hkind', M.bind_ok, idx_div hk1, idx_mod hk1, e1, e3]
      exact e5)
  refine ⟨⟨x.grid, parts⟩, ?_, rfl, h2⟩
  have hs' : spawn x.grid.n0 x.grid.n1 (launches x.grid.n0 x.grid.n1) = .ok slots := hs
  unfold focal1
  simp only [hs', M.bind_ok]
  rw [h1]; rfl

/-- C14, two input arrays with the same partitioning. -/
theorem focal2_spec (h : Halo α) (h' : Halo β) (garbage : Nat → α) (garbage' : Nat → β) (garbage'' : Nat → γ) (r : Nat)
    (functor : List α → List β → M γ) {x : PArr α} {v : Arr α} {y : PArr β} {u : Arr β} (hx : Represents x v)
    (hy : Represents y u) (hxy : y.grid = x.grid) (hl : LargeEnough x.grid (2 * r + 1)) (w : Arr γ)
    (hf : ∀ i j, i < x.grid.a0 → j < x.grid.a1 →
      functor (windowAt (extended h x.grid.a0 x.grid.a1 v) r i j) (windowAt (extended h' x.grid.a0 x.grid.a1 u) r i j)
        = .ok (w i j))
    {order : List Nat} (ho : IsOrder (x.grid.n0 * x.grid.n1) order) :
    ∃ out, focal2 h h' garbage garbage' garbage'' r functor order x y = .ok out ∧ out.grid = x.grid ∧
      Represents out w := by
  have hg := hx.ok
  obtain ⟨slots, hs, hsl⟩ := spawn_ok (Dim.nr_pos hg.pos0 hg.le0) (Dim.nr_pos hg.pos1 hg.le1)
  obtain ⟨parts, h1, h2⟩ := runTasks_represents (g := x.grid) hg ho (w := w) (task := task2 h h' garbage garbage' garbage'' r functor x y slots) (by
      intro k0 k1 hk0 hk1
      obtain ⟨kind, hkind, hok⟩ := hsl k0 k1 hk0 hk1
      obtain ⟨hood, e1, e2⟩ := neighbourhood_ok h r hx hk0 hk1 hok
      obtain ⟨data, e3, e4⟩ := hood_data hx hl hk0 hk1 e2
      obtain ⟨hood', e1', e2'⟩ := neighbourhood_ok h' r hy (k0 := k0) (k1 := k1) (by rw [hxy]; exact hk0)
        (by rw [hxy]; exact hk1) (by rw [hxy]; exact hok)
      obtain ⟨data', e3', e4'⟩ := hood_data hy (by rw [hxy]; exact hl) (by rw [hxy]; exact hk0)
        (by rw [hxy]; exact hk1) e2'
      rw [hxy] at e4'
      obtain ⟨out, e5, e6, e7⟩ := focalPartition_ok garbage'' (hl k0 k1 hk0 hk1).1 (hl k0 k1 hk0 hk1).2 e4.shapes
        (cell := fun views => do
          let w ← window garbage (2 * r + 1) data views
          let w' ← window garbage' (2 * r + 1) data' views
          functor w w') (fun l0 l1 => w (k0 * x.grid.p0 + l0) (k1 * x.grid.p1 + l1)) (by
          intro f0 f1 l0 l1 hf0 hf1 s0 s1
          simp only [window_ok garbage e4 (hl k0 k1 hk0 hk1).1 (hl k0 k1 hk0 hk1).2 s0 s1, M.bind_ok,
            window_ok garbage' e4' (hl k0 k1 hk0 hk1).1 (hl k0 k1 hk0 hk1).2 s0 s1,
            visible_window h hk0 hk1, visible_window h' hk0 hk1]
          exact hf _ _ (Dim.decompose_lt hg.pos0 hg.le0 hk0 hf0) (Dim.decompose_lt hg.pos1 hg.le1 hk1 hf1))
      refine ⟨out, ?_, e6, e7⟩
      have hkind' : slots[k0 * x.grid.n1 + k1]? = some (some kind) := hkind
      simp only [task1, task2, rd_ok hkind', M.bind_ok, idx_div hk1, idx_mod hk1, e1, e3, e1', e3']
      exact e5)
  refine ⟨⟨x.grid, parts⟩, ?_, rfl, h2⟩
  have hs' : spawn x.grid.n0 x.grid.n1 (launches x.grid.n0 x.grid.n1) = .ok slots := hs
  unfold focal2
  simp only [verifyCompatible_same hxy.symm, hs', M.bind_ok]
  rw [h1]; rfl

/-- When a task throws and no task fails in another way, the operation throws, whatever the order of completion. -/
theorem runTasks_thrown {π : Type} {n : Nat} {task : Nat → M π} {order : List Nat} (ho : IsOrder n order)
    (ht : ∀ k < n, (∃ r, task k = .ok r) ∨ task k = .error .thrown) {k : Nat} (hk : k < n) (hkt : task k = .error .thrown) :
    runTasks n task order = .error .thrown := by
  have key : ∀ (l : List Nat) (s : List (Option π)), (∀ k ∈ l, k < n) → s.length = n → k ∈ l →
      l.foldlM (fun (slots : List (Option π)) k => do
        let r ← task k
        wr slots k (some r)) s = .error .thrown := by
    intro l
    induction l with
    | nil => intro s _ _ h; simp at h
    | cons a l ih =>
      intro s hl hs hkl
      rw [List.foldlM_cons]
      rcases ht a (hl a (by simp)) with ⟨r, hr⟩ | hr
      · rw [hr]
        simp only [M.bind_ok]
        rw [wr_ok _ (by rw [hs]; exact hl a (by simp)), M.bind_ok]
        apply ih _ (fun k hk => hl k (by simp [hk])) (by simp [hs])
        rcases List.mem_cons.mp hkl with rfl | h
        · rw [hkt] at hr; exact absurd hr (by simp)
        · exact h
      · rw [hr]; rfl
  unfold runTasks
  rw [key order _ (fun k hk => by have := ho.mem_iff.mp hk; simpa using this) (by simp)
    (ho.mem_iff.mpr (by simpa using hk))]
  rfl

/-- C14: when some partition is smaller than the kernel, an exception is thrown: no cells outside of partitions are
accessed. -/
theorem focal1_throws (h : Halo α) (garbage : Nat → α) (garbage' : Nat → γ) (r : Nat) (functor : List α → M γ)
    {x : PArr α} {v : Arr α} (hx : Represents x v) (hl : ¬ LargeEnough x.grid (2 * r + 1)) (w : Arr γ)
    (hf : ∀ i j, i < x.grid.a0 → j < x.grid.a1 →
      functor (windowAt (extended h x.grid.a0 x.grid.a1 v) r i j) = .ok (w i j))
    {order : List Nat} (ho : IsOrder (x.grid.n0 * x.grid.n1) order) :
    focal1 h garbage garbage' r functor order x = .error .thrown := by
  have hg := hx.ok
  obtain ⟨slots, hs, hsl⟩ := spawn_ok (Dim.nr_pos hg.pos0 hg.le0) (Dim.nr_pos hg.pos1 hg.le1)
  have task : ∀ k0 k1, k0 < x.grid.n0 → k1 < x.grid.n1 →
      ((∃ r', task1 h garbage garbage' r functor x slots (k0 * x.grid.n1 + k1) = .ok r') ∨
        task1 h garbage garbage' r functor x slots (k0 * x.grid.n1 + k1) = .error .thrown) ∧
      (¬ (2 * r + 1 ≤ x.grid.rows k0 ∧ 2 * r + 1 ≤ x.grid.cols k1) →
        task1 h garbage garbage' r functor x slots (k0 * x.grid.n1 + k1) = .error .thrown) := by
    intro k0 k1 hk0 hk1
    obtain ⟨kind, hkind, hok⟩ := hsl k0 k1 hk0 hk1
    have hkind' : slots[k0 * x.grid.n1 + k1]? = some (some kind) := hkind
    obtain ⟨hood, e1, e2⟩ := neighbourhood_ok h r hx hk0 hk1 hok
    rcases readData_cases hg hk0 hk1 e2 with ⟨e3, _⟩ | ⟨data, e3, e4⟩
    · have : task1 h garbage garbage' r functor x slots (k0 * x.grid.n1 + k1) = .error .thrown := by
        simp only [task1, rd_ok hkind', M.bind_ok, idx_div hk1, idx_mod hk1, e1, e3]; rfl
      exact ⟨.inr this, fun _ => this⟩
    · by_cases hb : 2 * r + 1 ≤ x.grid.rows k0 ∧ 2 * r + 1 ≤ x.grid.cols k1
      · obtain ⟨out, e5, e6, e7⟩ := focalPartition_ok garbage' hb.1 hb.2 e4.shapes
          (cell := fun views => do
            let w ← window garbage (2 * r + 1) data views
            functor w) (fun l0 l1 => w (k0 * x.grid.p0 + l0) (k1 * x.grid.p1 + l1)) (by
            intro f0 f1 l0 l1 hf0 hf1 s0 s1
            simp only [window_ok garbage e4 hb.1 hb.2 s0 s1, M.bind_ok, visible_window h hk0 hk1]
            exact hf _ _ (Dim.decompose_lt hg.pos0 hg.le0 hk0 hf0) (Dim.decompose_lt hg.pos1 hg.le1 hk1 hf1))
        refine ⟨.inl ⟨out, ?_⟩, fun h => absurd hb h⟩
        simp only [task1, rd_ok hkind', M.bind_ok, idx_div hk1, idx_mod hk1, e1, e3]
        exact e5
      · have : task1 h garbage garbage' r functor x slots (k0 * x.grid.n1 + k1) = .error .thrown := by
          simp only [task1, rd_ok hkind', M.bind_ok, idx_div hk1, idx_mod hk1, e1, e3]
          have := e4.shapes 1 1 (by omega) (by omega)
          unfold focalPartition
          simp only [this, ext]
          rw [if_pos (by simp only [if_true]; omega)]
          rfl
        exact ⟨.inr this, fun _ => this⟩
  have : ∃ k0 k1, k0 < x.grid.n0 ∧ k1 < x.grid.n1 ∧ ¬ (2 * r + 1 ≤ x.grid.rows k0 ∧ 2 * r + 1 ≤ x.grid.cols k1) := by
    by_contra hc
    apply hl
    intro k0 k1 hk0 hk1
    by_contra hn
    exact hc ⟨k0, k1, hk0, hk1, hn⟩
  obtain ⟨k0, k1, hk0, hk1, hn⟩ := this
  have hs' : spawn x.grid.n0 x.grid.n1 (launches x.grid.n0 x.grid.n1) = .ok slots := hs
  unfold focal1
  simp only [hs', M.bind_ok]
  rw [runTasks_thrown ho (k := k0 * x.grid.n1 + k1) ?_ (idx_lt hk0 hk1) ((task k0 k1 hk0 hk1).2 hn)]
  · rfl
  · intro k hk
    obtain ⟨a, b, c⟩ := idx_split hk
    rw [← c]
    exact (task _ _ a b).1

/-- C14, as the property is phrased: the result does not depend on the partitioning. -/
theorem focal1_partitioning_independent (h : Halo α) (garbage : Nat → α) (garbage' : Nat → γ) (r : Nat)
    (functor : List α → M γ) (hf : ∀ w : List α, w.length = (2 * r + 1) * (2 * r + 1) → ∃ y, functor w = .ok y)
    {x x' : PArr α} {v : Arr α} (hx : Represents x v) (hx' : Represents x' v) (h0 : x.grid.a0 = x'.grid.a0)
    (h1 : x.grid.a1 = x'.grid.a1) (hl : LargeEnough x.grid (2 * r + 1)) (hl' : LargeEnough x'.grid (2 * r + 1))
    {order order' : List Nat} (ho : IsOrder (x.grid.n0 * x.grid.n1) order)
    (ho' : IsOrder (x'.grid.n0 * x'.grid.n1) order') :
    ∃ out out' w, focal1 h garbage garbage' r functor order x = .ok out ∧
      focal1 h garbage garbage' r functor order' x' = .ok out' ∧ Represents out w ∧ Represents out' w := by
  let f : List α → γ := fun l => match functor l with
    | .ok y => y
    | .error _ => garbage' 0
  have hw : ∀ i j, functor (windowAt (extended h x.grid.a0 x.grid.a1 v) r i j) =
      .ok (f (windowAt (extended h x.grid.a0 x.grid.a1 v) r i j)) := by
    intro i j
    obtain ⟨y, hy⟩ := hf _ (windowAt_length (extended h x.grid.a0 x.grid.a1 v) r i j)
    simp [f, hy]
  obtain ⟨out, e1, _, e2⟩ := focal1_spec h garbage garbage' r functor hx hl
    (fun i j => f (windowAt (extended h x.grid.a0 x.grid.a1 v) r i j)) (fun i j _ _ => hw i j) ho
  obtain ⟨out', e1', _, e2'⟩ := focal1_spec h garbage garbage' r functor hx' hl'
    (fun i j => f (windowAt (extended h x.grid.a0 x.grid.a1 v) r i j)) (fun i j _ _ => by
      rw [← h0, ← h1]; exact hw i j) ho'
  exact ⟨out, out', _, e1, e1', e2, e2'⟩

/-- A concrete case: 7 × 6 cells in 2 × 2 partitions (of 3 × 3 to 4 × 3 cells), radius 1, halo value 0. -/
example : LargeEnough ⟨7, 6, 3, 3⟩ (2 * 1 + 1) := largeEnough ⟨by decide, by decide, by decide, by decide⟩ _ (by decide)

example : ∃ x : PArr Nat, Represents x (fun i j => 10 * i + j) ∧
    focal1 ⟨0, 0, 0, 0, 0, 0, 0, 0⟩ (fun _ => 77) (fun _ => 88) 1 (fun w => .ok w.sum) [3, 1, 0, 2] x =
      .ok ⟨⟨7, 6, 3, 3⟩, [[22, 36, 42, 63, 99, 108, 123, 189, 198],
        [48, 54, 38, 117, 126, 87, 207, 216, 147],
        [183, 279, 288, 243, 369, 378, 303, 459, 468, 222, 336, 342],
        [297, 306, 207, 387, 396, 267, 477, 486, 327, 348, 354, 238]]⟩ :=
  ⟨store ⟨7, 6, 3, 3⟩ _, store_represents ⟨by decide, by decide, by decide, by decide⟩ _, rfl⟩

/-- Partitions of two cells are too small for a kernel of size 3. -/
example : ∃ x : PArr Nat, Represents x (fun i j => 10 * i + j) ∧ ¬ LargeEnough x.grid 3 ∧
    focal1 ⟨0, 0, 0, 0, 0, 0, 0, 0⟩ (fun _ => 77) (fun _ => 88) 1 (fun w => .ok w.sum) [0, 1, 2, 3] x = .error .thrown :=
  ⟨store ⟨4, 4, 2, 2⟩ _, store_represents ⟨by decide, by decide, by decide, by decide⟩ _,
    fun h => absurd (h 0 0 (by decide) (by decide)).1 (by decide), rfl⟩

end Lue.Focal

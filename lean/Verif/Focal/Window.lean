import Verif.Focal.Model
import Verif.Partitioned.Loops

/-!
Assembling the window around a focal cell from views on the 3 × 3 partitions.
-/
namespace Lue.Focal

variable {α β γ : Type}

theorem mapM_ok {δ ε : Type} {l : List δ} {f : δ → M ε} {g : δ → ε} (h : ∀ x ∈ l, f x = .ok (g x)) :
    l.mapM f = .ok (l.map g) := by
  induction l with
  | nil => rfl
  | cons a l ih =>
    rw [List.mapM_cons, h a (by simp), ih (fun x hx => h x (by simp [hx]))]; rfl

/-- A block of which the elements are given by a function. -/
structure Holds (b : Blk α) (e0 e1 : Nat) (f : Nat → Nat → α) : Prop where
  e0_eq : b.e0 = e0
  e1_eq : b.e1 = e1
  get : ∀ i j, i < e0 → j < e1 → b.get i j = .ok (f i j)

theorem holds_of_data {e0 e1 : Nat} {data : List α} {f : Nat → Nat → α}
    (h : ∀ i j, i < e0 → j < e1 → data[i * e1 + j]? = some (f i j)) : Holds ⟨e0, e1, data⟩ e0 e1 f := by
  refine ⟨rfl, rfl, fun i j hi hj => ?_⟩
  simp only [Blk.get, hi, hj, and_self, if_true]
  exact rd_ok (h i j hi hj)

theorem holds_const (e0 e1 : Nat) (x : α) : Holds (.const e0 e1 x) e0 e1 (fun _ _ => x) := by
  apply holds_of_data
  intro i j hi hj
  rw [List.getElem?_replicate]; simp [idx_lt hi hj]

theorem Holds.congr {b : Blk α} {e0 e1 : Nat} {f g : Nat → Nat → α} (h : Holds b e0 e1 f)
    (hfg : ∀ i j, i < e0 → j < e1 → f i j = g i j) : Holds b e0 e1 g :=
  ⟨h.e0_eq, h.e1_eq, fun i j hi hj => by rw [h.get i j hi hj, hfg i j hi hj]⟩

theorem slice_ok {b : Blk α} {e0 e1 : Nat} {f : Nat → Nat → α} (h : Holds b e0 e1 f) {s0 s1 : Nat × Nat}
    (h0 : s0.2 ≤ e0) (h1 : s1.2 ≤ e1) : ∃ b', slice b s0 s1 = .ok b' ∧
      Holds b' (s0.2 - s0.1) (s1.2 - s1.1) (fun i j => f (s0.1 + i) (s1.1 + j)) := by
  refine ⟨⟨s0.2 - s0.1, s1.2 - s1.1, (List.range ((s0.2 - s0.1) * (s1.2 - s1.1))).map fun e =>
    f (s0.1 + e / (s1.2 - s1.1)) (s1.1 + e % (s1.2 - s1.1))⟩, ?_, ?_⟩
  · unfold slice
    simp only
    rw [mapM_ok (g := fun e => f (s0.1 + e / (s1.2 - s1.1)) (s1.1 + e % (s1.2 - s1.1)))]
    · rfl
    · intro e he
      obtain ⟨k0, k1, _⟩ := idx_split (List.mem_range.mp he)
      exact h.get _ _ (Nat.lt_of_lt_of_le (Nat.add_lt_of_lt_sub' k0) h0) (Nat.lt_of_lt_of_le (Nat.add_lt_of_lt_sub' k1) h1)
  · apply holds_of_data
    intro i j hi hj
    rw [List.getElem?_map, List.getElem?_range (idx_lt hi hj)]
    simp only [Option.map_some, idx_div hj, idx_mod hj]

/-- Two nested loops, assigning the cells in a rectangle; other cells keep their value. -/
theorem forLoop2_region {n0 n1 : Nat} (val : Nat → Nat → γ) (s0 c0 s1 c1 : Nat) (h0 : s0 + c0 ≤ n0) (h1 : s1 + c1 ≤ n1)
    (body : Nat → Nat → List γ → M (List γ))
    (hb : ∀ t0 < c0, ∀ t1 < c1, ∀ out : List γ, out.length = n0 * n1 →
      body t0 t1 out = .ok (out.set ((s0 + t0) * n1 + (s1 + t1)) (val (s0 + t0) (s1 + t1))))
    (out : List γ) (hl : out.length = n0 * n1) :
    ∃ out', forLoop c0 (fun t0 out => forLoop c1 (fun t1 out => body t0 t1 out) out) out = .ok out' ∧
      out'.length = n0 * n1 ∧
      ∀ i j, i < n0 → j < n1 → out'[i * n1 + j]? =
        if (s0 ≤ i ∧ i < s0 + c0) ∧ s1 ≤ j ∧ j < s1 + c1 then some (val i j) else out[i * n1 + j]? := by
  have hij : ∀ {i j i' j' : Nat}, j < n1 → j' < n1 → i * n1 + j = i' * n1 + j' → i = i' ∧ j = j' := by
    intro i j i' j' hj hj' h
    exact ⟨by rw [← idx_div hj (k0 := i), h, idx_div hj'], by rw [← idx_mod hj (k0 := i), h, idx_mod hj']⟩
  obtain ⟨out', h, h2, h3⟩ := forLoop_inv (n := c0)
    (body := fun t0 out => forLoop c1 (fun t1 out => body t0 t1 out) out)
    (fun k (s : List γ) => s.length = n0 * n1 ∧ ∀ i j, i < n0 → j < n1 → s[i * n1 + j]? =
        if (s0 ≤ i ∧ i < s0 + k) ∧ s1 ≤ j ∧ j < s1 + c1 then some (val i j) else out[i * n1 + j]?) (by
      rintro k hk s ⟨hs, hv⟩
      obtain ⟨s', h, h2, h3⟩ := forLoop_inv (n := c1)
        (body := fun t1 out => body k t1 out)
        (fun k1 (s : List γ) => s.length = n0 * n1 ∧ ∀ i j, i < n0 → j < n1 → s[i * n1 + j]? =
          if ((s0 ≤ i ∧ i < s0 + k) ∧ s1 ≤ j ∧ j < s1 + c1) ∨ (i = s0 + k ∧ s1 ≤ j ∧ j < s1 + k1) then some (val i j)
          else out[i * n1 + j]?) (by
          rintro k1 hk1 s ⟨hs, hv⟩
          have hlt := idx_lt (show s0 + k < n0 by omega) (show s1 + k1 < n1 by omega)
          refine ⟨_, hb k hk k1 hk1 s hs, by simp [hs], ?_⟩
          intro i j hi hj
          by_cases he : (s0 + k) * n1 + (s1 + k1) = i * n1 + j
          · obtain ⟨e0, e1⟩ := hij (show s1 + k1 < n1 by omega) hj he
            rw [← he, List.getElem?_set_self (by omega), if_pos (.inr ⟨by omega, by omega, by omega⟩), e0, e1]
          · rw [List.getElem?_set_ne he, hv i j hi hj]
            have hne : ¬ (i = s0 + k ∧ j = s1 + k1) := by rintro ⟨rfl, rfl⟩; exact he rfl
            apply if_congr _ rfl rfl
            omega) s ⟨hs, by
              intro i j hi hj
              rw [hv i j hi hj]
              apply if_congr _ rfl rfl
              omega⟩
      refine ⟨s', h, h2, ?_⟩
      intro i j hi hj
      rw [h3 i j hi hj]
      apply if_congr _ rfl rfl
      omega) out ⟨hl, by
        intro i j hi hj
        rw [if_neg (by omega)]⟩
  exact ⟨out', h, h2, h3⟩

/-- Extents per row / column of windows, summed. -/
def sums (w : Nat → Nat) : Nat → Nat
  | 0 => 0
  | n + 1 => sums w n + w n

theorem sums_le {w : Nat → Nat} {m n : Nat} (h : m ≤ n) : sums w m ≤ sums w n := by
  induction n with
  | zero => simp at h; subst h; exact Nat.le_refl _
  | succ n ih =>
    by_cases hm : m = n + 1
    · subst hm; exact Nat.le_refl _
    · have := ih (by omega); simp only [sums]; omega

theorem copyToArray_ok (garbage : Nat → α) (size : Nat) (windows : Blk (Sub α)) (hs ws : Nat → Nat) (f : Nat → Nat → α)
    (hC : 0 < windows.e1) (hsum : sums hs windows.e0 = size) (wsum : sums ws windows.e1 = size)
    (hw : ∀ rw cw, rw < windows.e0 → cw < windows.e1 → ∃ s, windows.get rw cw = .ok s ∧ s.h = hs rw ∧ s.w = ws cw ∧
      ∀ i j, i < hs rw → j < ws cw → s.get i j = .ok (f (sums hs rw + i) (sums ws cw + j))) :
    copyToArray garbage size windows =
      .ok ((List.range (size * size)).map fun e => f (e / size) (e % size)) := by
  obtain ⟨s, h1, h2, h3, h4⟩ := forLoop_inv (n := windows.e0)
    (body := fun rw (s : Nat × List α) => do
      let (rk, out) := s
      let s1 ← forLoop windows.e1 (fun cw (s : Nat × List α) => do
        let (ck, out) := s
        let window ← windows.get rw cw
        let out ← forLoop window.h (fun idx0 out => forLoop window.w (fun idx1 out => do
          let x ← window.get idx0 idx1
          if rk + idx0 < size ∧ ck + idx1 < size then wr out ((rk + idx0) * size + (ck + idx1)) x
          else .error .outOfBounds) out) out
        return (ck + window.w, out)) (0, out)
      let first ← windows.get rw 0
      return (rk + first.h, s1.2))
    (fun rw s => s.1 = sums hs rw ∧ s.2.length = size * size ∧
      ∀ i j, i < sums hs rw → j < size → s.2[i * size + j]? = some (f i j)) (by
      rintro rw hrw ⟨rk, out⟩ ⟨e1, e2, e3⟩
      simp only at e1 e2 e3
      subst e1
      have hR : sums hs (rw + 1) ≤ size := by rw [← hsum]; exact sums_le hrw
      simp only [sums] at hR
      obtain ⟨s1, g1, g2, g3, g4⟩ := forLoop_inv (n := windows.e1)
        (body := fun cw (s : Nat × List α) => do
          let (ck, out) := s
          let window ← windows.get rw cw
          let out ← forLoop window.h (fun idx0 out => forLoop window.w (fun idx1 out => do
            let x ← window.get idx0 idx1
            if sums hs rw + idx0 < size ∧ ck + idx1 < size then wr out ((sums hs rw + idx0) * size + (ck + idx1)) x
            else .error .outOfBounds) out) out
          return (ck + window.w, out))
        (fun cw s => s.1 = sums ws cw ∧ s.2.length = size * size ∧
          ∀ i j, (i < sums hs rw ∧ j < size) ∨ (i < sums hs (rw + 1) ∧ j < sums ws cw) →
            s.2[i * size + j]? = some (f i j)) (by
          rintro cw hcw ⟨ck, out1⟩ ⟨k1, k2, k3⟩
          simp only at k1 k2 k3
          subst k1
          have hCw : sums ws (cw + 1) ≤ size := by rw [← wsum]; exact sums_le hcw
          simp only [sums] at hCw
          obtain ⟨win, w1, w2, w3, w4⟩ := hw rw cw hrw hcw
          obtain ⟨out', o1, o2, o3⟩ := forLoop2_region (n0 := size) (n1 := size) f (sums hs rw) (hs rw) (sums ws cw) (ws cw)
            hR hCw (fun idx0 idx1 out => do
              let x ← win.get idx0 idx1
              if sums hs rw + idx0 < size ∧ sums ws cw + idx1 < size then
                wr out ((sums hs rw + idx0) * size + (sums ws cw + idx1)) x
              else .error .outOfBounds) (by
              intro t0 ht0 t1 ht1 out hl
              rw [w4 t0 t1 ht0 ht1, M.bind_ok, if_pos ⟨by omega, by omega⟩]
              exact wr_ok _ (by rw [hl]; exact idx_lt (by omega) (by omega))) out1 k2
          refine ⟨(sums ws cw + win.w, out'), ?_, ?_, o2, ?_⟩
          · simp only [w1, M.bind_ok, w2, w3, o1]; rfl
          · simp only [sums, w3]
          · intro i j hij
            simp only [sums] at hij ⊢
            rw [o3 i j (by omega) (by omega)]
            by_cases hc : (sums hs rw ≤ i ∧ i < sums hs rw + hs rw) ∧ sums ws cw ≤ j ∧ j < sums ws cw + ws cw
            · rw [if_pos hc]
            · rw [if_neg hc]; apply k3; simp only [sums]; omega) (0, out) ⟨rfl, e2, by
              intro i j hij
              simp only [sums] at hij
              exact e3 i j (by omega) (by omega)⟩
      obtain ⟨win, w1, w2, w3, w4⟩ := hw rw 0 hrw hC
      refine ⟨(sums hs rw + win.h, s1.2), ?_, ?_, g3, ?_⟩
      · simp only [g1, M.bind_ok, w1]; rfl
      · simp only [sums, w2]
      · intro i j hi hj
        exact g4 i j (.inr ⟨hi, by rw [wsum]; exact hj⟩)) (0, uninitialised (size * size) garbage)
    ⟨rfl, by simp [uninitialised], by intro i j h; simp [sums] at h⟩
  unfold copyToArray
  rw [h1, M.bind_ok]
  change Except.ok s.2 = _
  congr 1
  apply List.ext_getElem?
  intro e
  by_cases he : e < size * size
  · obtain ⟨a, b, c⟩ := idx_split he
    rw [List.getElem?_map, List.getElem?_range he, Option.map_some]
    conv_lhs => rw [← c]
    exact h4 _ _ (by rw [hsum]; exact a) b
  · rw [List.getElem?_eq_none (by omega), List.getElem?_eq_none (by simp; omega)]

/-! ### One dimension -/

/-- Extent of the data of partition `p` of three, in one dimension. -/
def ext (r n : Nat) (p : Nat) : Nat := if p = 1 then n else r

/-- Position of cell `x` of partition `p` of three, in one dimension, counting from `r` cells before the focal partition. -/
def coord (r n : Nat) : Nat → Nat → Nat
  | 0, x => x
  | 1, x => r + x
  | _, x => r + n + x

/-- The views on the partitions for focal cell `f`, in one dimension: partition, begin, end. -/
inductive Scheme (r n : Nat) : Nat → List (Nat × Nat × Nat) → Prop where
  | low {f : Nat} : f < r → Scheme r n f [(0, f, r), (1, 0, r + 1 + f)]
  | mid {t : Nat} : r + t < n - r → Scheme r n (r + t) [(1, t, t + (2 * r + 1))]
  | high {t : Nat} : t < r → Scheme r n (n - r + t) [(1, n - (2 * r) + t, n), (2, 0, 1 + t)]

/-- Extents of the views. -/
def viewExtent (l : List (Nat × Nat × Nat)) (k : Nat) : Nat := match l[k]? with
  | some v => v.2.2 - v.2.1
  | none => 0

theorem Scheme.ok {r n f : Nat} {l : List (Nat × Nat × Nat)} (h : Scheme r n f l) (hn : 2 * r + 1 ≤ n) :
    0 < l.length ∧ sums (viewExtent l) l.length = 2 * r + 1 ∧
    ∀ k v, l[k]? = some v → v.1 < 3 ∧ ∀ i < viewExtent l k, v.2.1 + i < ext r n v.1 ∧
      coord r n v.1 (v.2.1 + i) = f + (sums (viewExtent l) k + i) := by
  cases h with
  | low hf =>
    refine ⟨by simp, by simp [sums, viewExtent]; omega, ?_⟩
    intro k v hk
    match k, hk with
    | 0, hk =>
      simp at hk; subst hk
      refine ⟨by simp, fun i hi => ?_⟩
      simp [viewExtent] at hi
      simp [ext, coord, sums]; omega
    | 1, hk =>
      simp at hk; subst hk
      refine ⟨by simp, fun i hi => ?_⟩
      simp [viewExtent] at hi
      simp [ext, coord, sums, viewExtent]; omega
    | k + 2, hk => simp at hk
  | mid hf =>
    refine ⟨by simp, by simp [sums, viewExtent], ?_⟩
    intro k v hk
    match k, hk with
    | 0, hk =>
      simp at hk; subst hk
      refine ⟨by simp, fun i hi => ?_⟩
      simp [viewExtent] at hi
      simp [ext, coord, sums]; omega
    | k + 1, hk => simp at hk
  | high hf =>
    refine ⟨by simp, by simp [sums, viewExtent]; omega, ?_⟩
    intro k v hk
    match k, hk with
    | 0, hk =>
      simp at hk; subst hk
      refine ⟨by simp, fun i hi => ?_⟩
      simp [viewExtent] at hi
      simp [ext, coord, sums]; omega
    | 1, hk =>
      simp at hk; subst hk
      refine ⟨by simp, fun i hi => ?_⟩
      simp [viewExtent] at hi
      simp [ext, coord, sums, viewExtent]; omega
    | k + 2, hk => simp at hk

/-! ### Two dimensions -/

/-- The data of 3 × 3 partitions, of which the focal one is `n0` × `n1`: these are the cells of `f`. -/
def DataOk (r n0 n1 : Nat) (f : Nat → Nat → α) (data : Blk (Blk α)) : Prop :=
  ∀ p q, p < 3 → q < 3 → ∃ b, data.get p q = .ok b ∧
    Holds b (ext r n0 p) (ext r n1 q) (fun i j => f (coord r n0 p i) (coord r n1 q j))

/-- Views in two dimensions. -/
def product (l0 l1 : List (Nat × Nat × Nat)) : Blk View :=
  ⟨l0.length, l1.length, l0.flatMap fun a => l1.map fun b => ⟨a.1, b.1, a.2, b.2⟩⟩

theorem product_get {δ : Type} (l0 l1 : List (Nat × Nat × Nat)) (g : Nat × Nat × Nat → Nat × Nat × Nat → δ)
    {i j : Nat} (hi : i < l0.length) (hj : j < l1.length) :
    (l0.flatMap fun a => l1.map fun b => g a b)[i * l1.length + j]? = some (g l0[i] l1[j]) := by
  induction l0 generalizing i with
  | nil => simp at hi
  | cons a l0 ih =>
    rw [List.flatMap_cons]
    cases i with
    | zero =>
      rw [List.getElem?_append_left (by simpa using hj)]
      simp [hj]
    | succ i =>
      rw [List.getElem?_append_right (by simp [Nat.add_mul]; omega)]
      have e : (i + 1) * l1.length + j - (l1.map fun b => g a b).length = i * l1.length + j := by
        simp [Nat.add_mul]; omega
      rw [e, ih (by simpa using hi)]
      simp

theorem window_ok (garbage : Nat → α) {r n0 n1 f0 f1 : Nat} {f : Nat → Nat → α} {data : Blk (Blk α)}
    {l0 l1 : List (Nat × Nat × Nat)} (hd : DataOk r n0 n1 f data) (hn0 : 2 * r + 1 ≤ n0) (hn1 : 2 * r + 1 ≤ n1)
    (h0 : Scheme r n0 f0 l0) (h1 : Scheme r n1 f1 l1) :
    window garbage (2 * r + 1) data (product l0 l1) =
      .ok ((List.range ((2 * r + 1) * (2 * r + 1))).map fun e =>
        f (f0 + e / (2 * r + 1)) (f1 + e % (2 * r + 1))) := by
  obtain ⟨a1, a2, a3⟩ := h0.ok hn0
  obtain ⟨b1, b2, b3⟩ := h1.ok hn1
  let blk : Nat → Nat → Blk α := fun p q => match data.get p q with | .ok b => b | .error _ => ⟨0, 0, []⟩
  have hblk : ∀ p q, p < 3 → q < 3 → data.get p q = .ok (blk p q) := by
    intro p q hp hq
    obtain ⟨b, hb, _⟩ := hd p q hp hq
    simp [blk, hb]
  have hmap : (product l0 l1).data.mapM (fun v => do
      let b ← data.get v.i v.j
      return (⟨b, v.s0, v.s1⟩ : Sub α)) =
      .ok ((product l0 l1).data.map fun v => ⟨blk v.i v.j, v.s0, v.s1⟩) := by
    apply mapM_ok
    intro v hv
    simp only [product, List.mem_flatMap, List.mem_map] at hv
    obtain ⟨a, ha, b, hb, rfl⟩ := hv
    obtain ⟨ka, hka⟩ := List.mem_iff_getElem?.mp ha
    obtain ⟨kb, hkb⟩ := List.mem_iff_getElem?.mp hb
    simp only [hblk a.1 b.1 (a3 ka a hka).1 (b3 kb b hkb).1]
    rfl
  unfold window
  rw [hmap, M.bind_ok]
  apply copyToArray_ok garbage (2 * r + 1) _ (viewExtent l0) (viewExtent l1)
    (fun x y => f (f0 + x) (f1 + y)) b1 a2 b2
  intro rw cw hrw hcw
  simp only [product] at hrw hcw
  have hget := product_get l0 l1 (fun a b => (⟨blk a.1 b.1, a.2, b.2⟩ : Sub α)) hrw hcw
  obtain ⟨p1, p2⟩ := a3 rw l0[rw] (by simp [hrw])
  obtain ⟨q1, q2⟩ := b3 cw l1[cw] (by simp [hcw])
  refine ⟨⟨blk l0[rw].1 l1[cw].1, l0[rw].2, l1[cw].2⟩, ?_, ?_, ?_, ?_⟩
  · simp only [Blk.get, product, hrw, hcw, and_self, if_true]
    apply rd_ok
    rw [← hget]
    simp [List.map_flatMap, Function.comp_def]
  · simp [Sub.h, viewExtent, hrw]
  · simp [Sub.w, viewExtent, hcw]
  · intro i j hi hj
    obtain ⟨b, hb, hh⟩ := hd _ _ p1 q1
    have hb' : blk l0[rw].1 l1[cw].1 = b := by simp [blk, hb]
    simp only [Sub.get, hb']
    rw [hh.get _ _ (p2 i hi).1 (q2 j hj).1, (p2 i hi).2, (q2 j hj).2]

end Lue.Focal

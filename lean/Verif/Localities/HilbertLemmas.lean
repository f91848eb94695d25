import Mathlib.Tactic.Ring
import Mathlib.Tactic.Linarith
import Mathlib.Tactic.Push
import Verif.Localities.Hilbert

namespace Lue.Localities

/-- `(dx, dy)` and `(ex, ey)` are orthogonal unit vectors along the axes. -/
def Axes (dx dy ex ey : Int) : Prop :=
  (dy = 0 ∧ ex = 0 ∧ (dx = 1 ∨ dx = -1) ∧ (ey = 1 ∨ ey = -1)) ∨
  (dx = 0 ∧ ey = 0 ∧ (dy = 1 ∨ dy = -1) ∧ (ex = 1 ∨ ex = -1))

/-- Point at `(s, t)` in the frame, as (row, col). -/
def pt (x y dx dy ex ey : Int) (s t : Int) : Int × Int := (y + s * dy + t * ey, x + s * dx + t * ex)

theorem mem_fill (n : Nat) : ∀ (x y dx dy : Int) (q : Int × Int),
    q ∈ fill n x y dx dy ↔ ∃ s : Int, 0 ≤ s ∧ s < n ∧ q = (y + s * dy, x + s * dx) := by
  induction n with
  | zero => intro x y dx dy q; simp [fill]; intro s h1 h2; omega
  | succ n ih =>
    intro x y dx dy q
    simp only [fill, List.mem_cons, ih]
    constructor
    · rintro (rfl | ⟨s, h1, h2, rfl⟩)
      · exact ⟨0, by omega, by omega, by simp⟩
      · exact ⟨s + 1, by omega, by push_cast; omega, by ext <;> simp <;> ring⟩
    · rintro ⟨s, h1, h2, rfl⟩
      by_cases h0 : s = 0
      · left; subst h0; simp
      · right
        refine ⟨s - 1, by omega, by push_cast at h2; omega, by ext <;> simp <;> ring⟩

theorem fill_nodup (n : Nat) : ∀ (x y dx dy : Int), (dx ≠ 0 ∨ dy ≠ 0) → (fill n x y dx dy).Nodup := by
  induction n with
  | zero => intro x y dx dy _; simp [fill]
  | succ n ih =>
    intro x y dx dy h
    simp only [fill, List.nodup_cons]
    refine ⟨?_, ih _ _ _ _ h⟩
    rw [mem_fill]
    rintro ⟨s, h1, h2, h3⟩
    simp only [Prod.mk.injEq] at h3
    obtain ⟨h3, h4⟩ := h3
    rcases h with h | h
    · have : (s + 1) * dx = 0 := by linarith
      rcases Int.mul_eq_zero.1 this with h' | h'
      · omega
      · exact h h'
    · have : (s + 1) * dy = 0 := by linarith
      rcases Int.mul_eq_zero.1 this with h' | h'
      · omega
      · exact h h'

theorem pt_inj {x y dx dy ex ey s t s' t' : Int} (h : Axes dx dy ex ey)
    (he : pt x y dx dy ex ey s t = pt x y dx dy ex ey s' t') : s = s' ∧ t = t' := by
  simp only [pt, Prod.mk.injEq] at he
  obtain ⟨h1, h2⟩ := he
  rcases h with ⟨rfl, rfl, h3 | h3, h4 | h4⟩ | ⟨rfl, rfl, h3 | h3, h4 | h4⟩ <;> subst h3 <;> subst h4 <;>
    simp at h1 h2 <;> omega

/-- What a call of `hilbert` with a frame and sizes has to deliver. -/
def Covers (x y dx dy ex ey : Int) (w h : Nat) (l : List (Int × Int)) : Prop :=
  l.Nodup ∧ ∀ q, q ∈ l ↔ ∃ s t : Int, 0 ≤ s ∧ s < w ∧ 0 ≤ t ∧ t < h ∧ q = pt x y dx dy ex ey s t

theorem sgn_mul {w : Nat} (hw : 0 < w) {d : Int} (hd : d = 0 ∨ d = 1 ∨ d = -1) : sgn (w * d) = d := by
  rcases hd with rfl | rfl | rfl <;> simp [sgn] <;> omega

theorem tdiv_mul (w : Nat) {d : Int} (hd : d = 0 ∨ d = 1 ∨ d = -1) :
    ((w : Int) * d).tdiv 2 = ((w / 2 : Nat) : Int) * d := by
  rcases hd with rfl | rfl | rfl
  · simp
  · simp [Int.tdiv_eq_ediv_of_nonneg]
  · simp [Int.neg_tdiv, Int.tdiv_eq_ediv_of_nonneg]

theorem natAbs_frame (w : Nat) {dx dy : Int} (h : (dy = 0 ∧ (dx = 1 ∨ dx = -1)) ∨ (dx = 0 ∧ (dy = 1 ∨ dy = -1))) :
    ((w : Int) * dx + (w : Int) * dy).natAbs = w := by
  rcases h with ⟨rfl, rfl | rfl⟩ | ⟨rfl, rfl | rfl⟩ <;> simp

set_option maxHeartbeats 1600000 in
theorem hilbert_covers (n : Nat) : ∀ (fuel w h : Nat) (x y dx dy ex ey : Int), w + h ≤ n → n ≤ fuel →
    0 < w → 0 < h → Axes dx dy ex ey →
    ∃ l, hilbert fuel x y (w * dx) (w * dy) (h * ex) (h * ey) = some l ∧ Covers x y dx dy ex ey w h l := by
  induction n with
  | zero => intro fuel w h x y dx dy ex ey h1; omega
  | succ n ih =>
    intro fuel w h x y dx dy ex ey hn hf hw hh hax
    obtain ⟨fuel, rfl⟩ : ∃ f, fuel = f + 1 := ⟨fuel - 1, by omega⟩
    have ha : (dy = 0 ∧ (dx = 1 ∨ dx = -1)) ∨ (dx = 0 ∧ (dy = 1 ∨ dy = -1)) := by
      rcases hax with ⟨h1, _, h2, _⟩ | ⟨h1, _, h2, _⟩
      · exact .inl ⟨h1, h2⟩
      · exact .inr ⟨h1, h2⟩
    have hb : (ey = 0 ∧ (ex = 1 ∨ ex = -1)) ∨ (ex = 0 ∧ (ey = 1 ∨ ey = -1)) := by
      rcases hax with ⟨_, h1, _, h2⟩ | ⟨_, h1, _, h2⟩
      · exact .inr ⟨h1, h2⟩
      · exact .inl ⟨h1, h2⟩
    have hdx : dx = 0 ∨ dx = 1 ∨ dx = -1 := by omega
    have hdy : dy = 0 ∨ dy = 1 ∨ dy = -1 := by omega
    have hex : ex = 0 ∨ ex = 1 ∨ ex = -1 := by omega
    have hey : ey = 0 ∨ ey = 1 ∨ ey = -1 := by omega
    have hsw : Axes ex ey dx dy := by unfold Axes at *; omega
    have hng : Axes (-ex) (-ey) (-dx) (-dy) := by
      unfold Axes at *
      rcases hax with ⟨rfl, rfl, h3 | h3, h4 | h4⟩ | ⟨rfl, rfl, h3 | h3, h4 | h4⟩ <;> subst h3 <;> subst h4 <;> simp
    unfold hilbert
    simp only [natAbs_frame w ha, natAbs_frame h hb, sgn_mul hw hdx, sgn_mul hw hdy, sgn_mul hh hex,
      sgn_mul hh hey, tdiv_mul w hdx, tdiv_mul w hdy, tdiv_mul h hex, tdiv_mul h hey,
      natAbs_frame (w / 2) ha, natAbs_frame (h / 2) hb]
    by_cases h1 : h = 1
    · subst h1
      simp only [if_true]
      refine ⟨_, rfl, fill_nodup _ _ _ _ _ (by
        rcases ha with ⟨_, h' | h'⟩ | ⟨_, h' | h'⟩ <;> simp [h']), fun q => ?_⟩
      rw [mem_fill]
      constructor
      · rintro ⟨s, h1, h2, rfl⟩
        exact ⟨s, 0, h1, h2, le_refl _, by simp, by simp [pt]⟩
      · rintro ⟨s, t, h1, h2, h3, h4, rfl⟩
        have : t = 0 := by push_cast at h4; omega
        subst this
        exact ⟨s, h1, h2, by simp [pt]⟩
    rw [if_neg h1]
    by_cases w1 : w = 1
    · subst w1
      simp only [if_true]
      refine ⟨_, rfl, fill_nodup _ _ _ _ _ (by
        rcases hb with ⟨_, h' | h'⟩ | ⟨_, h' | h'⟩ <;> simp [h']), fun q => ?_⟩
      rw [mem_fill]
      constructor
      · rintro ⟨s, h1, h2, rfl⟩
        exact ⟨0, s, le_refl _, by simp, h1, h2, by simp [pt]⟩
      · rintro ⟨s, t, h1, h2, h3, h4, rfl⟩
        have : s = 0 := by push_cast at h2; omega
        subst this
        exact ⟨t, h3, h4, by simp [pt]⟩
    rw [if_neg w1]
    by_cases hlong : 2 * w > 3 * h
    · rw [if_pos hlong]
      -- the split position
      obtain ⟨v, hv, hvpos, hvlt⟩ : ∃ v : Nat, (v = if w / 2 % 2 > 0 ∧ w > 2 then w / 2 + 1 else w / 2) ∧
          0 < v ∧ v < w := by
        refine ⟨_, rfl, ?_, ?_⟩ <;> split <;> omega
      have e1 : (if w / 2 % 2 > 0 ∧ w > 2 then ((w / 2 : Nat) : Int) * dx + dx else ((w / 2 : Nat) : Int) * dx)
          = (v : Int) * dx := by
        rw [hv]; split <;> push_cast <;> ring
      have e2 : (if w / 2 % 2 > 0 ∧ w > 2 then ((w / 2 : Nat) : Int) * dy + dy else ((w / 2 : Nat) : Int) * dy)
          = (v : Int) * dy := by
        rw [hv]; split <;> push_cast <;> ring
      simp only [e1, e2]
      have s1 : (w : Int) * dx - v * dx = ((w - v : Nat) : Int) * dx := by
        rw [Nat.cast_sub (le_of_lt hvlt)]; ring
      have s2 : (w : Int) * dy - v * dy = ((w - v : Nat) : Int) * dy := by
        rw [Nat.cast_sub (le_of_lt hvlt)]; ring
      rw [s1, s2]
      obtain ⟨l1, hl1, c1⟩ := ih fuel v h x y dx dy ex ey (by omega) (by omega) hvpos hh hax
      obtain ⟨l2, hl2, c2⟩ := ih fuel (w - v) h (x + v * dx) (y + v * dy) dx dy ex ey (by omega) (by omega)
        (by omega) hh hax
      rw [hl1, hl2]
      refine ⟨l1 ++ l2, rfl, ?_, ?_⟩
      · rw [List.nodup_append]
        refine ⟨c1.1, c2.1, ?_⟩
        intro a ha' b hb' hab
        subst hab
        obtain ⟨s, t, h1, h2, h3, h4, rfl⟩ := (c1.2 a).1 ha'
        obtain ⟨s', t', h1', h2', h3', h4', he⟩ := (c2.2 _).1 hb'
        have : pt (x + v * dx) (y + v * dy) dx dy ex ey s' t' = pt x y dx dy ex ey (s' + v) t' := by
          simp only [pt]; ext <;> simp <;> ring
        rw [this] at he
        have := (pt_inj hax he).1
        omega
      · intro q
        rw [List.mem_append, c1.2, c2.2]
        constructor
        · rintro (⟨s, t, h1, h2, h3, h4, rfl⟩ | ⟨s, t, h1, h2, h3, h4, rfl⟩)
          · exact ⟨s, t, h1, by omega, h3, h4, rfl⟩
          · exact ⟨s + v, t, by omega, by omega, h3, h4, by simp only [pt]; ext <;> simp <;> ring⟩
        · rintro ⟨s, t, h1, h2, h3, h4, rfl⟩
          by_cases hs : s < v
          · exact .inl ⟨s, t, h1, hs, h3, h4, rfl⟩
          · exact .inr ⟨s - v, t, by omega, by omega, h3, h4, by simp only [pt]; ext <;> simp <;> ring⟩
    · rw [if_neg hlong]
      obtain ⟨v, hv, hvpos, hvlt⟩ : ∃ v : Nat, (v = if h / 2 % 2 > 0 ∧ h > 2 then h / 2 + 1 else h / 2) ∧
          0 < v ∧ v < h := by
        refine ⟨_, rfl, ?_, ?_⟩ <;> split <;> omega
      have e1 : (if h / 2 % 2 > 0 ∧ h > 2 then ((h / 2 : Nat) : Int) * ex + ex else ((h / 2 : Nat) : Int) * ex)
          = (v : Int) * ex := by
        rw [hv]; split <;> push_cast <;> ring
      have e2 : (if h / 2 % 2 > 0 ∧ h > 2 then ((h / 2 : Nat) : Int) * ey + ey else ((h / 2 : Nat) : Int) * ey)
          = (v : Int) * ey := by
        rw [hv]; split <;> push_cast <;> ring
      simp only [e1, e2]
      have hu : 0 < w / 2 ∧ w / 2 < w := by omega
      generalize w / 2 = u at hu
      have s1 : (h : Int) * ex - v * ex = ((h - v : Nat) : Int) * ex := by
        rw [Nat.cast_sub (le_of_lt hvlt)]; ring
      have s2 : (h : Int) * ey - v * ey = ((h - v : Nat) : Int) * ey := by
        rw [Nat.cast_sub (le_of_lt hvlt)]; ring
      have s3 : -((w : Int) * dx - u * dx) = ((w - u : Nat) : Int) * -dx := by
        rw [Nat.cast_sub (le_of_lt hu.2)]; ring
      have s4 : -((w : Int) * dy - u * dy) = ((w - u : Nat) : Int) * -dy := by
        rw [Nat.cast_sub (le_of_lt hu.2)]; ring
      have s5 : -((v : Int) * ex) = (v : Int) * -ex := by ring
      have s6 : -((v : Int) * ey) = (v : Int) * -ey := by ring
      rw [s1, s2, s3, s4, s5, s6]
      obtain ⟨l1, hl1, c1⟩ := ih fuel v u x y ex ey dx dy (by omega) (by omega) hvpos hu.1 hsw
      obtain ⟨l2, hl2, c2⟩ := ih fuel w (h - v) (x + v * ex) (y + v * ey) dx dy ex ey (by omega) (by omega)
        hw (by omega) hax
      obtain ⟨l3, hl3, c3⟩ := ih fuel v (w - u) (x + (w * dx - dx) + (v * ex - ex)) (y + (w * dy - dy) + (v * ey - ey))
        (-ex) (-ey) (-dx) (-dy) (by omega) (by omega) hvpos (by omega) hng
      rw [hl1, hl2, hl3]
      have p1 : ∀ s t, pt x y ex ey dx dy s t = pt x y dx dy ex ey t s := by
        intro s t; simp only [pt]; ext <;> simp <;> ring
      have p2 : ∀ s t, pt (x + v * ex) (y + v * ey) dx dy ex ey s t = pt x y dx dy ex ey s (t + v) := by
        intro s t; simp only [pt]; ext <;> simp <;> ring
      have p3 : ∀ s t, pt (x + (w * dx - dx) + (v * ex - ex)) (y + (w * dy - dy) + (v * ey - ey))
          (-ex) (-ey) (-dx) (-dy) s t = pt x y dx dy ex ey (w - 1 - t) (v - 1 - s) := by
        intro s t; simp only [pt]; ext <;> simp <;> ring
      refine ⟨l1 ++ l2 ++ l3, rfl, ?_, ?_⟩
      · rw [List.nodup_append, List.nodup_append]
        refine ⟨⟨c1.1, c2.1, ?_⟩, c3.1, ?_⟩
        · intro a ha' b hb' hab
          subst hab
          obtain ⟨s, t, h1, h2, h3, h4, rfl⟩ := (c1.2 a).1 ha'
          obtain ⟨s', t', h1', h2', h3', h4', he⟩ := (c2.2 _).1 hb'
          rw [p1, p2] at he
          have := (pt_inj hax he).2
          omega
        · intro a ha' b hb' hab
          subst hab
          obtain ⟨s', t', h1', h2', h3', h4', rfl⟩ := (c3.2 _).1 hb'
          rw [p3] at ha'
          rcases List.mem_append.1 ha' with ha' | ha'
          · obtain ⟨s, t, h1, h2, h3, h4, he⟩ := (c1.2 _).1 ha'
            rw [p1] at he
            have := (pt_inj hax he).1
            omega
          · obtain ⟨s, t, h1, h2, h3, h4, he⟩ := (c2.2 _).1 ha'
            rw [p2] at he
            have := (pt_inj hax he).2
            omega
      · intro q
        rw [List.mem_append, List.mem_append, c1.2, c2.2, c3.2]
        constructor
        · rintro ((⟨s, t, h1, h2, h3, h4, rfl⟩ | ⟨s, t, h1, h2, h3, h4, rfl⟩) | ⟨s, t, h1, h2, h3, h4, rfl⟩)
          · exact ⟨t, s, h3, by omega, h1, by omega, p1 s t⟩
          · exact ⟨s, t + v, by omega, by omega, by omega, by omega, p2 s t⟩
          · exact ⟨w - 1 - t, v - 1 - s, by omega, by omega, by omega, by omega, p3 s t⟩
        · rintro ⟨s, t, h1, h2, h3, h4, rfl⟩
          by_cases ht : t < v
          · by_cases hs : s < u
            · exact .inl (.inl ⟨t, s, h3, ht, h1, hs, (p1 t s).symm⟩)
            · refine .inr ⟨v - 1 - t, w - 1 - s, by omega, by omega, by omega, by omega, ?_⟩
              rw [p3]; congr 1 <;> ring
          · refine .inl (.inr ⟨s, t - v, h1, h2, by omega, by omega, ?_⟩)
            rw [p2]; congr 1; ring

end Lue.Localities

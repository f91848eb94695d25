import Verif.Cutout.Spec
import Verif.Zonal.Properties

/-!
C83: the statistic of a zone does not depend on what is outside of the zone. `k` is a cutout (`Spec.lean`).
-/
namespace Lue.Cutout

open Lue.Zonal

variable {Z α σ ω : Type} [DecidableEq Z] {k : Cut}

/-- The cells of the array which meet `p`, all part of the cutout, and the cells of the cutout which meet `p'`. -/
theorem cells_perm {p p' : Nat × Nat → Bool} (hin : ∀ c, c.1 < k.a0 → c.2 < k.a1 → p c = true → k.Has c.1 c.2)
    (hp : ∀ c, k.Has c.1 c.2 → p c = p' (c.1 - k.o0, c.2 - k.o1)) :
    (((cellIdxs k.a0 k.a1).filter p).map fun c => (c.1 - k.o0, c.2 - k.o1)).Perm ((cellIdxs k.b0 k.b1).filter p') := by
  have f0 := k.fit0
  have f1 := k.fit1
  rw [List.perm_ext_iff_of_nodup]
  · rintro ⟨y1, y2⟩
    simp only [List.mem_map, List.mem_filter, mem_cellIdxs, Prod.mk.injEq, Prod.exists]
    constructor
    · rintro ⟨a, b, ⟨⟨h1, h2⟩, h3⟩, rfl, rfl⟩
      have hh := hin (a, b) h1 h2 h3
      obtain ⟨g1, g2, g3, g4⟩ := hh
      refine ⟨⟨by omega, by omega⟩, ?_⟩
      rw [← hp (a, b) ⟨g1, g2, g3, g4⟩]
      exact h3
    · rintro ⟨⟨h1, h2⟩, h3⟩
      have hh : k.Has (y1 + k.o0) (y2 + k.o1) := by unfold Cut.Has; omega
      refine ⟨y1 + k.o0, y2 + k.o1, ⟨⟨by omega, by omega⟩, ?_⟩, by omega, by omega⟩
      rw [hp (y1 + k.o0, y2 + k.o1) hh]
      simpa using h3
  · refine List.Nodup.map_on ?_ ((nodup_cellIdxs _ _).filter _)
    rintro ⟨a, b⟩ hx ⟨c, d⟩ hy h
    simp only [List.mem_filter, mem_cellIdxs] at hx hy
    obtain ⟨g1, g2, g3, g4⟩ := hin _ hx.1.1 hx.1.2 hx.2
    obtain ⟨q1, q2, q3, q4⟩ := hin _ hy.1.1 hy.1.2 hy.2
    simp only [Prod.mk.injEq] at h ⊢
    omega
  · exact (nodup_cellIdxs _ _).filter _

theorem zoneValues_perm (P : Policies Z α ω) {g g' : Grid} (h0 : g.a0 = k.a0) (h1 : g.a1 = k.a1) (h0' : g'.a0 = k.b0)
    (h1' : g'.a1 = k.b1) {v v' : Arr α} {w w' : Arr Z} {z : Z}
    (hzones : ∀ i j, k.Has i j → w i j = w' (i - k.o0) (j - k.o1))
    (hcover : ∀ i j, i < k.a0 → j < k.a1 → w i j = z → k.Has i j)
    (hsame : ∀ i j, i < k.a0 → j < k.a1 → w i j = z → v i j = v' (i - k.o0) (j - k.o1)) :
    (zoneValues P g v w z).Perm (zoneValues P g' v' w' z) := by
  unfold zoneValues
  rw [h0, h1, h0', h1']
  have hperm := cells_perm (k := k)
    (p := fun c => decide (w c.1 c.2 = z) && !P.indp1 (v c.1 c.2) && !P.indp2 z && P.dp z (v c.1 c.2))
    (p' := fun c => decide (w' c.1 c.2 = z) && !P.indp1 (v' c.1 c.2) && !P.indp2 z && P.dp z (v' c.1 c.2))
    (by
      intro c hc0 hc1 hc
      simp only [Bool.and_eq_true, decide_eq_true_eq] at hc
      exact hcover _ _ hc0 hc1 hc.1.1.1)
    (by
      intro c hc
      have e := hzones _ _ hc
      simp only
      by_cases hz : w c.1 c.2 = z
      · obtain ⟨q1, q2, q3, q4⟩ := hc
        have f0 := k.fit0
        have f1 := k.fit1
        rw [← e, ← hsame _ _ (by omega) (by omega) hz]
      · rw [← e]; simp [hz])
  refine List.Perm.trans ?_ (hperm.map _)
  rw [List.map_map]
  apply List.Perm.of_eq
  refine List.map_congr_left fun c hc => ?_
  simp only [List.mem_filter, mem_cellIdxs, Bool.and_eq_true, decide_eq_true_eq] at hc
  exact hsame _ _ hc.1.1 hc.1.2 hc.2.1.1.1

/-- C83: a zonal operation for an array and for a cutout, with any partitions. In the cells of a zone which is part of the
cutout the results are the same. Only the values in the zone are required to be the same. The statistic must be determined
by the values, whatever the order in which an execution iterates over unordered maps (`G` and `G'`). -/
theorem zonal_zone (P : Policies Z α ω) {G G' : Aggregator α σ ω} {R : List α → σ → Prop} (hG : Summarises G R)
    (hG' : Summarises G' R) (hdet : ∀ l s t, l ≠ [] → R l s → R l t → G.value s = G'.value t)
    {iter iter' : AMap Z σ → AMap Z σ} (hi : IsIter iter) (hi' : IsIter iter') (garbage garbage' : Nat → ω)
    {x x' : PArr α} {z z' : PArr Z} {v v' : Arr α} {w w' : Arr Z} (hx : Represents x v) (hz : Represents z w)
    (hx' : Represents x' v') (hz' : Represents z' w') (hg : x.grid = z.grid) (hg' : x'.grid = z'.grid)
    (h0 : z.grid.a0 = k.a0) (h1 : z.grid.a1 = k.a1) (h0' : z'.grid.a0 = k.b0) (h1' : z'.grid.a1 = k.b1)
    {order1 order2 order1' order2' : List Nat} (ho1 : IsOrder (z.grid.n0 * z.grid.n1) order1)
    (ho2 : IsOrder (z.grid.n0 * z.grid.n1) order2) (ho1' : IsOrder (z'.grid.n0 * z'.grid.n1) order1')
    (ho2' : IsOrder (z'.grid.n0 * z'.grid.n1) order2')
    (hzones : ∀ i j, k.Has i j → w i j = w' (i - k.o0) (j - k.o1)) {i j : Nat} (hi0 : i < k.a0) (hj0 : j < k.a1)
    (hcover : ∀ i' j', i' < k.a0 → j' < k.a1 → w i' j' = w i j → k.Has i' j')
    (hsame : ∀ i' j', i' < k.a0 → j' < k.a1 → w i' j' = w i j → v i' j' = v' (i' - k.o0) (j' - k.o1)) :
    ∃ r r', zonalArray P G iter garbage order1 order2 x z = .ok r ∧
      zonalArray P G' iter' garbage' order1' order2' x' z' = .ok r' ∧
      ∀ u u', Represents r u → Represents r' u' → u i j = u' (i - k.o0) (j - k.o1) := by
  obtain ⟨r, u, e1, e2, e3, e4⟩ := zonalArray_spec P hG hi garbage hx hz hg ho1 ho2
  obtain ⟨r', u', e1', e2', e3', e4'⟩ := zonalArray_spec P hG' hi' garbage' hx' hz' hg' ho1' ho2'
  refine ⟨r, r', e1, e1', fun y y' hy hy' => ?_⟩
  have hhas := hcover i j hi0 hj0 rfl
  have hzone := hzones i j hhas
  obtain ⟨q1, q2, q3, q4⟩ := hhas
  rw [hy.unique e3 (by rw [e2, h0]; exact hi0) (by rw [e2, h1]; exact hj0)]
  rw [hy'.unique e3' (by rw [e2', h0']; omega) (by rw [e2', h1']; omega)]
  have hperm := zoneValues_perm P h0 h1 h0' h1' hzones hcover hsame
  have H := e4 i j
  have H' := e4' (i - k.o0) (j - k.o1)
  rw [← hzone] at H'
  rcases H with ⟨a1, a2⟩ | ⟨a1, s, a2, a3⟩ <;> rcases H' with ⟨b1, b2⟩ | ⟨b1, t, b2, b3⟩
  · rw [a2, b2]
  · rw [a1] at hperm
    exact absurd (List.nil_perm.1 hperm) b1
  · rw [b1] at hperm
    exact absurd (List.perm_nil.1 hperm) a1
  · rw [a3, b3]
    exact hdet _ _ _ b1 (hG.perm _ _ _ a2 hperm) b2

end Lue.Cutout

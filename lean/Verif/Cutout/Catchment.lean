import Verif.Cutout.Spec
import Verif.Accu.Operations

/-!
C82: material which is routed through a catchment does not depend on what is outside of the catchment. `k` is a cutout
(`Spec.lean`).
-/
namespace Lue.Cutout

open Lue.Routing Lue.Accu Relation

/-- The position in the cutout of a cell of the array. -/
def Cut.shift (k : Cut) (c : Cell) : Cell := (c.1 - k.o0, c.2 - k.o1)

/-- In the part of the array which is in the cutout, flow directions are the same. -/
def SameDirections (k : Cut) (v v' : Arr Nat) : Prop := ∀ i j, k.Has i j → v i j = v' (i - k.o0) (j - k.o1)

variable {k : Cut} {v v' : Arr Nat}

theorem shift_unshift (k : Cut) (c : Cell) : k.shift (c.1 + k.o0, c.2 + k.o1) = c := by
  simp [Cut.shift]

theorem has_unshift {c : Cell} (h0 : c.1 < k.b0) (h1 : c.2 < k.b1) : k.Has (c.1 + k.o0) (c.2 + k.o1) := by
  unfold Cut.Has; omega

theorem has_mem {c : Cell} (h : k.Has c.1 c.2) : c ∈ allCells k.a0 k.a1 ∧ k.shift c ∈ allCells k.b0 k.b1 := by
  obtain ⟨h1, h2, h3, h4⟩ := h
  have := k.fit0; have := k.fit1
  rw [mem_allCells, mem_allCells]
  simp only [Cut.shift]
  omega

theorem shift_inj {c d : Cell} (hc : k.Has c.1 c.2) (hd : k.Has d.1 d.2) (h : k.shift c = k.shift d) : c = d := by
  obtain ⟨h1, h2, h3, h4⟩ := hc
  obtain ⟨g1, g2, g3, g4⟩ := hd
  simp only [Cut.shift, Prod.mk.injEq] at h
  ext <;> omega

/-- Streams in the cutout are streams in the array. -/
theorem drains_iff (hv : SameDirections k v v') {u c : Cell} (hu : k.Has u.1 u.2) (hc : k.Has c.1 c.2) :
    Drains k.a0 k.a1 v u c ↔ Drains k.b0 k.b1 v' (k.shift u) (k.shift c) := by
  have e := hv _ _ hu
  obtain ⟨h1, h2, h3, h4⟩ := hu
  obtain ⟨g1, g2, g3, g4⟩ := hc
  have := k.fit0; have := k.fit1
  unfold Drains
  simp only [Cut.shift, e]
  constructor
  · rintro ⟨-, -, -, -, d, hd, e1, e2⟩
    exact ⟨by omega, by omega, by omega, by omega, d, hd, by omega, by omega⟩
  · rintro ⟨-, -, -, -, d, hd, e1, e2⟩
    exact ⟨by omega, by omega, by omega, by omega, d, hd, by omega, by omega⟩

/-- What drains into a cell in the cutout. -/
theorem drains_into (hv : SameDirections k v v') {y c : Cell} (hc : k.Has c.1 c.2)
    (h : Drains k.b0 k.b1 v' y (k.shift c)) : ∃ u, k.Has u.1 u.2 ∧ y = k.shift u ∧ Drains k.a0 k.a1 v u c := by
  refine ⟨(y.1 + k.o0, y.2 + k.o1), has_unshift h.1 h.2.1, (shift_unshift k y).symm, ?_⟩
  rw [drains_iff hv (has_unshift h.1 h.2.1) hc, shift_unshift]
  exact h

/-- The whole catchment of the cell is in the cutout. -/
def Covers (k : Cut) (v : Arr Nat) (c : Cell) : Prop := ∀ u ∈ catchment k.a0 k.a1 v c, k.Has u.1 u.2

theorem Covers.self {c : Cell} (h : Covers k v c) (hc : c ∈ allCells k.a0 k.a1) : k.Has c.1 c.2 :=
  h c ((mem_catchment hc).2 .refl)

theorem Covers.upstream {c u : Cell} (h : Covers k v c) (hc : c ∈ allCells k.a0 k.a1)
    (hu : ReflTransGen (Drains k.a0 k.a1 v) u c) : Covers k v u := by
  intro x hx
  exact h x ((mem_catchment hc).2 (((mem_catchment (mem_allCells_of_upstream hc hu)).1 hx).trans hu))

theorem inflowing_same [DecidableEq Cell] (hv : SameDirections k v v') {c : Cell} (hc : c ∈ allCells k.a0 k.a1) (h : Covers k v c) :
    inflowing k.b0 k.b1 v' (k.shift c) = (inflowing k.a0 k.a1 v c).image k.shift := by
  ext y
  rw [mem_inflowing, Finset.mem_image]
  constructor
  · intro hy
    obtain ⟨u, -, rfl, hu⟩ := drains_into hv (h.self hc) hy
    exact ⟨u, mem_inflowing.2 hu, rfl⟩
  · rintro ⟨u, hu, rfl⟩
    have hu := mem_inflowing.1 hu
    exact (drains_iff hv (h u ((mem_catchment hc).2 (.single hu))) (h.self hc)).1 hu

theorem catchment_same [DecidableEq Cell] (hv : SameDirections k v v') {c : Cell} (hc : c ∈ allCells k.a0 k.a1) (h : Covers k v c) :
    catchment k.b0 k.b1 v' (k.shift c) = (catchment k.a0 k.a1 v c).image k.shift := by
  ext y
  rw [mem_catchment (has_mem (h.self hc)).2, Finset.mem_image]
  constructor
  · intro hy
    induction hy using ReflTransGen.head_induction_on with
    | refl => exact ⟨c, (mem_catchment hc).2 .refl, rfl⟩
    | head h1 _ ih =>
      obtain ⟨x, hx, rfl⟩ := ih
      obtain ⟨u, -, rfl, hu⟩ := drains_into hv (h x hx) h1
      exact ⟨u, (mem_catchment hc).2 (((mem_catchment hc).1 hx).head hu), rfl⟩
  · rintro ⟨u, hu, rfl⟩
    have hu := (mem_catchment hc).1 hu
    induction hu using ReflTransGen.head_induction_on with
    | refl => exact .refl
    | head h1 h2 ih =>
      have m1 := h _ ((mem_catchment hc).2 (h2.head h1))
      have m2 := h _ ((mem_catchment hc).2 h2)
      exact (ih ((mem_catchment hc).2 h2)).head ((drains_iff hv m1 m2).1 h1)

theorem acc_same (hv : SameDirections k v v') {c : Cell} (hacc : Acc (Drains k.a0 k.a1 v) c) (hc : c ∈ allCells k.a0 k.a1)
    (h : Covers k v c) : Acc (Drains k.b0 k.b1 v') (k.shift c) := by
  induction hacc with
  | intro c _ ih =>
    refine .intro _ fun y hy => ?_
    obtain ⟨u, hu, rfl, hd⟩ := drains_into hv (h.self hc) hy
    exact ih u hd (has_mem hu).1 (h.upstream hc (.single hd))

theorem exists_same {P P' : Cell → Prop} [DecidableEq Cell] {s : Finset Cell}
    (h : ∀ u ∈ s, P u ↔ P' (k.shift u)) : (∃ y ∈ s.image k.shift, P' y) ↔ ∃ u ∈ s, P u := by
  constructor
  · rintro ⟨y, hy, hp⟩
    obtain ⟨u, hu, rfl⟩ := Finset.mem_image.1 hy
    exact ⟨u, hu, (h u hu).2 hp⟩
  · rintro ⟨u, hu, hp⟩
    exact ⟨_, Finset.mem_image_of_mem _ hu, (h u hu).1 hp⟩

theorem sum_same {K : Type} [AddCommMonoid K] [DecidableEq Cell] {s : Finset Cell} (hs : ∀ u ∈ s, k.Has u.1 u.2)
    {e e' : Cell → K} (h : ∀ u ∈ s, e u = e' (k.shift u)) : ∑ y ∈ s.image k.shift, e' y = ∑ u ∈ s, e u := by
  rw [Finset.sum_image fun a ha b hb hab => shift_inj (hs a ha) (hs b hb) hab]
  exact Finset.sum_congr rfl fun u hu => (h u hu).symm

/-- C82: `accu` for an array and for a cutout, with any partitions. In a cell of which the catchment is in the cutout the
results are the same. Only the material in the catchment is required to be the same. -/
theorem accu_catchment {K : Type} [AddCommMonoid K] {isNoData : Nat → Bool} {within : K → Bool} {fd fd' : PArr Nat}
    {inflow inflow' : Arg (Option K)} {f f' : Arr (Option K)} (hfd : FlowDirections isNoData fd v)
    (hfd' : FlowDirections isNoData fd' v') (h0 : fd.grid.a0 = k.a0) (h1 : fd.grid.a1 = k.a1) (h0' : fd'.grid.a0 = k.b0)
    (h1' : fd'.grid.a1 = k.b1) (hin : inflow.IsValues fd.grid f) (hin' : inflow'.IsValues fd'.grid f')
    (hv : SameDirections k v v') {i j : Nat} (hi : i < k.a0) (hj : j < k.a1)
    (hcover : ∀ u ∈ catchment k.a0 k.a1 v (i, j), k.Has u.1 u.2)
    (hsame : ∀ u ∈ catchment k.a0 k.a1 v (i, j), f u.1 u.2 = f' (u.1 - k.o0) (u.2 - k.o1))
    (hcycle : ¬ OnCycle k.a0 k.a1 v (i, j)) {y y' : PArr (Option K)} (hy : AccuYields within isNoData fd inflow y)
    (hy' : AccuYields within isNoData fd' inflow' y') :
    ∀ w w', Represents y w → Represents y' w' → w i j = w' (i - k.o0) (j - k.o1) := by
  classical
  intro w w' hw hw'
  obtain ⟨z, hz, hg, H⟩ := accu_correct hfd hin hy
  obtain ⟨z', hz', hg', H'⟩ := accu_correct hfd' hin' hy'
  rw [h0, h1] at H
  rw [h0', h1'] at H'
  have hc : (i, j) ∈ allCells k.a0 k.a1 := mem_allCells.2 ⟨hi, hj⟩
  have hb := mem_allCells.1 (has_mem (Covers.self hcover hc)).2
  rw [hw.unique hz (by rw [hg, h0]; exact hi) (by rw [hg, h1]; exact hj)]
  rw [hw'.unique hz' (by rw [hg', h0']; exact hb.1) (by rw [hg', h1']; exact hb.2)]
  have hacc' := acc_iff.1 (acc_same hv (acc_iff.2 hcycle) hc hcover)
  rw [H i j hi hj hcycle, H' (i - k.o0) (j - k.o1) hb.1 hb.2 hacc']
  have ec := catchment_same hv hc hcover
  simp only [Cut.shift] at ec hacc' ⊢
  have ec : catchment k.b0 k.b1 v' (i - k.o0, j - k.o1) = (catchment k.a0 k.a1 v (i, j)).image k.shift := ec
  rw [ec]
  have hinv : ∀ u ∈ catchment k.a0 k.a1 v (i, j), Invalid isNoData within v f u ↔ Invalid isNoData within v' f' (k.shift u) := by
    intro u hu
    unfold Invalid
    rw [hsame u hu, hv _ _ (hcover u hu)]
    rfl
  have hex := exists_same (k := k) hinv
  have hsum := sum_same (k := k) hcover (e := fun u => (f u.1 u.2).getD 0) (e' := fun u => (f' u.1 u.2).getD 0)
    fun u hu => by simp only [hsame u hu, Cut.shift]
  simp only [hex, hsum]

/-- C82: same, for the operations which split the material, given any rule: `accu_threshold`, `accu_fraction`,
`accu_capacity`, `accu_trigger`. -/
theorem split_catchment {K : Type} [AddCommMonoid K] {isNoData : Nat → Bool}
    {within : K → K → Bool} {rule : K → K → K × K} {fd fd' : PArr Nat} {inflow inflow' parameter parameter' : Arg (Option K)}
    {f f' q q' : Arr (Option K)} (hfd : FlowDirections isNoData fd v)
    (hfd' : FlowDirections isNoData fd' v') (h0 : fd.grid.a0 = k.a0) (h1 : fd.grid.a1 = k.a1) (h0' : fd'.grid.a0 = k.b0)
    (h1' : fd'.grid.a1 = k.b1) (hin : inflow.IsValues fd.grid f) (hin' : inflow'.IsValues fd'.grid f')
    (hpa : parameter.IsValues fd.grid q) (hpa' : parameter'.IsValues fd'.grid q')
    (hv : SameDirections k v v') {i j : Nat} (hi : i < k.a0) (hj : j < k.a1)
    (hcover : ∀ u ∈ catchment k.a0 k.a1 v (i, j), k.Has u.1 u.2)
    (hsame : ∀ u ∈ catchment k.a0 k.a1 v (i, j), f u.1 u.2 = f' (u.1 - k.o0) (u.2 - k.o1) ∧
      q u.1 u.2 = q' (u.1 - k.o0) (u.2 - k.o1))
    (hcycle : ¬ OnCycle k.a0 k.a1 v (i, j)) {o r o' r' : PArr (Option K)}
    (hy : SplitYields within rule isNoData fd inflow parameter o r)
    (hy' : SplitYields within rule isNoData fd' inflow' parameter' o' r') :
    ∀ x y x' y', Represents o x → Represents r y → Represents o' x' → Represents r' y' →
      x i j = x' (i - k.o0) (j - k.o1) ∧ y i j = y' (i - k.o0) (j - k.o1) := by
  classical
  intro x y x' y' hx hy1 hx' hy1'
  obtain ⟨out, rem, z1, z2, g1, g2, H⟩ := split_correct hfd hin hpa hy
  obtain ⟨out', rem', z1', z2', g1', g2', H'⟩ := split_correct hfd' hin' hpa' hy'
  rw [h0, h1] at H
  rw [h0', h1'] at H'
  have hc : (i, j) ∈ allCells k.a0 k.a1 := mem_allCells.2 ⟨hi, hj⟩
  have hb := mem_allCells.1 (has_mem (Covers.self hcover hc)).2
  have key : ∀ c : Cell, Acc (Drains k.a0 k.a1 v) c → c ∈ allCells k.a0 k.a1 → ReflTransGen (Drains k.a0 k.a1 v) c (i, j) →
      out c.1 c.2 = out' (c.1 - k.o0) (c.2 - k.o1) ∧ rem c.1 c.2 = rem' (c.1 - k.o0) (c.2 - k.o1) := by
    intro c hacc
    induction hacc with
    | intro c ha ih =>
      intro hcell hup
      have hcov := Covers.upstream hcover hc hup
      have hlt := mem_allCells.1 hcell
      have hlt' := mem_allCells.1 (has_mem (hcov.self hcell)).2
      have hcyc : ¬ OnCycle k.a0 k.a1 v c := acc_iff.1 (.intro c ha)
      have hcyc' := acc_iff.1 (acc_same hv (acc_iff.2 hcyc) hcell hcov)
      obtain ⟨n1, n2, e⟩ := H c.1 c.2 hlt.1 hlt.2 hcyc
      obtain ⟨n1', n2', e'⟩ := H' _ _ hlt'.1 hlt'.2 hcyc'
      have hs : ∀ u ∈ catchment k.a0 k.a1 v c, f u.1 u.2 = f' (u.1 - k.o0) (u.2 - k.o1) ∧
          q u.1 u.2 = q' (u.1 - k.o0) (u.2 - k.o1) := fun u hu =>
        hsame u ((mem_catchment hc).2 (((mem_catchment hcell).1 hu).trans hup))
      have hinv : ∀ u ∈ catchment k.a0 k.a1 v c, Invalid₂ isNoData within v f q u ↔ Invalid₂ isNoData within v' f' q' (k.shift u) := by
        intro u hu
        unfold Invalid₂
        rw [(hs u hu).1, (hs u hu).2, hv _ _ (hcov u hu)]
        rfl
      have hex := exists_same (k := k) hinv
      have ec : catchment k.b0 k.b1 v' ((k.shift c).1, (k.shift c).2) = (catchment k.a0 k.a1 v c).image k.shift :=
        catchment_same hv hcell hcov
      rw [ec, hex] at n1' n2'
      have ei : inflowing k.b0 k.b1 v' ((k.shift c).1, (k.shift c).2) = (inflowing k.a0 k.a1 v c).image k.shift :=
        inflowing_same hv hcell hcov
      have hsum := sum_same (k := k) (s := inflowing k.a0 k.a1 v c)
        (fun u hu => hcov u ((mem_catchment hcell).2 (.single (mem_inflowing.1 hu))))
        (e := fun u => (out u.1 u.2).getD 0) (e' := fun u => (out' u.1 u.2).getD 0) (fun u hu => by
          have hd := mem_inflowing.1 hu
          simp only [(ih u hd (mem_allCells.2 ⟨hd.1, hd.2.1⟩) (hup.head hd)).1, Cut.shift])
      rw [ei, hsum] at e'
      have hself := hs c ((mem_catchment hcell).2 .refl)
      simp only [Cut.shift] at n1' n2' e'
      by_cases hno : ∃ u ∈ catchment k.a0 k.a1 v c, Invalid₂ isNoData within v f q u
      · exact ⟨(n1.2 hno).trans (n1'.2 hno).symm, (n2.2 hno).trans (n2'.2 hno).symm⟩
      · obtain ⟨a, ha⟩ := Option.ne_none_iff_exists'.1 (fun h => hno (n1.1 h))
        obtain ⟨b, hb⟩ := Option.ne_none_iff_exists'.1 (fun h => hno (n2.1 h))
        obtain ⟨a', ha'⟩ := Option.ne_none_iff_exists'.1 (fun h => hno (n1'.1 h))
        obtain ⟨b', hb'⟩ := Option.ne_none_iff_exists'.1 (fun h => hno (n2'.1 h))
        obtain ⟨s, p, t1, t2, -, t3⟩ := e a b ha hb
        obtain ⟨s', p', t1', t2', -, t3'⟩ := e' a' b' ha' hb'
        rw [hself.1, t1'] at t1
        rw [hself.2, t2'] at t2
        injection t1 with t1
        injection t2 with t2
        subst t1 t2
        have : (a, b) = (a', b') := t3.trans t3'.symm
        injection this with q1 q2
        rw [ha, hb, ha', hb', q1, q2]
        exact ⟨rfl, rfl⟩
  have hk := key (i, j) (acc_iff.2 hcycle) hc .refl
  rw [hx.unique z1 (by rw [g1, h0]; exact hi) (by rw [g1, h1]; exact hj)]
  rw [hy1.unique z2 (by rw [g2, h0]; exact hi) (by rw [g2, h1]; exact hj)]
  rw [hx'.unique z1' (by rw [g1', h0']; exact hb.1) (by rw [g1', h1']; exact hb.2)]
  rw [hy1'.unique z2' (by rw [g2', h0']; exact hb.1) (by rw [g2', h1']; exact hb.2)]
  exact hk

end Lue.Cutout

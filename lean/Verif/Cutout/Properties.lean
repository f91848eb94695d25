import Verif.Cutout.Spec
import Verif.Program.Theorems

/-!
C81: a program which only looks around up to some distance gives the same results for a cutout of the data, and changes
in the data only have an effect up to that distance.
-/
namespace Lue.Cutout

open Lue.Program

variable {k : Cut} {Q : Nat → Nat → Prop}

theorem Deep.self {R i j : Nat} (h : Deep k Q R i j) : Q i j :=
  h.2.2 i j h.1 h.2.1 (by omega) (by omega) (by omega) (by omega)

theorem Deep.zero {i j : Nat} (h : Deep k Q 0 i j) : Q i j := h.self

theorem Deep.add {r R i j : Nat} (h : Deep k Q (r + R) i j) : Deep k (Deep k Q r) R i j := by
  refine ⟨h.1, h.2.1, fun i' j' h0 h1 e1 e2 e3 e4 => ⟨h0, h1, fun i'' j'' h0' h1' f1 f2 f3 f4 => ?_⟩⟩
  exact h.2.2 i'' j'' h0' h1' (by omega) (by omega) (by omega) (by omega)

/-- Around a cell which is deep enough in the area, the cutout looks the same as the array, including what is beyond the
borders. -/
theorem extended_same {α : Type} (hQ : ∀ i j, Q i j → k.Has i j) {r i j : Nat} (h : Deep k Q r i j) {v w : Arr α}
    (hv : ∀ i j, Q i j → v i j = w (i - k.o0) (j - k.o1)) (halo : Focal.Halo α) (e d : Nat) (he : e ≤ 2 * r) (hd : d ≤ 2 * r) :
    Focal.extended halo k.a0 k.a1 v ((i : Int) - r + (e : Nat)) ((j : Int) - r + (d : Nat)) =
      Focal.extended halo k.b0 k.b1 w (((i - k.o0 : Nat) : Int) - r + (e : Nat)) (((j - k.o1 : Nat) : Int) - r + (d : Nat)) := by
  obtain ⟨c1, c2, c3, c4⟩ := hQ _ _ h.self
  have h0 := k.fit0
  have h1 := k.fit1
  have hi := h.1
  have hj := h.2.1
  -- the nearest cell of the array
  obtain ⟨y, hy⟩ : ∃ y : Nat, y < k.a0 ∧ i ≤ y + r ∧ y ≤ i + r ∧ ((i : Int) - r + e < 0 ∧ y = 0 ∨
      (0 ≤ (i : Int) - r + e ∧ (i : Int) - r + e < k.a0 ∧ (y : Int) = i - r + e) ∨ (k.a0 : Int) ≤ (i : Int) - r + e) := by
    rcases lt_or_ge ((i : Int) - r + e) 0 with q | q
    · exact ⟨0, by omega, by omega, by omega, .inl ⟨q, rfl⟩⟩
    rcases lt_or_ge ((i : Int) - r + e) k.a0 with q' | q'
    · exact ⟨i + e - r, by omega, by omega, by omega, .inr (.inl ⟨q, q', by omega⟩)⟩
    · exact ⟨k.a0 - 1, by omega, by omega, by omega, .inr (.inr q')⟩
  obtain ⟨x, hx⟩ : ∃ x : Nat, x < k.a1 ∧ j ≤ x + r ∧ x ≤ j + r ∧ ((j : Int) - r + d < 0 ∧ x = 0 ∨
      (0 ≤ (j : Int) - r + d ∧ (j : Int) - r + d < k.a1 ∧ (x : Int) = j - r + d) ∨ (k.a1 : Int) ≤ (j : Int) - r + d) := by
    rcases lt_or_ge ((j : Int) - r + d) 0 with q | q
    · exact ⟨0, by omega, by omega, by omega, .inl ⟨q, rfl⟩⟩
    rcases lt_or_ge ((j : Int) - r + d) k.a1 with q' | q'
    · exact ⟨j + d - r, by omega, by omega, by omega, .inr (.inl ⟨q, q', by omega⟩)⟩
    · exact ⟨k.a1 - 1, by omega, by omega, by omega, .inr (.inr q')⟩
  have hq := h.2.2 y x hy.1 hx.1 hy.2.1 hy.2.2.1 hx.2.1 hx.2.2.1
  obtain ⟨d1, d2, d3, d4⟩ := hQ _ _ hq
  have hvq := hv _ _ hq
  obtain ⟨-, -, -, hy⟩ := hy
  obtain ⟨-, -, -, hx⟩ := hx
  unfold Focal.extended
  generalize hI : (i : Int) - r + e = I at *
  generalize hJ : (j : Int) - r + d = J at *
  have hI' : ((i - k.o0 : Nat) : Int) - r + e = I - k.o0 := by omega
  have hJ' : ((j - k.o1 : Nat) : Int) - r + d = J - k.o1 := by omega
  rw [hI', hJ']
  have a : I < 0 ↔ I - k.o0 < 0 := by omega
  have b : I < k.a0 ↔ I - k.o0 < k.b0 := by omega
  have c : J < 0 ↔ J - k.o1 < 0 := by omega
  have f : J < k.a1 ↔ J - k.o1 < k.b1 := by omega
  simp only [← a, ← b, ← c, ← f]
  by_cases g1 : I < 0
  · simp only [g1, if_true]
  by_cases g2 : I < k.a0
  · by_cases g3 : J < 0
    · simp only [g1, g2, g3, if_true, if_false]
    by_cases g4 : J < k.a1
    · simp only [g1, g2, g3, g4, if_true, if_false]
      have e1 : I.toNat = y := by omega
      have e2 : J.toNat = x := by omega
      have e3 : (I - k.o0).toNat = y - k.o0 := by omega
      have e4 : (J - k.o1).toNat = x - k.o1 := by omega
      rw [e1, e2, e3, e4, hvq]
    · simp only [g1, g2, g3, g4, if_true, if_false]
  · simp only [g1, g2, if_false]

theorem window_same {α : Type} (hQ : ∀ i j, Q i j → k.Has i j) {r i j : Nat} (h : Deep k Q r i j) {v w : Arr α}
    (hv : ∀ i j, Q i j → v i j = w (i - k.o0) (j - k.o1)) (halo : Focal.Halo α) :
    Focal.windowAt (Focal.extended halo k.a0 k.a1 v) r i j =
      Focal.windowAt (Focal.extended halo k.b0 k.b1 w) r (i - k.o0) (j - k.o1) := by
  unfold Focal.windowAt
  refine List.map_congr_left fun e he => ?_
  have he := List.mem_range.1 he
  have h1 : e / (2 * r + 1) < 2 * r + 1 := Nat.div_lt_of_lt_mul he
  have h2 : e % (2 * r + 1) < 2 * r + 1 := Nat.mod_lt _ (by omega)
  exact extended_same hQ h hv halo _ _ (by omega) (by omega)

theorem same_setArr {S T : Whole} (h : SameIn k Q S T) {t : Ty} {x : Nat} {v w : Arr t.El}
    (hv : ∀ i j, Q i j → v i j = w (i - k.o0) (j - k.o1)) : SameIn k Q (S.setArr t x v) (T.setArr t x w) := by
  intro t' x' i j hq
  simp only [Whole.setArr, assign]
  by_cases ht : t = t'
  · subst ht
    by_cases hx : x = x'
    · simp only [dif_pos, if_pos hx]
      exact hv i j hq
    · simp only [dif_pos, if_neg hx]
      exact h t x' i j hq
  · simp only [dif_neg ht]
    exact h t' x' i j hq

/-- The cells draining into a cell are next to it. -/
theorem drains_near {a0 a1 : Nat} {v : Arr Nat} {u c : Routing.Cell} (h : Routing.Drains a0 a1 v u c) :
    u.1 ≤ c.1 + 1 ∧ c.1 ≤ u.1 + 1 ∧ u.2 ≤ c.2 + 1 ∧ c.2 ≤ u.2 + 1 := by
  obtain ⟨-, -, -, -, d, hd, e1, e2⟩ := h
  unfold Routing.move at hd
  split at hd <;> first | (simp at hd; done) | (injection hd with hd; subst hd; simp only at e1 e2; omega)

/-- The number of cells draining into a cell. -/
theorem nrInflows_same (hQ : ∀ i j, Q i j → k.Has i j) {i j : Nat} (h : Deep k Q 1 i j) {v w : Arr Nat}
    (hv : ∀ i j, Q i j → v i j = w (i - k.o0) (j - k.o1)) :
    InflowCount.nrInflows k.a0 k.a1 v (i, j) = InflowCount.nrInflows k.b0 k.b1 w (i - k.o0, j - k.o1) := by
  have f0 := k.fit0
  have f1 := k.fit1
  obtain ⟨c1, c2, c3, c4⟩ := hQ _ _ h.self
  have hset : {s : Routing.Cell | Routing.Drains k.b0 k.b1 w s (i - k.o0, j - k.o1)} =
      (fun u : Routing.Cell => (u.1 - k.o0, u.2 - k.o1)) '' {s : Routing.Cell | Routing.Drains k.a0 k.a1 v s (i, j)} := by
    ext ⟨y, x⟩
    simp only [Set.mem_setOf_eq, Set.mem_image, Prod.mk.injEq, Prod.exists]
    constructor
    · intro hd
      have hn := drains_near hd
      obtain ⟨g1, g2, -, -, d, hm, e1, e2⟩ := hd
      simp only at g1 g2 e1 e2 hn
      have hq := h.2.2 (y + k.o0) (x + k.o1) (by omega) (by omega) (by omega) (by omega) (by omega) (by omega)
      have e := hv _ _ hq
      rw [Nat.add_sub_cancel, Nat.add_sub_cancel] at e
      refine ⟨y + k.o0, x + k.o1, ⟨by simp only; omega, by simp only; omega, h.1, h.2.1, d, ?_, by simp only; omega, by simp only; omega⟩,
        by omega, by omega⟩
      rw [e]; exact hm
    · rintro ⟨a, b, hd, rfl, rfl⟩
      have hn := drains_near hd
      obtain ⟨g1, g2, -, -, d, hm, e1, e2⟩ := hd
      simp only at g1 g2 e1 e2 hn
      have hq := h.2.2 a b g1 g2 (by omega) (by omega) (by omega) (by omega)
      obtain ⟨q1, q2, q3, q4⟩ := hQ _ _ hq
      refine ⟨by simp only; omega, by simp only; omega, by simp only; omega, by simp only; omega, d, ?_, by simp only; omega, by simp only; omega⟩
      simp only
      rw [← hv _ _ hq]; exact hm
  unfold InflowCount.nrInflows
  rw [hset, Set.ncard_image_of_injOn]
  rintro ⟨a, b⟩ ha ⟨a', b'⟩ hb hab
  have hn := drains_near ha
  have hn' := drains_near hb
  obtain ⟨q1, q2, q3, q4⟩ := hQ _ _ (h.2.2 a b ha.1 ha.2.1 (by simp only at hn; omega) (by simp only at hn; omega)
    (by simp only at hn; omega) (by simp only at hn; omega))
  obtain ⟨r1, r2, r3, r4⟩ := hQ _ _ (h.2.2 a' b' hb.1 hb.2.1 (by simp only at hn'; omega) (by simp only at hn'; omega)
    (by simp only at hn'; omega) (by simp only at hn'; omega))
  simp only [Prod.mk.injEq] at hab ⊢
  omega

theorem SameIn.mono {Q' : Nat → Nat → Prop} {S T : Whole} (h : SameIn k Q S T) (hq : ∀ i j, Q' i j → Q i j) :
    SameIn k Q' S T := fun t x i j hij => h t x i j (hq i j hij)

theorem sc_setArr (S : Whole) (t : Ty) (x : Nat) (a : Arr t.El) : (S.setArr t x a).sc = S.sc := rfl

/-- A call. -/
theorem op_same (hQ : ∀ i j, Q i j → k.Has i j) {o : Op} {r : Nat} (hr : radius o = some r) {S T S' T' : Whole}
    (hsc : S.sc = T.sc) (h : SameIn k Q S T) (hS : o.Means k.a0 k.a1 S S') (hT : o.Means k.b0 k.b1 T T') :
    S'.sc = T'.sc ∧ SameIn k (Deep k Q r) S' T' := by
  have hin : ∀ i j, Q i j → i - k.o0 < k.b0 ∧ j - k.o1 < k.b1 := by
    intro i j hq
    obtain ⟨c1, c2, c3, c4⟩ := hQ i j hq
    omega
  cases o <;> simp only [radius, Option.some.injEq, reduceCtorEq] at hr <;> subst hr <;> simp only [Op.Means] at hS hT
  case fill => subst hS hT; exact ⟨hsc, same_setArr (h.mono fun _ _ q => q.self) fun i j hq => by simp only [hsc]⟩
  case unary =>
    subst hS hT
    exact ⟨hsc, same_setArr (h.mono fun _ _ q => q.self) fun i j hq => by simp only [h _ _ i j hq.self]⟩
  case binary =>
    subst hS hT
    exact ⟨hsc, same_setArr (h.mono fun _ _ q => q.self) fun i j hq => by simp only [h _ _ i j hq.self]⟩
  case binaryAS =>
    subst hS hT
    exact ⟨hsc, same_setArr (h.mono fun _ _ q => q.self) fun i j hq => by simp only [h _ _ i j hq.self, hsc]⟩
  case binarySA =>
    subst hS hT
    exact ⟨hsc, same_setArr (h.mono fun _ _ q => q.self) fun i j hq => by simp only [h _ _ i j hq.self, hsc]⟩
  case ternary =>
    subst hS hT
    exact ⟨hsc, same_setArr (h.mono fun _ _ q => q.self) fun i j hq => by simp only [h _ _ i j hq.self]⟩
  case wher =>
    obtain ⟨-, rfl⟩ := hS
    obtain ⟨-, rfl⟩ := hT
    exact ⟨hsc, same_setArr (h.mono fun _ _ q => q.self) fun i j hq => by simp only [h _ _ i j hq.self]⟩
  case focal t u dst halo r functor x =>
    obtain ⟨w, rfl, hw⟩ := hS
    obtain ⟨w', rfl, hw'⟩ := hT
    refine ⟨hsc, same_setArr (h.mono fun _ _ q => q.self) fun i j hq => ?_⟩
    have e1 := hw i j hq.1 hq.2.1
    obtain ⟨b0, b1⟩ := hin _ _ hq.self
    have e2 := hw' _ _ b0 b1
    rw [window_same hQ hq (fun i j => h t x i j) halo, e2] at e1
    injection e1 with e1
    exact e1.symm
  case focal2 t₁ t₂ u dst halo₁ halo₂ r functor x y =>
    obtain ⟨w, rfl, hw⟩ := hS
    obtain ⟨w', rfl, hw'⟩ := hT
    refine ⟨hsc, same_setArr (h.mono fun _ _ q => q.self) fun i j hq => ?_⟩
    have e1 := hw i j hq.1 hq.2.1
    obtain ⟨b0, b1⟩ := hin _ _ hq.self
    have e2 := hw' _ _ b0 b1
    rw [window_same hQ hq (fun i j => h t₁ x i j) halo₁, window_same hQ hq (fun i j => h t₂ y i j) halo₂, e2] at e1
    injection e1 with e1
    exact e1.symm
  case inflowCount =>
    obtain ⟨-, rfl⟩ := hS
    obtain ⟨-, rfl⟩ := hT
    refine ⟨hsc, same_setArr (h.mono fun _ _ q => q.self) fun i j hq => ?_⟩
    simp only [h _ _ i j hq.self, nrInflows_same hQ hq fun i j => h .code _ i j]
  case scalar =>
    subst hS hT
    refine ⟨?_, fun t x i j hq => h t x i j hq.self⟩
    simp only [Whole.setSc, hsc]

theorem step_same (hQ : ∀ i j, Q i j → k.Has i j) {p p' q' : List Stmt} {r : Nat} (hr : nextRadius p = some r)
    {S T S' T' : Whole} (hsc : S.sc = T.sc) (h : SameIn k Q S T) (hS : WholeStep k.a0 k.a1 p S p' S')
    (hT : WholeStep k.b0 k.b1 p T q' T') : p' = q' ∧ S'.sc = T'.sc ∧ SameIn k (Deep k Q r) S' T' := by
  cases hS with
  | op hm =>
    cases hT with
    | op hm' => exact ⟨rfl, op_same hQ hr hsc h hm hm'⟩
  | seq =>
    cases hT
    simp only [nextRadius, Option.some.injEq] at hr
    exact ⟨rfl, hsc, h.mono fun _ _ q => q.self⟩
  | ite =>
    cases hT
    simp only [nextRadius, Option.some.injEq] at hr
    exact ⟨by rw [hsc], hsc, h.mono fun _ _ q => q.self⟩
  | loop =>
    cases hT
    simp only [nextRadius, Option.some.injEq] at hr
    exact ⟨by rw [hsc], hsc, h.mono fun _ _ q => q.self⟩

/-- Whole arrays: from equal values in area `Q` follow equal results in the cells which are at least `R` from what is not
in `Q`. -/
theorem whole_same {R : Nat} {p : List Stmt} {S S' : Whole} (hS : Reaches k.a0 k.a1 R p S S') :
    ∀ {Q : Nat → Nat → Prop} {T T' : Whole} {n : Nat}, (∀ i j, Q i j → k.Has i j) → S.sc = T.sc → SameIn k Q S T →
      WholeSteps k.b0 k.b1 n p T [] T' → S'.sc = T'.sc ∧ SameIn k (Deep k Q R) S' T' := by
  induction hS with
  | done =>
    intro Q T T' n hQ hsc h hT
    cases hT with
    | nil => exact ⟨hsc, h.mono fun _ _ q => q.self⟩
    | more h1 _ => cases h1
  | step hr h1 _ ih =>
    intro Q T T' n hQ hsc h hT
    cases hT with
    | nil => cases h1
    | more g1 g2 =>
      obtain ⟨rfl, hsc', h'⟩ := step_same hQ hr hsc h h1 g1
      obtain ⟨hs, hz⟩ := ih (fun i j hq => hQ i j hq.self) hsc' h' g2
      exact ⟨hs, hz.mono fun _ _ q => q.add⟩

theorem Reaches.computes {a0 a1 R : Nat} {p : List Stmt} {S S' : Whole} (h : Reaches a0 a1 R p S S') :
    ∃ n, WholeSteps a0 a1 n p S [] S' := by
  induction h with
  | done => exact ⟨0, .nil⟩
  | step _ h1 _ ih =>
    obtain ⟨n, hn⟩ := ih
    exact ⟨n + 1, .more h1 hn⟩

/-- C81: a model is executed for an area, and for a cutout of it. The radii of the calls which are made add up to `R`. In
area `Q`, which is part of the cutout, the data are the same. Then the results are the same in every cell of which the
cells at most `R` rows and columns away are part of `Q`, whatever the partitions, the schedules, and the data elsewhere. -/
theorem cutout_correct {g g' : Grid} (hg : g.Ok) (hg' : g'.Ok) (h0 : g.a0 = k.a0) (h1 : g.a1 = k.a1) (h0' : g'.a0 = k.b0)
    (h1' : g'.a1 = k.b1) {p : Stmt} (hp : p.need ≤ g.p0 ∧ p.need ≤ g.p1) (hp' : p.need ≤ g'.p0 ∧ p.need ≤ g'.p1)
    {s s' : State} {S S' T T' : Whole} (h : Agree g s S) (h' : Agree g' s' T) {R : Nat}
    (hm : Reaches g.a0 g.a1 R [p] S S') (hm' : Computes g'.a0 g'.a1 p T T')
    (hQ : ∀ i j, Q i j → k.Has i j) (hsc : S.sc = T.sc) (hsame : SameIn k Q S T)
    {r r' : M State} (hr : Outcome g p s r) (hr' : Outcome g' p s' r') :
    ∃ z z', r = .ok z ∧ r' = .ok z' ∧ (∀ t x, z.sc t x = z'.sc t x) ∧
      ∀ t x v w, Represents (z.arr t x) v → Represents (z'.arr t x) w →
        ∀ i j, Deep k Q R i j → v i j = w (i - k.o0) (j - k.o1) := by
  obtain ⟨z, rfl, hz⟩ := (program_correct hg hp h hm.computes).2.1 r hr
  obtain ⟨z', rfl, hz'⟩ := (program_correct hg' hp' h' hm').2.1 r' hr'
  rw [h0, h1] at hm
  rw [h0', h1'] at hm'
  obtain ⟨n, hn⟩ := hm'
  obtain ⟨e1, e2⟩ := whole_same hm hQ hsc hsame hn
  refine ⟨z, z', rfl, rfl, fun t x => by rw [hz.sc, hz'.sc, e1], fun t x v w hv hw i j hd => ?_⟩
  obtain ⟨c1, c2, c3, c4⟩ := hQ _ _ hd.self
  rw [hv.unique (hz.arr t x) (by rw [hz.grid, h0]; exact hd.1) (by rw [hz.grid, h1]; exact hd.2.1)]
  rw [hw.unique (hz'.arr t x) (by rw [hz'.grid, h0']; omega) (by rw [hz'.grid, h1']; omega)]
  exact e2 t x i j hd

/-- C81: changing the data only has an effect up to distance `R`: when two executions of a program start with the same
scalars, and the same values in all cells at most `R` rows and columns from (`i`, `j`), they end with the same values in
(`i`, `j`). -/
theorem change_stays_near {g g' : Grid} (hg : g.Ok) (hg' : g'.Ok) (h0 : g.a0 = g'.a0) (h1 : g.a1 = g'.a1) {p : Stmt}
    (hp : p.need ≤ g.p0 ∧ p.need ≤ g.p1) (hp' : p.need ≤ g'.p0 ∧ p.need ≤ g'.p1) {s s' : State} {S S' T T' : Whole}
    (h : Agree g s S) (h' : Agree g' s' T) {R : Nat} (hm : Reaches g.a0 g.a1 R [p] S S')
    (hm' : Computes g'.a0 g'.a1 p T T') (hsc : S.sc = T.sc) {i j : Nat} (hi : i < g.a0) (hj : j < g.a1)
    (hsame : ∀ t x i' j', i' < g.a0 → j' < g.a1 → i ≤ i' + R → i' ≤ i + R → j ≤ j' + R → j' ≤ j + R →
      S.arr t x i' j' = T.arr t x i' j')
    {r r' : M State} (hr : Outcome g p s r) (hr' : Outcome g' p s' r') :
    ∃ z z', r = .ok z ∧ r' = .ok z' ∧
      ∀ t x v w, Represents (z.arr t x) v → Represents (z'.arr t x) w → v i j = w i j := by
  obtain ⟨z, z', e, e', -, H⟩ := cutout_correct (k := ⟨g.a0, g.a1, g.a0, g.a1, 0, 0, by omega, by omega⟩)
    (Q := fun i' j' => i' < g.a0 ∧ j' < g.a1 ∧ i ≤ i' + R ∧ i' ≤ i + R ∧ j ≤ j' + R ∧ j' ≤ j + R)
    hg hg' rfl rfl h0.symm h1.symm hp hp' h h' hm hm'
    (fun i' j' hq => ⟨Nat.zero_le _, by simpa using hq.1, Nat.zero_le _, by simpa using hq.2.1⟩) hsc
    (fun t x i' j' hq => hsame t x i' j' hq.1 hq.2.1 hq.2.2.1 hq.2.2.2.1 hq.2.2.2.2.1 hq.2.2.2.2.2) hr hr'
  exact ⟨z, z', e, e', fun t x v w hv hw =>
    H t x v w hv hw i j ⟨hi, hj, fun i' j' q0 q1 q2 q3 q4 q5 => ⟨q0, q1, q2, q3, q4, q5⟩⟩⟩

end Lue.Cutout

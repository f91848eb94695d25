import Verif.Decomposition.Lemmas

/-!
# C01: partitions tile the array exactly
# C31: automatically chosen partition shapes
-/
namespace Lue.Decomposition

open Lue.Index Lue.Visitor

/-- Specification of C01, for an array of shape `as`, a requested partition shape `ps` and a grid of partitions with
shapes `shapes`:
* the number of partitions along each dimension is the extent of the array divided by the requested extent, rounded down;
* every cell of a partition, shifted by the partition's offset in the array, is a cell of the array;
* every cell of the array is obtained this way from exactly one (partition, cell in partition) pair;
* the extents of all partitions lie in `[p, 2p)`. -/
structure Tiles (as ps grid : List Nat) (shapes : List Nat → List Nat) : Prop where
  grid_eq : grid = List.zipWith (fun a p => a / p) as ps
  inside : ∀ is ls, InShape is grid → InShape ls (shapes is) →
    InShape (List.zipWith (· + ·) (offsetInArray shapes is) ls) as
  exactly_one : ∀ cell, InShape cell as → ∃ is ls,
    (InShape is grid ∧ InShape ls (shapes is) ∧ cell = List.zipWith (· + ·) (offsetInArray shapes is) ls) ∧
    ∀ is' ls', InShape is' grid → InShape ls' (shapes is') →
      cell = List.zipWith (· + ·) (offsetInArray shapes is') ls' → is' = is ∧ ls' = ls
  bounds : ∀ is, InShape is grid → List.Forall₂ (fun p e => p ≤ e ∧ e < 2 * p) ps (shapes is)

/-- C01: for all shapes of any (positive) rank, creating the partitions succeeds precisely when the array and the
partition shape are not empty and the partition fits in the array, ... -/
theorem partitionShapes_succeeds_iff (as ps : List Nat) (h : as.length = ps.length) (h0 : ps ≠ []) :
    (∃ r, partitionShapes as ps = .ok r) ↔
      (∀ a ∈ as, a ≠ 0) ∧ (∀ p ∈ ps, p ≠ 0) ∧ List.Forall₂ (· ≤ ·) ps as := by
  constructor
  · rintro ⟨r, hr⟩
    unfold partitionShapes at hr
    split at hr
    · simp at hr
    · split at hr
      · simp at hr
      · split at hr
        · simp at hr
        · rename_i h1 h2 h3
          rw [nrElements_eq_zero] at h1 h2
          refine ⟨fun a ha e => h1 (e ▸ ha), fun a ha e => h2 (e ▸ ha), ?_⟩
          exact (isSubsetOf_iff ps as h.symm).1 (by simpa using h3)
  · rintro ⟨_, hp, hle⟩
    obtain ⟨s, hs, _⟩ := partitionShapes_ok as ps h h0 (fun p hp' => Nat.pos_of_ne_zero (hp p hp')) hle
    exact ⟨_, hs⟩

/-- ... and in that case the partitions tile the array. -/
theorem partitionShapes_tiles (as ps grid : List Nat) (shapes : List Nat → List Nat)
    (h : as.length = ps.length) (h0 : ps ≠ []) (hr : partitionShapes as ps = .ok (grid, shapes)) :
    Tiles as ps grid shapes := by
  obtain ⟨_, hp, hle⟩ := (partitionShapes_succeeds_iff as ps h h0).1 ⟨_, hr⟩
  have hp' : ∀ p ∈ ps, 0 < p := fun p hp' => Nat.pos_of_ne_zero (hp p hp')
  obtain ⟨s, hs, hsp⟩ := partitionShapes_ok as ps h h0 hp' hle
  rw [hr] at hs
  simp only [Except.ok.injEq, Prod.mk.injEq] at hs
  obtain ⟨rfl, rfl⟩ := hs
  have hoff : ∀ is, InShape is (List.zipWith (fun a p => a / p) as ps) →
      offsetInArray shapes is = partitionOffset is ps := by
    intro is his
    rw [offsetInArray, hsp _ (zeros_inShape is _ his), partitionOffset_extents as ps is his]
  refine ⟨rfl, ?_, ?_, ?_⟩
  · intro is ls h1 h2
    rw [hsp is h1] at h2
    rw [hoff is h1]
    exact tile_inside as ps is ls hle hp' h1 h2
  · intro cell hc
    obtain ⟨is, ls, h1, h2, h3⟩ := tile_exists as ps cell hle hp' hc
    refine ⟨is, ls, ⟨h1, by rw [hsp is h1]; exact h2, by rw [hoff is h1]; exact h3⟩, ?_⟩
    intro is' ls' h1' h2' h3'
    rw [hsp is' h1'] at h2'
    rw [hoff is' h1'] at h3'
    exact tile_unique as ps is' ls' is ls hle hp' h1' h2' h1 h2 (h3' ▸ h3)
  · intro is h1
    rw [hsp is h1]
    exact extents_bounds as ps is h (by have := h1.length_eq; simpa [h] using this) hp'

/-- A non-trivial case: a 7 × 10 array in partitions of 3 × 4 has 2 × 2 partitions, of which the last ones are
enlarged. -/
example : ∃ shapes, partitionShapes [7, 10] [3, 4] = .ok ([2, 2], shapes) ∧
    shapes [0, 0] = [3, 4] ∧ shapes [0, 1] = [3, 6] ∧ shapes [1, 0] = [4, 4] ∧ shapes [1, 1] = [4, 6] :=
  ⟨_, rfl, by decide, by decide, by decide, by decide⟩

example : (match partitionShapes [7, 10] [8, 4] with | .error _ => true | .ok _ => false) = true := by decide

/-- C01, per dimension: the extents of the partitions add up to the extent of the array. -/
theorem extents_sum (a p : Nat) (hp : 0 < p) (hpa : p ≤ a) :
    ((List.range (a / p)).map (Dim.extent a p)).sum = a := by
  have key : ∀ n, n + 1 ≤ a / p → ((List.range n).map (Dim.extent a p)).sum = n * p := by
    intro n hn
    induction n with
    | zero => simp
    | succ n ih =>
      rw [List.range_succ, List.map_append, List.sum_append, ih (by omega)]
      simp [Dim.extent_of_not_last (show n + 1 < a / p by omega), Nat.add_mul]
  have hn := Dim.nr_pos hp hpa
  obtain ⟨n, hn'⟩ : ∃ n, a / p = n + 1 := ⟨a / p - 1, by omega⟩
  rw [hn', List.range_succ, List.map_append, List.sum_append, key n (by omega)]
  have := Dim.offset_add_extent hp hpa (k := n) (by omega)
  rw [if_pos (by omega)] at this
  simpa using this

example : ((List.range (10 / 4)).map (Dim.extent 10 4)) = [4, 6] := by decide

/-! ## C31 -/

/-- C31: with a single worker thread the partition shape is the array shape. -/
theorem defaultPartitionShape_one_thread (size dim : Nat) (as : List Nat) :
    defaultPartitionShape size dim as 1 = as := by
  simp [defaultPartitionShape]

/-- C31: for a non-empty array the default partition shape has positive extents only, and
(for more than one thread) it is square. -/
theorem defaultPartitionShape_pos (size dim : Nat) (as : List Nat) (n : Nat) (ha : ∀ a ∈ as, 0 < a) :
    (defaultPartitionShape size dim as n).length = as.length ∧
    (∀ p ∈ defaultPartitionShape size dim as n, 0 < p) ∧
    (n ≠ 1 → ∀ p ∈ defaultPartitionShape size dim as n, ∀ q ∈ defaultPartitionShape size dim as n, p = q) := by
  have h0 : nrElements as ≠ 0 := by
    rw [Ne, nrElements_eq_zero]; intro h; exact absurd (ha 0 h) (by omega)
  unfold defaultPartitionShape
  simp only [h0, false_or]
  split
  · exact ⟨rfl, ha, fun h => absurd ‹_› h⟩
  · split
    all_goals
      refine ⟨by simp, ?_, ?_⟩
      · intro p hp; simp only [List.mem_map] at hp; obtain ⟨_, _, rfl⟩ := hp; omega
      · intro _ p hp q hq
        simp only [List.mem_map] at hp hq
        obtain ⟨_, _, rfl⟩ := hp
        obtain ⟨_, _, rfl⟩ := hq
        rfl

example : defaultPartitionShape (2000 * 2000) 2000 [600, 400] 4 = [100, 100] := by decide

/-- C31: the default partition shape fits in the array if the array is small (less than `size` elements per thread)
or if all extents are at least the default extent. Together with `partitionShapes_succeeds_iff` this means that the
array can be partitioned with it. -/
theorem defaultPartitionShape_fits (size dim : Nat) (as : List Nat) (n : Nat) (ha : ∀ a ∈ as, 0 < a) (hn : 0 < n)
    (h : as.prod / n < size ∨ ∀ a ∈ as, dim ≤ a) :
    List.Forall₂ (· ≤ ·) (defaultPartitionShape size dim as n) as := by
  have h0 : nrElements as ≠ 0 := by
    rw [Ne, nrElements_eq_zero]; intro h; exact absurd (ha 0 h) (by omega)
  have e : nrElements as = as.prod := by
    clear h h0 ha
    induction as with
    | nil => rfl
    | cons x xs ih => rw [nrElements_cons, ih]; simp
  have hmap : ∀ (v : Nat), (∀ a ∈ as, v ≤ a) → List.Forall₂ (· ≤ ·) (as.map fun _ => v) as := by
    intro v hv
    clear h0 h e ha
    induction as with
    | nil => exact .nil
    | cons x xs ih => exact .cons (hv x (by simp)) (ih fun a ha => hv a (by simp [ha]))
  unfold defaultPartitionShape
  simp only [h0, false_or]
  split
  · exact List.forall₂_same.2 fun _ _ => Nat.le_refl _
  · split
    · apply hmap
      intro a hx
      have hmin : as.min?.getD 0 ≤ a := by
        cases hm : as.min? with
        | none => simp
        | some m =>
          have := (List.min?_eq_some_iff.1 hm).2
          simpa using this a hx
      have := Nat.div_le_self (as.min?.getD 0) n
      have := ha a hx
      omega
    · rename_i hs
      rw [e] at hs
      rcases h with h | h
      · exact absurd h hs
      · apply hmap
        intro a hx
        have := ha a hx
        have := h a hx
        omega

example : [3000, 4000].prod / 2 ≥ 2000 * 2000 ∧ (∀ a ∈ [3000, 4000], 2000 ≤ a) := by decide

/-- C31, refutation of the unrestricted claim: for an elongated array the default partition shape does not fit in
the array, and partitioning the array with it throws. -/
theorem defaultPartitionShape_unusable :
    ∃ as n, (∀ a ∈ as, 0 < a) ∧ 0 < n ∧
      ∀ r, partitionShapes as (defaultPartitionShape (2000 * 2000) 2000 as n) ≠ .ok r := by
  refine ⟨[10, 1000000000], 2, by simp, by omega, fun r hr => ?_⟩
  have h : defaultPartitionShape (2000 * 2000) 2000 [10, 1000000000] 2 = [2000, 2000] := by decide
  rw [h] at hr
  have := ((partitionShapes_succeeds_iff [10, 1000000000] [2000, 2000] rfl (by simp)).1 ⟨r, hr⟩).2.2
  rw [List.forall₂_cons] at this
  exact absurd this.1 (by decide)

theorem ceilRootFrom_spec (r n : Nat) (hr : 0 < r) : ∀ fuel k, n ≤ fuel + k →
    n ≤ (ceilRootFrom r n fuel k) ^ r
  | 0, k, h => by
    rw [ceilRootFrom]
    calc n ≤ k := by omega
      _ = k ^ 1 := by simp
      _ ≤ k ^ r := by
        rcases Nat.eq_zero_or_pos k with h0 | h0
        · subst h0; simp
        · exact Nat.pow_le_pow_right h0 hr
  | fuel + 1, k, h => by
    rw [ceilRootFrom]
    split
    · assumption
    · exact ceilRootFrom_spec r n hr fuel (k + 1) (by omega)

/-- `ceilRoot r n` is large enough. -/
theorem ceilRoot_spec (r n : Nat) (hr : 0 < r) : n ≤ (ceilRoot r n) ^ r :=
  ceilRootFrom_spec r n hr n 0 (by omega)

theorem ceilRootFrom_min (r n : Nat) : ∀ fuel k, (∀ j, j < k → j ^ r < n) →
    ∀ j, j < ceilRootFrom r n fuel k → j ^ r < n
  | 0, k, h, j, hj => h j hj
  | fuel + 1, k, h, j, hj => by
    rw [ceilRootFrom] at hj
    split at hj
    · exact h j hj
    · rename_i hk
      refine ceilRootFrom_min r n fuel (k + 1) ?_ j hj
      intro i hi
      rcases Nat.lt_succ_iff_lt_or_eq.1 hi with h' | h'
      · exact h i h'
      · subst h'; omega

/-- `ceilRoot r n` is the smallest such number: it is `ceil(n^(1/r))`. -/
theorem ceilRoot_min (r n j : Nat) (hj : j < ceilRoot r n) : j ^ r < n :=
  ceilRootFrom_min r n n 0 (fun _ h => absurd h (by omega)) j hj

theorem nrPartitions_cons (a p : Nat) (as ps : List Nat) :
    nrPartitions (a :: as) (p :: ps) = (a + p - 1) / p * nrPartitions as ps := by
  simp only [nrPartitions, shapeInPartitions, List.zipWith_cons_cons, List.foldl_cons]
  rw [foldl_mul_init]; simp

theorem maxPartitionShape_loop (k m : Nat) (hk : 0 < k) : ∀ (as : List Nat) (nr : Nat), (∀ a ∈ as, k ≤ a) →
    (∀ p ∈ maxPartitionShapeLoop k m nr as, 0 < p) ∧
    List.Forall₂ (· ≤ ·) (maxPartitionShapeLoop k m nr as) as ∧
    (k ^ as.length ≤ nrPartitions as (maxPartitionShapeLoop k m nr as) ∨
      ∃ d, m ≤ nr + d * k ∧ k ^ d ≤ nrPartitions as (maxPartitionShapeLoop k m nr as)) := by
  intro as
  induction as with
  | nil => intro nr _; simp [maxPartitionShapeLoop, nrPartitions, shapeInPartitions]
  | cons a as ih =>
    intro nr ha
    have hka : k ≤ a := ha a (by simp)
    have hd : 0 < a / k := Nat.div_pos hka hk
    have ha' : ∀ a ∈ as, k ≤ a := fun x hx => ha x (by simp [hx])
    unfold maxPartitionShapeLoop
    split
    · obtain ⟨h1, h2, h3⟩ := ih (nr + k) ha'
      have hdiv : k ≤ (a + a / k - 1) / (a / k) := by
        rw [Nat.le_div_iff_mul_le hd]
        have := Nat.div_mul_le_self a k
        rw [Nat.mul_comm]; omega
      refine ⟨?_, ?_, ?_⟩
      · intro p hp
        rcases List.mem_cons.1 hp with h | h
        · subst h; exact hd
        · exact h1 p h
      · exact .cons (Nat.div_le_self a k) h2
      · rw [nrPartitions_cons]
        rcases h3 with h3 | ⟨d, h3, h4⟩
        · left
          rw [List.length_cons, Nat.pow_succ, Nat.mul_comm]
          exact Nat.mul_le_mul hdiv h3
        · right
          refine ⟨d + 1, by rw [Nat.add_mul]; omega, ?_⟩
          rw [Nat.pow_succ, Nat.mul_comm]
          exact Nat.mul_le_mul hdiv h4
    · obtain ⟨h1, h2, h3⟩ := ih nr ha'
      have hapos : 0 < a := by omega
      have hnr : 1 ≤ nrPartitions as (maxPartitionShapeLoop k m nr as) := by
        rcases h3 with h3 | ⟨d, _, h4⟩
        · exact le_trans (Nat.one_le_pow _ _ hk) h3
        · exact le_trans (Nat.one_le_pow _ _ hk) h4
      refine ⟨?_, .cons (Nat.le_refl a) h2, Or.inr ⟨0, by omega, ?_⟩⟩
      · intro p hp
        rcases List.mem_cons.1 hp with h | h
        · subst h; exact hapos
        · exact h1 p h
      · rw [nrPartitions_cons]
        have : 1 ≤ (a + a - 1) / a := by
          rw [Nat.le_div_iff_mul_le hapos]; omega
        simpa using Nat.mul_le_mul this hnr

/-- C31: when all extents of the array are at least `ceil(n^(1/rank))`, the shape returned for a minimum number of
partitions `n` is not empty, fits in the array, and results in at least `n` partitions. -/
theorem maxPartitionShape_spec (as : List Nat) (n : Nat) (h0 : as ≠ []) (hn : 0 < n)
    (h : ∀ a ∈ as, ceilRoot as.length n ≤ a) :
    (∀ p ∈ maxPartitionShape as n, 0 < p) ∧ List.Forall₂ (· ≤ ·) (maxPartitionShape as n) as ∧
    n ≤ nrPartitions as (maxPartitionShape as n) := by
  have hl : 0 < as.length := List.length_pos_iff.2 h0
  have hr := ceilRoot_spec as.length n hl
  have hk : 0 < ceilRoot as.length n := by
    rcases Nat.eq_zero_or_pos (ceilRoot as.length n) with h' | h'
    · rw [h', Nat.zero_pow hl] at hr; omega
    · exact h'
  obtain ⟨h1, h2, h3⟩ := maxPartitionShape_loop (ceilRoot as.length n) n hk as 0 h
  refine ⟨h1, h2, ?_⟩
  unfold maxPartitionShape
  rcases h3 with h3 | ⟨d, h3, h4⟩
  · exact le_trans hr h3
  · refine le_trans ?_ h4
    rcases Nat.lt_or_ge 1 (ceilRoot as.length n) with hk2 | hk1
    · refine le_trans h3 ?_
      rw [Nat.zero_add]
      generalize ceilRoot as.length n = k at *
      clear h h1 h2 h3 h4 hr
      induction d with
      | zero => simp
      | succ d ih =>
        rcases Nat.eq_zero_or_pos d with hd | hd
        · subst hd; simp
        · rw [Nat.pow_succ]
          have : 2 * k ^ d ≤ k ^ d * k := by rw [Nat.mul_comm]; exact Nat.mul_le_mul_left _ hk2
          have h5 : k ≤ d * k := Nat.le_mul_of_pos_left _ hd
          rw [Nat.add_mul]; omega
    · have : ceilRoot as.length n = 1 := by omega
      rw [this, Nat.one_pow] at hr
      exact le_trans hr (Nat.one_le_pow _ _ hk)

theorem maxPartitionShapeLoop_getElem? (k m : Nat) : ∀ (as : List Nat) (nr d : Nat),
    (maxPartitionShapeLoop k m nr as)[d]? = as[d]?.map fun a => if nr + d * k < m then a / k else a := by
  intro as
  induction as with
  | nil => intro nr d; simp [maxPartitionShapeLoop]
  | cons a as ih =>
    intro nr d
    unfold maxPartitionShapeLoop
    split
    case isTrue h =>
      cases d with
      | zero => simp [h]
      | succ d =>
        rw [List.getElem?_cons_succ, List.getElem?_cons_succ, ih]
        have : nr + k + d * k = nr + (d + 1) * k := by rw [Nat.add_mul]; omega
        rw [this]
    case isFalse h =>
      cases d with
      | zero => simp [h]
      | succ d =>
        rw [List.getElem?_cons_succ, List.getElem?_cons_succ, ih]
        have h1 : ¬ nr + d * k < m := by omega
        have h2 : ¬ nr + (d + 1) * k < m := by omega
        simp [h1, h2]

/-- C31: the leading extents are divided by `k = ceil(n^(1/rank))`, and no more of them than needed: extent `d` is
divided iff `d * k < n`, the other ones are those of the array. -/
theorem maxPartitionShape_divided (as : List Nat) (n : Nat) (h0 : as ≠ []) :
    ∃ k, n ≤ k ^ as.length ∧ (∀ j, n ≤ j ^ as.length → k ≤ j) ∧
      ∀ d : Nat, (maxPartitionShape as n)[d]? = as[d]?.map fun a => if d * k < n then a / k else a := by
  have hl : 0 < as.length := List.length_pos_iff.2 h0
  refine ⟨ceilRoot as.length n, ceilRoot_spec as.length n hl,
    fun j hj => Nat.le_of_not_lt fun h => absurd (ceilRoot_min as.length n j h) (by omega), fun d => ?_⟩
  rw [maxPartitionShape, maxPartitionShapeLoop_getElem?]
  simp

/-- With three dimensions and a minimum of four partitions, the last extent is not divided. -/
example : maxPartitionShape [10, 10, 10] 4 = [5, 5, 10] := by decide

example : (∀ a ∈ [100, 60], ceilRoot 2 50 ≤ a) ∧ maxPartitionShape [100, 60] 50 = [12, 7] ∧
    nrPartitions [100, 60] [12, 7] = 81 := by decide

/-- C31, refutation of the unrestricted claim: the documented precondition `1 ≤ n ≤ nr_elements` does not suffice, a
partition shape with a zero extent can be returned. -/
theorem maxPartitionShape_zero_extent :
    ∃ as n, 0 < n ∧ n ≤ as.prod ∧ 0 ∈ maxPartitionShape as n :=
  ⟨[1, 100], 50, by decide, by decide, by decide⟩

end Lue.Decomposition

import Mathlib.Order.Interval.Finset.Nat
import Verif.Localities.HilbertLemmas
import Verif.Localities.Model

/-!
# C04: partitions are spread over localities in a balanced, order preserving way
# C05: the space filling curve visits every partition exactly once
-/
namespace Lue.Localities

/-- C05: for every array of partitions the recursion of the Hilbert curve terminates, and it visits every partition
exactly once and visits nothing else. -/
theorem hilbertCurve_visits_all_once (n m : Nat) :
    ∃ fuel l, hilbertCurve fuel n m = some l ∧ l.Nodup ∧
      ∀ i j : Int, (i, j) ∈ l ↔ (0 ≤ i ∧ i < n) ∧ (0 ≤ j ∧ j < m) := by
  by_cases h : n * m > 0
  · have hn : 0 < n := Nat.pos_of_ne_zero (by rintro rfl; simp at h)
    have hm : 0 < m := Nat.pos_of_ne_zero (by rintro rfl; simp at h)
    by_cases hge : m ≥ n
    · obtain ⟨l, hl, c⟩ := hilbert_covers (m + n) (m + n) m n 0 0 1 0 0 1 (le_refl _) (le_refl _) hm hn
        (.inl ⟨rfl, rfl, .inl rfl, .inl rfl⟩)
      refine ⟨m + n, l, ?_, c.1, ?_⟩
      · rw [hilbertCurve, if_pos h, if_pos hge]; simpa using hl
      · intro i j
        rw [c.2]
        constructor
        · rintro ⟨s, t, h1, h2, h3, h4, he⟩
          simp [pt] at he
          omega
        · rintro ⟨⟨h1, h2⟩, h3, h4⟩
          exact ⟨j, i, h3, h4, h1, h2, by simp [pt]⟩
    · obtain ⟨l, hl, c⟩ := hilbert_covers (n + m) (n + m) n m 0 0 0 1 1 0 (le_refl _) (le_refl _) hn hm
        (.inr ⟨rfl, rfl, .inl rfl, .inl rfl⟩)
      refine ⟨n + m, l, ?_, c.1, ?_⟩
      · rw [hilbertCurve, if_pos h, if_neg hge]; simpa using hl
      · intro i j
        rw [c.2]
        constructor
        · rintro ⟨s, t, h1, h2, h3, h4, he⟩
          simp [pt] at he
          omega
        · rintro ⟨⟨h1, h2⟩, h3, h4⟩
          exact ⟨i, j, h1, h2, h3, h4, by simp [pt]⟩
  · refine ⟨0, [], by rw [hilbertCurve, if_neg h], List.nodup_nil, ?_⟩
    intro i j
    simp only [List.not_mem_nil, false_iff]
    rintro ⟨⟨h1, h2⟩, h3, h4⟩
    have : 0 < n * m := Nat.mul_pos (by omega) (by omega)
    omega

example : hilbertCurve 8 2 3 = some [(0, 0), (1, 0), (1, 1), (1, 2), (0, 2), (0, 1)] := by decide

/-- More fuel does not change the result: the outcome of `hilbertCurve` is a single well defined list. -/
theorem hilbert_fuel_mono : ∀ (fuel : Nat) (x y ax ay bx b : Int) (l : List (Int × Int)),
    hilbert fuel x y ax ay bx b = some l → hilbert (fuel + 1) x y ax ay bx b = some l
  | 0, _, _, _, _, _, _, _, h => by simp [hilbert] at h
  | fuel + 1, x, y, ax, ay, bx, b, l, h => by
    rw [hilbert] at h
    rw [hilbert]
    simp only at h ⊢
    split at h
    · rename_i h1; rw [if_pos h1]; exact h
    · rename_i h1
      rw [if_neg h1]
      split at h
      · rename_i h2; rw [if_pos h2]; exact h
      · rename_i h2
        rw [if_neg h2]
        split at h
        · rename_i h3
          rw [if_pos h3]
          simp only [Option.bind_eq_bind, Option.bind_eq_some_iff] at h ⊢
          obtain ⟨l1, e1, l2, e2, e3⟩ := h
          exact ⟨l1, hilbert_fuel_mono _ _ _ _ _ _ _ _ e1, l2, hilbert_fuel_mono _ _ _ _ _ _ _ _ e2, e3⟩
        · rename_i h3
          rw [if_neg h3]
          simp only [Option.bind_eq_bind, Option.bind_eq_some_iff] at h ⊢
          obtain ⟨l1, e1, l2, e2, l3, e3, e4⟩ := h
          exact ⟨l1, hilbert_fuel_mono _ _ _ _ _ _ _ _ e1, l2, hilbert_fuel_mono _ _ _ _ _ _ _ _ e2, l3,
            hilbert_fuel_mono _ _ _ _ _ _ _ _ e3, e4⟩

/-- C05, for the curve used for arrays which are not two-dimensional (shown for rank 2). -/
theorem linearCurve_visits_all_once (n m : Nat) : (linearCurve n m).Nodup ∧
    ∀ i j : Int, (i, j) ∈ linearCurve n m ↔ (0 ≤ i ∧ i < n) ∧ (0 ≤ j ∧ j < m) := by
  constructor
  · unfold linearCurve
    rw [List.nodup_flatMap]
    constructor
    · intro i _
      refine (List.nodup_map_iff ?_).2 List.nodup_range
      intro a b hab
      simpa using hab
    · refine List.Pairwise.imp ?_ List.pairwise_lt_range
      intro a b hab
      simp only [Function.onFun, List.disjoint_left, List.mem_map]
      rintro x ⟨_, _, rfl⟩ ⟨_, _, h⟩
      simp only [Prod.mk.injEq] at h
      omega
  · intro i j
    simp only [linearCurve, List.mem_flatMap, List.mem_range, List.mem_map, Prod.mk.injEq]
    constructor
    · rintro ⟨a, ha, b, hb, rfl, rfl⟩
      omega
    · rintro ⟨⟨h1, h2⟩, h3, h4⟩
      exact ⟨i.toNat, by omega, j.toNat, by omega, by omega, by omega⟩

/-! ## C04 -/

theorem localityIdx_eq (n l k : Nat) (hl : 0 < l) (hln : l ≤ n) (hk : k < n) : localityIdx n l k = l * k / n := by
  unfold localityIdx mapToRange
  split
  · simp only [Nat.sub_zero, Nat.zero_add]
    rw [Nat.sub_add_cancel hl, Nat.sub_add_cancel (by omega)]
  · have : n = 1 := by omega
    subst this
    have : k = 0 := by omega
    simp [this]

theorem localityIdx_eq_iff (n l k j : Nat) (hl : 0 < l) (hln : l ≤ n) (hk : k < n) :
    localityIdx n l k = j ↔ (j * n + l - 1) / l ≤ k ∧ k < ((j + 1) * n + l - 1) / l := by
  have hn : 0 < n := by omega
  rw [localityIdx_eq n l k hl hln hk, Nat.div_eq_iff hn]
  have h1 : (j * n + l - 1) / l ≤ k ↔ j * n ≤ l * k := by
    rw [← Nat.lt_succ_iff, Nat.div_lt_iff_lt_mul hl, Nat.succ_mul, Nat.mul_comm k l]; omega
  have h2 : k < ((j + 1) * n + l - 1) / l ↔ l * k < (j + 1) * n := by
    rw [Nat.lt_iff_add_one_le, Nat.le_div_iff_mul_le hl, Nat.add_mul, Nat.mul_comm k l]; omega
  rw [h1, h2, Nat.add_mul]
  omega

/-- C04: every partition is assigned to an existing locality. -/
theorem localityIdx_lt (n l k : Nat) (hl : 0 < l) (hln : l ≤ n) (hk : k < n) : localityIdx n l k < l := by
  rw [localityIdx_eq n l k hl hln hk, Nat.div_lt_iff_lt_mul (by omega)]
  exact Nat.mul_lt_mul_of_pos_left hk hl

/-- C04: consecutive partitions go to the same or to a later locality. -/
theorem localityIdx_mono (n l k k' : Nat) (hl : 0 < l) (hln : l ≤ n) (hkk : k ≤ k') (hk : k' < n) :
    localityIdx n l k ≤ localityIdx n l k' := by
  rw [localityIdx_eq n l k hl hln (by omega), localityIdx_eq n l k' hl hln hk]
  exact Nat.div_le_div_right (Nat.mul_le_mul_left _ hkk)

/-- Number of partitions assigned to locality `j`. -/
def nrAssigned (n l j : Nat) : Nat := ((Finset.range n).filter fun k => localityIdx n l k = j).card

theorem nrAssigned_eq (n l j : Nat) (hl : 0 < l) (hln : l ≤ n) (hj : j < l) :
    nrAssigned n l j = ((j + 1) * n + l - 1) / l - (j * n + l - 1) / l := by
  unfold nrAssigned
  have hend : ((j + 1) * n + l - 1) / l ≤ n := by
    have h1 : (j + 1) * n ≤ l * n := Nat.mul_le_mul_right _ hj
    have h2 : (n + 1) * l = l * n + l := by ring
    rw [← Nat.lt_succ_iff, Nat.div_lt_iff_lt_mul hl, Nat.succ_eq_add_one, h2]; omega
  have : (Finset.range n).filter (fun k => localityIdx n l k = j) =
      Finset.Ico ((j * n + l - 1) / l) (((j + 1) * n + l - 1) / l) := by
    ext k
    simp only [Finset.mem_filter, Finset.mem_range, Finset.mem_Ico]
    constructor
    · rintro ⟨hk, he⟩
      exact (localityIdx_eq_iff n l k j hl hln hk).1 he
    · rintro ⟨h1, h2⟩
      have hk : k < n := by omega
      exact ⟨hk, (localityIdx_eq_iff n l k j hl hln hk).2 ⟨h1, h2⟩⟩
  rw [this, Nat.card_Ico]

/-- C04: with at least as many partitions as localities, each locality gets the number of partitions per locality,
rounded up or down. -/
theorem nrAssigned_balanced (n l j : Nat) (hl : 0 < l) (hln : l ≤ n) (hj : j < l) :
    n / l ≤ nrAssigned n l j ∧ nrAssigned n l j ≤ n / l + 1 := by
  rw [nrAssigned_eq n l j hl hln hj]
  have e : (j + 1) * n + l - 1 = n + (j * n + l - 1) := by rw [Nat.add_mul]; omega
  rw [e]
  generalize j * n + l - 1 = b
  have h1 := Nat.div_add_mod n l
  have h2 := Nat.div_add_mod b l
  have h3 := Nat.mod_lt n hl
  have h4 := Nat.mod_lt b hl
  have e1 : (n + b) / l = n / l + b / l + (n % l + b % l) / l := by
    have e2 : n + b = (n % l + b % l) + l * (n / l + b / l) := by rw [Nat.mul_add]; omega
    conv => lhs; rw [e2]
    rw [Nat.add_mul_div_left _ _ hl]; omega
  have h5 : (n % l + b % l) / l ≤ 1 := by
    rw [← Nat.lt_succ_iff, Nat.div_lt_iff_lt_mul hl]; omega
  rw [e1]
  generalize (n % l + b % l) / l = c at *
  generalize b / l = d
  generalize n / l = f
  constructor <;> omega

/-- C04: every locality gets at least one partition, and the numbers of partitions of two localities differ by at
most one. -/
theorem nrAssigned_pos_diff (n l : Nat) (hln : l ≤ n) (j j' : Nat) (hj : j < l) (hj' : j' < l) :
    0 < nrAssigned n l j ∧ nrAssigned n l j ≤ nrAssigned n l j' + 1 := by
  have h1 := nrAssigned_balanced n l j (by omega) hln hj
  have h2 := nrAssigned_balanced n l j' (by omega) hln hj'
  have h3 : 0 < n / l := Nat.div_pos hln (by omega)
  omega

example : (List.range 7).map (localityIdx 7 3) = [0, 0, 0, 1, 1, 2, 2] := by decide

/-- C04: with fewer partitions than localities, creation of the array throws. -/
theorem instantiate_throws {Cell : Type} (l : Nat) (curve : List Cell) (h : curve.length < l) :
    ∃ msg, instantiatePartitions l curve = .error msg := by
  exact ⟨_, if_pos h⟩

/-- Invariant of the run: what has been requested plus what is cached is what has been visited. -/
theorem run_spec {Cell : Type} (loc : Nat → Nat) (n : Nat) : ∀ (cells : List Cell) (s : Instantiator Cell) (k : Nat),
    0 < k → k + cells.length = n → 0 < cells.length → s.cached ≠ [] → (∀ r ∈ s.requests, r.2 ≠ []) →
    (∀ i j, i ≤ j → j < n → loc i ≤ loc j) → s.current = loc (k - 1) →
    (s.requests.map Prod.fst ++ [s.current]).Pairwise (· < ·) →
    let s' := Instantiator.run loc n s k cells
    (s'.requests.flatMap fun r => r.2.map fun c => (r.1, c)) =
      (s.requests.flatMap fun r => r.2.map fun c => (r.1, c)) ++ s.cached.map (fun c => (s.current, c)) ++
        cells.zipIdx.map (fun (c, i) => (loc (k + i), c)) ∧
    (∀ r ∈ s'.requests, r.2 ≠ []) ∧ (s'.requests.map Prod.fst).Pairwise (· < ·) := by
  intro cells
  induction cells with
  | nil => intro s k _ _ h; simp at h
  | cons c cs ih =>
    intro s k hk hn _ hc hr hm hcur hpw
    have hlt : k < n := by simp at hn; omega
    have hle : s.current ≤ loc k := by rw [hcur]; exact hm _ _ (by omega) hlt
    have hmap : (List.zipIdx cs 1).map (fun (c, i) => (loc (k + i), c)) =
        cs.zipIdx.map (fun (c, i) => (loc (k + 1 + i), c)) := by
      rw [List.zipIdx_succ, List.map_map]
      apply List.map_congr_left
      rintro ⟨c, i⟩ _
      simp only [Function.comp_apply, Prod.map_apply, id]
      congr 2; omega
    cases cs with
    | nil =>
      have hlast : k = n - 1 := by simp at hn; omega
      simp only [Instantiator.run, Instantiator.visit, if_neg (show k ≠ 0 by omega), if_pos hlast]
      by_cases hsame : loc k = s.current
      · simp only [if_pos hsame]
        refine ⟨by simp [hsame], ?_, by simpa using hpw⟩
        intro r hr'
        rcases List.mem_append.1 hr' with h | h
        · exact hr r h
        · simp at h; subst h; simp
      · simp only [if_neg hsame]
        refine ⟨by simp, ?_, ?_⟩
        · intro r hr'
          simp only [List.append_assoc, List.mem_append, List.mem_cons, List.not_mem_nil, or_false] at hr'
          rcases hr' with h | h | h
          · exact hr r h
          · subst h; exact hc
          · subst h; simp
        · simp only [List.map_append, List.map_cons, List.map_nil]
          rw [List.pairwise_append]
          refine ⟨hpw, by simp, ?_⟩
          intro a ha b hb
          simp at hb
          subst hb
          rcases List.mem_append.1 ha with h | h
          · have := (List.pairwise_append.1 hpw).2.2 a h s.current (by simp)
            omega
          · simp at h; omega
    | cons c' cs =>
      have hlast : k ≠ n - 1 := by simp at hn; omega
      by_cases hsame : loc k = s.current
      · have hv : s.visit loc n k c = { s with cached := s.cached ++ [c] } := by
          simp only [Instantiator.visit, if_neg (show k ≠ 0 by omega), if_pos hsame, if_neg hlast]
        have := ih { s with cached := s.cached ++ [c] } (k + 1) (by omega) (by simp at hn ⊢; omega) (by simp)
          (by simp) hr hm (by simp [hsame]) hpw
        simp only [Instantiator.run] at this ⊢
        rw [hv]
        obtain ⟨t1, t2, t3⟩ := this
        refine ⟨?_, t2, t3⟩
        rw [t1, ← hmap]
        simp [hsame]
      · have hv : s.visit loc n k c =
            { current := loc k, cached := [c], requests := s.requests ++ [(s.current, s.cached)] } := by
          simp only [Instantiator.visit, if_neg (show k ≠ 0 by omega), if_neg hsame, if_neg hlast]
        have := ih { current := loc k, cached := [c], requests := s.requests ++ [(s.current, s.cached)] } (k + 1)
          (by omega) (by simp at hn ⊢; omega) (by simp) (by simp)
          (by
            intro r hr'
            rcases List.mem_append.1 hr' with h | h
            · exact hr r h
            · simp at h; subst h; exact hc)
          hm (by simp)
          (by
            simp only [List.map_append, List.map_cons, List.map_nil]
            rw [List.pairwise_append]
            refine ⟨hpw, by simp, ?_⟩
            intro a ha b hb
            simp at hb
            subst hb
            rcases List.mem_append.1 ha with h | h
            · have := (List.pairwise_append.1 hpw).2.2 a h s.current (by simp)
              omega
            · simp at h; omega)
        simp only [Instantiator.run] at this ⊢
        rw [hv]
        obtain ⟨t1, t2, t3⟩ := this
        refine ⟨?_, t2, t3⟩
        rw [t1, ← hmap]
        simp

/-- C04: creating the partitions results in exactly one creation request per partition, on the locality the partition is
assigned to, and in at most one (non-empty) request per locality. -/
theorem instantiate_each_once {Cell : Type} (l : Nat) (curve : List Cell) (hl : 0 < l) (hln : l ≤ curve.length) :
    ∃ requests, instantiatePartitions l curve = .ok requests ∧
      (requests.flatMap fun r => r.2.map fun c => (r.1, c)) =
        curve.zipIdx.map (fun (c, i) => (localityIdx curve.length l i, c)) ∧
      (∀ r ∈ requests, r.2 ≠ []) ∧ (requests.map Prod.fst).Pairwise (· < ·) := by
  refine ⟨_, if_neg (by omega), ?_⟩
  have hm : ∀ i j, i ≤ j → j < curve.length →
      localityIdx curve.length l i ≤ localityIdx curve.length l j :=
    fun i j hij hj => localityIdx_mono _ l i j hl hln hij hj
  generalize hloc : localityIdx curve.length l = loc at *
  clear hloc
  cases curve with
  | nil => simp at hln; omega
  | cons c cs =>
    cases cs with
    | nil => simp [Instantiator.run, Instantiator.visit]
    | cons c' cs =>
      have hv : Instantiator.visit loc (c :: c' :: cs).length (⟨0, [], []⟩ : Instantiator Cell) 0 c =
          ⟨loc 0, [c], []⟩ := by
        simp [Instantiator.visit]
      have := run_spec loc (c :: c' :: cs).length (c' :: cs) ⟨loc 0, [c], []⟩ 1 (by omega) (by simp; omega)
        (by simp) (by simp) (by simp) hm (by simp) (by simp)
      rw [Instantiator.run, hv]
      obtain ⟨t1, t2, t3⟩ := this
      refine ⟨?_, t2, t3⟩
      rw [Nat.zero_add, t1]
      simp only [List.flatMap_nil, List.nil_append, List.map_cons, List.map_nil, List.zipIdx_cons, Nat.zero_add,
        List.singleton_append, List.cons.injEq, true_and, Nat.add_zero, Nat.reduceAdd]
      rw [List.zipIdx_succ (i := 0), List.zipIdx_succ (i := 1), List.zipIdx_succ (i := 0), List.map_map, List.map_map, List.map_map]
      apply List.map_congr_left
      rintro ⟨c, i⟩ _
      simp only [Function.comp_apply]
      congr 2; omega

example : instantiatePartitions 2 ["a", "b", "c", "d", "e"] = .ok [(0, ["a", "b", "c"]), (1, ["d", "e"])] := by
  rfl

end Lue.Localities

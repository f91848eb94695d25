import Verif.Scalability.Spec
import Mathlib.Tactic.Ring
import Mathlib.Tactic.Linarith
import Mathlib.Tactic.FieldSimp
import Mathlib.Data.List.Perm.Basic

/-!
# Scalability experiments: properties
-/
namespace Lue.Scalability

theorem require_ok {p : Prop} [Decidable p] {u : Unit} (h : require p = .ok u) : p := by
  unfold require at h
  split at h
  · assumption
  · cases h

theorem require_pos {p : Prop} [Decidable p] (h : p) : require p = .ok () := if_pos h

theorem require_neg {p : Prop} [Decidable p] (h : ¬ p) : require p = .error .assertion := if_neg h

theorem bind_eq_ok {α β : Type} {x : Except Err α} {f : α → Except Err β} {b : β} (h : x >>= f = .ok b) :
    ∃ a, x = .ok a ∧ f a = .ok b := by
  cases x with
  | error e => cases h
  | ok a => exact ⟨a, rfl, h⟩

/-! ### Pools -/

theorem repeated_mul (m : Nat) : ∀ k size, repeated (fun s => s * m) k size = size * m ^ k
  | 0, size => by simp [repeated]
  | k + 1, size => by
    show repeated (fun s => s * m) k (size * m) = _
    rw [repeated_mul m k]
    ring

theorem repeated_add (i : Nat) : ∀ k size, repeated (fun s => s + i) k size = size + k * i
  | 0, size => by simp [repeated]
  | k + 1, size => by
    show repeated (fun s => s + i) k (size + i) = _
    rw [repeated_add i k]
    ring

theorem countMultiplied_spec {m b : Nat} (hm : 1 < m) :
    ∀ fuel size nr, 0 < size → size ≤ b → b < fuel + size →
      ∃ k, countMultiplied fuel m b size nr = .ok (nr + k) ∧ size * m ^ k ≤ b ∧ b < size * m ^ (k + 1)
  | 0, size, nr, _, h, hf => by omega
  | fuel + 1, size, nr, h0, h, hf => by
    unfold countMultiplied
    have h2 : size * 2 ≤ size * m := Nat.mul_le_mul_left _ hm
    by_cases hc : m * size ≤ b
    · rw [if_pos hc]
      have hc' : size * m ≤ b := by rw [Nat.mul_comm]; exact hc
      obtain ⟨k, h1, h3, h4⟩ := countMultiplied_spec hm fuel (size * m) (nr + 1) (by omega) hc' (by omega)
      refine ⟨k + 1, by rw [h1]; congr 1; omega, ?_, ?_⟩
      · rw [Nat.pow_succ', ← Nat.mul_assoc]; exact h3
      · rw [Nat.pow_succ', ← Nat.mul_assoc]; exact h4
    · rw [if_neg hc]
      refine ⟨0, rfl, by simpa using h, ?_⟩
      have : size * m ^ (0 + 1) = m * size := by rw [Nat.zero_add, Nat.pow_one, Nat.mul_comm]
      omega

theorem countIncremented_spec {i b : Nat} (hi : 1 ≤ i) :
    ∀ fuel size nr, b + 1 - size < fuel → size ≤ b + i →
      ∃ k, countIncremented fuel i b size nr = .ok (nr + k) ∧ size + k * i ≤ b + i ∧ b < size + k * i
  | 0, size, nr, hf, h => by omega
  | fuel + 1, size, nr, hf, h => by
    unfold countIncremented
    by_cases hc : size ≤ b
    · rw [if_pos hc]
      obtain ⟨k, h1, h3, h4⟩ := countIncremented_spec (b := b) hi fuel (size + i) (nr + 1) (by omega) (by omega)
      have e : (k + 1) * i = k * i + i := by ring
      exact ⟨k + 1, by rw [h1]; congr 1; omega, by omega, by omega⟩
    · rw [if_neg hc]
      exact ⟨0, rfl, by omega, by omega⟩

/-- The ranges for which an instance can be created. -/
def Valid : WorkerRange → Prop
  | .multiplied a b m => 1 < m ∧ 0 < a ∧ a ≤ b
  | .incremented a b i => 1 ≤ i ∧ 0 < a ∧ a ≤ b
  | .empty n => 1 ≤ n

theorem sizes_of_nr {r : WorkerRange} {n : Nat} (h : r.nrPermutations = .ok n) :
    Sizes r ((List.range n).map r.sizeAt) := by
  refine ⟨by rw [h]; simp, ?_⟩
  intro idx
  unfold WorkerRange.permutationSize
  rw [h]
  show (require (idx < n) >>= fun _ => Except.ok (r.sizeAt idx)) = _
  by_cases hi : idx < n
  · rw [require_pos hi, List.getElem?_map, List.getElem?_range hi]
    rfl
  · rw [require_neg hi, List.getElem?_eq_none (by simpa using hi)]
    rfl

theorem sizeAt_zero (r : WorkerRange) : r.sizeAt 0 = r.minSize := by cases r <;> rfl

theorem sizeAt_multiplied (a b m k : Nat) : (WorkerRange.multiplied a b m).sizeAt k = a * m ^ k := repeated_mul m k a

theorem sizeAt_incremented (a b i k : Nat) : (WorkerRange.incremented a b i).sizeAt k = a + k * i := repeated_add i k a

/-- The number of sizes. -/
theorem nr_multiplied {a b m : Nat} (h : Valid (.multiplied a b m)) :
    ∃ k, (WorkerRange.multiplied a b m).nrPermutations = .ok (k + 1) ∧ a * m ^ k ≤ b ∧ b < a * m ^ (k + 1) := by
  obtain ⟨hm, ha, hb⟩ := h
  obtain ⟨k, h1, h2, h3⟩ := countMultiplied_spec hm (bound b) a 1 ha hb (by unfold bound; omega)
  exact ⟨k, by rw [Nat.add_comm k 1]; exact h1, h2, h3⟩

theorem nr_incremented {a b i : Nat} (h : Valid (.incremented a b i)) :
    ∃ k, (WorkerRange.incremented a b i).nrPermutations = .ok (k + 1) ∧ a + k * i ≤ b ∧ b < a + (k + 1) * i := by
  obtain ⟨hi, ha, hb⟩ := h
  obtain ⟨k, h1, h2, h3⟩ := countIncremented_spec (b := b) hi (bound b) (a + i) 1 (by unfold bound; omega) (by omega)
  have e : (k + 1) * i = k * i + i := by ring
  exact ⟨k, by rw [Nat.add_comm k 1]; exact h1, by omega, by omega⟩

/-- Replacing the maximum by the largest size has no effect on the sizes. -/
theorem nr_withMax {r : WorkerRange} (h : Valid r) :
    ∃ k, r.nrPermutations = .ok (k + 1) ∧ (r.withMax (r.sizeAt k)).nrPermutations = .ok (k + 1) ∧
      Valid (r.withMax (r.sizeAt k)) ∧ r.minSize ≤ r.sizeAt k ∧ r.sizeAt k ≤ r.maxSize := by
  cases r with
  | multiplied a b m =>
    obtain ⟨k, h1, h2, h3⟩ := nr_multiplied h
    obtain ⟨hm, ha, hb⟩ := h
    have hle : a ≤ a * m ^ k := Nat.le_mul_of_pos_right _ (Nat.pow_pos (by omega))
    have hv : Valid (.multiplied a (a * m ^ k) m) := ⟨hm, ha, hle⟩
    obtain ⟨k', h1', h2', h3'⟩ := nr_multiplied hv
    have hk : k' = k := by
      have l1 : k' ≤ k := by
        by_contra hc
        have : m ^ k < m ^ k' := Nat.pow_lt_pow_right hm (by omega)
        have := Nat.mul_lt_mul_of_pos_left this ha
        omega
      have l2 : k ≤ k' := by
        by_contra hc
        have : m ^ (k' + 1) ≤ m ^ k := Nat.pow_le_pow_right (by omega) (by omega)
        have := Nat.mul_le_mul_left a this
        omega
      omega
    subst hk
    refine ⟨k', h1, ?_⟩
    rw [sizeAt_multiplied]
    exact ⟨h1', hv, hle, h2⟩
  | incremented a b i =>
    obtain ⟨k, h1, h2, h3⟩ := nr_incremented h
    obtain ⟨hi, ha, hb⟩ := h
    have hv : Valid (.incremented a (a + k * i) i) := ⟨hi, ha, by omega⟩
    obtain ⟨k', h1', h2', h3'⟩ := nr_incremented hv
    have hk : k' = k := by
      have l1 : k' ≤ k := by
        by_contra hc
        have : k * i < k' * i := Nat.mul_lt_mul_of_pos_right (by omega) (by omega)
        omega
      have l2 : k ≤ k' := by
        by_contra hc
        have : (k' + 1) * i ≤ k * i := Nat.mul_le_mul_right i (by omega)
        omega
      omega
    subst hk
    refine ⟨k', h1, ?_⟩
    rw [sizeAt_incremented]
    exact ⟨h1', hv, Nat.le_add_right _ _, h2⟩
  | empty n => exact ⟨0, rfl, rfl, h, Nat.le_refl _, Nat.le_refl _⟩

theorem withMax_sizeAt (r : WorkerRange) (m k : Nat) : (r.withMax m).sizeAt k = r.sizeAt k := by cases r <;> rfl

theorem withMax_minSize (r : WorkerRange) (m : Nat) : (r.withMax m).minSize = r.minSize := by cases r <;> rfl

theorem withMax_withMax (r : WorkerRange) (m n : Nat) : (r.withMax m).withMax n = r.withMax n := by cases r <;> rfl

/-- What `__init__` does. -/
theorem init_valid {r : WorkerRange} (h : Valid r) :
    ∃ k, r.nrPermutations = .ok (k + 1) ∧ r.init = .ok (r.withMax (r.sizeAt k)) ∧
      (r.withMax (r.sizeAt k)).nrPermutations = .ok (k + 1) ∧
      Valid (r.withMax (r.sizeAt k)) ∧ (r.withMax (r.sizeAt k)).maxSize = r.sizeAt k := by
  obtain ⟨k, h1, h2, h3, h4, h5⟩ := nr_withMax h
  have hmin : 0 < r.minSize := by cases r <;> first | exact h.2.1 | exact h
  refine ⟨k, h1, ?_, h2, h3, ?_⟩
  · unfold WorkerRange.init
    rw [require_pos hmin, require_pos (Nat.le_trans h4 h5), h1]
    show (r.permutationSize k >>= fun m => Except.ok (r.withMax m)) = _
    unfold WorkerRange.permutationSize
    rw [h1]
    show ((require (k < k + 1) >>= fun _ => Except.ok (r.sizeAt k)) >>= fun m => Except.ok (r.withMax m)) = _
    rw [require_pos (Nat.lt_succ_self k)]
    rfl
  · cases r with
    | multiplied => rfl
    | incremented => rfl
    | empty n => rfl

/-- An initialised instance is not changed by another initialisation. -/
theorem init_idem {r p : WorkerRange} (h : Valid r) (hp : r.init = .ok p) : Valid p ∧ p.init = .ok p := by
  obtain ⟨k, h1, h2, h3, h4, h5⟩ := init_valid h
  rw [h2] at hp
  obtain rfl := Except.ok.inj hp
  refine ⟨h4, ?_⟩
  obtain ⟨k', g1, g2, g3, g4, g5⟩ := init_valid h4
  rw [h3] at g1
  have hk : k' = k := by have := Except.ok.inj g1; omega
  subst hk
  rw [g2, withMax_withMax, withMax_sizeAt]

theorem init_ok {r p : WorkerRange} (h : r.init = .ok p) : 0 < r.minSize ∧ r.minSize ≤ r.maxSize := by
  unfold WorkerRange.init at h
  obtain ⟨_, h1, h⟩ := bind_eq_ok h
  obtain ⟨_, h2, h⟩ := bind_eq_ok h
  exact ⟨require_ok h1, require_ok h2⟩

theorem item_ok {α : Type} {x : Option α} {a : α} (h : item x = .ok a) : x = some a := by
  cases x with
  | none => cases h
  | some b => rw [Except.ok.inj h]

/-- What `Pool(data)` does. -/
theorem makePool_ok {j : PoolJson} {p : WorkerRange} (h : makePool j = .ok p) :
    ∃ r, Valid r ∧ r.init = .ok p ∧ ∀ k, r.nrPermutations = .ok (k + 1) →
      ∀ n, (∃ i, i < k + 1 ∧ n = r.sizeAt i) ↔ Wanted j n := by
  unfold makePool at h
  unfold Wanted
  split at h
  · rename_i m hm
    rw [hm]
    unfold makeMultiplied at h
    obtain ⟨_, h1, h⟩ := bind_eq_ok h
    obtain ⟨a, h2, h⟩ := bind_eq_ok h
    obtain ⟨b, h3, h⟩ := bind_eq_ok h
    have hv : Valid (.multiplied a b m) := ⟨require_ok h1, (init_ok h).1, (init_ok h).2⟩
    refine ⟨_, hv, h, ?_⟩
    intro k hk n
    obtain ⟨k', g1, g2, g3⟩ := nr_multiplied hv
    rw [hk] at g1
    have : k = k' := by have := Except.ok.inj g1; omega
    subst this
    dsimp only
    rw [item_ok h2, item_ok h3]
    constructor
    · rintro ⟨i, hi, rfl⟩
      rw [sizeAt_multiplied]
      refine ⟨a, b, i, rfl, rfl, rfl, ?_⟩
      have : m ^ i ≤ m ^ k := Nat.pow_le_pow_right (by have := hv.1; omega) (by omega)
      exact Nat.le_trans (Nat.mul_le_mul_left a this) g2
    · rintro ⟨a', b', i, ha, hb, rfl, hle⟩
      obtain rfl := Option.some.inj ha
      obtain rfl := Option.some.inj hb
      refine ⟨i, ?_, (sizeAt_multiplied _ _ _ _).symm⟩
      by_contra hc
      have : m ^ (k + 1) ≤ m ^ i := Nat.pow_le_pow_right (by have := hv.1; omega) (by omega)
      have := Nat.mul_le_mul_left a this
      omega
  · rename_i i hm' hi
    rw [hi]
    unfold makeIncremented at h
    obtain ⟨_, h1, h⟩ := bind_eq_ok h
    obtain ⟨a, h2, h⟩ := bind_eq_ok h
    obtain ⟨b, h3, h⟩ := bind_eq_ok h
    have hv : Valid (.incremented a b i) := ⟨require_ok h1, (init_ok h).1, (init_ok h).2⟩
    refine ⟨_, hv, h, ?_⟩
    intro k hk n
    obtain ⟨k', g1, g2, g3⟩ := nr_incremented hv
    rw [hk] at g1
    have : k = k' := by have := Except.ok.inj g1; omega
    subst this
    rw [hm']
    dsimp only
    rw [item_ok h2, item_ok h3]
    constructor
    · rintro ⟨x, hx, rfl⟩
      rw [sizeAt_incremented]
      refine ⟨a, b, x, rfl, rfl, rfl, ?_⟩
      have : x * i ≤ k * i := Nat.mul_le_mul_right i (by omega)
      omega
    · rintro ⟨a', b', x, ha, hb, rfl, hle⟩
      obtain rfl := Option.some.inj ha
      obtain rfl := Option.some.inj hb
      refine ⟨x, ?_, (sizeAt_incremented _ _ _ _).symm⟩
      by_contra hc
      have : (k + 1) * i ≤ x * i := Nat.mul_le_mul_right i (by omega)
      omega
  · rename_i hm' hi
    rw [hm', hi]
    unfold makeEmpty at h
    obtain ⟨a, h1, h⟩ := bind_eq_ok h
    obtain ⟨_, h2, h⟩ := bind_eq_ok h
    have hv : Valid (.empty a) := require_ok (p := 1 ≤ a) h2
    refine ⟨_, hv, h, ?_⟩
    intro k hk n
    have hk0 : k = 0 := by
      have : 1 = k + 1 := Except.ok.inj hk
      omega
    subst hk0
    dsimp only
    rw [item_ok h1]
    constructor
    · rintro ⟨x, hx, rfl⟩
      rfl
    · intro h'
      exact ⟨0, by omega, (Option.some.inj h').symm⟩

theorem sizeAt_lt {r : WorkerRange} (h : Valid r) {k : Nat} (hk : r.nrPermutations = .ok k) {i j : Nat} (hij : i < j)
    (hj : j < k) : r.sizeAt i < r.sizeAt j := by
  cases r with
  | multiplied a b m =>
    rw [sizeAt_multiplied, sizeAt_multiplied]
    exact Nat.mul_lt_mul_of_pos_left (Nat.pow_lt_pow_right h.1 hij) h.2.1
  | incremented a b s =>
    rw [sizeAt_incremented, sizeAt_incremented]
    have : i * s < j * s := Nat.mul_lt_mul_of_pos_right hij h.1
    omega
  | empty n =>
    have : 1 = k := Except.ok.inj hk
    omega

/-- C63: a pool consists of exactly the numbers of workers asked for, in increasing order. Other indices are refused. -/
theorem pool_sizes {j : PoolJson} {p : WorkerRange} (h : makePool j = .ok p) :
    ∃ l, Sizes p l ∧ l.Pairwise (· < ·) ∧ (∀ n, n ∈ l ↔ Wanted j n) ∧ (∀ n ∈ l, 1 ≤ n) ∧
      l.head? = some p.minSize ∧ l.getLast? = some p.maxSize := by
  obtain ⟨r, hv, hi, hw⟩ := makePool_ok h
  obtain ⟨k, h1, h2, h3, h4, h5⟩ := init_valid hv
  rw [h2] at hi
  obtain rfl := Except.ok.inj hi
  refine ⟨_, sizes_of_nr h3, ?_, ?_, ?_, ?_, ?_⟩
  · rw [List.pairwise_map]
    refine List.Pairwise.imp_of_mem ?_ List.pairwise_lt_range
    intro a b _ hb hab
    exact sizeAt_lt h4 h3 hab (List.mem_range.mp hb)
  · intro n
    rw [← hw k h1 n]
    simp only [List.mem_map, List.mem_range, withMax_sizeAt]
    constructor
    · rintro ⟨i, hi, rfl⟩
      exact ⟨i, hi, rfl⟩
    · rintro ⟨i, hi, rfl⟩
      exact ⟨i, hi, rfl⟩
  · intro n hn
    obtain ⟨i, hi, rfl⟩ := List.mem_map.mp hn
    have h0 : 1 ≤ (r.withMax (r.sizeAt k)).sizeAt 0 := by
      rw [withMax_sizeAt, sizeAt_zero]
      cases r <;> first | exact hv.2.1 | exact hv
    by_cases hi0 : i = 0
    · rw [hi0]; exact h0
    · have := sizeAt_lt h4 h3 (i := 0) (j := i) (by omega) (List.mem_range.mp hi)
      omega
  · rw [List.head?_map, List.head?_range, if_neg (by omega), Option.map_some, sizeAt_zero]
  · rw [List.getLast?_map, List.getLast?_range, if_neg (by omega), Option.map_some, h5, withMax_sizeAt]
    rfl

/-- C63: a pool can be created if and only if its description is usable. -/
theorem pool_accepts (j : PoolJson) : (∃ p, makePool j = .ok p) ↔ Usable j := by
  constructor
  · rintro ⟨p, h⟩
    unfold makePool at h
    unfold Usable
    split at h
    · rename_i m hm
      rw [hm]
      unfold makeMultiplied at h
      obtain ⟨_, h1, h⟩ := bind_eq_ok h
      obtain ⟨a, h2, h⟩ := bind_eq_ok h
      obtain ⟨b, h3, h⟩ := bind_eq_ok h
      exact ⟨require_ok h1, a, b, item_ok h2, item_ok h3, (init_ok h).1, (init_ok h).2⟩
    · rename_i i hm' hi
      rw [hi, hm']
      unfold makeIncremented at h
      obtain ⟨_, h1, h⟩ := bind_eq_ok h
      obtain ⟨a, h2, h⟩ := bind_eq_ok h
      obtain ⟨b, h3, h⟩ := bind_eq_ok h
      exact ⟨require_ok h1, a, b, item_ok h2, item_ok h3, (init_ok h).1, (init_ok h).2⟩
    · rename_i hm' hi
      rw [hm', hi]
      unfold makeEmpty at h
      obtain ⟨a, h1, h⟩ := bind_eq_ok h
      obtain ⟨_, h2, h⟩ := bind_eq_ok h
      exact ⟨a, item_ok h1, require_ok h2⟩
  · intro h
    unfold Usable at h
    unfold makePool
    split at h
    · rename_i m hm
      rw [hm]
      obtain ⟨h1, a, b, h2, h3, h4, h5⟩ := h
      obtain ⟨k, _, g, _⟩ := init_valid (r := .multiplied a b m) ⟨h1, h4, h5⟩
      refine ⟨?_, ?_⟩
      rotate_left
      · dsimp only
        unfold makeMultiplied
        rw [require_pos h1, h2, h3]
        exact g
    · rename_i i hm' hi
      rw [hm', hi]
      obtain ⟨h1, a, b, h2, h3, h4, h5⟩ := h
      obtain ⟨k, _, g, _⟩ := init_valid (r := .incremented a b i) ⟨h1, h4, h5⟩
      refine ⟨?_, ?_⟩
      rotate_left
      · dsimp only
        unfold makeIncremented
        rw [require_pos h1, h2, h3]
        exact g
    · rename_i hm' hi
      rw [hm', hi]
      obtain ⟨n, h1, h2⟩ := h
      obtain ⟨k, _, g, _⟩ := init_valid (r := .empty n) h2
      refine ⟨?_, ?_⟩
      rotate_left
      · dsimp only
        unfold makeEmpty
        rw [h1]
        show (require (1 ≤ n) >>= fun _ => (WorkerRange.empty n).init) = _
        rw [require_pos h2]
        exact g

/-- C63: settings stored in the dataset are read back: the pool is the same. -/
theorem pool_roundtrip {j : PoolJson} {p : WorkerRange} (h : makePool j = .ok p) : makePool p.toJson = .ok p := by
  obtain ⟨r, hv, hi, _⟩ := makePool_ok h
  obtain ⟨hp, hidem⟩ := init_idem hv hi
  cases p with
  | multiplied a b m =>
    show makeMultiplied _ m = _
    unfold makeMultiplied
    rw [require_pos hp.1]
    exact hidem
  | incremented a b i =>
    show makeIncremented _ i = _
    unfold makeIncremented
    rw [require_pos hp.1]
    exact hidem
  | empty n =>
    show (require (1 ≤ n) >>= fun _ => (WorkerRange.empty n).init) = _
    rw [require_pos (p := 1 ≤ n) hp]
    exact hidem

end Lue.Scalability

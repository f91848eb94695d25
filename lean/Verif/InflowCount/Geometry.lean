import Verif.InflowCount.Outputs
import Verif.Partitioned.Cells
import Mathlib.Tactic.Ring

/-! Positions of neighbouring partitions. -/
namespace Lue.InflowCount

open Lue.Routing

/-- Along a dimension, a partition (offset `A`, extent `n`) and the partition `δ` further (offset `B`, extent `m`). -/
def Adj (δ A B : Int) (n m : Nat) : Prop :=
  (δ = -1 ∧ B + m = A) ∨ (δ = 0 ∧ A = B ∧ n = m) ∨ (δ = 1 ∧ A + n = B)

theorem geo {d : Dir} {n0 n1 m0 m1 : Nat} {A0 A1 B0 B1 : Int} (h0 : Adj d.offset.1 A0 B0 n0 m0)
    (h1 : Adj d.offset.2 A1 B1 n1 m1) {s c : Int × Int} (hs : InRange m0 m1 s) (hc : InRange n0 n1 c) (code : Nat) :
    (∃ idx, leave m0 m1 s.1 s.2 code = some (d.sender, idx) ∧ convert n0 n1 d idx = c) ↔
      ∃ o, move code = some o ∧ B0 + s.1 + o.1 = A0 + c.1 ∧ B1 + s.2 + o.2 = A1 + c.2 := by
  rcases hm : move code with _ | o
  · simp [leave, hm]
  · have hb := move_bound hm
    obtain ⟨s1, s2, s3, s4⟩ := hs
    obtain ⟨c1, c2, c3, c4⟩ := hc
    rcases c with ⟨x, y⟩
    rcases s with ⟨i, j⟩
    simp only at *
    constructor
    · rintro ⟨idx, e1, e2⟩
      refine ⟨o, rfl, ?_⟩
      simp only [leave, hm, Option.bind_some] at e1
      cases d <;> simp only [Dir.offset, Adj, Dir.sender, convert, Prod.mk.injEq] at h0 h1 e1 e2 <;>
        split_ifs at e1 <;> simp only [Option.some.injEq, Prod.mk.injEq, reduceCtorEq, false_and, true_and] at e1 <;>
        omega
    · rintro ⟨o', ho', e0, e1⟩
      simp only [Option.some.injEq] at ho'
      subst ho'
      simp only [leave, hm, Option.bind_some]
      cases d <;> simp only [Dir.offset, Adj, Dir.sender, convert, Prod.mk.injEq] at h0 h1 ⊢ <;>
        split_ifs <;> first
          | omega
          | (exact ⟨-1, rfl, by omega, by omega⟩)
          | (refine ⟨_, rfl, ?_, ?_⟩ <;> omega)

/-- The same, within a partition. -/
theorem geo_own {n0 n1 : Nat} {s c : Int × Int} (hc : InRange n0 n1 c) (code : Nat) :
    (stay n0 n1 s.1 s.2 code).map (fun o => (s.1 + o.1, s.2 + o.2)) = some c ↔
      ∃ o, move code = some o ∧ s.1 + o.1 = c.1 ∧ s.2 + o.2 = c.2 := by
  constructor
  · intro h
    simp only [Option.map_eq_some_iff] at h
    obtain ⟨o, ho, rfl⟩ := h
    exact ⟨o, (stay_inRange ho).1, rfl, rfl⟩
  · rintro ⟨o, ho, h1, h2⟩
    rw [Option.map_eq_some_iff]
    refine ⟨o, ?_, Prod.ext h1 h2⟩
    simp only [stay, ho, Option.bind_some]
    rw [if_pos]
    rw [h1, h2]; exact hc

/-- Neighbouring partitions. -/
structure Neighbour (g : Grid) (d : Dir) (k0 k1 q0 q1 : Nat) : Prop where
  k0_lt : k0 < g.n0
  k1_lt : k1 < g.n1
  q0_lt : q0 < g.n0
  q1_lt : q1 < g.n1
  eq0 : (q0 : Int) = k0 + d.offset.1
  eq1 : (q1 : Int) = k1 + d.offset.2

theorem Dir.offset_bound (d : Dir) : -1 ≤ d.offset.1 ∧ d.offset.1 ≤ 1 ∧ -1 ≤ d.offset.2 ∧ d.offset.2 ≤ 1 ∧
    (d.offset.1 ≠ 0 ∨ d.offset.2 ≠ 0) := by
  cases d <;> decide

theorem Dir.offset_surj {δ0 δ1 : Int} (h0 : -1 ≤ δ0) (h1 : δ0 ≤ 1) (h2 : -1 ≤ δ1) (h3 : δ1 ≤ 1) (h : δ0 ≠ 0 ∨ δ1 ≠ 0) :
    ∃ d : Dir, d.offset = (δ0, δ1) := by
  have a : δ0 = -1 ∨ δ0 = 0 ∨ δ0 = 1 := by omega
  have b : δ1 = -1 ∨ δ1 = 0 ∨ δ1 = 1 := by omega
  rcases a with rfl | rfl | rfl <;> rcases b with rfl | rfl | rfl
  · exact ⟨.nw, rfl⟩
  · exact ⟨.n, rfl⟩
  · exact ⟨.ne, rfl⟩
  · exact ⟨.w, rfl⟩
  · simp at h
  · exact ⟨.e, rfl⟩
  · exact ⟨.sw, rfl⟩
  · exact ⟨.s, rfl⟩
  · exact ⟨.se, rfl⟩

theorem Dir.offset_inj {d d' : Dir} (h : d.offset = d'.offset) : d = d' := by
  cases d <;> cases d' <;> first | rfl | (exfalso; revert h; decide)

/-- The channels exist exactly for the neighbours within the array. -/
theorem hasNeighbour_iff {g : Grid} {d : Dir} {k0 k1 : Nat} (h0 : k0 < g.n0) (h1 : k1 < g.n1) :
    hasNeighbour g.n0 g.n1 k0 k1 d = true ↔ ∃ q0 q1, Neighbour g d k0 k1 q0 q1 := by
  have key : (∃ q0 q1, Neighbour g d k0 k1 q0 q1) ↔
      0 ≤ (k0 : Int) + d.offset.1 ∧ (k0 : Int) + d.offset.1 < g.n0 ∧ 0 ≤ (k1 : Int) + d.offset.2 ∧
        (k1 : Int) + d.offset.2 < g.n1 := by
    constructor
    · rintro ⟨q0, q1, hn⟩
      have := hn.eq0; have := hn.eq1; have := hn.q0_lt; have := hn.q1_lt
      omega
    · rintro ⟨a, b, c, e⟩
      exact ⟨((k0 : Int) + d.offset.1).toNat, ((k1 : Int) + d.offset.2).toNat, h0, h1, by omega, by omega, by omega, by omega⟩
  rw [key]
  cases d <;> simp only [hasNeighbour, Dir.offset, Bool.and_eq_true, decide_eq_true_eq] <;> omega

theorem adj_of {a p k q : Nat} (hp : 0 < p) (hle : p ≤ a) (hk : k < a / p) (hq : q < a / p) {δ : Int}
    (hδ : -1 ≤ δ ∧ δ ≤ 1) (h : (q : Int) = k + δ) :
    Adj δ (k * p : Nat) (q * p : Nat) (Decomposition.Dim.extent a p k) (Decomposition.Dim.extent a p q) := by
  unfold Adj
  have hd : δ = -1 ∨ δ = 0 ∨ δ = 1 := by omega
  rcases hd with rfl | rfl | rfl
  · left
    have hk' : k = q + 1 := by omega
    subst hk'
    rw [Decomposition.Dim.extent_of_not_last hk]
    exact ⟨rfl, by push_cast; ring⟩
  · right; left
    have : k = q := by omega
    subst this; simp
  · right; right
    have hk' : q = k + 1 := by omega
    subst hk'
    rw [Decomposition.Dim.extent_of_not_last hq]
    exact ⟨rfl, by push_cast; ring⟩

theorem Neighbour.adj {g : Grid} (hg : g.Ok) {d : Dir} {k0 k1 q0 q1 : Nat} (h : Neighbour g d k0 k1 q0 q1) :
    Adj d.offset.1 (k0 * g.p0 : Nat) (q0 * g.p0 : Nat) (g.rows k0) (g.rows q0) ∧
    Adj d.offset.2 (k1 * g.p1 : Nat) (q1 * g.p1 : Nat) (g.cols k1) (g.cols q1) := by
  obtain ⟨b1, b2, b3, b4, _⟩ := d.offset_bound
  exact ⟨adj_of hg.pos0 hg.le0 h.k0_lt h.q0_lt ⟨b1, b2⟩ h.eq0, adj_of hg.pos1 hg.le1 h.k1_lt h.q1_lt ⟨b3, b4⟩ h.eq1⟩

/-- Cells which are at most one apart are in the same partition or in neighbouring partitions. -/
theorem near {a p k q l m : Nat} (hp : 0 < p) (hle : p ≤ a) (hk : k < a / p) (hq : q < a / p)
    (hl : l < Decomposition.Dim.extent a p k) (hm : m < Decomposition.Dim.extent a p q) {δ : Int} (hδ : -1 ≤ δ ∧ δ ≤ 1)
    (h : ((q * p + m : Nat) : Int) + δ = (k * p + l : Nat)) : -1 ≤ (q : Int) - k ∧ (q : Int) - k ≤ 1 := by
  constructor
  · by_contra hlt
    have h2 : q + 2 ≤ k := by omega
    have : (q + 2) * p ≤ k * p := Nat.mul_le_mul_right _ h2
    rw [Decomposition.Dim.extent_of_not_last (show q + 1 < a / p by omega)] at hm
    rw [Nat.add_mul] at this
    push_cast at h; omega
  · by_contra hlt
    have h2 : k + 2 ≤ q := by omega
    have : (k + 2) * p ≤ q * p := Nat.mul_le_mul_right _ h2
    rw [Decomposition.Dim.extent_of_not_last (show k + 1 < a / p by omega)] at hl
    rw [Nat.add_mul] at this
    push_cast at h; omega

end Lue.InflowCount

import Verif.InflowCount.Model
import Verif.Partitioned.Loops
import Mathlib.Tactic.IntervalCases

/-! Lemmas about a single partition. -/
namespace Lue.InflowCount

open Lue.Routing

/-- Cell of a partition. -/
abbrev InRange (n0 n1 : Nat) (c : Int × Int) : Prop := 0 ≤ c.1 ∧ c.1 < n0 ∧ 0 ≤ c.2 ∧ c.2 < n1

def lin (n1 : Nat) (c : Int × Int) : Nat := c.1.toNat * n1 + c.2.toNat

theorem at2_ok {n0 n1 : Nat} {i j : Int} (h : InRange n0 n1 (i, j)) : at2 n0 n1 i j = .ok (lin n1 (i, j)) := by
  have h' : 0 ≤ i ∧ i < n0 ∧ 0 ≤ j ∧ j < n1 := h
  unfold at2; rw [if_pos h']; rfl

theorem lin_lt {n0 n1 : Nat} {c : Int × Int} (h : InRange n0 n1 c) : lin n1 c < n0 * n1 := by
  obtain ⟨h1, h2, h3, h4⟩ := h
  exact idx_lt (by omega) (by omega)

theorem lin_inj {n0 n1 : Nat} {c c' : Int × Int} (h : InRange n0 n1 c) (h' : InRange n0 n1 c') (he : lin n1 c = lin n1 c') :
    c = c' := by
  obtain ⟨h1, h2, h3, h4⟩ := h
  obtain ⟨h1', h2', h3', h4'⟩ := h'
  have e1 := congrArg (· / n1) he
  have e2 := congrArg (· % n1) he
  simp only [lin] at e1 e2
  rw [idx_div (by omega), idx_div (by omega)] at e1
  rw [idx_mod (by omega), idx_mod (by omega)] at e2
  exact Prod.ext (by omega) (by omega)

/-- The offset of the downstream cell, if it is in the partition. -/
def stay (n0 n1 : Nat) (i j : Int) (code : Nat) : Option (Int × Int) :=
  (move code).bind fun o => if InRange n0 n1 (i + o.1, j + o.2) then some o else none

theorem move_ge (code : Nat) (h : ¬ code < 10) : move code = none := by
  unfold move; split <;> first | omega | rfl

section
set_option linter.unusedTactic false
set_option linter.unreachableTactic false
set_option linter.unusedSimpArgs false
variable {n0 n1 : Nat}

/-- Proves the lemmas below: a chain contains the directions for which the downstream cell is in the partition. -/
macro "chain_tac" : tactic => `(tactic| (
  intro code
  by_cases hc : code < 10
  · interval_cases code <;>
      simp [stay, move, InRange, List.lookup, innerChain, northWestChain, northEastChain, southWestChain, southEastChain,
        northChain, southChain, westChain, eastChain, northWest, north, northEast, west, east, southWest, south,
        southEast] <;> first | omega | (rw [if_pos (by omega)]) | (rw [if_neg (by omega)])
  · simp only [stay, move_ge code hc, Option.bind_none]
    simp only [List.lookup, innerChain, northWestChain, northEastChain, southWestChain, southEastChain,
        northChain, southChain, westChain, eastChain, northWest, north, northEast, west, east, southWest, south,
        southEast]
    simp only [show ∀ k : Nat, k < 10 → (code == k) = false from fun k hk => by simp; omega, Nat.reduceLT]))

theorem innerChain_ok {i j : Int} (h0 : 1 ≤ i) (h1 : i + 1 < n0) (h2 : 1 ≤ j) (h3 : j + 1 < n1) :
    ∀ code, innerChain.lookup code = stay n0 n1 i j code := by chain_tac
theorem northWestChain_ok (h0 : 2 ≤ n0) (h1 : 2 ≤ n1) :
    ∀ code, northWestChain.lookup code = stay n0 n1 0 0 code := by chain_tac
theorem northEastChain_ok (h0 : 2 ≤ n0) (h1 : 2 ≤ n1) :
    ∀ code, northEastChain.lookup code = stay n0 n1 0 (n1 - 1) code := by chain_tac
theorem southWestChain_ok (h0 : 2 ≤ n0) (h1 : 2 ≤ n1) :
    ∀ code, southWestChain.lookup code = stay n0 n1 (n0 - 1) 0 code := by chain_tac
theorem southEastChain_ok (h0 : 2 ≤ n0) (h1 : 2 ≤ n1) :
    ∀ code, southEastChain.lookup code = stay n0 n1 (n0 - 1) (n1 - 1) code := by chain_tac
theorem northChain_ok (h0 : 2 ≤ n0) {j : Int} (h2 : 1 ≤ j) (h3 : j + 1 < n1) :
    ∀ code, northChain.lookup code = stay n0 n1 0 j code := by chain_tac
theorem southChain_ok (h0 : 2 ≤ n0) {j : Int} (h2 : 1 ≤ j) (h3 : j + 1 < n1) :
    ∀ code, southChain.lookup code = stay n0 n1 (n0 - 1) j code := by chain_tac
theorem westChain_ok (h1 : 2 ≤ n1) {i : Int} (h2 : 1 ≤ i) (h3 : i + 1 < n0) :
    ∀ code, westChain.lookup code = stay n0 n1 i 0 code := by chain_tac
theorem eastChain_ok (h1 : 2 ≤ n1) {i : Int} (h2 : 1 ≤ i) (h3 : i + 1 < n0) :
    ∀ code, eastChain.lookup code = stay n0 n1 i (n1 - 1) code := by chain_tac
end

/-! ### Counting within a partition -/

section
variable {isNoData : Nat → Bool} {mark : Nat → Nat} {n0 n1 : Nat} {fd : List Nat} {code : Int × Int → Nat}

/-- The downstream cell, if it is in the partition. -/
def target (isNoData : Nat → Bool) (n0 n1 : Nat) (code : Int × Int → Nat) (c : Int × Int) : Option (Int × Int) :=
  if isNoData (code c) then none
  else (stay n0 n1 c.1 c.2 (code c)).map fun o => (c.1 + o.1, c.2 + o.2)

/-- The elements of a partition. -/
def Holds {α : Type} (n0 n1 : Nat) (data : List α) (f : Int × Int → α) : Prop :=
  data.length = n0 * n1 ∧ ∀ c, InRange n0 n1 c → data[lin n1 c]? = some (f c)

theorem Holds.rd {α : Type} {data : List α} {f : Int × Int → α} (h : Holds n0 n1 data f) {c : Int × Int}
    (hc : InRange n0 n1 c) : Lue.rd data (lin n1 c) = .ok (f c) := rd_ok (h.2 c hc)

theorem Holds.wr {α : Type} {data : List α} {f : Int × Int → α} (h : Holds n0 n1 data f) {c : Int × Int}
    (hc : InRange n0 n1 c) (v : α) :
    ∃ data', Lue.wr data (lin n1 c) v = .ok data' ∧ Holds n0 n1 data' (Function.update f c v) := by
  have hlt : lin n1 c < data.length := by rw [h.1]; exact lin_lt hc
  refine ⟨_, wr_ok v hlt, by simp [h.1], ?_⟩
  intro c' hc'
  by_cases he : c' = c
  · subst he; simp [hlt]
  · rw [List.getElem?_set_ne (fun e => he (lin_inj hc' hc e.symm)), h.2 c' hc', Function.update_of_ne he]

theorem Holds.congr {α : Type} {data : List α} {f f' : Int × Int → α} (h : Holds n0 n1 data f)
    (hf : ∀ c, InRange n0 n1 c → f c = f' c) : Holds n0 n1 data f' :=
  ⟨h.1, fun c hc => by rw [h.2 c hc, hf c hc]⟩

theorem bump_ok {s : List Nat} {f : Int × Int → Nat} (h : Holds n0 n1 s f) {c : Int × Int} (hc : InRange n0 n1 c) :
    ∃ s', bump n0 n1 c.1 c.2 s = .ok s' ∧ Holds n0 n1 s' (Function.update f c (f c + 1)) := by
  obtain ⟨s', h1, h2⟩ := h.wr hc (f c + 1)
  refine ⟨s', ?_, h2⟩
  unfold bump
  rw [at2_ok hc, M.bind_ok, h.rd hc, M.bind_ok, h1]

/-- Counts after handling the cells in `l`. -/
def countsAfter (isNoData : Nat → Bool) (mark : Nat → Nat) (n0 n1 : Nat) (code : Int × Int → Nat) (l : List (Int × Int))
    (c : Int × Int) : Nat :=
  if isNoData (code c) then (if c ∈ l then mark 0 else 0)
  else l.countP fun s => decide (target isNoData n0 n1 code s = some c)

theorem stay_inRange {i j : Int} {k : Nat} {o : Int × Int} (h : stay n0 n1 i j k = some o) :
    move k = some o ∧ InRange n0 n1 (i + o.1, j + o.2) := by
  simp only [stay, Option.bind_eq_some_iff] at h
  obtain ⟨o', h1, h2⟩ := h
  split_ifs at h2 with h3
  rw [Option.some.injEq] at h2
  subst h2
  exact ⟨h1, h3⟩

theorem target_inRange {c t : Int × Int} (h : target isNoData n0 n1 code c = some t) : InRange n0 n1 t := by
  unfold target at h
  split_ifs at h
  simp only [Option.map_eq_some_iff] at h
  obtain ⟨o, ho, rfl⟩ := h
  exact (stay_inRange ho).2

theorem countCell_ok (hfd : Holds n0 n1 fd code)
    (hvalid : ∀ c t, InRange n0 n1 c → target isNoData n0 n1 code c = some t → isNoData (code t) = false)
    {chain : List (Nat × Int × Int)} {i j : Int} (hc : InRange n0 n1 (i, j))
    (hchain : ∀ k, chain.lookup k = stay n0 n1 i j k)
    {l : List (Int × Int)} (hl : (i, j) ∉ l) {s : List Nat}
    (h : Holds n0 n1 s (countsAfter isNoData mark n0 n1 code l)) :
    ∃ s', countCell isNoData mark n0 n1 fd chain i j s = .ok s' ∧
      Holds n0 n1 s' (countsAfter isNoData mark n0 n1 code (l ++ [(i, j)])) := by
  unfold countCell
  rw [at2_ok hc, M.bind_ok, hfd.rd hc, M.bind_ok]
  by_cases hn : isNoData (code (i, j)) = true
  · rw [if_pos hn]
    obtain ⟨s', h1, h2⟩ := h.wr hc (mark 0)
    refine ⟨s', ?_, h2.congr ?_⟩
    · rw [h.rd hc, M.bind_ok, ← h1]
      simp [countsAfter, hn, hl]
    · intro c hcr
      by_cases he : c = (i, j)
      · subst he; simp [countsAfter, hn]
      · rw [Function.update_of_ne he]
        simp [countsAfter, he, target, hn]
  · rw [if_neg hn, hchain]
    have ht : target isNoData n0 n1 code (i, j) = (stay n0 n1 i j (code (i, j))).map fun o => (i + o.1, j + o.2) := by
      simp [target, hn]
    rcases ho : stay n0 n1 i j (code (i, j)) with _ | o
    · refine ⟨s, rfl, h.congr ?_⟩
      intro c hcr
      rw [ho] at ht
      have : c ≠ (i, j) ∨ ¬ isNoData (code c) = true := by
        by_cases he : c = (i, j)
        · right; rw [he]; exact hn
        · left; exact he
      by_cases hnc : isNoData (code c) = true
      · have he : c ≠ (i, j) := by tauto
        simp [countsAfter, hnc, he]
      · simp [countsAfter, hnc, ht]
    · rw [ho] at ht
      obtain ⟨_, hr⟩ := stay_inRange ho
      obtain ⟨s', h1, h2⟩ := bump_ok h hr
      refine ⟨s', h1, h2.congr ?_⟩
      have hv := hvalid _ _ hc ht
      intro c hcr
      by_cases he : c = (i + o.1, j + o.2)
      · subst he
        simp [countsAfter, hv, ht]
      · rw [Function.update_of_ne he]
        by_cases hnc : isNoData (code c) = true
        · have he' : c ≠ (i, j) := by rintro rfl; exact hn hnc
          simp [countsAfter, hnc, he']
        · have : ¬ ((i + o.1, j + o.2) = c) := fun e => he e.symm
          simp [countsAfter, hnc, ht, this]

end

end Lue.InflowCount

import Verif.Clump.Model
import Verif.Partitioned.Loops
import Mathlib.Data.List.Basic

/-!
C23: handling a single request.
-/
namespace Lue.Clump

variable {α Z : Type}

/-! ### Access to elements -/

theorem cell_eq {nc : Nat} {data : List (Option α)} {row col : Nat} (hc : col < nc) :
    cell nc data row col = (data[row * nc + col]?).join := if_pos hc

theorem get_ok {nr nc : Nat} {data : List (Option α)} (hl : data.length = nr * nc) {row col : Nat} (hr : row < nr)
    (hc : col < nc) : get nc data row col = .ok (cell nc data row col) := by
  have hi : row * nc + col < data.length := by rw [hl]; exact idx_lt hr hc
  rw [get, if_pos hc, cell_eq hc, List.getElem?_eq_getElem hi]
  exact rd_ok (List.getElem?_eq_getElem hi)

theorem cell_none_of_ge {nr nc : Nat} {data : List (Option α)} (hl : data.length = nr * nc) {row col : Nat}
    (h : ¬ (row < nr ∧ col < nc)) : cell nc data row col = none := by
  unfold cell
  by_cases hc : col < nc
  · rw [if_pos hc, List.getElem?_eq_none]
    · rfl
    · rw [hl]
      have : nr ≤ row := by by_contra hr; exact h ⟨by omega, hc⟩
      calc nr * nc ≤ row * nc := Nat.mul_le_mul_right _ this
        _ ≤ row * nc + col := Nat.le_add_right _ _
  · rw [if_neg hc]

theorem lt_of_cell {nr nc : Nat} {data : List (Option α)} (hl : data.length = nr * nc) {row col : Nat} {a : α}
    (h : cell nc data row col = some a) : row < nr ∧ col < nc := by
  by_contra hn
  rw [cell_none_of_ge hl hn] at h
  cases h

/-- The number of cells which are not part of a clump. -/
def unmarked (clumps : List (Option Nat)) : Nat := clumps.count none

theorem count_set {l : List (Option Nat)} {i : Nat} {v : Nat} (hi : i < l.length) :
    unmarked (l.set i (some v)) ≤ unmarked l ∧ (l[i] = none → unmarked (l.set i (some v)) + 1 = unmarked l) := by
  unfold unmarked
  rw [List.count_set hi]
  have : (some v == none) = false := rfl
  rw [this]
  simp only [Bool.false_eq_true, if_false, Nat.add_zero]
  refine ⟨Nat.sub_le _ _, fun h => ?_⟩
  rw [h]
  have : 0 < l.count none := List.count_pos_iff.2 (h ▸ List.getElem_mem hi)
  simp only [beq_self_eq_true, if_true]
  omega

theorem set_ok {nr nc : Nat} {data : List (Option Nat)} (hl : data.length = nr * nc) {row col : Nat} (hr : row < nr)
    (hc : col < nc) (v : Nat) : ∃ data', set nc data row col (some v) = .ok data' ∧ data'.length = nr * nc ∧
      (∀ i j, cell nc data' i j = if i = row ∧ j = col then some v else cell nc data i j) ∧
      unmarked data' ≤ unmarked data ∧ (cell nc data row col = none → unmarked data' + 1 = unmarked data) := by
  have hi : row * nc + col < data.length := by rw [hl]; exact idx_lt hr hc
  have hcnt := count_set (v := v) hi
  refine ⟨data.set (row * nc + col) (some v), ?_, by rw [List.length_set, hl], ?_, hcnt.1, fun h => ?_⟩
  · rw [set, if_pos hc, wr_ok _ hi]
  · intro i j
    by_cases hj : j < nc
    · rw [cell_eq hj, cell_eq hj]
      by_cases h : i = row ∧ j = col
      · rw [if_pos h, h.1, h.2, List.getElem?_set_self hi]; rfl
      · rw [if_neg h, List.getElem?_set_ne]
        intro he
        apply h
        have h1 := congrArg (· / nc) he
        have h2 := congrArg (· % nc) he
        simp only [idx_div hc, idx_div hj, idx_mod hc, idx_mod hj] at h1 h2
        exact ⟨h1.symm, h2.symm⟩
    · rw [if_neg (by omega)]
      simp only [cell, if_neg hj]
  · apply hcnt.2
    rw [cell_eq hc, List.getElem?_eq_getElem hi] at h
    exact h

/-! ### Scanning rows -/

section

variable [DecidableEq Z] {nr nc : Nat} {zones : List (Option Z)} {zoneId : Z} {clumpId : Nat}

/-- The cell is part of the zone. -/
def Conn (nc : Nat) (zones : List (Option Z)) (zoneId : Z) (row col : Nat) : Prop := cell nc zones row col = some zoneId

instance (row col : Nat) : Decidable (Conn nc zones zoneId row col) := inferInstanceAs (Decidable (_ = _))

theorem connected_ok (hz : zones.length = nr * nc) {row col : Nat} (hr : row < nr) (hc : col < nc) :
    connected nc zones zoneId row col = .ok (decide (Conn nc zones zoneId row col)) := by
  rw [connected, get_ok hz hr hc]; rfl

theorem added_ok {clumps : List (Option Nat)} (hl : clumps.length = nr * nc) {row col : Nat} (hr : row < nr) (hc : col < nc) :
    added nc clumps row col = .ok (cell nc clumps row col).isSome := by
  rw [added, get_ok hl hr hc]; rfl

theorem Conn.lt (hz : zones.length = nr * nc) {row col : Nat} (h : Conn nc zones zoneId row col) : row < nr ∧ col < nc :=
  lt_of_cell hz h

/-- The result of adding cells [a, b) in a row to the clump. -/
structure Marked (nr nc : Nat) (zones : List (Option Z)) (zoneId : Z) (clumpId row a b : Nat) (clumps clumps' : List (Option Nat)) :
    Prop where
  len : clumps'.length = nr * nc
  conn : ∀ c, a ≤ c → c < b → Conn nc zones zoneId row c
  cells : ∀ i j, cell nc clumps' i j = if i = row ∧ a ≤ j ∧ j < b then some clumpId else cell nc clumps i j
  count : unmarked clumps' ≤ unmarked clumps
  count_lt : ∀ c, a ≤ c → c < b → cell nc clumps row c = none → unmarked clumps' + 1 ≤ unmarked clumps

theorem scanEast_ok (hz : zones.length = nr * nc) {row : Nat} (hr : row < nr) : ∀ (n west : Nat) (clumps : List (Option Nat)),
    clumps.length = nr * nc → west + n = nc →
    ∃ b clumps', scanEast nc zones zoneId clumpId row n west clumps = .ok (b, clumps') ∧ west ≤ b ∧ b ≤ nc ∧
      ¬ Conn nc zones zoneId row b ∧ Marked nr nc zones zoneId clumpId row west b clumps clumps'
  | 0, west, clumps, hl, hn => ⟨west, clumps, rfl, Nat.le_refl _, by omega, fun h => by have := (h.lt hz).2; omega, hl,
      fun c h1 h2 => by omega, fun i j => by rw [if_neg (by omega)], Nat.le_refl _, fun c h1 h2 => by omega⟩
  | n + 1, west, clumps, hl, hn => by
    unfold scanEast
    rw [connected_ok hz hr (by omega), M.bind_ok]
    by_cases hc : Conn nc zones zoneId row west
    · obtain ⟨cl1, h1, l1, c1, u1, u1'⟩ := set_ok hl hr (show west < nc by omega) clumpId
      obtain ⟨b, cl2, h2, hb1, hb2, hb3, hm⟩ := scanEast_ok hz hr n (west + 1) cl1 l1 (by omega)
      refine ⟨b, cl2, ?_, by omega, hb2, hb3, hm.len, ?_, ?_, Nat.le_trans hm.count u1, ?_⟩
      · simp only [hc, decide_true, if_true, h1, M.bind_ok, h2]
      · intro c h1 h2
        rcases Nat.eq_or_lt_of_le h1 with h | h
        · exact h ▸ hc
        · exact hm.conn c h h2
      · intro i j
        rw [hm.cells, c1]
        split_ifs <;> first | rfl | omega
      · intro c h1 h2 h3
        rcases Nat.eq_or_lt_of_le h1 with h | h
        · have := u1' (h ▸ h3); have := hm.count; omega
        · have := hm.count_lt c h h2 (by rw [c1, if_neg (by omega), h3]); omega
    · refine ⟨west, clumps, ?_, Nat.le_refl _, by omega, hc, hl,
        fun c h1 h2 => by omega, fun i j => by rw [if_neg (by omega)], Nat.le_refl _, fun c h1 h2 => by omega⟩
      simp only [hc, decide_false, Bool.false_eq_true, if_false]

theorem scanWest_ok (hz : zones.length = nr * nc) {row : Nat} (hr : row < nr) : ∀ (west : Nat) (clumps : List (Option Nat)),
    clumps.length = nr * nc → west ≤ nc →
    ∃ a clumps', scanWest nc zones zoneId clumpId row west clumps = .ok (a, clumps') ∧ a ≤ west ∧
      (∀ c, c + 1 = a → ¬ Conn nc zones zoneId row c) ∧ Marked nr nc zones zoneId clumpId row a west clumps clumps'
  | 0, clumps, hl, hn => ⟨0, clumps, rfl, Nat.le_refl _, fun c h => by omega, hl,
      fun c h1 h2 => by omega, fun i j => by rw [if_neg (by omega)], Nat.le_refl _, fun c h1 h2 => by omega⟩
  | west + 1, clumps, hl, hn => by
    unfold scanWest
    rw [connected_ok hz hr (by omega), M.bind_ok]
    by_cases hc : Conn nc zones zoneId row west
    · obtain ⟨cl1, h1, l1, c1, u1, u1'⟩ := set_ok hl hr (show west < nc by omega) clumpId
      obtain ⟨a, cl2, h2, hb1, hb3, hm⟩ := scanWest_ok hz hr west cl1 l1 (by omega)
      refine ⟨a, cl2, ?_, by omega, hb3, hm.len, ?_, ?_, Nat.le_trans hm.count u1, ?_⟩
      · simp only [hc, decide_true, if_true, h1, M.bind_ok, h2]
      · intro c h1 h2
        rcases Nat.eq_or_lt_of_le (show c ≤ west by omega) with h | h
        · exact h ▸ hc
        · exact hm.conn c h1 h
      · intro i j
        rw [hm.cells, c1]
        split_ifs <;> first | rfl | omega
      · intro c h1 h2 h3
        rcases Nat.eq_or_lt_of_le (show c ≤ west by omega) with h | h
        · have := u1' (h ▸ h3); have := hm.count; omega
        · have := hm.count_lt c h1 h (by rw [c1, if_neg (by omega), h3]); omega
    · refine ⟨west + 1, clumps, ?_, Nat.le_refl _, fun c h => by rw [show c = west by omega]; exact hc, hl,
        fun c h1 h2 => by omega, fun i j => by rw [if_neg (by omega)], Nat.le_refl _, fun c h1 h2 => by omega⟩
      simp only [hc, decide_false, Bool.false_eq_true, if_false]

theorem skip_ok (hz : zones.length = nr * nc) {row : Nat} (hr : row < nr) : ∀ (n west : Nat), west + n ≤ nc ∨ n = 0 →
    ∃ b, skip nc zones zoneId row n west = .ok b ∧ west ≤ b ∧ b ≤ west + n ∧
      (∀ c, west ≤ c → c < b → ¬ Conn nc zones zoneId row c) ∧ (b = west + n ∨ Conn nc zones zoneId row b)
  | 0, west, _ => ⟨west, rfl, Nat.le_refl _, by omega, fun c h1 h2 => by omega, .inl rfl⟩
  | n + 1, west, hn => by
    unfold skip
    rw [connected_ok hz hr (by omega), M.bind_ok]
    by_cases hc : Conn nc zones zoneId row west
    · refine ⟨west, by simp only [hc, decide_true, if_true], Nat.le_refl _, by omega, fun c h1 h2 => by omega, .inr hc⟩
    · obtain ⟨b, h1, h2, h3, h4, h5⟩ := skip_ok hz hr n (west + 1) (by omega)
      refine ⟨b, by simp only [hc, decide_false, Bool.false_eq_true, if_false, h1], by omega, by omega, fun c g1 g2 => ?_, ?_⟩
      · rcases Nat.eq_or_lt_of_le g1 with h | h
        · exact h ▸ hc
        · exact h4 c h g2
      · rcases h5 with h5 | h5
        · exact .inl (by omega)
        · exact .inr h5

end

end Lue.Clump

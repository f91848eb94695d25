import Verif.Channels.Spec
import Verif.PcrFramework.Properties

/-!
# Neighbours and names
-/

namespace Lue.Channels

open Lue.InflowCount (Dir hasNeighbour directions)

theorem offset_eq (d : Dir) : d.offset = compass d := by cases d <;> rfl

theorem sender_opposite (d : Dir) : Opposite d d.sender := by cases d <;> rfl

theorem compass_inj {d e : Dir} (h : compass d = compass e) : d = e := by
  cases d <;> cases e <;> first | rfl | (simp [compass] at h)

theorem opposite_unique {d e : Dir} (h : Opposite d e) : e = d.sender :=
  compass_inj (h.trans (sender_opposite d).symm)

theorem sender_sender (d : Dir) : d.sender.sender = d := by cases d <;> rfl

theorem num_inj {d e : Dir} (h : Dir.num d = Dir.num e) : d = e := by
  cases d <;> cases e <;> first | rfl | (simp [Dir.num] at h)

/-- Row and column are determined by the number of the partition -/
theorem number_inj {m1 i j i' j' : Nat} (hj : j < m1) (hj' : j' < m1) (h : i * m1 + j = i' * m1 + j') :
    i = i' ∧ j = j' := by
  have h1 : (i * m1 + j) / m1 = i := by
    rw [Nat.add_comm, Nat.add_mul_div_right _ _ (by omega), Nat.div_eq_of_lt hj, Nat.zero_add]
  have h2 : (i' * m1 + j') / m1 = i' := by
    rw [Nat.add_comm, Nat.add_mul_div_right _ _ (by omega), Nat.div_eq_of_lt hj', Nat.zero_add]
  have h3 : i = i' := by rw [← h1, ← h2, h]
  subst h3
  exact ⟨rfl, by omega⟩

theorem number_lt {m0 m1 i j : Nat} (hi : i < m0) (hj : j < m1) : i * m1 + j < m0 * m1 := by
  have : (i + 1) * m1 ≤ m0 * m1 := Nat.mul_le_mul_right _ hi
  rw [Nat.add_mul, Nat.one_mul] at this
  omega

theorem Lies.lt {m0 m1 p q : Nat} {d : Dir} (h : Lies m0 m1 p d q) : p < m0 * m1 ∧ q < m0 * m1 := by
  obtain ⟨i, j, i', j', hi, hj, hi', hj', rfl, rfl, -, -⟩ := h
  exact ⟨number_lt hi hj, number_lt hi' hj'⟩

theorem Lies.unique {m0 m1 p q q' : Nat} {d : Dir} (h : Lies m0 m1 p d q) (h' : Lies m0 m1 p d q') : q = q' := by
  obtain ⟨i, j, k, l, hi, hj, hk, hl, rfl, rfl, e1, e2⟩ := h
  obtain ⟨i', j', k', l', hi', hj', hk', hl', hp, rfl, e1', e2'⟩ := h'
  obtain ⟨rfl, rfl⟩ := number_inj hj hj' hp
  obtain rfl : k = k' := by omega
  obtain rfl : l = l' := by omega
  rfl

theorem Lies.symm {m0 m1 p q : Nat} {d : Dir} (h : Lies m0 m1 p d q) : Lies m0 m1 q d.sender p := by
  obtain ⟨i, j, k, l, hi, hj, hk, hl, rfl, rfl, e1, e2⟩ := h
  have := sender_opposite d
  unfold Opposite at this
  refine ⟨k, l, i, j, hk, hl, hi, hj, rfl, rfl, ?_, ?_⟩
  · rw [this]; simp only []; omega
  · rw [this]; simp only []; omega

/-- A communicator sets up channels for the directions in which there is a neighbour -/
theorem hasNeighbour_iff {m0 m1 k0 k1 : Nat} (h0 : k0 < m0) (h1 : k1 < m1) (d : Dir) :
    hasNeighbour m0 m1 k0 k1 d = true ↔ ∃ q, Lies m0 m1 (k0 * m1 + k1) d q := by
  constructor
  · intro h
    have hr : 0 ≤ (k0 : Int) + (compass d).1 ∧ (k0 : Int) + (compass d).1 < m0 ∧
        0 ≤ (k1 : Int) + (compass d).2 ∧ (k1 : Int) + (compass d).2 < m1 := by
      cases d <;> simp only [hasNeighbour, Bool.and_eq_true, decide_eq_true_eq] at h <;> simp only [compass] <;> omega
    obtain ⟨a1, a2, a3, a4⟩ := hr
    refine ⟨((k0 : Int) + (compass d).1).toNat * m1 + ((k1 : Int) + (compass d).2).toNat,
      k0, k1, ((k0 : Int) + (compass d).1).toNat, ((k1 : Int) + (compass d).2).toNat, h0, h1, ?_, ?_, rfl, rfl, ?_, ?_⟩
    · omega
    · omega
    · omega
    · omega
  · rintro ⟨q, i, j, k, l, hi, hj, hk, hl, hp, rfl, e1, e2⟩
    obtain ⟨rfl, rfl⟩ := number_inj h1 hj hp
    cases d <;> simp only [hasNeighbour, Bool.and_eq_true, decide_eq_true_eq] <;> simp only [compass] at e1 e2 <;> omega

/-- The index of the neighbour, as the communicator computes it -/
theorem neighbourIdx_eq {m0 m1 k0 k1 : Nat} (h1 : k1 < m1) {d : Dir} {q : Nat}
    (h : Lies m0 m1 (k0 * m1 + k1) d q) : linearIdx m1 ((k0 : Int) + d.offset.1) ((k1 : Int) + d.offset.2) = q := by
  obtain ⟨i, j, k, l, hi, hj, hk, hl, hp, rfl, e1, e2⟩ := h
  obtain ⟨rfl, rfl⟩ := number_inj h1 hj hp
  unfold linearIdx
  rw [offset_eq, ← e1, ← e2]
  have : (k : Int) * m1 + l = ((k * m1 + l : Nat) : Int) := by push_cast; rfl
  rw [this, Int.toNat_natCast]

theorem linearIdx_nat (m1 k0 k1 : Nat) : linearIdx m1 k0 k1 = k0 * m1 + k1 := by
  unfold linearIdx
  have : (k0 : Int) * m1 + k1 = ((k0 * m1 + k1 : Nat) : Int) := by push_cast; rfl
  rw [this, Int.toNat_natCast]

/-! ### Names -/

theorem Elem.name_inj {e f : Elem} (h : e.name = f.name) : e = f := by
  cases e <;> cases f <;> first | rfl | (exact absurd h (by decide))

theorem Elem.name_ne_inflow (e : Elem) : e.name ≠ "inflow_count".toList := by
  cases e <;> decide

theorem Elem.slash (e : Elem) : '/' ∉ e.name := by cases e <;> decide

/-- The part of a string after the last slash is determined by the string -/
theorem after_slash {a b a' b' : Str} (h : a ++ '/' :: b = a' ++ '/' :: b') (hb : '/' ∉ b) (hb' : '/' ∉ b') :
    a = a' ∧ b = b' := by
  rcases List.append_eq_append_iff.mp h with ⟨c, hc, hd⟩ | ⟨c, hc, hd⟩
  · cases c with
    | nil => simp only [List.append_nil, List.nil_append] at hc hd; exact ⟨hc.symm, (List.cons.inj hd).2⟩
    | cons x c =>
      simp only [List.cons_append] at hd
      obtain ⟨-, hd⟩ := List.cons.inj hd
      exact absurd (hd ▸ List.mem_append_right _ List.mem_cons_self) hb
  · cases c with
    | nil => simp only [List.append_nil, List.nil_append] at hc hd; exact ⟨hc, (List.cons.inj hd).2.symm⟩
    | cons x c =>
      simp only [List.cons_append] at hd
      obtain ⟨-, hd⟩ := List.cons.inj hd
      exact absurd (hd ▸ List.mem_append_right _ List.mem_cons_self) hb'

theorem digits_slash (n : Nat) : '/' ∉ DataModel.name n := PcrFramework.digits_no (by decide)

/-- What the base name says about the type of the communicators -/
def Kind.word : Kind → Str
  | .inflow => "inflow_count".toList
  | .material e => e.name

theorem Kind.word_inj {k l : Kind} (h : k.word = l.word) : k = l := by
  cases k with
  | inflow =>
    cases l with
    | inflow => rfl
    | material e => exact absurd h.symm e.name_ne_inflow
  | material e =>
    cases l with
    | inflow => exact absurd h e.name_ne_inflow
    | material f => exact congrArg _ (Elem.name_inj h)

theorem Kind.slash (k : Kind) : '/' ∉ k.word := by
  cases k with
  | inflow => decide
  | material e => exact e.slash

theorem Use.basename_eq (u : Use) : ∃ pre : Str, u.basename = pre ++ '/' :: (u.kind.word ++ ['/']) := by
  cases u with
  | inflowCount => exact ⟨"/lue".toList, rfl⟩
  | inflowOf f =>
    have h : "/inflow_count/".toList = '/' :: ("inflow_count".toList ++ ['/']) := by decide
    refine ⟨"/lue/".toList ++ f, ?_⟩
    show "/lue/".toList ++ f ++ "/inflow_count/".toList = _
    rw [h]; rfl
  | materialOf f e =>
    have h : "/".toList = ['/'] := by decide
    refine ⟨"/lue/".toList ++ f, ?_⟩
    show "/lue/".toList ++ f ++ "/".toList ++ e.name ++ "/".toList = "/lue/".toList ++ f ++ '/' :: (e.name ++ ['/'])
    rw [h, List.append_assoc ("/lue/".toList ++ f ++ ['/']), List.append_assoc ("/lue/".toList ++ f)]; rfl

/-- Names of channels are different for different types of communicators, different invocations and different directions -/
theorem channelName_inj {u v : Use} {i j : Nat} {d e : Dir}
    (h : channelName (u.basename ++ DataModel.name i) d = channelName (v.basename ++ DataModel.name j) e) :
    u.kind = v.kind ∧ i = j ∧ d = e := by
  obtain ⟨a, ha⟩ := u.basename_eq
  obtain ⟨b, hb⟩ := v.basename_eq
  unfold channelName at h
  have h1 : (u.basename ++ DataModel.name i ++ "/".toList ++ DataModel.name (Dir.num d)) ++ '/' :: [] =
      (v.basename ++ DataModel.name j ++ "/".toList ++ DataModel.name (Dir.num e)) ++ '/' :: [] := h
  obtain ⟨h2, -⟩ := after_slash h1 (by simp) (by simp)
  have h3 : (u.basename ++ DataModel.name i) ++ '/' :: DataModel.name (Dir.num d) =
      (v.basename ++ DataModel.name j) ++ '/' :: DataModel.name (Dir.num e) := by simpa using h2
  obtain ⟨h4, h5⟩ := after_slash h3 (digits_slash _) (digits_slash _)
  rw [ha, hb] at h4
  have h6 : (a ++ '/' :: u.kind.word) ++ '/' :: DataModel.name i = (b ++ '/' :: v.kind.word) ++ '/' :: DataModel.name j := by
    simpa using h4
  obtain ⟨h7, h8⟩ := after_slash h6 (digits_slash _) (digits_slash _)
  obtain ⟨-, h9⟩ := after_slash h7 u.kind.slash v.kind.slash
  exact ⟨Kind.word_inj h9, DataModel.name_inj h8, num_inj (DataModel.name_inj h5)⟩

end Lue.Channels

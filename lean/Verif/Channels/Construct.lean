import Verif.Channels.Geometry

/-!
# The communicators that are constructed
-/

namespace Lue.Channels

open Lue.InflowCount (Dir hasNeighbour directions)

/-- The channel that a request is about to register -/
def Req.chan : Req → Option Nat
  | .register _ c => some c
  | .unregister _ => none

/-- The order in which the constructor sets up channels -/
def order : List Dir := [.n, .nw, .ne, .s, .sw, .se, .w, .e]

/-- A communicator without channels -/
def blank (m0 m1 k0 k1 : Nat) : Comm := ⟨m0, m1, k0, k1, linearIdx m1 k0 k1, fun _ => none, fun _ => none⟩

theorem construct_eq (b : Str) (m0 m1 k0 k1 : Nat) (s : Setup) :
    construct b m0 m1 k0 k1 s =
      (order.filter (hasNeighbour m0 m1 k0 k1)).foldl (fun x d => setup b d x) (blank m0 m1 k0 k1, s) := by
  unfold construct blank
  by_cases h : m0 > 1 ∨ m1 > 1 <;> by_cases h1 : k0 > 0 <;> by_cases h2 : k1 > 0 <;> by_cases h3 : k0 + 1 < m0 <;>
    by_cases h4 : k1 + 1 < m1 <;> simp [order, hasNeighbour, h, h1, h2, h3, h4, List.filter]

theorem fold_eq (b : Str) : ∀ (ds : List Dir) (c : Comm) (s : Setup), ds.Nodup →
    ds.foldl (fun x d => setup b d x) (c, s) =
      ({ c with
          send := fun d => if d ∈ ds then some (s.next + ds.idxOf d) else c.send d
          recv := fun d => if d ∈ ds then some (.waiting ⟨channelName b d.sender, c.neighbourIdx d⟩) else c.recv d },
       ⟨s.next + ds.length, s.reqs ++ (ds.zipIdx s.next).map fun x => .register ⟨channelName b x.1, c.idx⟩ x.2⟩) := by
  intro ds
  induction ds with
  | nil => intro c s _; simp
  | cons a ds ih =>
    intro c s hd
    obtain ⟨ha, hd⟩ := List.nodup_cons.mp hd
    rw [List.foldl_cons]
    have he : setup b a (c, s) =
        ({ c with send := put c.send a (some s.next),
                  recv := put c.recv a (some (.waiting ⟨channelName b a.sender, c.neighbourIdx a⟩)) },
         ⟨s.next + 1, s.reqs ++ [.register ⟨channelName b a, c.idx⟩ s.next]⟩) := rfl
    rw [he, ih _ _ hd]
    refine Prod.ext ?_ ?_
    · simp only [Comm.mk.injEq, true_and]
      refine ⟨funext fun d => ?_, funext fun d => ?_⟩
      · by_cases hda : d = a
        · subst hda
          simp [ha, put]
        · have : ¬ a = d := fun h => hda h.symm
          by_cases hm : d ∈ ds
          · simp only [hm, if_true, List.mem_cons, or_true, List.idxOf_cons]
            have hb : (a == d) = false := by simpa using this
            rw [hb]; simp only [cond_false]; congr 1; omega
          · simp [hm, hda, put]
      · by_cases hda : d = a
        · subst hda
          simp [ha, put]
        · by_cases hm : d ∈ ds
          · simp only [hm, if_true, List.mem_cons, or_true]; rfl
          · simp [hm, hda, put]
    · simp only [Setup.mk.injEq, List.length_cons, List.zipIdx_cons, List.map_cons, List.append_assoc, List.cons_append,
        List.nil_append, and_true]
      omega

theorem order_nodup : order.Nodup := by decide

theorem mem_order (d : Dir) : d ∈ order := by cases d <;> decide

/-- A communicator that is just constructed -/
structure Fresh (b : Str) (m0 m1 k0 k1 : Nat) (c : Comm) : Prop where
  idx : c.idx = linearIdx m1 k0 k1
  send : ∀ d, (c.send d).isSome = hasNeighbour m0 m1 k0 k1 d
  recv : ∀ d, c.recv d = if hasNeighbour m0 m1 k0 k1 d then
    some (.waiting ⟨channelName b d.sender, linearIdx m1 ((k0 : Int) + d.offset.1) ((k1 : Int) + d.offset.2)⟩) else none

theorem idxOf_inj {ds : List Dir} {d e : Dir} (hd : d ∈ ds) (h : ds.idxOf d = ds.idxOf e) : d = e := by
  have h1 := List.idxOf_lt_length_of_mem hd
  have := List.getElem_idxOf h1
  have h2 : ds.idxOf e < ds.length := h ▸ h1
  have h3 := List.getElem_idxOf h2
  rw [← this, ← h3]
  congr 1

theorem chans_zipIdx (b : Str) (i : Nat) : ∀ (ds : List Dir) (n : Nat),
    ((ds.zipIdx n).map fun x => Req.register ⟨channelName b x.1, i⟩ x.2).filterMap Req.chan = List.range' n ds.length := by
  intro ds
  induction ds with
  | nil => intro n; rfl
  | cons d ds ih =>
    intro n
    rw [List.zipIdx_cons, List.map_cons, List.filterMap_cons]
    simp only [Req.chan, List.length_cons, List.range'_succ]
    rw [ih]

theorem mem_zipIdx_idxOf {ds : List Dir} (hn : ds.Nodup) {d : Dir} {ch n : Nat} :
    (d, ch) ∈ ds.zipIdx n ↔ d ∈ ds ∧ ch = n + ds.idxOf d := by
  rw [List.mk_mem_zipIdx_iff_le_and_getElem?_sub]
  constructor
  · rintro ⟨h1, h2⟩
    obtain ⟨h3, h4⟩ := List.getElem?_eq_some_iff.mp h2
    have h5 : ds.idxOf d = ch - n := by rw [← h4]; exact hn.idxOf_getElem _ h3
    exact ⟨h4 ▸ List.getElem_mem h3, by omega⟩
  · rintro ⟨h1, h2⟩
    refine ⟨by omega, ?_⟩
    have : ch - n = ds.idxOf d := by omega
    rw [this]
    exact List.getElem?_idxOf h1

theorem construct_spec (b : Str) (m0 m1 k0 k1 : Nat) (s : Setup) :
    Fresh b m0 m1 k0 k1 (construct b m0 m1 k0 k1 s).1 ∧
    s.next ≤ (construct b m0 m1 k0 k1 s).2.next ∧
    (∀ d ch, (construct b m0 m1 k0 k1 s).1.send d = some ch → s.next ≤ ch ∧ ch < (construct b m0 m1 k0 k1 s).2.next) ∧
    (∀ d e ch, (construct b m0 m1 k0 k1 s).1.send d = some ch → (construct b m0 m1 k0 k1 s).1.send e = some ch → d = e) ∧
    ∃ new, (construct b m0 m1 k0 k1 s).2.reqs = s.reqs ++ new ∧
      new.filterMap Req.chan = List.range' s.next ((construct b m0 m1 k0 k1 s).2.next - s.next) ∧
      ∀ r, r ∈ new ↔ ∃ d ch, (construct b m0 m1 k0 k1 s).1.send d = some ch ∧
        r = .register ⟨channelName b d, (construct b m0 m1 k0 k1 s).1.idx⟩ ch := by
  have hn : (order.filter (hasNeighbour m0 m1 k0 k1)).Nodup := order_nodup.filter _
  have hm : ∀ d, d ∈ order.filter (hasNeighbour m0 m1 k0 k1) ↔ hasNeighbour m0 m1 k0 k1 d = true := by
    intro d; rw [List.mem_filter]; exact ⟨fun h => h.2, fun h => ⟨mem_order d, h⟩⟩
  rw [construct_eq, fold_eq b _ _ _ hn]
  revert hn hm
  generalize order.filter (hasNeighbour m0 m1 k0 k1) = ds
  intro hn hm
  refine ⟨⟨rfl, fun d => ?_, fun d => ?_⟩, Nat.le_add_right _ _, fun d ch h => ?_, fun d e ch h h' => ?_, _, rfl, ?_, ?_⟩
  · by_cases h : d ∈ ds
    · have := (hm d).mp h
      simp [h, this]
    · have : hasNeighbour m0 m1 k0 k1 d = false := by
        cases h' : hasNeighbour m0 m1 k0 k1 d
        · rfl
        · exact absurd ((hm d).mpr h') h
      simp [h, this, blank]
  · by_cases h : d ∈ ds
    · have := (hm d).mp h
      simp only [h, this, if_true]; rfl
    · have : ¬ hasNeighbour m0 m1 k0 k1 d = true := fun h' => h ((hm d).mpr h')
      simp [h, this, blank]
  · simp only [blank] at h
    by_cases hd : d ∈ ds
    · simp only [hd, if_true, Option.some.injEq] at h
      have := List.idxOf_lt_length_of_mem hd
      exact ⟨by omega, by show ch < s.next + ds.length; omega⟩
    · simp [hd] at h
  · simp only [blank] at h h'
    by_cases hd : d ∈ ds
    · by_cases he : e ∈ ds
      · simp only [hd, he, if_true, Option.some.injEq] at h h'
        exact idxOf_inj hd (by omega)
      · simp [he] at h'
    · simp [hd] at h
  · rw [chans_zipIdx]
    show _ = List.range' s.next (s.next + ds.length - s.next)
    rw [Nat.add_sub_cancel_left]
  · intro r
    rw [List.mem_map]
    constructor
    · rintro ⟨⟨d, ch⟩, hd, rfl⟩
      obtain ⟨h1, h2⟩ := (mem_zipIdx_idxOf hn).mp hd
      exact ⟨d, ch, by simp [h1, h2], rfl⟩
    · rintro ⟨d, ch, h, rfl⟩
      simp only [blank] at h
      by_cases hd : d ∈ ds
      · simp only [hd, if_true, Option.some.injEq] at h
        exact ⟨(d, ch), (mem_zipIdx_idxOf hn).mpr ⟨hd, h.symm⟩, rfl⟩
      · simp [hd] at h

theorem range'_split {a b c : Nat} (h1 : a ≤ b) (h2 : b ≤ c) :
    List.range' a (b - a) ++ List.range' b (c - b) = List.range' a (c - a) := by
  have := List.range'_append_1 (s := a) (m := b - a) (n := c - b)
  rw [show a + (b - a) = b by omega, show b - a + (c - b) = c - a by omega] at this
  exact this

theorem constructAll_spec (b : Str) (m0 m1 : Nat) : ∀ (ks : List (Nat × Nat)) (s : Setup),
    (constructAll b m0 m1 ks s).1.length = ks.length ∧
    (∀ (i : Nat) (k : Nat × Nat), ks[i]? = some k → ∃ c : Comm, (constructAll b m0 m1 ks s).1[i]? = some c ∧ Fresh b m0 m1 k.1 k.2 c) ∧
    s.next ≤ (constructAll b m0 m1 ks s).2.next ∧
    (∀ (i : Nat) (c : Comm) (d : Dir) (ch : Nat), (constructAll b m0 m1 ks s).1[i]? = some c → c.send d = some ch →
      s.next ≤ ch ∧ ch < (constructAll b m0 m1 ks s).2.next) ∧
    (∀ (i j : Nat) (c c' : Comm) (d e : Dir) (ch : Nat), (constructAll b m0 m1 ks s).1[i]? = some c → (constructAll b m0 m1 ks s).1[j]? = some c' →
      c.send d = some ch → c'.send e = some ch → i = j ∧ d = e) ∧
    ∃ new, (constructAll b m0 m1 ks s).2.reqs = s.reqs ++ new ∧
      new.filterMap Req.chan = List.range' s.next ((constructAll b m0 m1 ks s).2.next - s.next) ∧
      ∀ r, r ∈ new ↔ ∃ (i : Nat) (c : Comm) (d : Dir) (ch : Nat), (constructAll b m0 m1 ks s).1[i]? = some c ∧ c.send d = some ch ∧
        r = .register ⟨channelName b d, c.idx⟩ ch := by
  intro ks
  induction ks with
  | nil =>
    intro s
    refine ⟨rfl, by simp, le_refl _, by simp [constructAll], by simp [constructAll], [], by simp [constructAll],
      by simp [constructAll], by simp [constructAll]⟩
  | cons k ks ih =>
    intro s
    obtain ⟨a1, a2, a3, a4, new, a5, a6, a7⟩ := construct_spec b m0 m1 k.1 k.2 s
    obtain ⟨b1, b2, b3, b4, b5, new', b6, b7, b8⟩ := ih (construct b m0 m1 k.1 k.2 s).2
    have he : constructAll b m0 m1 (k :: ks) s =
        ((construct b m0 m1 k.1 k.2 s).1 :: (constructAll b m0 m1 ks (construct b m0 m1 k.1 k.2 s).2).1,
         (constructAll b m0 m1 ks (construct b m0 m1 k.1 k.2 s).2).2) := rfl
    rw [he]
    revert a1 a2 a3 a4 a5 a6 a7 b1 b2 b3 b4 b5 b6 b7 b8
    generalize construct b m0 m1 k.1 k.2 s = x
    obtain ⟨c0, s1⟩ := x
    generalize constructAll b m0 m1 ks s1 = y
    obtain ⟨cs, s2⟩ := y
    simp only []
    intro a1 a2 a3 a4 a5 a6 a7 b1 b2 b3 b4 b5 b6 b7 b8
    refine ⟨by simp [b1], ?_, by omega, ?_, ?_, new ++ new', ?_, ?_, ?_⟩
    · intro i k' hk
      cases i with
      | zero =>
        simp only [List.getElem?_cons_zero, Option.some.injEq] at hk
        subst hk
        exact ⟨c0, rfl, a1⟩
      | succ i =>
        simp only [List.getElem?_cons_succ] at hk ⊢
        exact b2 i k' hk
    · intro i c d ch hc hs
      cases i with
      | zero =>
        simp only [List.getElem?_cons_zero, Option.some.injEq] at hc
        subst hc
        have := a3 d ch hs
        omega
      | succ i =>
        simp only [List.getElem?_cons_succ] at hc
        have := b4 i c d ch hc hs
        omega
    · intro i j c c' d e ch hc hc' hs hs'
      cases i with
      | zero =>
        simp only [List.getElem?_cons_zero, Option.some.injEq] at hc
        subst hc
        have h1 := a3 d ch hs
        cases j with
        | zero =>
          simp only [List.getElem?_cons_zero, Option.some.injEq] at hc'
          subst hc'
          exact ⟨rfl, a4 d e ch hs hs'⟩
        | succ j =>
          simp only [List.getElem?_cons_succ] at hc'
          have := b4 j c' e ch hc' hs'
          omega
      | succ i =>
        simp only [List.getElem?_cons_succ] at hc
        have h1 := b4 i c d ch hc hs
        cases j with
        | zero =>
          simp only [List.getElem?_cons_zero, Option.some.injEq] at hc'
          subst hc'
          have := a3 e ch hs'
          omega
        | succ j =>
          simp only [List.getElem?_cons_succ] at hc'
          obtain ⟨h2, h3⟩ := b5 i j c c' d e ch hc hc' hs hs'
          exact ⟨by omega, h3⟩
    · rw [b6, a5, List.append_assoc]
    · rw [List.filterMap_append, a6, b7, range'_split a2 b3]
    · intro r
      rw [List.mem_append, a7, b8]
      constructor
      · rintro (⟨d, ch, h, rfl⟩ | ⟨i, c, d, ch, hc, h, rfl⟩)
        · exact ⟨0, c0, d, ch, rfl, h, rfl⟩
        · exact ⟨i + 1, c, d, ch, by simpa using hc, h, rfl⟩
      · rintro ⟨i, c, d, ch, hc, h, rfl⟩
        cases i with
        | zero =>
          simp only [List.getElem?_cons_zero, Option.some.injEq] at hc
          subst hc
          exact Or.inl ⟨d, ch, h, rfl⟩
        | succ i =>
          simp only [List.getElem?_cons_succ] at hc
          exact Or.inr ⟨i, c, d, ch, hc, h, rfl⟩

theorem positions_length (m0 m1 : Nat) : (positions m0 m1).length = m0 * m1 := by
  simp [positions, List.length_flatMap]

/-- The indices are visited row by row -/
theorem positions_get {m0 m1 i j : Nat} (hi : i < m0) (hj : j < m1) : (positions m0 m1)[i * m1 + j]? = some (i, j) := by
  induction m0 with
  | zero => omega
  | succ m0 ih =>
    have he : positions (m0 + 1) m1 = positions m0 m1 ++ (List.range m1).map fun k1 => (m0, k1) := by
      simp [positions, List.range_succ]
    rw [he]
    by_cases h : i < m0
    · rw [List.getElem?_append_left (by rw [positions_length]; exact number_lt h hj)]
      exact ih h
    · obtain rfl : i = m0 := by omega
      rw [List.getElem?_append_right (by rw [positions_length]; omega), positions_length, Nat.add_sub_cancel_left]
      simp [hj]

theorem exists_pos {m0 m1 p : Nat} (h : p < m0 * m1) : ∃ i j, i < m0 ∧ j < m1 ∧ p = i * m1 + j := by
  have hm : 0 < m1 := by
    rcases Nat.eq_zero_or_pos m1 with h0 | h0
    · subst h0; simp at h
    · exact h0
  refine ⟨p / m1, p % m1, Nat.div_lt_of_lt_mul (by rw [Nat.mul_comm]; exact h), Nat.mod_lt _ hm, ?_⟩
  rw [Nat.mul_comm]; exact (Nat.div_add_mod p m1).symm

end Lue.Channels

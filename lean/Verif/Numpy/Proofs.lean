import Verif.Numpy.Spec
import Verif.GdalIO.Properties

/-!
# NumPy arrays: proofs about rows and partitions
-/
namespace Lue.Numpy

open Lue.Create Lue.GdalIO

/-- Loops assigning consecutive elements, starting at `to`. -/
theorem forLoop_writeAt {α : Type} {n to_ : Nat} (val : Nat → α) (body : Nat → List α → M (List α)) (d0 : List α)
    (h : ∀ i < n, ∀ d : List α, d.length = d0.length → (∀ e, to_ + i ≤ e → d[e]? = d0[e]?) →
      body i d = .ok (d.set (to_ + i) (val i))) (hl : to_ + n ≤ d0.length) :
    ∃ d, forLoop n body d0 = .ok d ∧ d.length = d0.length ∧ (∀ i < n, d[to_ + i]? = some (val i)) ∧
      ∀ e, e < to_ ∨ to_ + n ≤ e → d[e]? = d0[e]? := by
  obtain ⟨d, h1, h2, h3, h4⟩ := forLoop_inv (n := n) (body := body)
    (fun k (d : List α) => d.length = d0.length ∧ (∀ i < k, d[to_ + i]? = some (val i)) ∧
      ∀ e, e < to_ ∨ to_ + k ≤ e → d[e]? = d0[e]?) (by
      intro i hi d ⟨g1, g2, g3⟩
      refine ⟨_, h i hi d g1 (fun e he => g3 e (Or.inr he)), by simpa using g1, ?_, ?_⟩
      · intro k hk
        by_cases hik : k = i
        · subst hik; rw [List.getElem?_set_self (by omega)]
        · rw [List.getElem?_set_ne (by omega)]; exact g2 k (by omega)
      · intro e he
        rw [List.getElem?_set_ne (by omega)]
        exact g3 e (by omega)) d0 ⟨rfl, by simp, fun _ _ => rfl⟩
  exact ⟨d, h1, h2, h3, h4⟩

theorem copyN_ok {α : Type} {source destination : List α} {from_ n to_ : Nat} {val : Nat → α}
    (hs : ∀ i < n, source[from_ + i]? = some (val i)) (hl : to_ + n ≤ destination.length) :
    ∃ d, copyN source from_ n destination to_ = .ok d ∧ d.length = destination.length ∧
      (∀ i < n, d[to_ + i]? = some (val i)) ∧ ∀ e, e < to_ ∨ to_ + n ≤ e → d[e]? = destination[e]? := by
  refine forLoop_writeAt val _ destination ?_ hl
  intro i hi d hd _
  rw [rd_ok (hs i hi), M.bind_ok, wr_ok _ (by omega)]

theorem replaceN_ok {α : Type} {pred : α → Bool} {value : α} {destination : List α} {n to_ : Nat} {val : Nat → α}
    (hs : ∀ i < n, destination[to_ + i]? = some (val i)) (hl : to_ + n ≤ destination.length) :
    ∃ d, replaceN pred value n destination to_ = .ok d ∧ d.length = destination.length ∧
      (∀ i < n, d[to_ + i]? = some (if pred (val i) then value else val i)) ∧
      ∀ e, e < to_ ∨ to_ + n ≤ e → d[e]? = destination[e]? := by
  refine forLoop_writeAt (fun i => if pred (val i) then value else val i) _ destination ?_ hl
  intro i hi d hd hu
  have hx : d[to_ + i]? = some (val i) := by rw [hu _ (Nat.le_refl _)]; exact hs i hi
  rw [rd_ok hx, M.bind_ok]
  by_cases hp : pred (val i)
  · simp only [hp, if_true]
    rw [wr_ok _ (by omega)]
  · simp only [hp, Bool.false_eq_true, if_false]
    obtain ⟨hlt, hh⟩ := List.getElem?_eq_some_iff.1 hx
    rw [← hh, List.set_getElem_self]

/-- The value an element is replaced by. -/
def replaced {α : Type} (noDataValue : Option α) (pred : α → α → Bool) (value : α → α) (x : α) : α :=
  match noDataValue with
  | none => x
  | some v => if pred v x then value v else x

/-- Copying a row, and replacing elements in it. -/
theorem row_ok {α : Type} {source destination : List α} {from_ n to_ : Nat} {val : Nat → α} (noDataValue : Option α)
    (pred : α → α → Bool) (value : α → α)
    (hs : ∀ i < n, source[from_ + i]? = some (val i)) (hl : to_ + n ≤ destination.length) :
    ∃ d' d, copyN source from_ n destination to_ = .ok d' ∧
      ifSet noDataValue (fun v d => replaceN (pred v) (value v) n d to_) d' = .ok d ∧ d.length = destination.length ∧
      (∀ i < n, d[to_ + i]? = some (replaced noDataValue pred value (val i))) ∧
      ∀ e, e < to_ ∨ to_ + n ≤ e → d[e]? = destination[e]? := by
  obtain ⟨d', h1, h2, h3, h4⟩ := copyN_ok hs hl
  cases noDataValue with
  | none => exact ⟨d', d', h1, rfl, h2, h3, h4⟩
  | some v =>
    obtain ⟨d, g1, g2, g3, g4⟩ := replaceN_ok (pred := pred v) (value := value v) h3 (by omega)
    exact ⟨d', d, h1, g1, by omega, g3, fun e he => by rw [g4 e he, h4 e he]⟩

/-- The element of a new partition, given the one in the buffer. -/
def imported {α : Type} (T : ElementType α) (noDataValue : Option α) (x : α) : α :=
  replaced noDataValue (fun v x => T.eq x v) (fun _ => T.noData) x

/-- The element of a NumPy array, given the one in the array. -/
def exported {α : Type} (T : ElementType α) (noDataValue : Option α) (x : α) : α :=
  replaced noDataValue (fun _ x => isNoData T x) (fun v => v) x

theorem imported_imports {α : Type} {T : ElementType α} (hT : T.Lawful) (nd : Option α) (x : α) :
    Imports T nd x (imported T nd x) := by
  have hnd : IsNoData T T.noData := by
    by_cases hf : T.floating = true
    · exact Or.inl (hT.floating_noData hf)
    · exact Or.inr ⟨by simpa using hf, rfl⟩
  cases nd with
  | none => exact ⟨fun ⟨v, h, _⟩ => by simp at h, fun _ => rfl⟩
  | some v =>
    show (_ → IsNoData T (if T.eq x v then T.noData else x)) ∧ (_ → (if T.eq x v then T.noData else x) = x)
    by_cases he : T.eq x v = true
    · rw [if_pos he]
      exact ⟨fun _ => hnd, fun h => absurd ⟨v, rfl, Or.inl he⟩ h⟩
    · rw [if_neg he]
      refine ⟨?_, fun _ => rfl⟩
      rintro ⟨w, hw, h | h⟩
      · simp only [Option.some.injEq] at hw; subst hw; exact absurd h he
      · exact Or.inl h.1

theorem isNoData_iff {α : Type} {T : ElementType α} (hT : T.Lawful) (x : α) : isNoData T x = true ↔ IsNoData T x := by
  unfold isNoData IsNoData
  by_cases hf : T.floating = true
  · simp [hf]
  · have hf' : T.floating = false := by simpa using hf
    simp [hf', hT.integral_nan hf', hT.integral_eq hf']

theorem exported_exports {α : Type} {T : ElementType α} (hT : T.Lawful) (nd : Option α) (x : α) :
    Exports T nd x (exported T nd x) := by
  cases nd with
  | none => exact ⟨fun v h => by simp at h, fun _ => rfl⟩
  | some v =>
    show (∀ w, _ → _ → (if isNoData T x then v else x) = w) ∧ (_ → (if isNoData T x then v else x) = x)
    by_cases h : isNoData T x = true
    · rw [if_pos h]
      refine ⟨fun w hw _ => by simpa using hw, ?_⟩
      rintro (h' | h')
      · simp at h'
      · exact absurd ((isNoData_iff hT x).mp h) h'
    · rw [if_neg h]
      exact ⟨fun w _ hh => absurd ((isNoData_iff hT x).mpr hh) h, fun _ => rfl⟩

/-- The expected element is determined, but for NaNs. -/
theorem Imports.eq {α : Type} {T : ElementType α} {nd : Option α} {x y : α} (h : Imports T nd x y) :
    y = x ∨ IsNoData T y := by
  by_cases hm : Missing T nd x
  · exact Or.inr (h.1 hm)
  · exact Or.inl (h.2 hm)

theorem instantiateFromBuffer_ok {α : Type} (T : ElementType α) {buffer : List α} (nd : Option α) {g : Grid} (hg : g.Ok)
    {v : Arr α} (hb : ∀ i j, i < g.a0 → j < g.a1 → buffer[i * g.a1 + j]? = some (v i j)) {k : Nat}
    (hk : k < g.n0 * g.n1) (garbage : Nat → α) :
    ∃ data, instantiateFromBuffer T buffer nd (g.a0, g.a1) (offsetOf g k) (shapeOf g k) garbage =
        .ok ⟨offsetOf g k, shapeOf g k, data⟩ ∧ data.length = g.rows (k / g.n1) * g.cols (k % g.n1) ∧
      ∀ l0 l1, l0 < g.rows (k / g.n1) → l1 < g.cols (k % g.n1) →
        data[l0 * g.cols (k % g.n1) + l1]? = some (imported T nd (v (k / g.n1 * g.p0 + l0) (k % g.n1 * g.p1 + l1))) := by
  obtain ⟨h0, h1, -⟩ := idx_split hk
  have b0 := rows_end hg h0
  have b1 := cols_end hg h1
  generalize hr : g.rows (k / g.n1) = r at *
  generalize hc : g.cols (k % g.n1) = c at *
  generalize ho0 : k / g.n1 * g.p0 = o0 at *
  generalize ho1 : k % g.n1 * g.p1 = o1 at *
  have he : instantiateFromBuffer T buffer nd (g.a0, g.a1) (offsetOf g k) (shapeOf g k) garbage =
      instantiateFromBuffer T buffer nd (g.a0, g.a1) (o0, o1) (r, c) garbage := by
    simp only [offsetOf, shapeOf, hr, hc, ho0, ho1]
  have hos : offsetOf g k = (o0, o1) ∧ shapeOf g k = (r, c) := by
    simp only [offsetOf, shapeOf, hr, hc, ho0, ho1]; exact ⟨trivial, trivial⟩
  rw [he, hos.1, hos.2]
  obtain ⟨s, e1, e2, e3, e4⟩ := forLoop_inv (n := r)
    (body := fun idx0 (s : List α × Nat) => do
      let destination := idx0 * c
      let data ← copyN buffer s.2 c s.1 destination
      let data ← ifSet nd (fun v data => replaceN (fun x => T.eq x v) T.noData c data destination) data
      .ok (data, s.2 + g.a1))
    (fun i (s : List α × Nat) => s.2 = o0 * g.a1 + o1 + i * g.a1 ∧ s.1.length = r * c ∧
      ∀ l0 l1, l0 < i → l1 < c → s.1[l0 * c + l1]? = some (imported T nd (v (o0 + l0) (o1 + l1)))) (by
      intro i hi s ⟨g1, g2, g3⟩
      have hlt : i * c + c ≤ r * c := by
        have := Nat.mul_le_mul_right c (show i + 1 ≤ r by omega)
        rw [Nat.add_mul, Nat.one_mul] at this
        exact this
      obtain ⟨d', d, q1, q2, q3, q4, q5⟩ := row_ok (source := buffer) (destination := s.1) (from_ := s.2) (n := c)
        (to_ := i * c) (val := fun l1 => v (o0 + i) (o1 + l1)) nd (fun v x => T.eq x v) (fun _ => T.noData) (by
          intro l1 hl1
          have := hb (o0 + i) (o1 + l1) (by omega) (by omega)
          rw [← this, g1]
          congr 1
          ring) (by omega)
      refine ⟨(d, s.2 + g.a1), ?_, ?_, by simp only; omega, ?_⟩
      · simp only [q1, M.bind_ok, q2]
      · simp only [g1]; ring
      · intro l0 l1 hl0 hl1
        by_cases hli : l0 = i
        · subst hli; exact q4 l1 hl1
        · have : l0 * c + l1 < i * c := idx_lt (by omega) hl1
          rw [q5 _ (Or.inl this)]
          exact g3 l0 l1 (by omega) hl1)
    (uninitialised (r * c) garbage, o0 * g.a1 + o1) ⟨by simp, by simp [uninitialised], by omega⟩
  refine ⟨s.1, ?_, e3, fun l0 l1 hl0 hl1 => e4 l0 l1 hl0 hl1⟩
  unfold instantiateFromBuffer
  simp only [e1, M.bind_ok]

/-- Creating an array fails if the shapes don't go together (C01), or if there are more localities than partitions. -/
theorem createEach_throws {α : Type} (a p : Nat × Nat) (nrLocalities : Nat)
    (instantiate : Nat → Nat × Nat → Nat × Nat → Nat → Nat → Nat × Nat → Nat × Nat → M (Create.Part α))
    (h : ¬ (0 < p.1 ∧ 0 < p.2 ∧ p.1 ≤ a.1 ∧ p.2 ≤ a.2) ∨ a.1 / p.1 * (a.2 / p.2) < nrLocalities) :
    createEach a p nrLocalities instantiate = .error .thrown := by
  by_cases hok : 0 < p.1 ∧ 0 < p.2 ∧ p.1 ≤ a.1 ∧ p.2 ≤ a.2
  · have hlt := h.resolve_left (by simpa using hok)
    have hg : (Grid.mk a.1 a.2 p.1 p.2).Ok := ⟨hok.1, hok.2.1, hok.2.2.1, hok.2.2.2⟩
    obtain ⟨shapes, hs, _⟩ := (Grid.mk a.1 a.2 p.1 p.2).shapes_eq hg
    simp only [Grid.n0, Grid.n1] at hs
    obtain ⟨cells, hcur, hnd, hmem⟩ := curve_ok (a.1 / p.1) (a.2 / p.2)
    have hlen := curve_length hnd hmem
    rw [createEach, hs]
    simp only [orThrow, M.bind_ok, hcur]
    rw [if_pos (by omega)]
  · have : ¬ ∃ r, Decomposition.partitionShapes [a.1, a.2] [p.1, p.2] = .ok r := by
      rw [Decomposition.partitionShapes_succeeds_iff [a.1, a.2] [p.1, p.2] rfl (by simp)]
      rintro ⟨_, hp, hle⟩
      simp only [List.forall₂_cons, List.Forall₂.nil, and_true] at hle
      exact hok ⟨Nat.pos_of_ne_zero (hp _ (by simp)), Nat.pos_of_ne_zero (hp _ (by simp)), hle.1, hle.2⟩
    rw [createEach]
    cases hps : Decomposition.partitionShapes [a.1, a.2] [p.1, p.2] with
    | ok r => exact absurd ⟨r, hps⟩ this
    | error e => rfl

/-- Copying a partition into the buffer: the cells of the partition are set, no other ones are. -/
theorem copyPartition_ok {α : Type} (T : ElementType α) (nd : Option α) {a0 a1 o0 o1 r c : Nat} {data result : List α}
    {v : Arr α} (h0 : o0 + r ≤ a0) (h1 : o1 + c ≤ a1) (hl : result.length = a0 * a1)
    (hd : ∀ l0 l1, l0 < r → l1 < c → data[l0 * c + l1]? = some (v (o0 + l0) (o1 + l1))) :
    ∃ out, copyPartition T nd (a0, a1) ⟨(o0, o1), (r, c), data⟩ result = .ok out ∧ out.length = a0 * a1 ∧
      ∀ i j, i < a0 → j < a1 → out[i * a1 + j]? =
        if (o0 ≤ i ∧ i < o0 + r) ∧ o1 ≤ j ∧ j < o1 + c then some (exported T nd (v i j)) else result[i * a1 + j]? := by
  obtain ⟨s, e1, e2, e3, e4, e5⟩ := forLoop_inv (n := r)
    (body := fun _ (s : List α × Nat × Nat) => do
      let result ← copyN data s.2.1 c s.1 s.2.2
      let result ← ifSet nd (fun v result => replaceN (isNoData T) v c result s.2.2) result
      .ok (result, s.2.1 + c, s.2.2 + a1))
    (fun k (s : List α × Nat × Nat) => s.2.1 = k * c ∧ s.2.2 = (o0 + k) * a1 + o1 ∧ s.1.length = a0 * a1 ∧
      ∀ i j, i < a0 → j < a1 → s.1[i * a1 + j]? =
        if (o0 ≤ i ∧ i < o0 + k) ∧ o1 ≤ j ∧ j < o1 + c then some (exported T nd (v i j)) else result[i * a1 + j]?) (by
      intro k hk s ⟨g1, g2, g3, g4⟩
      have hlt : (o0 + k) * a1 + a1 ≤ a0 * a1 := by
        have := Nat.mul_le_mul_right a1 (show o0 + k + 1 ≤ a0 by omega)
        rw [Nat.add_mul (o0 + k), Nat.one_mul] at this
        exact this
      obtain ⟨d', d, q1, q2, q3, q4, q5⟩ := row_ok (source := data) (destination := s.1) (from_ := s.2.1) (n := c)
        (to_ := s.2.2) (val := fun l1 => v (o0 + k) (o1 + l1)) nd (fun _ x => isNoData T x) (fun v => v) (by
          intro l1 hl1
          rw [g1]; exact hd k l1 hk hl1) (by omega)
      refine ⟨(d, s.2.1 + c, s.2.2 + a1), ?_, ?_, ?_, by simp only; omega, ?_⟩
      · simp only [q1, M.bind_ok]
        rw [q2]; rfl
      · simp only [g1]; ring
      · simp only [g2]; ring
      · intro i j hi hj
        by_cases hik : i = o0 + k
        · subst hik
          by_cases hjc : o1 ≤ j ∧ j < o1 + c
          · rw [if_pos ⟨⟨by omega, by omega⟩, hjc⟩]
            have := q4 (j - o1) (by omega)
            have e1 : s.2.2 + (j - o1) = (o0 + k) * a1 + j := by omega
            have e2 : o1 + (j - o1) = j := by omega
            rw [e1] at this
            simp only [e2] at this
            exact this
          · rw [if_neg (fun h => hjc h.2), q5 _ (by omega), g4 _ _ hi hj, if_neg (fun h => hjc h.2)]
        · have hne : i * a1 + j < s.2.2 ∨ s.2.2 + c ≤ i * a1 + j := by
            rcases Nat.lt_or_gt_of_ne hik with h | h
            · left
              have := Nat.mul_le_mul_right a1 (show i + 1 ≤ o0 + k by omega)
              rw [Nat.add_mul, Nat.one_mul] at this
              omega
            · right
              have := Nat.mul_le_mul_right a1 (show o0 + k + 1 ≤ i by omega)
              rw [Nat.add_mul (o0 + k), Nat.one_mul] at this
              omega
          rw [q5 _ hne, g4 _ _ hi hj]
          have : ((o0 ≤ i ∧ i < o0 + k) ∧ o1 ≤ j ∧ j < o1 + c) ↔ ((o0 ≤ i ∧ i < o0 + (k + 1)) ∧ o1 ≤ j ∧ j < o1 + c) := by
            omega
          simp only [this])
    (result, 0, o0 * a1 + o1) ⟨by simp, by simp, hl, by
      intro i j _ _; rw [if_neg (by omega)]⟩
  refine ⟨s.1, ?_, e4, e5⟩
  unfold copyPartition
  simp only [e1, M.bind_ok]

end Lue.Numpy

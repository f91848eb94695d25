import Verif.GdalBlocks.Spec
import Mathlib.Tactic.Ring
import Mathlib.Tactic.Linarith

namespace Lue.GdalBlocks

open Lue

variable {α γ : Type}

theorem equal_iff (e : Elem α) (nv : Bool) (nd x y : α) : e.equal nv nd x y = true ↔ SameCell e nv nd x y := by
  unfold Elem.equal SameCell
  cases e.isFloat <;> cases nv <;> cases e.isNan nd <;> simp

theorem noDataEqual_iff (e : Elem α) (x y : α) : e.noDataEqual x y = true ↔ SameNoData e x y := by
  unfold Elem.noDataEqual SameNoData
  cases e.isFloat <;> simp

theorem readBlock_ok {b : Band α} {y x : Nat} {buffer : List α} (hy : y * b.blockRows < b.rows)
    (hx : x * b.blockCols < b.cols) (hb : buffer.length = b.blockRows * b.blockCols) :
    readBlock b y x buffer = .ok ((List.range (b.blockRows * b.blockCols)).map (b.element y x)) := by
  unfold readBlock
  rw [if_pos ⟨hy, hx⟩, if_pos (by omega), ← hb, List.drop_length, List.append_nil]

theorem all_zip_range (eq : α → α → Bool) (f g : Nat → α) (n : Nat) :
    ((((List.range n).map f).zip ((List.range n).map g)).all fun p => eq p.1 p.2) = true ↔ ∀ k < n, eq (f k) (g k) = true := by
  rw [List.all_eq_true]
  constructor
  · intro h k hk
    have : (f k, g k) ∈ ((List.range n).map f).zip ((List.range n).map g) := by
      rw [List.mem_iff_getElem?]
      refine ⟨k, ?_⟩
      simp [List.getElem?_zip_eq_some, hk]
    exact h _ this
  · rintro h ⟨a, b⟩ hp
    rw [List.mem_iff_getElem?] at hp
    obtain ⟨k, hk⟩ := hp
    rw [List.getElem?_zip_eq_some] at hk
    obtain ⟨h1, h2⟩ := hk
    simp only [List.getElem?_map, Option.map_eq_some_iff] at h1 h2
    obtain ⟨k1, h3, h4⟩ := h1
    obtain ⟨k2, h5, h6⟩ := h2
    rw [List.getElem?_eq_some_iff] at h3 h5
    obtain ⟨h7, h8⟩ := h3
    obtain ⟨h9, h10⟩ := h5
    simp only [List.getElem_range] at h8 h10
    subst h8; subst h10
    rw [← h4, ← h6]
    exact h k (by simpa using h7)

theorem compareElements_ok (eq : α → α → Bool) (f g : Nat → α) (m n : Nat) (hn : n ≤ m) :
    ∃ b, compareElements eq ((List.range m).map f) ((List.range m).map g) n = .ok b ∧
      (b = true ↔ ∀ k < n, eq (f k) (g k) = true) := by
  unfold compareElements
  rw [if_neg (by simp; omega)]
  refine ⟨_, rfl, ?_⟩
  have h : ∀ f : Nat → α, ((List.range m).map f).take ((n : Int).toNat) = (List.range n).map f := by
    intro f
    rw [← List.map_take, List.take_range]
    congr 2
    simp
    omega
  rw [h, h]
  exact all_zip_range eq f g n

/-- Comparing blocks with valid cells at the start -/
theorem compareBlocks_ok (eq : α → α → Bool) (b1 b2 : Band α) (blocks : Blocks) (n : Nat × Nat → Nat)
    (hb : b1.blockRows * b1.blockCols = b2.blockRows * b2.blockCols) (offs : List (Nat × Nat))
    (hv : ∀ o ∈ offs, (blocks.shapeInValidCells (o.2, o.1)).1 * (blocks.shapeInValidCells (o.2, o.1)).2 = (n o : Int) ∧
      n o ≤ b1.blockRows * b1.blockCols)
    (h1 : ∀ o ∈ offs, o.1 * b1.blockRows < b1.rows ∧ o.2 * b1.blockCols < b1.cols)
    (h2 : ∀ o ∈ offs, o.1 * b2.blockRows < b2.rows ∧ o.2 * b2.blockCols < b2.cols)
    (v1 v2 : List α) (hl1 : v1.length = b1.blockRows * b1.blockCols) (hl2 : v2.length = b1.blockRows * b1.blockCols) :
    ∃ b, compareBlocks eq b1 b2 blocks offs v1 v2 = .ok b ∧
      (b = false ↔ ∀ o ∈ offs, ∀ k < n o, eq (b1.element o.1 o.2 k) (b2.element o.1 o.2 k) = true) := by
  induction offs generalizing v1 v2 with
  | nil => exact ⟨false, rfl, by simp⟩
  | cons o offs ih =>
    obtain ⟨y, x⟩ := o
    obtain ⟨a1, a2⟩ := h1 (y, x) (by simp)
    obtain ⟨a3, a4⟩ := h2 (y, x) (by simp)
    obtain ⟨a5, a6⟩ := hv (y, x) (by simp)
    obtain ⟨s, hs1, hs2⟩ := compareElements_ok eq (b1.element y x) (b2.element y x) (b1.blockRows * b1.blockCols) (n (y, x)) a6
    obtain ⟨c, hc1, hc2⟩ := ih (fun o ho => hv o (by simp [ho])) (fun o ho => h1 o (by simp [ho]))
      (fun o ho => h2 o (by simp [ho])) ((List.range (b1.blockRows * b1.blockCols)).map (b1.element y x))
      ((List.range (b1.blockRows * b1.blockCols)).map (b2.element y x)) (by simp) (by simp)
    have hstep : compareBlocks eq b1 b2 blocks ((y, x) :: offs) v1 v2 = if s then .ok c else .ok true := by
      rw [compareBlocks]
      dsimp only at a5
      simp only [readBlock_ok a1 a2 hl1, readBlock_ok a3 a4 (hl2.trans hb), bind, Except.bind, a5]
      rw [← hb, hs1]
      simp only [hc1]
    rw [hstep]
    cases s with
    | true =>
      refine ⟨c, by simp, ?_⟩
      rw [hc2]
      simp only [List.mem_cons, forall_eq_or_imp]
      exact ⟨fun h => ⟨hs2.mp rfl, h⟩, fun h => h.2⟩
    | false =>
      refine ⟨true, by simp, ?_⟩
      simp only [List.mem_cons, forall_eq_or_imp, Bool.true_eq_false, false_iff, not_and]
      intro h
      exact absurd (hs2.mpr h) (by simp)

theorem mem_blockOffsets (s : Nat × Nat) (o : Nat × Nat) : o ∈ blockOffsets s ↔ o.1 < s.1 ∧ o.2 < s.2 := by
  obtain ⟨y, x⟩ := o
  simp [blockOffsets]

theorem extentInBlocks_mul (n b : Nat) (hb : 0 < b) : extentInBlocks (n * b) b = n := by
  unfold extentInBlocks
  rw [show n * b + b - 1 = b - 1 + b * n by rw [Nat.mul_comm n b]; omega, Nat.add_mul_div_left _ _ hb,
    Nat.div_eq_of_lt (by omega), Nat.zero_add]

theorem nrValidCells_full {full block offset : Nat} (h : (offset + 1) * block ≤ full) :
    nrValidCells full block offset = block := by
  unfold nrValidCells
  rw [if_neg (by omega)]

theorem element_cell {b : Band α} (h2 : 0 < b.blockCols) {y x k : Nat}
    (hy : (y + 1) * b.blockRows ≤ b.rows) (hx : (x + 1) * b.blockCols ≤ b.cols) (hk : k < b.blockRows * b.blockCols) :
    b.element y x k = b.cells (y * b.blockRows + k / b.blockCols) (x * b.blockCols + k % b.blockCols) := by
  unfold Band.element
  have h3 : k / b.blockCols < b.blockRows := Nat.div_lt_of_lt_mul (by rwa [Nat.mul_comm] at hk)
  have h4 : k % b.blockCols < b.blockCols := Nat.mod_lt _ h2
  rw [Nat.add_mul] at hy hx
  rw [if_pos ⟨by omega, by omega⟩]

/-- The values of bands with regular blocks are compared. -/
theorem compareValues_ok (e : Elem α) (zero : α) {b1 b2 : Band α} (nv : Bool) (nd : α) (hr : Regular b1)
    (hs : b1.rows = b2.rows ∧ b1.cols = b2.cols) (hb : b1.blockRows = b2.blockRows ∧ b1.blockCols = b2.blockCols) :
    ∃ b, compareValues e zero b1 b2 nv nd = .ok b ∧
      (b = false ↔ ∀ r < b1.rows, ∀ c < b1.cols, SameCell e nv nd (b1.cells r c) (b2.cells r c)) := by
  obtain ⟨⟨n, hrows, hcols⟩, p1, p2⟩ := hr
  have hshape : (Blocks.make (b1.rows, b1.cols) (b1.blockRows, b1.blockCols)).shapeInBlocks = (n, n) := by
    simp only [Blocks.make, gt_iff_lt, p1, p2, if_true]
    rw [hrows, hcols, extentInBlocks_mul _ _ p1, extentInBlocks_mul _ _ p2]
  have hle : ∀ (i : Nat), i < n → ∀ m, (i + 1) * m ≤ n * m := fun i hi m => Nat.mul_le_mul_right _ hi
  have hin : ∀ (i : Nat), i < n → ∀ m, 0 < m → i * m < n * m := fun i hi m hm => Nat.mul_lt_mul_of_pos_right hi hm
  have hoffs : ∀ o ∈ blockOffsets (n, n), o.1 < n ∧ o.2 < n := fun o ho => (mem_blockOffsets _ _).mp ho
  obtain ⟨b, h1, h2⟩ := compareBlocks_ok (e.equal nv nd) b1 b2 (Blocks.make (b1.rows, b1.cols) (b1.blockRows, b1.blockCols))
    (fun _ => b1.blockRows * b1.blockCols) (by rw [hb.1, hb.2]) (blockOffsets (n, n))
    (by
      intro o ho
      obtain ⟨h3, h4⟩ := hoffs o ho
      refine ⟨?_, le_refl _⟩
      simp only [Blocks.shapeInValidCells, Blocks.make]
      rw [nrValidCells_full (by rw [hrows]; exact hle _ h4 _), nrValidCells_full (by rw [hcols]; exact hle _ h3 _)]
      push_cast
      ring)
    (by
      intro o ho
      obtain ⟨h3, h4⟩ := hoffs o ho
      rw [hrows, hcols]
      exact ⟨hin _ h3 _ p1, hin _ h4 _ p2⟩)
    (by
      intro o ho
      obtain ⟨h3, h4⟩ := hoffs o ho
      rw [← hs.1, ← hs.2, hrows, hcols, ← hb.1, ← hb.2]
      exact ⟨hin _ h3 _ p1, hin _ h4 _ p2⟩)
    (List.replicate (b1.blockRows * b1.blockCols) zero) (List.replicate (b1.blockRows * b1.blockCols) zero) (by simp) (by simp)
  refine ⟨b, ?_, ?_⟩
  · unfold compareValues
    dsimp only
    rw [hshape]
    exact h1
  · rw [h2]
    have key : ∀ y < n, ∀ x < n, ∀ k < b1.blockRows * b1.blockCols,
        (e.equal nv nd (b1.element y x k) (b2.element y x k) = true ↔
          SameCell e nv nd (b1.cells (y * b1.blockRows + k / b1.blockCols) (x * b1.blockCols + k % b1.blockCols))
            (b2.cells (y * b1.blockRows + k / b1.blockCols) (x * b1.blockCols + k % b1.blockCols))) := by
      intro y hy x hx k hk
      rw [element_cell p2 (by rw [hrows]; exact hle _ hy _) (by rw [hcols]; exact hle _ hx _) hk,
        element_cell (b := b2) (by rw [← hb.2]; exact p2) (by rw [← hs.1, ← hb.1, hrows]; exact hle _ hy _)
          (by rw [← hs.2, ← hb.2, hcols]; exact hle _ hx _) (by rw [← hb.1, ← hb.2]; exact hk), equal_iff, hb.1, hb.2]
    constructor
    · intro h r hr c hc
      have h3 : r / b1.blockRows < n := Nat.div_lt_of_lt_mul (by rw [Nat.mul_comm, ← hrows]; exact hr)
      have h4 : c / b1.blockCols < n := Nat.div_lt_of_lt_mul (by rw [Nat.mul_comm, ← hcols]; exact hc)
      have h5 : r % b1.blockRows < b1.blockRows := Nat.mod_lt _ p1
      have h6 : c % b1.blockCols < b1.blockCols := Nat.mod_lt _ p2
      have hk : r % b1.blockRows * b1.blockCols + c % b1.blockCols < b1.blockRows * b1.blockCols := by
        calc r % b1.blockRows * b1.blockCols + c % b1.blockCols
            < r % b1.blockRows * b1.blockCols + b1.blockCols := by omega
          _ = (r % b1.blockRows + 1) * b1.blockCols := by ring
          _ ≤ b1.blockRows * b1.blockCols := Nat.mul_le_mul_right _ h5
      have h7 := (key _ h3 _ h4 _ hk).mp (h (r / b1.blockRows, c / b1.blockCols)
        ((mem_blockOffsets _ _).mpr ⟨h3, h4⟩) _ hk)
      have h8 : (r % b1.blockRows * b1.blockCols + c % b1.blockCols) / b1.blockCols = r % b1.blockRows := by
        rw [Nat.add_comm, Nat.add_mul_div_right _ _ p2, Nat.div_eq_of_lt h6, Nat.zero_add]
      have h9 : (r % b1.blockRows * b1.blockCols + c % b1.blockCols) % b1.blockCols = c % b1.blockCols := by
        rw [Nat.add_comm, Nat.add_mul_mod_self_right, Nat.mod_eq_of_lt h6]
      rw [h8, h9, Nat.mul_comm (r / b1.blockRows), Nat.mul_comm (c / b1.blockCols), Nat.div_add_mod, Nat.div_add_mod] at h7
      exact h7
    · intro h o ho k hk
      obtain ⟨h3, h4⟩ := hoffs o ho
      rw [key _ h3 _ h4 _ hk]
      have h5 : k / b1.blockCols < b1.blockRows := Nat.div_lt_of_lt_mul (by rwa [Nat.mul_comm] at hk)
      have h6 : k % b1.blockCols < b1.blockCols := Nat.mod_lt _ p2
      have h7 := hle _ h3 b1.blockRows
      have h8 := hle _ h4 b1.blockCols
      rw [Nat.add_mul] at h7 h8
      exact h _ (by omega) _ (by omega)

theorem note_nil (c : Bool) (d : Diff) : note c d = [] ↔ c = false := by cases c <;> simp [note]

theorem compareBands_ok (e : Elem α) (zero : α) {b1 b2 : Band α} (hr : Regular b1)
    (hb : b1.rows = b2.rows → b1.cols = b2.cols → b1.blockRows = b2.blockRows ∧ b1.blockCols = b2.blockCols) :
    ∃ ds, compareBands e zero b1 b2 = .ok ds ∧ (ds = [] ↔ SameBand e b1 b2) := by
  unfold compareBands
  by_cases hs : b1.rows = b2.rows ∧ b1.cols = b2.cols
  · obtain ⟨c, hc1, hc2⟩ := compareValues_ok e zero (b1.noDataValid && b2.noDataValid) b1.noDataValue hr hs (hb hs.1 hs.2)
    have hshape : ((b1.rows, b1.cols) == (b2.rows, b2.cols)) = true := by simp [hs.1, hs.2]
    simp only [hshape, Bool.true_and, bind, Except.bind, hc1]
    by_cases ht : b1.dataType = b2.dataType
    · have ht' : (b1.dataType == b2.dataType) = true := by simp [ht]
      simp only [ht', Bool.true_and]
      cases hv1 : b1.noDataValid <;> cases hv2 : b2.noDataValid <;>
        cases hn : e.noDataEqual b1.noDataValue b2.noDataValue <;>
        simp only [hv1, hv2, Bool.and_self, Bool.not_false, Bool.not_true, Bool.true_or, Bool.false_or,
          Bool.and_false, Bool.false_and, if_true, Bool.and_true, Bool.or_self, note] at hc2 ⊢
      all_goals
        first
        | refine ⟨_, rfl, ?_⟩
          simp only [Bool.false_eq_true, if_false, List.nil_append, List.append_nil]
          constructor
          · intro h
            first
            | (exfalso; revert h; simp; done)
            | (have h' : c = false := by cases c <;> simp_all
               refine ⟨hs, ht, by rw [hv1, hv2], ?_, ?_⟩
               · intro _
                 first
                 | exact (noDataEqual_iff e _ _).mp hn
                 | simp_all
               · rw [hv1]; exact hc2.mp h')
            | simp_all
          · intro h
            first
            | (have h' : c = false := hc2.mpr (by have := h.cells; rw [hv1] at this; exact this)
               simp [h']
               done)
            | (have := h.noDataValid; rw [hv1, hv2] at this; simp at this; done)
            | (have := (noDataEqual_iff e _ _).mpr (h.noData hv1); rw [hn] at this; simp at this; done)
    · have ht' : (b1.dataType == b2.dataType) = false := by simp [ht]
      simp only [ht', Bool.false_and, Bool.false_eq_true, if_false]
      refine ⟨_, rfl, ?_⟩
      simp only [List.append_eq_nil_iff, note_nil, Bool.not_false, Bool.true_eq_false, and_false, false_and, false_iff]
      exact fun h => ht h.dataType
  · have hshape : ((b1.rows, b1.cols) == (b2.rows, b2.cols)) = false := by
      rw [beq_eq_false_iff_ne]
      intro h
      simp only [Prod.mk.injEq] at h
      exact hs h
    simp only [hshape, Bool.false_and, Bool.false_eq_true, if_false]
    refine ⟨_, rfl, ?_⟩
    simp only [List.append_eq_nil_iff, note_nil, Bool.not_false, Bool.true_eq_false, false_and, false_iff]
    exact fun h => hs h.shape

theorem compareAll_ok (e : Elem α) (zero : α) : ∀ (l1 l2 : List (Band α)), l1.length = l2.length →
    (∀ (i : Nat) b1 b2, l1[i]? = some b1 → l2[i]? = some b2 → Regular b1 ∧
      (b1.rows = b2.rows → b1.cols = b2.cols → b1.blockRows = b2.blockRows ∧ b1.blockCols = b2.blockCols)) →
    ∃ ds, compareAll e zero true (l1.zip l2) = .ok ds ∧
      (ds = [] ↔ ∀ (i : Nat) b1 b2, l1[i]? = some b1 → l2[i]? = some b2 → SameBand e b1 b2)
  | [], [], _, _ => ⟨[], rfl, by simp⟩
  | [], _ :: _, h, _ => by simp at h
  | _ :: _, [], h, _ => by simp at h
  | b1 :: l1, b2 :: l2, h, hh => by
    obtain ⟨ds', h1, h2⟩ := compareAll_ok e zero l1 l2 (by simpa using h) fun i c1 c2 hc1 hc2 => hh (i + 1) c1 c2 hc1 hc2
    obtain ⟨hr, hb⟩ := hh 0 b1 b2 rfl rfl
    obtain ⟨ds, h3, h4⟩ := compareBands_ok e zero hr hb
    refine ⟨ds ++ ds', ?_, ?_⟩
    · simp only [List.zip_cons_cons, compareAll, if_true, h3, bind, Except.bind, h1]
    · rw [List.append_eq_nil_iff, h2, h4]
      constructor
      · rintro ⟨h5, h6⟩ i c1 c2 hc1 hc2
        cases i with
        | zero =>
          simp only [List.getElem?_cons_zero, Option.some.injEq] at hc1 hc2
          subst hc1; subst hc2
          exact h5
        | succ i => exact h6 i c1 c2 hc1 hc2
      · intro h5
        exact ⟨h5 0 b1 b2 rfl rfl, fun i c1 c2 hc1 hc2 => h5 (i + 1) c1 c2 hc1 hc2⟩

end Lue.GdalBlocks

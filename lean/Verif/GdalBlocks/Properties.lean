import Verif.GdalBlocks.Proofs

/-!
# C50: comparing GDAL rasters

* `compareRasters_iff_partial`: rasters stored in full blocks, as many in each direction: no differences are reported if and
  only if both rasters contain the same information.
* `compareRasters_metadata`: different shapes, geo-transforms, numbers of bands, and element types are always reported,
  whatever the layout.
* `strips_not_compared`, `strips_undefined`: why the first theorem is partial. The cells of a raster stored in strips (the
  default layout of many formats) aren't compared, or memory outside of buffers is accessed.
* `larger_blocks_overflow`: the blocks of the second raster are larger.
* Examples: rasters with NaNs differ from themselves, unless NaN marks no-data; blocks at the edges.
-/
namespace Lue.GdalBlocks

open Lue

variable {α γ : Type} [DecidableEq γ]

/-- Two rasters are the same if and only if no differences are reported. Missing: other layouts of blocks. -/
theorem compareRasters_iff_partial (e : Elem α) (zero : α) (supported : Nat → Bool) (r1 r2 : Raster α γ)
    (h1 : Valid supported r1) (h2 : Valid supported r2) (hr : ∀ b ∈ r1.bands, Regular b)
    (hb : r1.rows = r2.rows → r1.cols = r2.cols → ∀ (i : Nat) b1 b2, r1.bands[i]? = some b1 → r2.bands[i]? = some b2 →
      b1.blockRows = b2.blockRows ∧ b1.blockCols = b2.blockCols) :
    ∃ ds, compareRasters e zero supported (some r1) (some r2) = .ok ds ∧ (ds = [] ↔ SameRaster e r1 r2) := by
  obtain ⟨rows1, cols1, geo1, bands1⟩ := r1
  obtain ⟨rows2, cols2, geo2, bands2⟩ := r2
  obtain ⟨g1, e1, s1, t1, u1, d1⟩ := h1
  obtain ⟨g2, e2, s2, t2, u2, d2⟩ := h2
  dsimp only at *
  obtain ⟨v1, rfl⟩ := Option.isSome_iff_exists.mp g1
  obtain ⟨v2, rfl⟩ := Option.isSome_iff_exists.mp g2
  obtain ⟨b1, l1, rfl⟩ := List.exists_cons_of_ne_nil e1
  obtain ⟨b2, l2, rfl⟩ := List.exists_cons_of_ne_nil e2
  have q1 : b1.dataType = t1 := d1 b1 (by simp)
  have q2 : b2.dataType = t2 := d2 b2 (by simp)
  have hm : ∀ (l : List (Band α)) (i : Nat) b, l[i]? = some b → b ∈ l := fun l i b h => List.mem_of_getElem? h
  simp only [compareRasters, Raster.dataType, Raster.geoTransform, bind, Except.bind, q1, q2]
  by_cases hs : rows1 = rows2 ∧ cols1 = cols2
  · obtain ⟨rfl, rfl⟩ := hs
    by_cases ht : t1 = t2
    · subst ht
      by_cases hg : v1 = v2
      · subst hg
        by_cases hn : (b1 :: l1).length = (b2 :: l2).length
        · obtain ⟨ds, h3, h4⟩ := compareAll_ok e zero (b1 :: l1) (b2 :: l2) hn
            (fun i c1 c2 hc1 hc2 => ⟨hr _ (hm _ _ _ hc1), fun _ _ => hb rfl rfl i c1 c2 hc1 hc2⟩)
          have hn' : ((b1 :: l1).length == (b2 :: l2).length) = true := by simpa using hn
          simp only [BEq.rfl, Bool.true_and, hn', if_true, u1, h3, Bool.not_true, note, Bool.false_eq_true, if_false,
            List.nil_append]
          exact ⟨ds, rfl, h4.trans ⟨fun h => ⟨⟨rfl, rfl⟩, rfl, hn, h⟩, fun h => h.bands⟩⟩
        · have hn' : ((b1 :: l1).length == (b2 :: l2).length) = false := by
            rw [beq_eq_false_iff_ne]; exact hn
          simp only [hn', Bool.and_false, Bool.false_eq_true, if_false]
          refine ⟨_, rfl, ?_⟩
          simp only [List.append_eq_nil_iff, note_nil, Bool.not_false, Bool.true_eq_false, and_false, false_and, false_iff]
          exact fun h => hn h.nrBands
      · have hg' : (v1 == v2) = false := by rw [beq_eq_false_iff_ne]; exact hg
        simp only [hg', Bool.and_false, Bool.false_and, Bool.false_eq_true, if_false]
        refine ⟨_, rfl, ?_⟩
        simp only [List.append_eq_nil_iff, note_nil, Bool.not_false, Bool.true_eq_false, and_false, false_iff]
        exact fun h => hg (Option.some.inj h.geo)
    · have ht' : (t1 == t2) = false := by rw [beq_eq_false_iff_ne]; exact ht
      simp only [ht', Bool.and_false, Bool.false_and, Bool.false_eq_true, if_false]
      refine ⟨_, rfl, ?_⟩
      simp only [List.append_eq_nil_iff, note_nil, Bool.not_false, Bool.true_eq_false, and_false, false_and, false_iff]
      intro h
      have := (h.bands 0 b1 b2 rfl rfl).dataType
      rw [q1, q2] at this
      exact ht this
  · have hs' : ((rows1, cols1) == (rows2, cols2)) = false := by
      rw [beq_eq_false_iff_ne]
      intro h
      simp only [Prod.mk.injEq] at h
      exact hs h
    simp only [hs', Bool.false_and, Bool.false_eq_true, if_false]
    refine ⟨_, rfl, ?_⟩
    simp only [List.append_eq_nil_iff, note_nil, Bool.not_false, Bool.true_eq_false, false_and, false_iff]
    exact fun h => hs h.shape

/-- Comparing with a raster that doesn't exist is reported. -/
theorem compareRasters_missing (e : Elem α) (zero : α) (supported : Nat → Bool) (r1 r2 : Option (Raster α γ))
    (h : r1 = none ∨ r2 = none) : compareRasters e zero supported r1 r2 = .ok [.missing] := by
  rcases h with rfl | rfl
  · rfl
  · cases r1 <;> rfl

/-- Differences in the shape, the geo-transform, the number of bands and the type of the elements are reported, each one
of them, whatever the layout of the bands. -/
theorem compareRasters_metadata (e : Elem α) (zero : α) (supported : Nat → Bool) (r1 r2 : Raster α γ)
    (h1 : Valid supported r1) (h2 : Valid supported r2)
    (hd : ¬ ((r1.rows = r2.rows ∧ r1.cols = r2.cols) ∧ r1.geo = r2.geo ∧ r1.bands.length = r2.bands.length ∧
      ∀ b1 ∈ r1.bands, ∀ b2 ∈ r2.bands, b1.dataType = b2.dataType)) :
    ∃ ds, compareRasters e zero supported (some r1) (some r2) = .ok ds ∧ ds ≠ [] ∧
      (.shape ∈ ds ↔ ¬ (r1.rows = r2.rows ∧ r1.cols = r2.cols)) ∧ (.geoTransform ∈ ds ↔ r1.geo ≠ r2.geo) ∧
      (.nrBands ∈ ds ↔ r1.bands.length ≠ r2.bands.length) ∧
      (.dataType ∈ ds ↔ ¬ ∀ b1 ∈ r1.bands, ∀ b2 ∈ r2.bands, b1.dataType = b2.dataType) ∧ .values ∉ ds := by
  obtain ⟨rows1, cols1, geo1, bands1⟩ := r1
  obtain ⟨rows2, cols2, geo2, bands2⟩ := r2
  obtain ⟨g1, e1, s1, t1, u1, d1⟩ := h1
  obtain ⟨g2, e2, s2, t2, u2, d2⟩ := h2
  dsimp only at *
  obtain ⟨v1, rfl⟩ := Option.isSome_iff_exists.mp g1
  obtain ⟨v2, rfl⟩ := Option.isSome_iff_exists.mp g2
  obtain ⟨b1, l1, rfl⟩ := List.exists_cons_of_ne_nil e1
  obtain ⟨b2, l2, rfl⟩ := List.exists_cons_of_ne_nil e2
  have q1 : b1.dataType = t1 := d1 b1 (by simp)
  have q2 : b2.dataType = t2 := d2 b2 (by simp)
  have ht : (∀ c1 ∈ b1 :: l1, ∀ c2 ∈ b2 :: l2, c1.dataType = c2.dataType) ↔ t1 = t2 := by
    constructor
    · intro h; rw [← q1, ← q2]; exact h b1 (by simp) b2 (by simp)
    · intro h c1 hc1 c2 hc2; rw [d1 c1 hc1, d2 c2 hc2, h]
  rw [ht] at hd ⊢
  have hs : ((rows1, cols1) == (rows2, cols2)) = decide (rows1 = rows2 ∧ cols1 = cols2) := by
    rw [Bool.eq_iff_iff]; simp
  have hg : (some v1 = some v2) ↔ v1 = v2 := by simp
  rw [hg] at hd
  simp only [compareRasters, Raster.dataType, Raster.geoTransform, bind, Except.bind, q1, q2, hs]
  have hc : (decide (rows1 = rows2 ∧ cols1 = cols2) && t1 == t2 && v1 == v2 &&
      (b1 :: l1).length == (b2 :: l2).length) = false := by
    rw [Bool.eq_false_iff]
    intro h
    simp only [Bool.and_eq_true, decide_eq_true_eq, beq_iff_eq] at h
    exact hd ⟨h.1.1.1, h.1.2, h.2, h.1.1.2⟩
  rw [hc]
  refine ⟨_, rfl, ?_⟩
  have hnote : ∀ (c : Bool) (d d' : Diff), d ∈ note c d' ↔ c = true ∧ d = d' := by
    intro c d d'; cases c <;> simp [note]
  simp only [List.mem_append, hnote, ne_eq, hg]
  refine ⟨?_, ?_, ?_, ?_, ?_, ?_⟩
  · intro h
    simp only [List.append_eq_nil_iff, note_nil, Bool.not_eq_false, decide_eq_true_eq, beq_iff_eq,
      Bool.not_eq_eq_eq_not, Bool.not_false] at h
    exact hd ⟨h.1.1.1, h.2, h.1.2, h.1.1.2⟩
  · simp only [Bool.not_eq_true', decide_eq_false_iff_not]; simp
  all_goals simp

/-! ### Layouts of which the cells aren't compared -/

/-- A raster with a single band -/
def single (b : Band α) (g : γ) : Raster α γ := ⟨b.rows, b.cols, some g, [b]⟩

theorem single_compare (e : Elem α) (zero : α) (supported : Nat → Bool) (b1 b2 : Band α) (g : γ)
    (hs : b1.rows = b2.rows ∧ b1.cols = b2.cols) (ht : b1.dataType = b2.dataType) (hu : supported b1.dataType = true)
    (hn : b1.noDataValid = false ∧ b2.noDataValid = false) :
    compareRasters e zero supported (some (single b1 g)) (some (single b2 g)) = (do
      let different ← compareValues e zero b1 b2 false b1.noDataValue
      .ok (note different .values)) := by
  have hshape : ((b1.rows, b1.cols) == (b2.rows, b2.cols)) = true := by simp [hs.1, hs.2]
  have ht' : (b1.dataType == b2.dataType) = true := by simp [ht]
  simp only [compareRasters, single, Raster.dataType, Raster.geoTransform, bind, Except.bind, hshape, ht', BEq.rfl, hu,
    List.zip_cons_cons, List.zip_nil_right, compareAll, if_true, compareBands, hn.1, hn.2, Bool.and_self, Bool.not_false,
    Bool.true_or, Bool.or_true, Bool.not_true, note, Bool.false_eq_true, if_false, List.nil_append, Bool.false_and,
    List.length_cons, List.length_nil]
  cases compareValues e zero b1 b2 false b1.noDataValue <;> simp

/-- A band of which the blocks are strips: blocks contain whole rows. -/
structure Strips (b : Band α) : Prop where
  blockCols : b.blockCols = b.cols
  posRows : 0 < b.blockRows
  posCols : 0 < b.cols

theorem strips_shape {b : Band α} (h : Strips b) :
    (Blocks.make (b.rows, b.cols) (b.blockRows, b.blockCols)).shapeInBlocks = (extentInBlocks b.rows b.blockRows, 1) := by
  have h1 := h.posRows
  have h2 := h.posCols
  have h3 := h.blockCols
  simp only [Blocks.make, gt_iff_lt, h1, if_true, h3, h2]
  have := extentInBlocks_mul 1 b.cols h2
  rw [Nat.one_mul] at this
  rw [this]

theorem blockOffsets_strips (n : Nat) : blockOffsets (n, 1) = (List.range n).map fun y => (y, 0) := by
  simp [blockOffsets, List.flatMap_def]
  rw [← List.flatMap_def]
  induction n with
  | zero => rfl
  | succ n ih => simp [List.range_succ, ih]

theorem compareBlocks_append (eq : α → α → Bool) (b1 b2 : Band α) (blocks : Blocks) (o : Nat × Nat)
    (rest : List (Nat × Nat)) (v1 v2 : List α) (m : Int)
    (hb : b1.blockRows * b1.blockCols = b2.blockRows * b2.blockCols)
    (hv : (blocks.shapeInValidCells (o.2, o.1)).1 * (blocks.shapeInValidCells (o.2, o.1)).2 = m)
    (h1 : o.1 * b1.blockRows < b1.rows ∧ o.2 * b1.blockCols < b1.cols)
    (h2 : o.1 * b2.blockRows < b2.rows ∧ o.2 * b2.blockCols < b2.cols)
    (hl1 : v1.length = b1.blockRows * b1.blockCols) (hl2 : v2.length = b1.blockRows * b1.blockCols) :
    compareBlocks eq b1 b2 blocks (o :: rest) v1 v2 = (do
      let same ← compareElements eq ((List.range (b1.blockRows * b1.blockCols)).map (b1.element o.1 o.2))
        ((List.range (b1.blockRows * b1.blockCols)).map (b2.element o.1 o.2)) m
      if same then
        compareBlocks eq b1 b2 blocks rest ((List.range (b1.blockRows * b1.blockCols)).map (b1.element o.1 o.2))
          ((List.range (b1.blockRows * b1.blockCols)).map (b2.element o.1 o.2))
      else .ok true) := by
  obtain ⟨y, x⟩ := o
  rw [compareBlocks]
  dsimp only at hv h1 h2
  simp only [readBlock_ok h1.1 h1.2 hl1, readBlock_ok h2.1 h2.2 (hl2.trans hb), bind, Except.bind, hv, ← hb]

/-- A raster of two strips: no differences are reported as soon as the rows of the first strip are the same. The rows in the
second strip aren't compared. -/
theorem strips_not_compared (e : Elem α) (zero : α) (supported : Nat → Bool) (b1 b2 : Band α) (g : γ)
    (hs : b1.rows = b2.rows ∧ b1.cols = b2.cols) (ht : b1.dataType = b2.dataType) (hu : supported b1.dataType = true)
    (hn : b1.noDataValid = false ∧ b2.noDataValid = false) (hs1 : Strips b1)
    (hb : b1.blockRows = b2.blockRows ∧ b1.blockCols = b2.blockCols)
    (hrows : b1.blockRows < b1.rows ∧ b1.rows ≤ 2 * b1.blockRows)
    (heq : ∀ r < b1.blockRows, ∀ c < b1.cols, e.eq (b1.cells r c) (b2.cells r c) = true) :
    compareRasters e zero supported (some (single b1 g)) (some (single b2 g)) = .ok [] := by
  rw [single_compare e zero supported b1 b2 g hs ht hu hn]
  have p1 := hs1.posRows
  have p2 := hs1.posCols
  have p3 := hs1.blockCols
  have hext : extentInBlocks b1.rows b1.blockRows = 2 := by
    unfold extentInBlocks
    have : b1.rows + b1.blockRows - 1 = b1.rows - b1.blockRows - 1 + b1.blockRows * 2 := by omega
    rw [this, Nat.add_mul_div_left _ _ p1, Nat.div_eq_of_lt (by omega)]
  obtain ⟨d, h1, h2⟩ := compareBlocks_ok (e.equal false b1.noDataValue) b1 b2
    (Blocks.make (b1.rows, b1.cols) (b1.blockRows, b1.blockCols))
    (fun o => if o.1 = 0 then b1.blockRows * b1.blockCols else 0) (by rw [hb.1, hb.2]) [(0, 0), (1, 0)]
    (by
      intro o ho
      simp only [List.mem_cons, List.not_mem_nil, or_false] at ho
      rcases ho with rfl | rfl
      · simp only [Blocks.shapeInValidCells, Blocks.make, if_true, le_refl, and_true]
        rw [nrValidCells_full (by omega), nrValidCells_full (by omega)]
        push_cast; ring
      · simp only [Blocks.shapeInValidCells, Blocks.make]
        rw [nrValidCells_full (by omega : (0 + 1) * b1.blockRows ≤ b1.rows)]
        simp [nrValidCells, p3, p2])
    (by
      intro o ho
      simp only [List.mem_cons, List.not_mem_nil, or_false] at ho
      rcases ho with rfl | rfl <;> refine ⟨?_, ?_⟩ <;> dsimp only <;> omega)
    (by
      intro o ho
      simp only [List.mem_cons, List.not_mem_nil, or_false] at ho
      rw [← hs.1, ← hs.2, ← hb.1, ← hb.2]
      rcases ho with rfl | rfl <;> refine ⟨?_, ?_⟩ <;> dsimp only <;> omega)
    (List.replicate (b1.blockRows * b1.blockCols) zero) (List.replicate (b1.blockRows * b1.blockCols) zero) (by simp) (by simp)
  have hd : d = false := by
    apply h2.mpr
    intro o ho k hk
    simp only [List.mem_cons, List.not_mem_nil, or_false] at ho
    rcases ho with rfl | rfl
    · simp only [if_true] at hk
      dsimp only
      rw [element_cell (by omega) (by omega) (by omega) hk,
        element_cell (b := b2) (by rw [← hb.2]; omega) (by rw [← hs.1, ← hb.1]; omega) (by rw [← hs.2, ← hb.2]; omega)
          (by rw [← hb.1, ← hb.2]; exact hk), equal_iff, ← hb.1, ← hb.2]
      right
      have h3 : k / b1.blockCols < b1.blockRows := Nat.div_lt_of_lt_mul (by rwa [Nat.mul_comm] at hk)
      have h4 : k % b1.blockCols < b1.blockCols := Nat.mod_lt _ (by omega)
      rw [Nat.zero_mul, Nat.zero_mul, Nat.zero_add, Nat.zero_add]
      exact heq _ h3 _ (by omega)
    · simp at hk
  unfold compareValues
  dsimp only
  rw [strips_shape hs1, hext, blockOffsets_strips]
  show (do let different ← compareBlocks _ b1 b2 _ [(0, 0), (1, 0)] _ _; _) = _
  rw [h1, hd]
  rfl

/-- A raster of three or more strips: if the rows in the first strip are the same, a negative number of elements is
compared. -/
theorem strips_undefined (e : Elem α) (zero : α) (supported : Nat → Bool) (b1 b2 : Band α) (g : γ)
    (hs : b1.rows = b2.rows ∧ b1.cols = b2.cols) (ht : b1.dataType = b2.dataType) (hu : supported b1.dataType = true)
    (hn : b1.noDataValid = false ∧ b2.noDataValid = false) (hs1 : Strips b1)
    (hb : b1.blockRows = b2.blockRows ∧ b1.blockCols = b2.blockCols)
    (hrows : 2 * b1.blockRows < b1.rows)
    (heq : ∀ r < b1.blockRows, ∀ c < b1.cols, e.eq (b1.cells r c) (b2.cells r c) = true) :
    compareRasters e zero supported (some (single b1 g)) (some (single b2 g)) = .error .outOfBounds := by
  rw [single_compare e zero supported b1 b2 g hs ht hu hn]
  have p1 := hs1.posRows
  have p2 := hs1.posCols
  have p3 := hs1.blockCols
  have hext : 3 ≤ extentInBlocks b1.rows b1.blockRows := by
    unfold extentInBlocks
    rw [Nat.le_div_iff_mul_le p1]
    omega
  obtain ⟨n, hn'⟩ := Nat.exists_eq_add_of_le hext
  have hoffs : blockOffsets (extentInBlocks b1.rows b1.blockRows, 1) =
      (0, 0) :: (1, 0) :: (2, 0) :: (List.range n).map fun y => (y + 3, 0) := by
    rw [blockOffsets_strips, hn', List.range_add]
    simp [List.range_succ]
    intro a _
    omega
  have hbb : b1.blockRows * b1.blockCols = b2.blockRows * b2.blockCols := by rw [hb.1, hb.2]
  have hsame : ∀ (m : Nat) (y : Nat), (∀ k < m, e.equal false b1.noDataValue (b1.element y 0 k) (b2.element y 0 k) = true) →
      m ≤ b1.blockRows * b1.blockCols →
      compareElements (e.equal false b1.noDataValue) ((List.range (b1.blockRows * b1.blockCols)).map (b1.element y 0))
        ((List.range (b1.blockRows * b1.blockCols)).map (b2.element y 0)) m = .ok true := by
    intro m y hk hm
    obtain ⟨s, h1, h2⟩ := compareElements_ok (e.equal false b1.noDataValue) (b1.element y 0) (b2.element y 0) _ m hm
    rw [h1, h2.mpr hk]
  unfold compareValues
  dsimp only
  rw [strips_shape hs1, hoffs]
  rw [compareBlocks_append _ _ _ _ _ _ _ _ ((b1.blockRows * b1.blockCols : Nat) : Int) hbb]
  · dsimp only
    rw [hsame _ 0 _ (le_refl _)]
    · simp only [bind, Except.bind, if_true]
      rw [compareBlocks_append _ _ _ _ _ _ _ _ ((0 : Nat) : Int) hbb]
      · dsimp only
        rw [hsame 0 1 (by simp) (by simp)]
        simp only [bind, Except.bind, if_true]
        rw [compareBlocks_append _ _ _ _ _ _ _ _ (-((b1.blockRows * b1.blockCols : Nat) : Int)) hbb]
        · dsimp only
          unfold compareElements
          rw [if_pos]
          · rfl
          · left
            have : 0 < b1.blockRows * b1.blockCols := Nat.mul_pos p1 (by omega)
            omega
        · simp only [Blocks.shapeInValidCells, Blocks.make]
          rw [nrValidCells_full (by omega : (0 + 1) * b1.blockRows ≤ b1.rows)]
          unfold nrValidCells
          rw [if_pos (by omega), p3]
          push_cast; ring
        · refine ⟨?_, ?_⟩ <;> dsimp only <;> omega
        · rw [← hs.1, ← hs.2, ← hb.1, ← hb.2]
          refine ⟨?_, ?_⟩ <;> dsimp only <;> omega
        · simp
        · simp
      · simp only [Blocks.shapeInValidCells, Blocks.make]
        rw [nrValidCells_full (by omega : (0 + 1) * b1.blockRows ≤ b1.rows)]
        simp [nrValidCells, p3, p2]
      · refine ⟨?_, ?_⟩ <;> dsimp only <;> omega
      · rw [← hs.1, ← hs.2, ← hb.1, ← hb.2]
        refine ⟨?_, ?_⟩ <;> dsimp only <;> omega
      · simp
      · simp
    · intro k hk
      rw [element_cell (by omega) (by omega) (by omega) hk,
        element_cell (b := b2) (by rw [← hb.2]; omega) (by rw [← hs.1, ← hb.1]; omega) (by rw [← hs.2, ← hb.2]; omega)
          (by rw [← hb.1, ← hb.2]; exact hk), equal_iff, ← hb.1, ← hb.2]
      right
      have h3 : k / b1.blockCols < b1.blockRows := Nat.div_lt_of_lt_mul (by rwa [Nat.mul_comm] at hk)
      have h4 : k % b1.blockCols < b1.blockCols := Nat.mod_lt _ (by omega)
      rw [Nat.zero_mul, Nat.zero_mul, Nat.zero_add, Nat.zero_add]
      exact heq _ h3 _ (by omega)
  · simp only [Blocks.shapeInValidCells, Blocks.make]
    rw [nrValidCells_full (by omega), nrValidCells_full (by omega)]
    push_cast; ring
  · refine ⟨?_, ?_⟩ <;> dsimp only <;> omega
  · rw [← hs.1, ← hs.2, ← hb.1, ← hb.2]
    refine ⟨?_, ?_⟩ <;> dsimp only <;> omega
  · simp
  · simp

/-- Blocks of the other raster that are larger: more elements are read than there is room for. -/
theorem larger_blocks_overflow (e : Elem α) (zero : α) (supported : Nat → Bool) (b1 b2 : Band α) (g : γ)
    (hs : b1.rows = b2.rows ∧ b1.cols = b2.cols) (ht : b1.dataType = b2.dataType) (hu : supported b1.dataType = true)
    (hn : b1.noDataValid = false ∧ b2.noDataValid = false) (hpos : 0 < b1.rows ∧ 0 < b1.cols ∧ 0 < b1.blockRows ∧ 0 < b1.blockCols)
    (hb : b1.blockRows * b1.blockCols < b2.blockRows * b2.blockCols) :
    compareRasters e zero supported (some (single b1 g)) (some (single b2 g)) = .error .outOfBounds := by
  rw [single_compare e zero supported b1 b2 g hs ht hu hn]
  obtain ⟨p1, p2, p3, p4⟩ := hpos
  have hext : ∀ a b : Nat, 0 < a → 0 < b → ∃ n, extentInBlocks a b = n + 1 := by
    intro a b ha hb
    have : 1 ≤ extentInBlocks a b := by
      unfold extentInBlocks
      rw [Nat.le_div_iff_mul_le hb]
      omega
    exact ⟨extentInBlocks a b - 1, by omega⟩
  obtain ⟨n, hn1⟩ := hext _ _ p1 p3
  obtain ⟨m, hm1⟩ := hext _ _ p2 p4
  have hoffs : ∃ l, blockOffsets (Blocks.make (b1.rows, b1.cols) (b1.blockRows, b1.blockCols)).shapeInBlocks = (0, 0) :: l := by
    simp only [Blocks.make, gt_iff_lt, p3, p4, if_true, hn1, hm1, blockOffsets, List.range_succ_eq_map, List.flatMap_cons,
      List.map_cons, List.cons_append]
    exact ⟨_, rfl⟩
  obtain ⟨l, hl⟩ := hoffs
  unfold compareValues
  dsimp only
  rw [hl, compareBlocks, readBlock_ok (by omega) (by omega) (by simp)]
  simp only [bind, Except.bind, readBlock]
  rw [if_pos ⟨by omega, by omega⟩, if_neg (by simpa using hb)]

/-! ### Examples -/

section Examples

/-- Integers -/
def intElem : Elem Int := ⟨false, fun x y => x == y, fun _ => false⟩

/-- A value or a NaN, as in floating point values -/
def floatElem : Elem (Option Int) := ⟨true, fun x y => x.isSome && y.isSome && x == y, fun x => x.isNone⟩

/-- A 4×4 raster in 2×2 blocks -/
def exBand (f : Nat → Nat → Int) : Band Int := ⟨4, 4, 2, 2, 5, true, -1, f, fun _ _ _ => 0⟩

def exRaster (f : Nat → Nat → Int) : Raster Int (List Int) := ⟨4, 4, some [0, 1, 0, 0, 0, -1], [exBand f]⟩

theorem exRaster_valid (f : Nat → Nat → Int) : Valid (fun t => t == 5) (exRaster f) :=
  ⟨rfl, by simp [exRaster], by simp [exRaster, exBand], 5, rfl, by simp [exRaster, exBand]⟩

theorem exRaster_regular (f : Nat → Nat → Int) : ∀ b ∈ (exRaster f).bands, Regular b := by
  intro b hb
  simp only [exRaster, List.mem_singleton] at hb
  subst hb
  exact ⟨⟨2, rfl, rfl⟩, by simp [exBand], by simp [exBand]⟩

example : ∃ ds, compareRasters intElem 0 (fun t => t == 5) (some (exRaster fun r c => 4 * r + c))
    (some (exRaster fun r c => r + c)) = .ok ds ∧
    (ds = [] ↔ SameRaster intElem (exRaster fun r c => 4 * r + c) (exRaster fun r c => r + c)) :=
  compareRasters_iff_partial intElem 0 _ _ _ (exRaster_valid _) (exRaster_valid _) (exRaster_regular _) (by
    intro _ _ i b1 b2 h1 h2
    cases i with
    | zero =>
      simp only [exRaster, List.getElem?_cons_zero, Option.some.injEq] at h1 h2
      subst h1; subst h2
      exact ⟨rfl, rfl⟩
    | succ i => simp [exRaster] at h1)

example : compareRasters intElem 0 (fun t => t == 5) (some (exRaster fun r c => 4 * r + c))
    (some (exRaster fun r c => 4 * r + c)) = .ok [] := by decide

example : compareRasters intElem 0 (fun t => t == 5) (some (exRaster fun r c => 4 * r + c))
    (some (exRaster fun r c => if r = 3 ∧ c = 3 then 9 else 4 * r + c)) = .ok [.values] := by decide

/-- A 4×2 raster in strips of `n` rows -/
def exStrips (n : Nat) (f : Nat → Nat → Int) : Band Int := ⟨4, 2, n, 2, 5, false, 0, f, fun _ _ _ => 0⟩

/-- Two strips: no differences reported, although cells differ -/
example : compareRasters intElem 0 (fun t => t == 5) (some (single (exStrips 2 fun _ _ => 1) ([] : List Int)))
    (some (single (exStrips 2 fun r _ => if r < 2 then 1 else 7) [])) = .ok [] :=
  strips_not_compared _ _ _ _ _ _ ⟨rfl, rfl⟩ rfl rfl ⟨rfl, rfl⟩ ⟨rfl, by decide, by decide⟩ ⟨rfl, rfl⟩ (by decide) (by decide)

/-- One row per strip, comparing a raster with itself -/
example : compareRasters intElem 0 (fun t => t == 5) (some (single (exStrips 1 fun _ _ => 1) ([] : List Int)))
    (some (single (exStrips 1 fun _ _ => 1) [])) = .error .outOfBounds :=
  strips_undefined _ _ _ _ _ _ ⟨rfl, rfl⟩ rfl rfl ⟨rfl, rfl⟩ ⟨rfl, by decide, by decide⟩ ⟨rfl, rfl⟩ (by decide) (by decide)

example : compareRasters intElem 0 (fun t => t == 5) (some (single (exStrips 1 fun _ _ => 1) ([] : List Int)))
    (some (single (exStrips 2 fun _ _ => 1) [])) = .error .outOfBounds :=
  larger_blocks_overflow _ _ _ _ _ _ ⟨rfl, rfl⟩ rfl rfl ⟨rfl, rfl⟩ (by decide) (by decide)

/-- A 3×3 raster in 2×2 blocks -/
def exEdge (f : Nat → Nat → Int) (p : Int) : Band Int := ⟨3, 3, 2, 2, 5, false, 0, f, fun _ _ _ => p⟩

/-- The cells at the right aren't all compared … -/
example : compareRasters intElem 0 (fun t => t == 5) (some (single (exEdge (fun _ _ => 1) 0) ([] : List Int)))
    (some (single (exEdge (fun r c => if r = 1 ∧ c = 2 then 5 else 1) 0) [])) = .ok [] := by decide

/-- … but elements that aren't cells are. -/
example : compareRasters intElem 0 (fun t => t == 5) (some (single (exEdge (fun _ _ => 1) 0) ([] : List Int)))
    (some (single (exEdge (fun _ _ => 1) 3) [])) = .ok [.values] := by decide

/-- A raster with a NaN in a cell, and a no-data value which isn't a NaN, differs from itself. -/
example : compareRasters floatElem (some 0) (fun t => t == 5)
    (some (single ⟨2, 2, 2, 2, 5, true, some (-1), fun r c => if r = c then none else some 1, fun _ _ _ => none⟩ ([] : List Int)))
    (some (single ⟨2, 2, 2, 2, 5, true, some (-1), fun r c => if r = c then none else some 1, fun _ _ _ => none⟩ [])) =
    .ok [.values] := by decide

/-- If NaN marks no-data it doesn't. -/
example : compareRasters floatElem (some 0) (fun t => t == 5)
    (some (single ⟨2, 2, 2, 2, 5, true, none, fun r c => if r = c then none else some 1, fun _ _ _ => none⟩ ([] : List Int)))
    (some (single ⟨2, 2, 2, 2, 5, true, none, fun r c => if r = c then none else some 1, fun _ _ _ => none⟩ [])) =
    .ok [] := by decide

end Examples

end Lue.GdalBlocks

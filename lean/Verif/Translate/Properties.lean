import Verif.Translate.Proofs
import Mathlib.Tactic.FieldSimp
import Mathlib.Tactic.NormNum
import Mathlib.Algebra.Order.Ring.Rat
import Mathlib.Algebra.Field.Rat

/-!
# C51: translating rasters between GDAL and LUE formats

* `import_ok_partial`: importing a raster of which the bands are stored as a single block.
* `export_ok_partial`: exporting a layer to a raster stored as a single block.
* `roundtrip_partial`: importing a raster and exporting the first layer results in the same raster.
* `import_strips_lost`, `import_strips_fails`, `export_strips_lost`: why these theorems are partial. Cells are lost or the
  import fails if a raster is stored in strips.
-/
namespace Lue.Translate

open Lue Lue.DataModel Lue.LueIO Lue.RasterView Lue.GdalBlocks Lue.Index

variable {α τ κ : Type} [Field κ] [LinearOrder κ]

/-- Reading all cells of a layer -/
def readAll {β : Type} (zero : α) (d : File α β τ) (v : View β τ) (n : Name) : M (List α) :=
  readLayer d v n (.ofShape v.grid) (List.replicate (nrElements v.grid) zero)

/-- The contents of a dataset after importing a raster in a new property set: a raster with the box in space of the raster
imported and a layer for each band. Other property sets do not change. The dataset can be used as any other (C49): it is the
result of a history of operations on raster views. -/
structure Imported (zero : α) (ops : List (Op α (Box κ) τ)) (p s : Name) (names : List Name) (rows cols : Nat) (box : Box κ)
    (layers : List (List α)) (d : File α (Box κ) τ) : Prop where
  view : ∃ w, openView d .constant p s = .ok w ∧ w.kind = .constant ∧ w.phenomenon = p ∧ w.propertySet = s ∧ w.box = box ∧
    w.grid = [rows, cols] ∧ (∀ n, n ∈ w.layers ↔ n ∈ names) ∧
    ∀ (i : Nat) n xs, names[i]? = some n → layers[i]? = some xs → readAll zero d w n = .ok xs
  others : ∀ p' s', (p', s') ≠ (p, s) → d.pset p' s' = (after zero ops).1.pset p' s'
  history : ∃ ops' : List (Op α (Box κ) τ), (∀ o ∈ ops', o.Ok) ∧ (after zero (ops ++ ops')).1 = d

theorem toOption_some {χ : Type} {x : M χ} {y : χ} (h : x.toOption = some y) : x = .ok y := by
  cases x with
  | error e => cases h
  | ok z => cases h; rfl

theorem imported_names (zero : α) (ns : List Name) (bs : List (Band α)) (h : ns.length ≤ bs.length) :
    (imported zero ns bs).map Prod.fst = ns := by
  unfold imported
  rw [List.map_map]
  have : (Prod.fst ∘ fun e : Name × Band α => (e.1, contents zero e.2)) = Prod.fst := rfl
  rw [this, List.map_fst_zip h]

/-- The state of a dataset in which a raster has been imported -/
theorem importing_view (zero : α) {d : File α (Box κ) τ} {a : Rasters α (Box κ) τ} (hrep : Rep d a)
    {v : View (Box κ) τ} {done : List (Name × List α)} (him : Importing a v done) {r' : RasterView.Raster α (Box κ) τ}
    (hr' : a.raster v.phenomenon v.propertySet = some r') {rows cols : Nat} (hg : v.grid = [rows, cols])
    (hgrid : r'.grid = (rows, cols)) {ids : List Nat} {id : Nat} {is : List Nat} (hids : a.ids v.phenomenon = some ids)
    (hid : ids = id :: is) :
    ∃ w, openView d .constant v.phenomenon v.propertySet = .ok w ∧ w.kind = .constant ∧ w.phenomenon = v.phenomenon ∧
      w.propertySet = v.propertySet ∧ w.box = r'.box ∧ w.grid = [rows, cols] ∧ (∀ n, n ∈ w.layers ↔ n ∈ done.map Prod.fst) ∧
      ∀ e ∈ done, readAll zero d w e.1 = .ok e.2 := by
  obtain ⟨r, h1, h2, h3, h4, h5, h6⟩ := him.raster
  rw [hr'] at h1
  cases h1
  have hview : a.view .constant v.phenomenon v.propertySet =
      some ⟨.constant, v.phenomenon, v.propertySet, id, r'.box, [r'.grid.1, r'.grid.2], none,
        RasterView.names (r'.layers .constant)⟩ := by
    simp [Rasters.view, hr', hids, hid]
  have hopen := toOption_some ((openView_eq hrep .constant v.phenomenon v.propertySet).trans hview)
  have hmem : ∀ n, n ∈ RasterView.names (r'.layers .constant) ↔ n ∈ done.map Prod.fst := by
    intro n
    rw [mem_names]
    constructor
    · intro hh
      by_contra hc
      rw [h5 n hc] at hh
      cases hh
    · intro hh
      obtain ⟨e, he, rfl⟩ := List.mem_map.mp hh
      obtain ⟨y, hy, _⟩ := h6 e he
      rw [hy]; rfl
  refine ⟨_, hopen, rfl, rfl, rfl, rfl, by rw [hgrid], hmem, ?_⟩
  intro e he
  obtain ⟨y, hy1, hy2⟩ := h6 e he
  have hvr := view_rep hrep hview
  have hl := layer_eq hrep hvr e.1
  have hl' : a.layer ⟨.constant, v.phenomenon, v.propertySet, id, r'.box, [r'.grid.1, r'.grid.2], none,
      RasterView.names (r'.layers .constant)⟩ e.1 = some y := by
    unfold Rasters.layer
    rw [if_pos ((hmem e.1).mpr (List.mem_map_of_mem he))]
    show (a.raster v.phenomenon v.propertySet).bind _ = _
    rw [hr']
    exact hy1
  rw [hl'] at hl
  unfold readAll readLayer
  rw [toOption_some hl]
  simp only [bind, Except.bind]
  rw [hg] at hy2
  have := holdsArray_read hy2 (buffer := List.replicate (nrElements [rows, cols]) zero) (by simp)
  rw [hy2.shape_eq] at this
  rw [hgrid]
  exact this

section

variable [IsStrictOrderedRing κ]

/-- Importing a raster of which the bands are not larger than 10 blocks in each direction. The layers contain the elements of
the first block, followed by zeros. -/
theorem import_contents (zero : α) {ops : List (Op α (Box κ) τ)} (ho : ∀ o ∈ ops, o.Ok)
    (p s : Name) (hnew : (after zero ops).1.pset p s = none) (names : List Name) (hnames : names.Nodup)
    (r : GdalRaster α κ) (g : GeoTransform κ) (hr : Importable r g) (hlen : names.length ≤ r.bands.length)
    (hb : ∀ b ∈ r.bands, OneBlock b) :
    ∃ d', importRaster zero (after zero ops).1 p s names r = .ok d' ∧
      Imported zero ops p s names r.rows r.cols
        ⟨g.west, g.north + r.rows * g.cellHeight, g.west + r.cols * g.cellWidth, g.north⟩ (r.bands.map (contents zero)) d' := by
  obtain ⟨d', v, ops', a, h1, h2, h3, h4, h5, h6, ⟨r', h7, h8, h9⟩, h10, h11⟩ :=
    importRaster_step zero ho p s hnew names hnames r g hr hlen hb
  simp only [Prod.mk.injEq] at h5
  obtain ⟨rfl, rfl, e3, e4⟩ := h5
  obtain ⟨id, is, hids⟩ : ∃ id is, idsWith (((after zero ops).1.phenomena v.phenomenon).map Phenomenon.ids) = id :: is := by
    unfold idsWith
    split <;> exact ⟨_, _, rfl⟩
  have hid := h10 v.phenomenon
  rw [if_pos rfl] at hid
  obtain ⟨w, q1, q2, q3, q4, q5, q6, q7, q8⟩ := importing_view zero h4 h6 h7 e3 h9 hid hids
  refine ⟨d', h1, ⟨⟨w, q1, q2, q3, q4, ?_, q6, ?_, ?_⟩, h11, ⟨ops', h2, h3⟩⟩⟩
  · rw [q5, h8]
    unfold spaceBox
    rw [abs_of_neg hr.north]
    congr 1
    ring
  · intro n
    rw [q7, imported_names zero names r.bands hlen]
  · intro i n xs hn hxs
    simp only [List.getElem?_map, Option.map_eq_some_iff] at hxs
    obtain ⟨b, hb1, rfl⟩ := hxs
    refine q8 (n, contents zero b) ?_
    unfold imported
    rw [List.mem_map]
    refine ⟨(n, b), ?_, rfl⟩
    rw [List.mem_iff_getElem?]
    exact ⟨i, by rw [List.getElem?_zip_eq_some]; exact ⟨hn, hb1⟩⟩

/-- The cells of a band, row by row -/
def cellsOf (b : Band α) : List α := (List.range (b.rows * b.cols)).map fun k => b.cells (k / b.cols) (k % b.cols)

/-- A band which is stored as a single block. -/
structure SingleBlock (b : Band α) : Prop where
  rows : 0 < b.rows
  cols : 0 < b.cols
  blockRows : b.blockRows = b.rows
  blockCols : b.blockCols = b.cols

theorem SingleBlock.one {b : Band α} (h : SingleBlock b) : OneBlock b :=
  ⟨h.rows, h.cols, by rw [h.blockRows]; omega, by rw [h.blockCols]; omega, by rw [h.blockRows, h.blockCols]⟩

theorem contents_single (zero : α) {b : Band α} (h : SingleBlock b) : contents zero b = cellsOf b := by
  unfold contents cellsOf
  apply List.map_congr_left
  intro k hk
  rw [List.mem_range] at hk
  rw [if_pos (by rw [h.blockRows, h.blockCols]; exact hk),
    element_cell (by rw [h.blockCols]; exact h.cols) (by rw [h.blockRows]; omega) (by rw [h.blockCols]; omega)
      (by rw [h.blockRows, h.blockCols]; exact hk), h.blockCols]
  simp

/-- **C51**: importing a raster adds a raster to the dataset with all cells of all bands, and changes nothing else. Missing:
rasters stored in more than one block. -/
theorem import_ok_partial (zero : α) {ops : List (Op α (Box κ) τ)} (ho : ∀ o ∈ ops, o.Ok)
    (p s : Name) (hnew : (after zero ops).1.pset p s = none) (names : List Name) (hnames : names.Nodup)
    (r : GdalRaster α κ) (g : GeoTransform κ) (hr : Importable r g) (hlen : names.length ≤ r.bands.length)
    (hb : ∀ b ∈ r.bands, SingleBlock b) :
    ∃ d', importRaster zero (after zero ops).1 p s names r = .ok d' ∧
      Imported zero ops p s names r.rows r.cols
        ⟨g.west, g.north + r.rows * g.cellHeight, g.west + r.cols * g.cellWidth, g.north⟩ (r.bands.map cellsOf) d' := by
  obtain ⟨d', h1, h2⟩ := import_contents zero ho p s hnew names hnames r g hr hlen fun b hbm => (hb b hbm).one
  refine ⟨d', h1, ?_⟩
  have : r.bands.map (contents zero) = r.bands.map cellsOf :=
    List.map_congr_left fun b hbm => contents_single zero (hb b hbm)
  rw [← this]
  exact h2

/-- Importing a raster stored in strips, at most 10: only the cells in the first strip are imported. All other cells become
zero. -/
theorem import_strips_lost (zero : α) {ops : List (Op α (Box κ) τ)} (ho : ∀ o ∈ ops, o.Ok)
    (p s : Name) (hnew : (after zero ops).1.pset p s = none) (names : List Name) (hnames : names.Nodup)
    (r : GdalRaster α κ) (g : GeoTransform κ) (hr : Importable r g) (hlen : names.length ≤ r.bands.length)
    (hb : ∀ b ∈ r.bands, 0 < b.cols ∧ b.blockCols = b.cols ∧ b.blockRows ≤ b.rows ∧ b.rows ≤ 10 * b.blockRows ∧ 0 < b.rows) :
    ∃ d', importRaster zero (after zero ops).1 p s names r = .ok d' ∧
      Imported zero ops p s names r.rows r.cols
        ⟨g.west, g.north + r.rows * g.cellHeight, g.west + r.cols * g.cellWidth, g.north⟩
        (r.bands.map fun b => (List.range (b.rows * b.cols)).map fun k =>
          if k / b.cols < b.blockRows then b.cells (k / b.cols) (k % b.cols) else zero) d' := by
  obtain ⟨d', h1, h2⟩ := import_contents zero ho p s hnew names hnames r g hr hlen fun b hbm => by
    obtain ⟨h1, h2, h3, h4, h5⟩ := hb b hbm
    exact ⟨h5, h1, h4, by omega, by rw [h2]; exact Nat.mul_le_mul_right _ h3⟩
  refine ⟨d', h1, ?_⟩
  have : (r.bands.map fun b => (List.range (b.rows * b.cols)).map fun k =>
          if k / b.cols < b.blockRows then b.cells (k / b.cols) (k % b.cols) else zero) = r.bands.map (contents zero) := by
    apply List.map_congr_left
    intro b hbm
    obtain ⟨q1, q2, q3, q4, q5⟩ := hb b hbm
    unfold contents
    apply List.map_congr_left
    intro k _
    have hiff : k / b.cols < b.blockRows ↔ k < b.blockRows * b.blockCols := by
      rw [q2, Nat.div_lt_iff_lt_mul q1]
    by_cases hk : k < b.blockRows * b.blockCols
    · rw [if_pos hk, if_pos (hiff.mpr hk), element_cell (by omega) (by omega) (by omega) hk, q2]
      simp
    · rw [if_neg hk, if_neg (fun hh => hk (hiff.mp hh))]
  rw [this]
  exact h2

end

theorem importBand_fails (zero : α) {β : Type} (d : File α β τ) (v : View β τ) (n : Name) (b : Band α)
    (hb : 0 < b.cols ∧ b.blockCols = b.cols ∧ 0 < b.blockRows ∧ 10 * b.blockRows < b.rows) (x : View β τ × File α β τ) :
    importBand zero d v n b ≠ .ok x := by
  obtain ⟨h1, h2, h3, h4⟩ := hb
  intro h
  unfold importBand at h
  obtain ⟨r, _, h⟩ := bind_inv h
  obtain ⟨st, h, _⟩ := bind_inv h
  have hoffs : ∃ rest, blockOffsets (enlargedBlocks b).shapeInBlocks = (0, 0) :: (0, 1) :: rest := by
    have e1 : (enlargedBlocks b).shapeInBlocks = (1, extentInBlocks b.rows (10 * b.blockRows)) := by
      have := extentInBlocks_mul 1 b.cols h1
      rw [Nat.one_mul] at this
      simp only [enlargedBlocks, Blocks.make, h2]
      rw [Nat.min_eq_right (by omega : b.cols ≤ 10 * b.cols), Nat.min_eq_left (by omega : 10 * b.blockRows ≤ b.rows)]
      rw [if_pos h1, if_pos (by omega), this]
    have e2 : 2 ≤ extentInBlocks b.rows (10 * b.blockRows) := by
      unfold extentInBlocks
      rw [Nat.le_div_iff_mul_le (by omega)]
      omega
    obtain ⟨m, hm⟩ := Nat.exists_eq_add_of_le e2
    rw [e1, hm]
    have : List.range (2 + m) = 0 :: 1 :: (List.range m).map (fun x => 2 + x) := by
      rw [List.range_add]; rfl
    simp only [blockOffsets, List.range_one, List.flatMap_cons, List.flatMap_nil, List.append_nil, this, List.map_cons]
    exact ⟨_, rfl⟩
  obtain ⟨rest, hoffs⟩ := hoffs
  rw [hoffs] at h
  simp only [List.foldlM_cons] at h
  obtain ⟨s1, _, h⟩ := bind_inv h
  obtain ⟨s2, h, _⟩ := bind_inv h
  unfold importBlock at h
  obtain ⟨vs, h, _⟩ := bind_inv h
  unfold readBlock at h
  rw [if_neg (by rw [h2]; simp)] at h
  cases h

/-- Importing a raster stored in more than 10 strips fails, whatever is in the dataset. -/
theorem import_strips_fails (zero : α) (d : File α (Box κ) τ) (p s : Name) (n : Name) (names : List Name)
    (r : GdalRaster α κ) (hb : ∀ b ∈ r.bands, 0 < b.cols ∧ b.blockCols = b.cols ∧ 0 < b.blockRows ∧ 10 * b.blockRows < b.rows)
    (d' : File α (Box κ) τ) : importRaster zero d p s (n :: names) r ≠ .ok d' := by
  intro h
  unfold importRaster at h
  obtain ⟨g, _, h⟩ := bind_inv h
  obtain ⟨f, _, h⟩ := bind_inv h
  obtain ⟨st, _, h⟩ := bind_inv h
  cases hbs : r.bands with
  | nil => rw [hbs] at h; cases h
  | cons b bs =>
    rw [hbs, importBands] at h
    obtain ⟨x, h, _⟩ := bind_inv h
    exact importBand_fails zero _ _ _ b (hb b (by rw [hbs]; simp)) x h

/-! ### Exporting -/

/-- The cells in the first block are written. -/
def firstBlock (b : Band α) (xs : List α) : Band α :=
  { b with cells := fun r c =>
      if r / b.blockRows = 0 ∧ c / b.blockCols = 0 then
        (xs[r % b.blockRows * b.blockCols + c % b.blockCols]?).getD (b.cells r c)
      else b.cells r c }

theorem exportBand_eq (zero : α) (array : Dataset α) (b : Band α) (h : OneBlock b) {xs : List α}
    (hx : readHyperslab array (.ofShape [b.rows, b.cols]) (List.replicate (b.rows * b.cols) zero) = .ok xs)
    (hl : xs.length = b.rows * b.cols) :
    exportBand zero array b = .ok (firstBlock b xs) := by
  have h1 := h.rows
  have h2 := h.cols
  unfold exportBand
  dsimp only
  rw [enlarged_offsets h, enlarged_blockShape h]
  simp only [bind, Except.bind, List.foldlM_cons, List.foldlM_nil, exportBlock, enlarged_slab h]
  rw [Nat.mul_comm b.cols b.rows, hx]
  simp only
  unfold writeBlock
  rw [if_pos ⟨by omega, by omega⟩, if_pos (by rw [hl]; exact h.room)]
  rfl

/-- Exporting a layer to a raster of which the blocks contain whole rows, at most 10 blocks: only the rows in the first block
are written. -/
theorem export_contents (zero fill : α) (d : File α (Box κ) τ) (p s : Name) (n : Name) (rest : List Name)
    (blockShape : Nat × Nat → Nat × Nat) {w : View (Box κ) τ} {rows cols blockRows : Nat} {xs : List α}
    (hc : containsRaster d .constant p s = .ok true) (hw : openView d .constant p s = .ok w) (hn : n ∈ w.layers)
    (hg : w.grid = [rows, cols]) (hrows : 0 < rows) (hcols : 0 < cols) (hx : readAll zero d w n = .ok xs)
    (hl : xs.length = rows * cols) (hbs : blockShape (rows, cols) = (blockRows, cols)) (hb1 : blockRows ≤ rows)
    (hb2 : rows ≤ 10 * blockRows) :
    ∃ b : Band α, exportRaster zero d p s (n :: rest) blockShape fill = .ok (some ⟨rows, cols,
        some ⟨w.box.west, (w.box.east - w.box.west) / cols, 0, w.box.north, 0, -((w.box.north - w.box.south) / rows)⟩,
        b :: List.replicate rest.length (newBand blockShape fill (rows, cols))⟩) ∧
      b.rows = rows ∧ b.cols = cols ∧
      ∀ r < rows, ∀ c < cols, some (b.cells r c) = if r < blockRows then xs[r * cols + c]? else some fill := by
  have hone : OneBlock (newBand blockShape fill (rows, cols)) := by
    refine ⟨hrows, hcols, ?_, ?_, ?_⟩ <;> simp only [newBand, hbs]
    · exact hb2
    · omega
    · exact Nat.mul_le_mul_right _ hb1
  obtain ⟨array, ha, hx⟩ := bind_inv hx
  rw [hg] at hx
  have he := exportBand_eq zero array (newBand blockShape fill (rows, cols)) hone (xs := xs)
    (by simpa [newBand, nrElements] using hx) (by simpa [newBand] using hl)
  refine ⟨firstBlock (newBand blockShape fill (rows, cols)) xs, ?_, rfl, rfl, ?_⟩
  · unfold exportRaster
    simp only [bind, Except.bind, hc, if_true, hw]
    rw [if_pos (by simpa using hn), ha]
    simp only [gridShape, hg, he]
    rfl
  · intro r hr c hc
    simp only [firstBlock, newBand, hbs]
    have hc1 : c / cols = 0 := Nat.div_eq_of_lt hc
    have hc2 : c % cols = c := Nat.mod_eq_of_lt hc
    by_cases hb : r < blockRows
    · rw [if_pos ⟨Nat.div_eq_of_lt hb, hc1⟩, if_pos hb, Nat.mod_eq_of_lt hb, hc2]
      have : r * cols + c < xs.length := by
        rw [hl]
        calc r * cols + c < r * cols + cols := by omega
          _ = (r + 1) * cols := by ring
          _ ≤ rows * cols := Nat.mul_le_mul_right _ hr
      rw [List.getElem?_eq_getElem this]
      rfl
    · rw [if_neg, if_neg hb]
      rintro ⟨h1, _⟩
      have : 0 < blockRows := by omega
      rw [Nat.div_eq_zero_iff] at h1
      omega

/-- **C51**: exporting a layer results in a raster with all its cells. Missing: formats in which the raster is stored in more
than one block, and rasters with more than one band (of which only the first one is written). -/
theorem export_ok_partial (zero fill : α) (d : File α (Box κ) τ) (p s : Name) (n : Name)
    (blockShape : Nat × Nat → Nat × Nat) {w : View (Box κ) τ} {rows cols : Nat} {xs : List α}
    (hc : containsRaster d .constant p s = .ok true) (hw : openView d .constant p s = .ok w) (hn : n ∈ w.layers)
    (hg : w.grid = [rows, cols]) (hrows : 0 < rows) (hcols : 0 < cols) (hx : readAll zero d w n = .ok xs)
    (hl : xs.length = rows * cols) (hbs : blockShape (rows, cols) = (rows, cols)) :
    ∃ b : Band α, exportRaster zero d p s [n] blockShape fill = .ok (some ⟨rows, cols,
        some ⟨w.box.west, (w.box.east - w.box.west) / cols, 0, w.box.north, 0, -((w.box.north - w.box.south) / rows)⟩,
        [b]⟩) ∧ b.rows = rows ∧ b.cols = cols ∧ cellsOf b = xs := by
  obtain ⟨b, h1, h2, h3, h4⟩ := export_contents zero fill d p s n [] blockShape hc hw hn hg hrows hcols hx hl hbs
    (le_refl _) (by omega)
  refine ⟨b, h1, h2, h3, ?_⟩
  unfold cellsOf
  rw [h2, h3]
  refine List.ext_getElem? fun k => ?_
  by_cases hk : k < rows * cols
  · rw [List.getElem?_map, List.getElem?_range hk]
    have hr : k / cols < rows := Nat.div_lt_of_lt_mul (by rwa [Nat.mul_comm] at hk)
    have := h4 (k / cols) hr (k % cols) (Nat.mod_lt _ hcols)
    rw [if_pos hr, Nat.mul_comm, Nat.div_add_mod] at this
    rw [Option.map_some, this]
  · rw [List.getElem?_eq_none (by simpa using hk), List.getElem?_eq_none (by omega)]

/-- Exporting to a format with strips, at most 10: rows not in the first strip aren't written. -/
theorem export_strips_lost (zero fill : α) (d : File α (Box κ) τ) (p s : Name) (n : Name)
    (blockShape : Nat × Nat → Nat × Nat) {w : View (Box κ) τ} {rows cols blockRows : Nat} {xs : List α}
    (hc : containsRaster d .constant p s = .ok true) (hw : openView d .constant p s = .ok w) (hn : n ∈ w.layers)
    (hg : w.grid = [rows, cols]) (hrows : 0 < rows) (hcols : 0 < cols) (hx : readAll zero d w n = .ok xs)
    (hl : xs.length = rows * cols) (hbs : blockShape (rows, cols) = (blockRows, cols)) (hb1 : blockRows < rows)
    (hb2 : rows ≤ 10 * blockRows) :
    ∃ r : GdalRaster α κ, ∃ b : Band α, exportRaster zero d p s [n] blockShape fill = .ok (some r) ∧ r.bands = [b] ∧
      ∀ i, blockRows ≤ i → i < rows → ∀ c < cols, b.cells i c = fill := by
  obtain ⟨b, h1, h2, h3, h4⟩ := export_contents zero fill d p s n [] blockShape hc hw hn hg hrows hcols hx hl hbs
    (le_of_lt hb1) hb2
  refine ⟨_, b, h1, rfl, ?_⟩
  intro i hi1 hi2 c hcc
  have := h4 i hi2 c hcc
  rw [if_neg (by omega)] at this
  exact Option.some.inj this

/-! ### Import followed by export -/

section

variable [IsStrictOrderedRing κ]

/-- **C51**: importing a raster and exporting its first layer results in a raster with the same shape, transformation and
cells. Missing: rasters stored in more than one block, and layers other than the first. -/
theorem roundtrip_partial (zero fill : α) {ops : List (Op α (Box κ) τ)} (ho : ∀ o ∈ ops, o.Ok)
    (p s : Name) (hnew : (after zero ops).1.pset p s = none)
    (hobjects : ∀ ph, (after zero ops).1.phenomena p = some ph → ph.ids.length ≤ 1)
    (n : Name) (names : List Name) (hnames : (n :: names).Nodup) (htime : timeGrid ∉ n :: names)
    (r : GdalRaster α κ) (g : GeoTransform κ) (hr : Importable r g) {b : Band α} {bs : List (Band α)}
    (hbands : r.bands = b :: bs) (hlen : names.length ≤ bs.length) (hb : ∀ b ∈ r.bands, SingleBlock b)
    (blockShape : Nat × Nat → Nat × Nat) (hbs : blockShape (r.rows, r.cols) = (r.rows, r.cols)) :
    ∃ d', importRaster zero (after zero ops).1 p s (n :: names) r = .ok d' ∧
      ∃ b' : Band α, exportRaster zero d' p s [n] blockShape fill = .ok (some ⟨r.rows, r.cols, some g, [b']⟩) ∧
        ∀ i < r.rows, ∀ j < r.cols, b'.cells i j = b.cells i j := by
  obtain ⟨d', v, ops', a, h1, h2, h3, h4, h5, h6, ⟨r', h7, h8, h9⟩, h10, h11⟩ :=
    importRaster_step zero ho p s hnew (n :: names) hnames r g hr (by rw [hbands]; simpa using hlen)
      fun b hbm => (hb b hbm).one
  simp only [Prod.mk.injEq] at h5
  obtain ⟨rfl, rfl, e3, e4⟩ := h5
  obtain ⟨id, hids⟩ : ∃ id, idsWith (((after zero ops).1.phenomena v.phenomenon).map Phenomenon.ids) = [id] := by
    cases hp : (after zero ops).1.phenomena v.phenomenon with
    | none => exact ⟨5, rfl⟩
    | some ph =>
      have := hobjects ph hp
      simp only [Option.map_some]
      cases hi : ph.ids with
      | nil => exact ⟨5, rfl⟩
      | cons x xs =>
        rw [hi] at this
        cases xs with
        | nil => exact ⟨x, rfl⟩
        | cons y ys => simp at this
  have hid := h10 v.phenomenon
  rw [if_pos rfl] at hid
  obtain ⟨w, q1, q2, q3, q4, q5, q6, q7, q8⟩ := importing_view zero h4 h6 h7 e3 h9 hid hids
  have hnm := imported_names zero (n :: names) r.bands (by rw [hbands]; simpa using hlen)
  have hb0 := hb b (by rw [hbands]; simp)
  have hshape := hr.shape b (by rw [hbands]; simp)
  have hcontains : containsRaster d' .constant v.phenomenon v.propertySet = .ok true := by
    apply toOption_some
    rw [contains_eq h4]
    obtain ⟨r2, p1, p2, p3, p4, p5, p6⟩ := h6.raster
    rw [h7] at p1
    cases p1
    have hn : (r'.layers .constant).get timeGrid = none := p5 _ (by rw [hnm]; exact htime)
    simp [Rasters.contains, h7, hid, hids, p2, p3, p4, hn, AMap.get_nil]
  have hread : readAll zero d' w n = .ok (cellsOf b) := by
    rw [← contents_single zero hb0]
    refine q8 (n, contents zero b) ?_
    unfold imported
    rw [hbands]
    simp
  have hrows : 0 < r.rows := by rw [← hshape.1]; exact hb0.rows
  have hcols : 0 < r.cols := by rw [← hshape.2]; exact hb0.cols
  obtain ⟨b', x1, x2, x3, x4⟩ := export_ok_partial zero fill d' v.phenomenon v.propertySet n blockShape hcontains q1
    ((q7 n).mpr (by rw [hnm]; simp)) q6 hrows hcols hread (by simp [cellsOf, hshape.1, hshape.2]) hbs
  refine ⟨d', h1, b', ?_, ?_⟩
  · rw [x1, q5, h8]
    have hc0 : (r.cols : κ) ≠ 0 := by exact_mod_cast hcols.ne'
    have hr0 : (r.rows : κ) ≠ 0 := by exact_mod_cast hrows.ne'
    obtain ⟨gw, gcw, grr, gn, gcr, gch⟩ := g
    have s1 := hr.square
    have s2 := hr.rotation
    have s3 := hr.north
    dsimp only at s1 s2 s3
    simp only [spaceBox, abs_of_neg s3]
    congr 5
    · field_simp
      ring
    · exact s2.1.symm
    · exact s2.2.symm
    · field_simp
      ring
  · intro i hi j hj
    have hk : i * r.cols + j < r.rows * r.cols := by
      calc i * r.cols + j < i * r.cols + r.cols := by omega
        _ = (i + 1) * r.cols := by ring
        _ ≤ r.rows * r.cols := Nat.mul_le_mul_right _ hi
    have := congrArg (fun l : List α => l[i * r.cols + j]?) x4
    unfold cellsOf at this
    simp only [x2, x3, hshape.1, hshape.2, List.getElem?_map, List.getElem?_range hk, Option.map_some,
      Option.some.injEq] at this
    rw [show (i * r.cols + j) / r.cols = i by
      rw [Nat.add_comm, Nat.add_mul_div_right _ _ hcols, Nat.div_eq_of_lt hj, Nat.zero_add],
      show (i * r.cols + j) % r.cols = j by
        rw [Nat.add_comm, Nat.add_mul_mod_self_right, Nat.mod_eq_of_lt hj]] at this
    exact this

end

/-! ### Examples -/

section Examples

/-- A 2×3 band, with blocks of `n` rows -/
def exBand (n : Nat) (f : Nat → Nat → Int) : Band Int := ⟨2, 3, n, 3, 5, true, -1, f, fun _ _ _ => 0⟩

def exGeo : GeoTransform Rat := ⟨10, 5, 0, 20, 0, -5⟩

/-- A raster with two bands -/
def exRaster (n : Nat) : GdalRaster Int Rat :=
  ⟨2, 3, some exGeo, [exBand n fun r c => 3 * r + c + 1, exBand n fun r c => r + c + 7]⟩

theorem exRaster_importable (n : Nat) : Importable (exRaster n) exGeo :=
  ⟨rfl, ⟨rfl, rfl⟩, by norm_num [exGeo], by norm_num [exGeo], by simp [exRaster, exBand]⟩

theorem exRaster_single : ∀ b ∈ (exRaster 2).bands, SingleBlock b := by
  intro b hb
  simp only [exRaster, List.mem_cons, List.not_mem_nil, or_false] at hb
  rcases hb with rfl | rfl <;> exact ⟨by simp [exBand], by simp [exBand], rfl, rfl⟩

/-- A dataset with another raster -/
def exOps : List (Op Int (Box Rat) Nat) := [.create ['a'] ['s'] (1, 1) ⟨0, 0, 1, 1⟩ none, .addLayer 0 ['z'] (some 9)]

theorem exOps_ok : ∀ o ∈ exOps, o.Ok := by simp [exOps, Op.Ok]

theorem exOps_new : (after 0 exOps).1.pset ['a'] ['t'] = none := Option.isNone_iff_eq_none.mp (by decide)

/-- The hypotheses of `import_ok_partial` -/
example : ∃ d', importRaster 0 (after 0 exOps).1 ['a'] ['t'] [['x'], ['y']] (exRaster 2) = .ok d' ∧
    Imported 0 exOps ['a'] ['t'] [['x'], ['y']] 2 3 ⟨10, 20 + (2 : Nat) * (-5), 10 + (3 : Nat) * 5, 20⟩
      [[1, 2, 3, 4, 5, 6], [7, 8, 9, 8, 9, 10]] d' := by
  have := import_ok_partial 0 exOps_ok ['a'] ['t'] exOps_new [['x'], ['y']] (by decide) (exRaster 2) exGeo
    (exRaster_importable 2) (by simp [exRaster]) exRaster_single
  exact this

/-- The hypotheses of `roundtrip_partial`, importing in a new dataset -/
example : ∃ d', importRaster 0 (after 0 ([] : List (Op Int (Box Rat) Nat))).1 ['a'] ['t'] [['x'], ['y']] (exRaster 2) = .ok d' ∧
    ∃ b' : Band Int, exportRaster 0 d' ['a'] ['t'] [['x']] id 99 = .ok (some ⟨2, 3, some exGeo, [b']⟩) ∧
      ∀ i < 2, ∀ j < 3, b'.cells i j = 3 * i + j + 1 :=
  roundtrip_partial 0 99 (by simp) ['a'] ['t'] rfl (by intro ph h; cases h) ['x'] [['y']] (by decide) (by decide) (exRaster 2)
    exGeo (exRaster_importable 2) rfl (by simp) exRaster_single id rfl

/-- Blocks of one row: the cells in the second row are lost. -/
example : ∃ d', importRaster 0 (after 0 exOps).1 ['a'] ['t'] [['x'], ['y']] (exRaster 1) = .ok d' ∧
    Imported 0 exOps ['a'] ['t'] [['x'], ['y']] 2 3 ⟨10, 20 + (2 : Nat) * (-5), 10 + (3 : Nat) * 5, 20⟩
      [[1, 2, 3, 0, 0, 0], [7, 8, 9, 0, 0, 0]] d' := by
  have := import_strips_lost 0 exOps_ok ['a'] ['t'] exOps_new [['x'], ['y']] (by decide) (exRaster 1) exGeo
    (exRaster_importable 1) (by simp [exRaster]) (by
      intro b hb
      simp only [exRaster, List.mem_cons, List.not_mem_nil, or_false] at hb
      rcases hb with rfl | rfl <;> simp [exBand])
  exact this

/-- A raster of 11 strips of a row can't be imported. -/
example (d d' : File Int (Box Rat) Nat) : importRaster 0 d ['a'] ['t'] [['x']]
    (⟨11, 3, some exGeo, [⟨11, 3, 1, 3, 5, false, 0, fun _ _ => 1, fun _ _ _ => 0⟩]⟩ : GdalRaster Int Rat) ≠ .ok d' :=
  import_strips_fails 0 d ['a'] ['t'] ['x'] [] _ (by simp) d'

end Examples

end Lue.Translate

import Verif.Translate.Model
import Verif.GdalBlocks.Proofs
import Verif.RasterView.Properties

namespace Lue.Translate

open Lue Lue.DataModel Lue.LueIO Lue.RasterView Lue.GdalBlocks Lue.Index

variable {α β τ : Type}

/-- The enlarged blocks of a band: a single one, which is not smaller than a block of the band. -/
structure OneBlock (b : Band α) : Prop where
  rows : 0 < b.rows
  cols : 0 < b.cols
  blockRows : b.rows ≤ 10 * b.blockRows
  blockCols : b.cols ≤ 10 * b.blockCols
  room : b.blockRows * b.blockCols ≤ b.rows * b.cols

/-- What ends up in a layer: the elements of the first block, in the order in which they are stored in the block. -/
def contents (zero : α) (b : Band α) : List α :=
  (List.range (b.rows * b.cols)).map fun k => if k < b.blockRows * b.blockCols then b.element 0 0 k else zero

theorem contents_length (zero : α) (b : Band α) : (contents zero b).length = b.rows * b.cols := by simp [contents]

theorem enlarged_blockShape {b : Band α} (h : OneBlock b) : (enlargedBlocks b).blockShape = (b.cols, b.rows) := by
  have h1 := h.blockRows
  have h2 := h.blockCols
  simp only [enlargedBlocks, Blocks.make]
  rw [Nat.min_eq_right h1, Nat.min_eq_right h2]

theorem enlarged_offsets {b : Band α} (h : OneBlock b) : blockOffsets (enlargedBlocks b).shapeInBlocks = [(0, 0)] := by
  have h1 := h.blockRows
  have h2 := h.blockCols
  have e1 := extentInBlocks_mul 1 b.cols h.cols
  have e2 := extentInBlocks_mul 1 b.rows h.rows
  rw [Nat.one_mul] at e1 e2
  simp only [enlargedBlocks, Blocks.make]
  rw [Nat.min_eq_right h1, Nat.min_eq_right h2]
  simp only [h.rows, h.cols, gt_iff_lt, if_true, e1, e2]
  rfl

theorem enlarged_slab {b : Band α} (h : OneBlock b) :
    blockSlab (enlargedBlocks b) 0 0 = .ok (.ofShape [b.rows, b.cols]) := by
  have h1 := h.blockRows
  have h2 := h.blockCols
  unfold blockSlab
  have hv : (enlargedBlocks b).shapeInValidCells (0, 0) = ((b.cols : Int), (b.rows : Int)) := by
    simp only [Blocks.shapeInValidCells, enlargedBlocks, Blocks.make]
    rw [Nat.min_eq_right h1, Nat.min_eq_right h2, nrValidCells_full (by omega), nrValidCells_full (by omega)]
  rw [hv]
  dsimp only
  rw [if_neg (by omega)]
  simp [Hyperslab.ofCount, Hyperslab.ofShape]

theorem readBlock_contents (zero : α) {b : Band α} (h : OneBlock b) :
    readBlock b 0 0 (List.replicate (b.cols * b.rows) zero) = .ok (contents zero b) := by
  have h1 := h.rows
  have h2 := h.cols
  have h3 := h.room
  unfold readBlock
  rw [Nat.mul_comm b.cols b.rows, if_pos ⟨by omega, by omega⟩, if_pos (by rw [List.length_replicate]; exact h3)]
  congr 1
  refine List.ext_getElem? fun k => ?_
  rw [List.getElem?_append]
  simp only [List.length_map, List.length_range, contents, List.getElem?_map, List.drop_replicate]
  by_cases hk : k < b.blockRows * b.blockCols
  · rw [if_pos hk, List.getElem?_range hk, List.getElem?_range (by omega)]
    simp [hk]
  · rw [if_neg hk]
    by_cases hk' : k < b.rows * b.cols
    · rw [List.getElem?_range hk', List.getElem?_replicate, if_pos (by omega)]
      simp [hk]
    · rw [List.getElem?_eq_none (by rw [List.length_replicate]; omega),
        List.getElem?_eq_none (by rw [List.length_range]; omega)]
      rfl

/-- Importing a band: a layer is added and written. -/
theorem importBand_eq (zero : α) (d : File α β τ) (v : View β τ) (name : Name) {b : Band α} (h : OneBlock b) :
    importBand zero d v name b = (do
      let r ← addLayer zero d v name (if b.noDataValid then some b.noDataValue else none)
      let d ← writeLayer r.2 r.1 name (.ofShape [b.rows, b.cols]) (contents zero b)
      .ok (r.1, d)) := by
  unfold importBand
  dsimp only
  rw [enlarged_offsets h, enlarged_blockShape h]
  cases addLayer zero d v name (if b.noDataValid then some b.noDataValue else none) with
  | error e => rfl
  | ok r =>
    simp only [bind, Except.bind, List.foldlM_cons, List.foldlM_nil, importBlock, readBlock_contents zero h,
      enlarged_slab h]
    cases writeLayer r.2 r.1 name (.ofShape [b.rows, b.cols]) (contents zero b) <;> rfl

/-! ### A raster being imported -/

/-- A raster of which the layers are known. -/
structure Importing (a : Rasters α β τ) (v : View β τ) (done : List (Name × List α)) : Prop where
  kind : v.kind = .constant
  raster : ∃ r, a.raster v.phenomenon v.propertySet = some r ∧ r.time = none ∧ (∀ k, r.reserved k = []) ∧
    r.layers .varying = [] ∧
    (∀ n, n ∉ done.map Prod.fst → (r.layers .constant).get n = none) ∧
    ∀ e ∈ done, ∃ y, (r.layers .constant).get e.1 = some y ∧ HoldsArray y v.grid e.2
  layers : v.layers = done.map Prod.fst

theorem bind_inv {χ ψ : Type} {x : M χ} {f : χ → M ψ} {y : ψ} (h : (x >>= f) = .ok y) : ∃ a, x = .ok a ∧ f a = .ok y := by
  cases x with
  | error e => cases h
  | ok a => exact ⟨a, rfl, h⟩

theorem setPropertySet_pset (d : File α β τ) {p s : Name} {ph : Phenomenon α β τ} (hp : d.phenomena p = some ph)
    (ps : PropertySet α β τ) (p' s' : Name) (h : (p', s') ≠ (p, s)) :
    (d.setPropertySet p s ph ps).pset p' s' = d.pset p' s' := by
  unfold File.pset File.setPropertySet
  by_cases h1 : p' = p
  · subst h1
    have h2 : s' ≠ s := fun hh => h (by rw [hh])
    simp [RasterView.insert, hp, h2]
  · simp [RasterView.insert, h1]

theorem item_ok {χ : Type} {m : Items χ} {k : Name} {x : χ} (h : item m k = .ok x) : m k = some x := by
  unfold item at h
  split at h
  · rename_i y hy; cases h; exact hy
  · cases h

theorem addLayer_pset {zero : α} {d d' : File α β τ} {v v' : View β τ} {n : Name} {nd : Option α}
    (h : addLayer zero d v n nd = .ok (v', d')) (p s : Name) (hps : (p, s) ≠ (v.phenomenon, v.propertySet)) :
    d'.pset p s = d.pset p s := by
  unfold addLayer at h
  split at h
  · cases h
  · obtain ⟨ph, h1, h⟩ := bind_inv h
    obtain ⟨ps, h2, h⟩ := bind_inv h
    obtain ⟨ps', h3, h⟩ := bind_inv h
    cases h
    exact setPropertySet_pset d (item_ok h1) _ _ _ hps

theorem writeLayer_pset {d d' : File α β τ} {v : View β τ} {n : Name} {hs : Hyperslab} {buffer : List α}
    (h : writeLayer d v n hs buffer = .ok d') (p s : Name) (hps : (p, s) ≠ (v.phenomenon, v.propertySet)) :
    d'.pset p s = d.pset p s := by
  unfold writeLayer at h
  obtain ⟨_, _, h⟩ := bind_inv h
  obtain ⟨_, _, h⟩ := bind_inv h
  obtain ⟨ph, h1, h⟩ := bind_inv h
  obtain ⟨ps, h2, h⟩ := bind_inv h
  obtain ⟨_, _, h⟩ := bind_inv h
  cases h
  exact setPropertySet_pset d (item_ok h1) _ _ _ hps

/-- The operations for importing a band -/
def bandOps (zero : α) (i : Nat) (n : Name) (b : Band α) : List (Op α β τ) :=
  [.addLayer i n (if b.noDataValid then some b.noDataValue else none),
    .write i n (.ofShape [b.rows, b.cols]) (contents zero b)]

theorem importBand_step (zero : α) {st : File α β τ × List (View β τ)} {sa : Rasters α β τ × List (View β τ)} (h : Sim' st sa)
    (hs : Shaped sa.1) {i : Nat} {v : View β τ} (hi : st.2[i]? = some v) {done : List (Name × List α)}
    (him : Importing sa.1 v done) {n : Name} (hn : n ∉ done.map Prod.fst) {b : Band α} (hb : OneBlock b)
    (hg : v.grid = [b.rows, b.cols]) :
    ∃ d' v', importBand zero st.1 v n b = .ok (v', d') ∧
      (runAll (step zero) st (bandOps zero i n b)).2 = (d', st.2.set i v') ∧
      (v'.phenomenon, v'.propertySet, v'.grid, v'.box) = (v.phenomenon, v.propertySet, v.grid, v.box) ∧
      Importing (runAll (expected zero) sa (bandOps zero i n b)).2.1 v' (done ++ [(n, contents zero b)]) ∧
      (∀ p, (runAll (expected zero) sa (bandOps zero i n b)).2.1.ids p = sa.1.ids p) ∧
      ∀ p s, (p, s) ≠ (v.phenomenon, v.propertySet) → d'.pset p s = st.1.pset p s := by
  have hi' : sa.2[i]? = some v := by rw [← h.views]; exact hi
  have hv := h.view v (List.mem_of_getElem? hi')
  obtain ⟨r, hr, htime, hres, hvar, hnone, hdone⟩ := him.raster
  have hk := him.kind
  obtain ⟨r', hr', _, hgrid, _, _⟩ := hv.raster
  rw [hr] at hr'
  cases hr'
  set nd : Option α := if b.noDataValid then some b.noDataValue else none with hnd
  -- Adding the layer
  set v' : View β τ := { v with layers := v.layers ++ [n] } with hv'
  set r1 : RasterView.Raster α β τ := r.put .constant n (r.newLayer zero nd .constant) with hr1
  set a1 := sa.1.set v.phenomenon v.propertySet r1 with ha1
  have hadd : sa.1.addLayer zero v n nd = some (v', a1) := by
    unfold Rasters.addLayer
    simp only [hr, Option.bind_eq_bind, Option.bind_some, hk, hres, hnone n hn, him.layers, hn, Option.isSome_none,
      Bool.false_eq_true, List.not_mem_nil, or_self, if_false]
    rw [ha1, hr1]
    rw [hv', hk, him.layers]
  have h1 := addLayer_sim zero h.rep hv (by rw [hk]; intro hh; cases hh) n nd
  rw [hadd] at h1
  cases hd1 : addLayer zero st.1 v n nd with
  | error e => rw [hd1] at h1; exact h1.elim
  | ok x =>
  obtain ⟨v1, d1⟩ := x
  rw [hd1] at h1
  obtain ⟨rfl, hrep1, hg1, hvr1, _, _⟩ := h1
  have hraster1 : a1.raster v.phenomenon v.propertySet = some r1 := by simp [ha1, Rasters.set]
  have hlayer1 : (r1.layers .constant).get n = some (r.newLayer zero nd .constant) := by
    rw [hr1, put_layers, if_pos ⟨rfl, rfl⟩]
  -- Writing the layer
  have hgr : [r.grid.1, r.grid.2] = [b.rows, b.cols] := by rw [← hgrid, hg]
  have hshape : (r.newLayer zero nd .constant).shape = [b.rows, b.cols] := by
    rw [← hgr]; rfl
  have hself := holdsArray_self (x := r.newLayer zero nd .constant)
  rw [hshape] at hself
  obtain ⟨y, hy1, hy2, _⟩ := holdsArray_write hself (ys := contents zero b)
    (by rw [contents_length]; simp [nrElements])
  rw [hshape] at hy1
  have hl : a1.layer v' n = some (r.newLayer zero nd .constant) := by
    unfold Rasters.layer
    rw [if_pos (by simp [hv'])]
    show (a1.raster v.phenomenon v.propertySet).bind _ = _
    rw [hraster1]
    show (r1.layers v.kind).get n = _
    rw [hk]
    exact hlayer1
  set a2 := a1.set v.phenomenon v.propertySet (r1.put .constant n y) with ha2
  have hw : a1.write v' n (.ofShape [b.rows, b.cols]) (contents zero b) = some a2 := by
    have : a1.raster v'.phenomenon v'.propertySet = some r1 := hraster1
    simp only [Rasters.write, hl, this, hy1, Except.toOption, Option.bind_eq_bind, Option.bind_some]
    show some (a1.set v.phenomenon v.propertySet (r1.put v.kind n y)) = _
    rw [hk]
  have h2 := write_sim hrep1 hvr1 n (.ofShape [b.rows, b.cols]) (contents zero b)
  rw [hw] at h2
  cases hd2 : writeLayer d1 v' n (.ofShape [b.rows, b.cols]) (contents zero b) with
  | error e => rw [hd2] at h2; exact h2.elim
  | ok d2 =>
  have hlt : i < st.2.length := (List.getElem?_eq_some_iff.mp hi).1
  have hlt' : i < sa.2.length := (List.getElem?_eq_some_iff.mp hi').1
  have hexp : (runAll (expected zero) sa (bandOps zero i n b)).2 = (a2, sa.2.set i v') := by
    simp only [runAll, bandOps, expected, ← hnd, hi', hadd]
    rw [List.getElem?_set_self hlt']
    simp only [hw]
  refine ⟨d2, v', ?_, ?_, rfl, ?_, ?_, ?_⟩
  · rw [importBand_eq zero _ _ _ hb, ← hnd, hd1]
    simp only [bind, Except.bind, hd2]
  · simp only [runAll, bandOps, step, ← hnd, hi, hd1]
    rw [List.getElem?_set_self hlt]
    simp only [hd2]
  · rw [hexp]
    refine ⟨hk, ⟨r1.put .constant n y, by simp [ha2, Rasters.set, hv'], htime, hres, ?_, ?_, ?_⟩, ?_⟩
    · simp [Raster.put, hr1, hvar]
    · intro m hm
      simp only [List.map_append, List.map_cons, List.map_nil, List.mem_append, List.mem_singleton, not_or] at hm
      rw [put_layers, if_neg (by simp [hm.2]), hr1, put_layers, if_neg (by simp [hm.2])]
      exact hnone m hm.1
    · intro e he
      simp only [List.mem_append, List.mem_singleton] at he
      rcases he with he | rfl
      · have hne : e.1 ≠ n := fun hh => hn (by rw [← hh]; exact List.mem_map_of_mem he)
        obtain ⟨z, hz1, hz2⟩ := hdone e he
        refine ⟨z, ?_, hz2⟩
        rw [put_layers, if_neg (by simp [hne]), hr1, put_layers, if_neg (by simp [hne])]
        exact hz1
      · refine ⟨y, by rw [put_layers, if_pos ⟨rfl, rfl⟩], ?_⟩
        show HoldsArray y v.grid _
        rw [hg]
        exact hy2
    · simp [hv', him.layers]
  · rw [hexp]
    intro p
    rfl
  · intro p s hps
    rw [writeLayer_pset hd2 p s hps, addLayer_pset hd1 p s hps]

theorem bandOps_ok (zero : α) (i : Nat) (n : Name) (b : Band α) : ∀ o ∈ (bandOps zero i n b : List (Op α β τ)), o.Ok := by
  intro o ho
  simp only [bandOps, List.mem_cons, List.not_mem_nil, or_false] at ho
  rcases ho with rfl | rfl <;> trivial

/-- Names of layers and what is in them -/
def imported (zero : α) (ns : List Name) (bs : List (Band α)) : List (Name × List α) :=
  (ns.zip bs).map fun e => (e.1, contents zero e.2)

theorem importBands_step (zero : α) (rows cols i : Nat) : ∀ (ns : List Name) (bs : List (Band α))
    (st : File α β τ × List (View β τ)) (sa : Rasters α β τ × List (View β τ)) (_ : Sim' st sa) (_ : Shaped sa.1)
    (v : View β τ) (_ : st.2[i]? = some v) (done : List (Name × List α)) (_ : Importing sa.1 v done)
    (_ : v.grid = [rows, cols]) (_ : ns.Nodup) (_ : ∀ n ∈ ns, n ∉ done.map Prod.fst) (_ : ns.length ≤ bs.length)
    (_ : ∀ b ∈ bs, OneBlock b ∧ b.rows = rows ∧ b.cols = cols),
    ∃ d' v', ∃ ops' : List (Op α β τ), importBands zero st.1 v ns bs = .ok d' ∧ (∀ o ∈ ops', o.Ok) ∧
      (runAll (step zero) st ops').2.1 = d' ∧
      (v'.phenomenon, v'.propertySet, v'.grid, v'.box) = (v.phenomenon, v.propertySet, v.grid, v.box) ∧
      Importing (runAll (expected zero) sa ops').2.1 v' (done ++ imported zero ns bs) ∧
      (∀ p, (runAll (expected zero) sa ops').2.1.ids p = sa.1.ids p) ∧
      ∀ p s, (p, s) ≠ (v.phenomenon, v.propertySet) → d'.pset p s = st.1.pset p s
  | [], bs, st, sa, _, _, v, _, done, him, _, _, _, _, _ =>
    ⟨st.1, v, [], rfl, by simp, rfl, rfl, by simpa [imported, runAll] using him, fun _ => rfl, fun _ _ _ => rfl⟩
  | n :: ns, [], _, _, _, _, _, _, _, _, _, _, _, hl, _ => by simp at hl
  | n :: ns, b :: bs, st, sa, h, hs, v, hi, done, him, hg, hnd, hdis, hl, hb => by
    obtain ⟨hb1, hb2, hb3⟩ := hb b (by simp)
    obtain ⟨d1, v1, h1, h2, h3, h4, h5, h6⟩ := importBand_step zero h hs hi him (hdis n (by simp)) hb1
      (by rw [hg, hb2, hb3])
    simp only [Prod.mk.injEq] at h3
    obtain ⟨e1, e2, e3, e4⟩ := h3
    obtain ⟨_, hsim1⟩ := run_sim zero (bandOps zero i n b) (bandOps_ok zero i n b) h
    have hs1 := run_shaped zero (bandOps zero i n b) sa hs
    have hlt : i < st.2.length := (List.getElem?_eq_some_iff.mp hi).1
    obtain ⟨d', v', ops', g1, g2, g3, g4, g5, g6, g7⟩ := importBands_step zero rows cols i ns bs _ _ hsim1 hs1 v1
      (by rw [h2]; exact List.getElem?_set_self hlt) _ h4 (by rw [e3, hg]) (List.nodup_cons.mp hnd).2
      (by
        intro m hm
        simp only [List.map_append, List.map_cons, List.map_nil, List.mem_append, List.mem_singleton, not_or]
        exact ⟨hdis m (by simp [hm]), fun hh => (List.nodup_cons.mp hnd).1 (hh ▸ hm)⟩)
      (by simpa using hl) (fun c hc => hb c (by simp [hc]))
    refine ⟨d', v', bandOps zero i n b ++ ops', ?_, ?_, ?_, ?_, ?_, ?_, ?_⟩
    · rw [importBands, h1]
      rw [h2] at g1
      exact g1
    · intro o ho
      rcases List.mem_append.mp ho with ho | ho
      · exact bandOps_ok zero i n b o ho
      · exact g2 o ho
    · rw [run_append]
      exact g3
    · rw [g4, e1, e2, e3, e4]
    · rw [run_append]
      rw [List.append_assoc] at g5
      exact g5
    · intro p
      rw [run_append, g6 p, h5 p]
    · intro p s hps
      rw [g7 p s (by rw [e1, e2]; exact hps), h2]
      exact h6 p s hps

section Geo

variable {κ : Type} [Field κ] [LinearOrder κ]

/-- A raster which is oriented to the north, with square cells and bands of the same shape -/
structure Importable (r : GdalRaster α κ) (g : GeoTransform κ) : Prop where
  geo : r.geo = some g
  rotation : g.rowRotation = 0 ∧ g.colRotation = 0
  north : g.cellHeight < 0
  square : g.cellWidth = -g.cellHeight
  shape : ∀ b ∈ r.bands, b.rows = r.rows ∧ b.cols = r.cols

theorem geoTransform_ok [IsStrictOrderedRing κ] {r : GdalRaster α κ} {g : GeoTransform κ} (h : Importable r g) :
    geoTransform r = .ok g := by
  unfold geoTransform
  rw [h.geo]
  dsimp only
  rw [if_neg (by simp [h.rotation.1, h.rotation.2, h.north]), if_neg (by rw [abs_of_neg h.north, h.square]; simp)]

theorem importRaster_step [IsStrictOrderedRing κ] (zero : α) {ops : List (Op α (Box κ) τ)} (ho : ∀ o ∈ ops, o.Ok)
    (p s : Name) (hnew : (after zero ops).1.pset p s = none) (names : List Name) (hnames : names.Nodup)
    (r : GdalRaster α κ) (g : GeoTransform κ) (hr : Importable r g) (hlen : names.length ≤ r.bands.length)
    (hb : ∀ b ∈ r.bands, OneBlock b) :
    ∃ d' v, ∃ ops' : List (Op α (Box κ) τ), ∃ a, importRaster zero (after zero ops).1 p s names r = .ok d' ∧
      (∀ o ∈ ops', o.Ok) ∧ (after zero (ops ++ ops')).1 = d' ∧ Rep d' a ∧
      (v.phenomenon, v.propertySet, v.grid, v.box) = (p, s, [r.rows, r.cols], spaceBox r.rows r.cols g) ∧
      Importing a v (imported zero names r.bands) ∧
      (∃ r', a.raster p s = some r' ∧ r'.box = spaceBox r.rows r.cols g ∧ r'.grid = (r.rows, r.cols)) ∧
      (∀ q, a.ids q = if q = p then some (idsWith (((after zero ops).1.phenomena p).map Phenomenon.ids))
        else ((after zero ops).1.phenomena q).map Phenomenon.ids) ∧
      ∀ p' s', (p', s') ≠ (p, s) → d'.pset p' s' = (after zero ops).1.pset p' s' := by
  have hsim := after_sim zero ops ho
  have hs : Shaped (runAll (expected zero) (Rasters.empty, []) ops).2.1 :=
    run_shaped zero ops _ (fun p s r k n x hr => by simp [Rasters.empty] at hr)
  set sa := (runAll (expected zero) (Rasters.empty, []) ops).2 with hsa
  set st := after zero ops with hst
  have hra : sa.1.raster p s = none := by
    have := hsim.rep.sets p s
    rw [hnew] at this
    cases hh : sa.1.raster p s with
    | none => rfl
    | some x => rw [hh] at this; cases this
  -- Creating the raster
  set box := spaceBox r.rows r.cols g with hbox
  obtain ⟨id, is, hids⟩ : ∃ id is, idsWith (sa.1.ids p) = id :: is := by
    unfold idsWith
    split <;> exact ⟨_, _, rfl⟩
  set v0 : View (Box κ) τ := ⟨.constant, p, s, id, box, [r.rows, r.cols], none, []⟩ with hv0
  set a1 : Rasters α (Box κ) τ := ({ sa.1 with ids := RasterView.insert sa.1.ids p (idsWith (sa.1.ids p)) } :
    Rasters α (Box κ) τ).set p s ⟨box, (r.rows, r.cols), none, fun _ => [], fun _ => []⟩ with ha1
  have hcreate : sa.1.create p s (r.rows, r.cols) box none = (some v0, a1) := by
    unfold Rasters.create
    dsimp only
    rw [hra]
    dsimp only
    rw [← ha1]
    have : a1.view .constant p s = some v0 := by
      simp [Rasters.view, ha1, Rasters.set, RasterView.insert, hids, hv0, RasterView.names]
    simp [this]
  have hc := create_sim hsim.rep p s (r.rows, r.cols) box none
  rw [hcreate] at hc
  obtain ⟨hc1, hc2, hc3, hc4⟩ := hc
  have hcv : ∃ d1, createConstant st.1 p s (r.rows, r.cols) box = (.ok v0, d1) := by
    change Except.toOption (createConstant st.1 p s (r.rows, r.cols) box).1 = some v0 at hc1
    cases hh : createConstant st.1 p s (r.rows, r.cols) box with
    | mk x d1 =>
      rw [hh] at hc1
      cases x with
      | error e => cases hc1
      | ok v => cases hc1; exact ⟨d1, rfl⟩
  obtain ⟨d1, hcv⟩ := hcv
  have hrep1 : Rep d1 a1 := by
    change Rep (createConstant st.1 p s (r.rows, r.cols) box).2 a1 at hc2
    rw [hcv] at hc2
    exact hc2
  have hstep : step zero st (.create p s (r.rows, r.cols) box none) = (some (.view v0), (d1, st.2 ++ [v0])) := by
    simp only [step, hcv]
  obtain ⟨_, hsim1, _⟩ := step_sim zero hsim (.create p s (r.rows, r.cols) box none) trivial
  have hexp : (expected zero sa (.create p s (r.rows, r.cols) box none)).2 = (a1, sa.2 ++ [v0]) := by
    simp only [expected, hcreate]
  rw [hstep, hexp] at hsim1
  have hs1 := expected_shaped zero sa (.create p s (r.rows, r.cols) box none) hs
  rw [hexp] at hs1
  have him : Importing a1 v0 [] := by
    refine ⟨rfl, ⟨⟨box, (r.rows, r.cols), none, fun _ => [], fun _ => []⟩, by simp [ha1, Rasters.set, hv0], rfl,
      fun _ => rfl, rfl, fun n _ => AMap.get_nil n, by simp⟩, rfl⟩
  obtain ⟨d', v', ops', g1, g2, g3, g4, g5, g6, g7⟩ := importBands_step zero r.rows r.cols st.2.length names r.bands
    (d1, st.2 ++ [v0]) (a1, sa.2 ++ [v0]) hsim1 hs1 v0 (by simp) [] him rfl hnames (by simp) hlen
    (fun b hbm => ⟨hb b hbm, hr.shape b hbm⟩)
  have hops : ∀ o ∈ (Op.create p s (r.rows, r.cols) box none :: ops'), o.Ok := by
    intro o ho
    rcases List.mem_cons.mp ho with rfl | ho
    · trivial
    · exact g2 o ho
  obtain ⟨_, hsim2⟩ := run_sim zero ops' g2 hsim1
  have hfound : containsConstantRaster st.1 p s = .ok false := by
    unfold containsConstantRaster
    unfold File.pset at hnew
    cases hh : st.1.phenomena p with
    | none => rfl
    | some ph =>
      rw [hh] at hnew
      simp only [Option.bind_some] at hnew
      simp only [hnew]
  refine ⟨d', v', .create p s (r.rows, r.cols) box none :: ops', (runAll (expected zero) (a1, sa.2 ++ [v0]) ops').2.1,
    ?_, hops, ?_, ?_, ?_, ?_, ?_, ?_, ?_⟩
  · unfold importRaster
    rw [geoTransform_ok hr]
    simp only [bind, Except.bind, hfound, createOrOpen, Bool.false_eq_true, if_false, ← hbox, hcv]
    exact g1
  · unfold after
    rw [run_append]
    change (runAll (step zero) st _).2.1 = _
    simp only [runAll, hstep]
    exact g3
  · rw [← g3]
    exact hsim2.rep
  · rw [g4]
  · simpa using g5
  · have hg := run_grows zero ops' g2 hsim1
    obtain ⟨r1, q1, q2, q3, q4, q5⟩ := hg.raster p s _ (by simp [ha1, Rasters.set]; rfl)
    exact ⟨r1, q1, q2, q3⟩
  · intro q
    rw [g6 q]
    show RasterView.insert sa.1.ids p (idsWith (sa.1.ids p)) q = _
    have := hsim.rep.ids
    simp only [RasterView.insert, this]
  · intro p' s' hps
    rw [g7 p' s' hps]
    show d1.pset p' s' = _
    have hd1 : d1 = (createConstant st.1 p s (r.rows, r.cols) box).2 := by rw [hcv]
    rw [hd1]
    have hpp : (preparePhenomenon st.1 p).propertySets s = none := by
      unfold preparePhenomenon
      unfold File.pset at hnew
      cases hh : st.1.phenomena p with
      | none => simp
      | some ph =>
        rw [hh] at hnew
        simp only [Option.bind_some] at hnew
        simp only [Option.getD_some]
        split <;> exact hnew
    unfold createConstant
    simp only [hpp]
    unfold File.pset File.setPropertySet
    by_cases h1 : p' = p
    · subst h1
      have h2 : s' ≠ s := fun hh => hps (by rw [hh])
      simp only [RasterView.insert, if_true, Option.bind_some, h2, if_false]
      unfold preparePhenomenon
      cases hh : st.1.phenomena p' with
      | none => simp
      | some ph =>
        simp only [Option.getD_some, Option.bind_some]
        split <;> rfl
    · simp [RasterView.insert, h1]

end Geo

end Lue.Translate

import Verif.PyIO.Path

/-!
# Reading and writing rasters from Python: proofs
-/
namespace Lue.PyIO

open Lue.LueIO Lue.RasterView Lue.DataModel Lue.Index

variable {α β τ : Type}

theorem toOption_some {χ : Type} {x : M χ} {y : χ} (h : x.toOption = some y) : x = .ok y := by
  cases x with
  | error e => cases h
  | ok z => cases h; rfl

theorem toOption_none {χ : Type} {x : M χ} (h : x.toOption = none) : ∃ e, x = .error e := by
  cases x with
  | error e => exact ⟨e, rfl⟩
  | ok z => cases h

/-! ### A raster, in terms of the specification of raster views -/

/-- A raster is there, with values. -/
structure AbsAt (a : Rasters α β τ) (path : ArrayPath) (time : Option Nat) (rows cols : Nat) (v : Arr α) : Prop where
  ids : ∃ id is, a.ids path.phenomenon = some (id :: is)
  raster : ∃ r, a.raster path.phenomenon path.propertySet = some r ∧ r.grid = (rows, cols) ∧
    ∀ t, time = some t → ∃ period nr, r.time = some (period, nr) ∧ t < nr
  array : ∃ x, a.array path.phenomenon path.propertySet (kindOf time) path.layer = some x ∧
    ∀ i j, i < rows → j < cols → x.data (cellAt time i j) = v i j

theorem view_kind {a : Rasters α β τ} {k : Kind} {p s : Name} {v : View β τ} (h : a.view k p s = some v) :
    v.kind = k ∧ v.phenomenon = p ∧ v.propertySet = s ∧ ∃ r, a.raster p s = some r ∧ v.layers = names (r.layers k) ∧
      v.grid = [r.grid.1, r.grid.2] ∧ (k = .varying → v.time = r.time) ∧ ∃ is, a.ids p = some (v.objectId :: is) := by
  unfold Rasters.view at h
  simp only [Option.bind_eq_bind, Option.bind_eq_some_iff] at h
  obtain ⟨r, hr, ids, hids, id, hid, h⟩ := h
  have h1 : ∃ is, ids = id :: is := by
    cases ids with
    | nil => simp at hid
    | cons i is => simp at hid; subst hid; exact ⟨is, rfl⟩
  obtain ⟨is, rfl⟩ := h1
  cases k with
  | constant =>
    simp only [Option.some.injEq] at h
    subst h
    exact ⟨rfl, rfl, rfl, r, hr, rfl, rfl, by simp, is, hids⟩
  | varying =>
    simp only [Option.bind_eq_some_iff, Option.some.injEq] at h
    obtain ⟨t, ht, h⟩ := h
    subst h
    exact ⟨rfl, rfl, rfl, r, hr, rfl, rfl, fun _ => ht.symm, is, hids⟩

/-- The raster view of a raster which is there. -/
theorem AbsAt.view {a : Rasters α β τ} {path : ArrayPath} {time : Option Nat} {rows cols : Nat} {v : Arr α}
    (h : AbsAt a path time rows cols v) :
    ∃ view x, a.view (kindOf time) path.phenomenon path.propertySet = some view ∧ view.grid = [rows, cols] ∧
      (∀ t, time = some t → ∃ period nr, view.time = some (period, nr) ∧ t < nr) ∧ path.layer ∈ view.layers ∧
      a.array path.phenomenon path.propertySet (kindOf time) path.layer = some x ∧ a.layer view path.layer = some x ∧
      ∀ i j, i < rows → j < cols → x.data (cellAt time i j) = v i j := by
  obtain ⟨id, is, hid⟩ := h.ids
  obtain ⟨r, hr, hg, ht⟩ := h.raster
  obtain ⟨x, hx, hv⟩ := h.array
  have hx' : (r.layers (kindOf time)).get path.layer = some x := by simpa [Rasters.array, hr] using hx
  have key : ∃ view, a.view (kindOf time) path.phenomenon path.propertySet = some view := by
    cases time with
    | none => exact ⟨_, by simp only [Rasters.view, hr, hid, kindOf]; rfl⟩
    | some t =>
      obtain ⟨period, nr, h1, h2⟩ := ht t rfl
      refine ⟨⟨.varying, path.phenomenon, path.propertySet, id, r.box, [r.grid.1, r.grid.2], some (period, nr),
        names (r.layers .varying)⟩, ?_⟩
      simp [Rasters.view, hr, hid, kindOf, h1]
  obtain ⟨view, hview⟩ := key
  obtain ⟨h1, h2, h3, r', h4, h5, h6, h7, _⟩ := view_kind hview
  rw [hr] at h4
  cases h4
  have hm : path.layer ∈ view.layers := by rw [h5, mem_names, hx']; rfl
  refine ⟨view, x, hview, by rw [h6, hg], ?_, hm, hx, ?_, hv⟩
  · intro t htime
    obtain ⟨period, nr, h8, h9⟩ := ht t htime
    exact ⟨period, nr, by rw [h7 (by rw [htime]; rfl), h8], h9⟩
  · unfold Rasters.layer
    rw [if_pos hm, h2, h3, hr, h1]
    exact hx'

/-- Both formulations agree. -/
theorem rasterAt_iff {disk : Disk α β τ} {path : ArrayPath} {d : File α β τ} (hd : disk path.dataset = some d)
    {a : Rasters α β τ} (h : Rep d a) (time : Option Nat) (rows cols : Nat) (v : Arr α) :
    RasterAt disk path time rows cols v ↔ AbsAt a path time rows cols v := by
  constructor
  · rintro ⟨d', view, array, h1, h2, h3, h4, h5, h6⟩
    rw [hd] at h1
    cases h1
    have hv : a.view (kindOf time) path.phenomenon path.propertySet = some view := by
      rw [← openView_eq h, h2]; rfl
    have hl : a.layer view path.layer = some array := by
      rw [← layer_eq h (view_rep h hv), h4]; rfl
    obtain ⟨k1, k2, k3, r, k4, k5, k6, k7, is, k8⟩ := view_kind hv
    refine ⟨⟨_, is, k8⟩, ⟨r, k4, ?_, ?_⟩, ⟨array, ?_, h6⟩⟩
    · rw [k6] at h3
      simp only [List.cons.injEq, and_true] at h3
      exact Prod.ext h3.1 h3.2
    · intro t ht
      obtain ⟨period, nr, h7, h8⟩ := h5 t ht
      exact ⟨period, nr, by rw [← k7 (by rw [ht]; rfl), h7], h8⟩
    · unfold Rasters.layer at hl
      split at hl
      · rw [k2, k3, k1] at hl
        exact hl
      · cases hl
  · intro ha
    obtain ⟨view, x, h1, h2, h3, h4, h5, h6, h7⟩ := ha.view
    refine ⟨d, view, x, hd, ?_, h2, ?_, h3, h7⟩
    · exact toOption_some (by rw [openView_eq h, h1])
    · exact toOption_some (by rw [layer_eq h (view_rep h h1), h6])

/-- Rasters stay there if these are only added, and the array is not changed. -/
theorem AbsAt.keep {a a' : Rasters α β τ} {path : ArrayPath} {time : Option Nat} {rows cols : Nat} {v : Arr α}
    (h : AbsAt a path time rows cols v) (g : Grows a a')
    (hx : ∀ x, a.array path.phenomenon path.propertySet (kindOf time) path.layer = some x →
      ∃ x', a'.array path.phenomenon path.propertySet (kindOf time) path.layer = some x' ∧
        ∀ i j, x'.data (cellAt time i j) = x.data (cellAt time i j)) : AbsAt a' path time rows cols v := by
  obtain ⟨id, is, hid⟩ := h.ids
  obtain ⟨r, hr, hg, ht⟩ := h.raster
  obtain ⟨x, hx1, hv⟩ := h.array
  obtain ⟨r', g1, g2, g3, g4, g5⟩ := g.raster _ _ _ hr
  obtain ⟨x', hx2, hx3⟩ := hx x hx1
  refine ⟨⟨id, is, g.ids _ _ _ hid⟩, ⟨r', g1, g3.trans hg, ?_⟩, ⟨x', hx2, ?_⟩⟩
  · intro t h1
    obtain ⟨period, nr, h2, h3⟩ := ht t h1
    exact ⟨period, nr, g4.trans h2, h3⟩
  · intro i j hi hj
    rw [hx3, hv i j hi hj]

/-! ### Writing -/

/-- Writing the array of an object of a layer. -/
theorem writeObject_eq (d : File α β τ) {view : View β τ} {path : ArrayPath} (hm : path.layer ∈ view.layers)
    (hp : view.phenomenon = path.phenomenon) (hs : view.propertySet = path.propertySet) (h : Hyperslab) (buffer : List α) :
    (writeObject d view.kind path view.objectId h buffer).toOption = (writeLayer d view path.layer h buffer).toOption := by
  unfold writeObject writeLayer layer
  have : view.layers.contains path.layer = true := by simpa using hm
  simp only [this, Bool.not_true, Bool.false_eq_true, if_false, hp, hs]
  cases h1 : item d.phenomena path.phenomenon with
  | error e => rfl
  | ok p =>
    cases h2 : item p.propertySets path.propertySet with
    | error e => simp [h2, bind, Except.bind]
    | ok s =>
      cases h3 : item (s.layers view.kind).get path.layer with
      | error e => simp [h2, h3, bind, Except.bind]
      | ok prop =>
        cases h4 : openChild prop.value view.objectId with
        | error e => simp [h2, h3, h4, bind, Except.bind]
        | ok x => simp only [h2, h3, h4, bind, Except.bind]

theorem openArray_eq (d : File α β τ) {view : View β τ} {path : ArrayPath} (hm : path.layer ∈ view.layers)
    (hp : view.phenomenon = path.phenomenon) (hs : view.propertySet = path.propertySet) :
    openArray d view.kind path view.objectId = layer d view path.layer := by
  unfold openArray layer
  have : view.layers.contains path.layer = true := by simpa using hm
  simp only [this, Bool.not_true, Bool.false_eq_true, if_false, hp, hs]

theorem mapM_mem {X Y : Type} {f : X → M Y} : ∀ {l : List X} {ys : List Y}, l.mapM f = .ok ys →
    ∀ y ∈ ys, ∃ x ∈ l, f x = .ok y := by
  intro l
  induction l with
  | nil =>
    intro ys h y hy
    have : ys = [] := by simpa [pure, Except.pure] using h.symm
    rw [this] at hy
    cases hy
  | cons x l ih =>
    intro ys h y hy
    rw [List.mapM_cons] at h
    cases h1 : f x with
    | error e => rw [h1] at h; cases h
    | ok z =>
      rw [h1, M.bind_ok] at h
      cases h2 : l.mapM f with
      | error e => rw [h2] at h; cases h
      | ok zs =>
        rw [h2, M.bind_ok] at h
        simp only [pure, Except.pure, Except.ok.injEq] at h
        rw [← h] at hy
        rcases List.mem_cons.mp hy with rfl | hy
        · exact ⟨x, by simp, h1⟩
        · obtain ⟨x', hx', h3⟩ := ih h2 y hy
          exact ⟨x', by simp [hx'], h3⟩

/-- Only cells of the time step are written. -/
theorem writes_cells {x : PArr α} {shape : List Nat} {time : Option Nat} {k : Nat} {ws : List (List Nat × α)}
    (h : partitionWrites shape x (shapeToHyperslab [x.grid.a0, x.grid.a1]).start time k = .ok ws) :
    ∀ w ∈ ws, ∃ i j, w.1 = cellAt time i j := by
  have hs : (shapeToHyperslab [x.grid.a0, x.grid.a1]).start = [0, 0] := rfl
  rw [hs] at h
  unfold partitionWrites at h
  cases h1 : rd x.parts k with
  | error e => rw [h1] at h; cases h
  | ok buffer =>
    rw [h1, M.bind_ok] at h
    unfold h5Writes at h
    split at h
    · intro w hw
      obtain ⟨n, hn, h2⟩ := mapM_mem h w hw
      rw [List.mem_range, nrElements_count] at hn
      cases h3 : rd buffer n with
      | error e => rw [h3] at h2; cases h2
      | ok y =>
        rw [h3, M.bind_ok, Except.ok.injEq] at h2
        rw [← h2]
        exact ⟨_, _, coord_eq x.grid 0 0 time hn⟩
    · cases h

/-- Writing to an HDF5 dataset, as in C29. -/
theorem writeHyperslab_eq (y : Dataset α) {x : PArr α} {v : Arr α} (hx : Represents x v) (time : Option Nat) {k : Nat}
    (buffer : List α) :
    let h := partitionHyperslab x.grid (shapeToHyperslab [x.grid.a0, x.grid.a1]).start time k
    writeHyperslab y h buffer = (h5Writes y.shape h buffer).map fun ws => { y with toH5 := y.toH5.apply ws } := by
  intro h
  have hs : (shapeToHyperslab [x.grid.a0, x.grid.a1]).start = [0, 0] := rfl
  have hc : h.count.any (· == 0) = false := by
    have r := rows_pos hx.ok (k / x.grid.n1)
    have c := cols_pos hx.ok (k % x.grid.n1)
    rw [List.any_eq_false]
    intro n hn
    have : n ≠ 0 := by
      cases time with
      | none =>
        simp [h, partitionHyperslab, hyperslab, Hyperslab.ofCount] at hn
        rcases hn with rfl | rfl <;> omega
      | some t =>
        simp [h, partitionHyperslab, hyperslabAt, Hyperslab.ofCount] at hn
        rcases hn with rfl | rfl | rfl <;> omega
    simp [this]
  have hv : selectionValid h y.shape = h.fits y.shape := by
    unfold selectionValid
    rw [hc, Bool.false_or]
    unfold Hyperslab.fits
    cases h.start.length == y.shape.length <;> cases h.stride.length == y.shape.length <;>
      cases h.count.length == y.shape.length <;> simp
  unfold writeHyperslab h5Writes
  rw [hv]
  split
  · cases List.mapM (m := M) (fun n => do
      let x ← rd buffer n
      .ok (h.coord n, x)) (List.range (nrElements h.count)) with
    | error e => rfl
    | ok ws => rfl
  · rfl

/-- Writing a partition. -/
theorem writePart_sim {d : File α β τ} {a : Rasters α β τ} (h : Rep d a) (hsh : Shaped a) {view : View β τ}
    (hv : ViewRep a view) {path : ArrayPath} {time : Option Nat} (hk : view.kind = kindOf time)
    (hm : path.layer ∈ view.layers) (hp : view.phenomenon = path.phenomenon)
    (hs : view.propertySet = path.propertySet) {y : Dataset α}
    (hy : a.array path.phenomenon path.propertySet (kindOf time) path.layer = some y) {x : PArr α} {v : Arr α}
    (hx : Represents x v) {k : Nat} (hkn : k < x.grid.n0 * x.grid.n1) :
    match partitionWrites y.shape x (shapeToHyperslab [x.grid.a0, x.grid.a1]).start time k with
    | .error _ => ∃ e, writePart x time path view.objectId d k = .error e
    | .ok ws => ∃ d' a', writePart x time path view.objectId d k = .ok d' ∧ Rep d' a' ∧ Shaped a' ∧ Grows a a' ∧
        a'.array path.phenomenon path.propertySet (kindOf time) path.layer = some { y with toH5 := y.toH5.apply ws } ∧
        ∀ p s q n, (p, s, q, n) ≠ (path.phenomenon, path.propertySet, kindOf time, path.layer) →
          a'.array p s q n = a.array p s q n := by
  have hl : a.layer view path.layer = some y := by
    unfold Rasters.layer
    rw [if_pos hm, hp, hs, hk]
    exact hy
  obtain ⟨r, hr, _⟩ := hv.raster
  rw [hp, hs] at hr
  unfold partitionWrites writePart
  rw [rd_ok (hx.parts_get hkn), M.bind_ok, M.bind_ok, ← hk]
  generalize hbuf : List.map (fun p => v p.1 p.2) (partIdxs x.grid k) = buffer
  have hw := writeHyperslab_eq y hx time (k := k) buffer
  dsimp only at hw
  generalize hhy : partitionHyperslab x.grid (shapeToHyperslab [x.grid.a0, x.grid.a1]).start time k = hyp at hw ⊢
  have he := writeObject_eq d hm hp hs hyp buffer
  have hsim := write_sim h hv path.layer hyp buffer
  cases hh : h5Writes y.shape hyp buffer with
  | error e =>
    rw [hh] at hw
    have h1 : a.write view path.layer hyp buffer = none := by
      unfold Rasters.write
      simp [hl, hw, Except.map, Except.toOption]
    rw [h1] at hsim
    cases h2 : writeLayer d view path.layer hyp buffer with
    | ok d' => rw [h2] at hsim; exact hsim.elim
    | error e' =>
      rw [h2] at he
      exact toOption_none he
  | ok ws =>
    rw [hh] at hw
    have h1 : a.write view path.layer hyp buffer = some (a.set path.phenomenon path.propertySet
        (r.put (kindOf time) path.layer { y with toH5 := y.toH5.apply ws })) := by
      unfold Rasters.write
      simp [hl, hw, Except.map, Except.toOption, hp, hs, hr, hk]
    rw [h1] at hsim
    cases h2 : writeLayer d view path.layer hyp buffer with
    | error e => rw [h2] at hsim; exact hsim.elim
    | ok d' =>
      rw [h2] at hsim he
      dsimp only at hsim ⊢
      have hy' : (r.layers (kindOf time)).get path.layer = some y := by simpa [Rasters.array, hr] using hy
      refine ⟨d', _, toOption_some he, hsim.1, ?_, hsim.2, ?_, ?_⟩
      · refine shaped_set hsh _ _ _ fun k' n z hz => ?_
        rw [put_layers] at hz
        show z.shape = r.shape k'
        split at hz
        · rename_i hkn'
          cases hz
          show (y.toH5.apply ws).shape = _
          rw [apply_shape, hkn'.1]
          exact hsh _ _ r _ _ _ hr hy'
        · exact hsh _ _ r _ _ _ hr hz
      · rw [array_set, if_pos ⟨rfl, rfl⟩, put_layers, if_pos ⟨hk, rfl⟩]
      · intro p s q n hne
        rw [array_set]
        split
        · rename_i hps
          obtain ⟨rfl, rfl⟩ := hps
          rw [put_layers, if_neg]
          · simp [Rasters.array, hr]
          · rintro ⟨rfl, rfl⟩
            exact hne (by rw [hk])
        · rfl

end Lue.PyIO

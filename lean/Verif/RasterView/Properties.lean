import Verif.RasterView.Step

/-!
# Properties of raster views
-/
namespace Lue.RasterView

open Lue.DataModel Lue.LueIO Lue.Index

variable {α β τ : Type}

/-- The state after a history of operations on a new dataset -/
def after (zero : α) (ops : List (Op α β τ)) : File α β τ × List (View β τ) := (runAll (step zero) (newFile, []) ops).2

/-- The shape of the layers of a view: a constant layer has a row and column dimension, a variable layer has dimensions for
the (single) location in time and the time steps also. -/
def View.shape (v : View β τ) : List Nat :=
  match v.kind with
  | .constant => v.grid
  | .varying => 1 :: v.time.elim 0 Prod.snd :: v.grid

/-- Two views show the same layers. -/
def SameRaster (v w : View β τ) : Prop :=
  v.kind = w.kind ∧ v.phenomenon = w.phenomenon ∧ v.propertySet = w.propertySet

/-- None of the operations writes to a certain layer, through whatever view. -/
def Quiet (zero : α) (p s : Name) (k : Kind) (n : Name) :
    File α β τ × List (View β τ) → List (Op α β τ) → Prop
  | _, [] => True
  | st, o :: os => ¬Writes st.2 p s k n o ∧ Quiet zero p s k n (step zero st o).2 os

/-- **C49**: whatever is done, each operation returns (or throws) what is expected when a dataset is a collection of named
rasters with named layers: views which are created or opened, contents of layers, and whether or not rasters are
recognized. -/
theorem views_refine (zero : α) (ops : List (Op α β τ)) (ho : ∀ o ∈ ops, o.Ok) :
    (runAll (step zero) (newFile, []) ops).1 = (runAll (expected zero) (Rasters.empty, []) ops).1 :=
  (run_sim zero ops ho sim_new).1

theorem after_sim (zero : α) (ops : List (Op α β τ)) (ho : ∀ o ∈ ops, o.Ok) :
    Sim' (after zero ops) (runAll (expected zero) (Rasters.empty, []) ops).2 := (run_sim zero ops ho sim_new).2

theorem view_shape {a : Rasters α β τ} {v : View β τ} (h : ViewRep a v) {r : Raster α β τ}
    (hr : a.raster v.phenomenon v.propertySet = some r) : v.shape = r.shape v.kind := by
  obtain ⟨r', h1, h2, h3, h4, h5⟩ := h.raster
  rw [hr] at h1
  cases h1
  unfold View.shape Raster.shape
  cases hk : v.kind with
  | constant => exact h3
  | varying => dsimp only; rw [h3, h4 hk]

theorem quiet_keep (zero : α) (ops : List (Op α β τ)) (ho : ∀ o ∈ ops, o.Ok) {st : File α β τ × List (View β τ)}
    {sa : Rasters α β τ × List (View β τ)} (h : Sim' st sa) {p s : Name} {k : Kind} {n : Name} {x : Dataset α}
    (hq : Quiet zero p s k n st ops) (hx : sa.1.array p s k n = some x) :
    (runAll (expected zero) sa ops).2.1.array p s k n = some x := by
  induction ops generalizing st sa with
  | nil => exact hx
  | cons o ops ih =>
    obtain ⟨h1, h2, _⟩ := step_sim zero h o (ho o (by simp))
    refine ih (fun o' ho' => ho o' (by simp [ho'])) h2 hq.2 ?_
    apply expected_keep _ _ _ _ _ _ _ _ hx
    have := h.views
    rw [← this]
    exact hq.1

theorem holdsArray_self {x : Dataset α} : HoldsArray x x.shape
    ((List.range (nrElements x.shape)).map fun k => x.data (linearIdxToIdxs k x.shape)) :=
  ⟨rfl, by simp, fun k hk => by simp [hk]⟩

/-- Reading a layer whose array is known -/
theorem step_read (zero : α) {st : File α β τ × List (View β τ)} {sa : Rasters α β τ × List (View β τ)} (h : Sim' st sa)
    (hs : Shaped sa.1) {j : Nat} {w : View β τ} (hj : st.2[j]? = some w) {n : Name} (hn : n ∈ w.layers) {x : Dataset α}
    (hx : sa.1.array w.phenomenon w.propertySet w.kind n = some x) {xs buffer : List α}
    (hh : HoldsArray x w.shape xs) (hb : buffer.length = nrElements w.shape) :
    (step zero st (.read j n (.ofShape w.shape) buffer)).1 = some (.data xs) := by
  rw [(step_sim zero h (.read j n (.ofShape w.shape) buffer) trivial).1]
  have hj' : sa.2[j]? = some w := by rw [← h.views]; exact hj
  simp only [expected, hj']
  have hl : sa.1.layer w n = some x := by
    unfold Rasters.layer
    rw [if_pos hn]
    exact hx
  rw [hl]
  have := holdsArray_read hh hb
  rw [hh.shape_eq] at this
  simp [this, Except.toOption]

theorem step_write (zero : α) {st : File α β τ × List (View β τ)} {sa : Rasters α β τ × List (View β τ)} (h : Sim' st sa)
    (hs : Shaped sa.1) {i : Nat} {v : View β τ} (hi : st.2[i]? = some v) {n : Name} (hn : n ∈ v.layers) {xs : List α}
    (hx : xs.length = nrElements v.shape) :
    (step zero st (.write i n (.ofShape v.shape) xs)).1 = some .done ∧
      ∃ y, (expected zero sa (.write i n (.ofShape v.shape) xs)).2.1.array v.phenomenon v.propertySet v.kind n = some y ∧
        HoldsArray y v.shape xs := by
  rw [(step_sim zero h (.write i n (.ofShape v.shape) xs) trivial).1]
  have hi' : sa.2[i]? = some v := by rw [← h.views]; exact hi
  have hv := h.view v (List.mem_of_getElem? hi')
  obtain ⟨r, h1, h2, h3, h4, h5⟩ := hv.raster
  obtain ⟨x, hxl⟩ := Option.isSome_iff_exists.mp (h5 n hn)
  have hshape : x.shape = v.shape := (hs _ _ r _ _ _ h1 hxl).trans (view_shape hv h1).symm
  have hself := holdsArray_self (x := x)
  rw [hshape] at hself
  obtain ⟨y, hy1, hy2, _⟩ := holdsArray_write hself hx
  rw [hshape] at hy1
  have hl : sa.1.layer v n = some x := by
    unfold Rasters.layer
    rw [if_pos hn, h1]
    exact hxl
  have hw : sa.1.write v n (.ofShape v.shape) xs = some (sa.1.set v.phenomenon v.propertySet (r.put v.kind n y)) := by
    simp [Rasters.write, hl, h1, hy1, Except.toOption]
  simp only [expected, hi', hw]
  refine ⟨trivial, y, ?_, hy2⟩
  rw [array_set, if_pos ⟨rfl, rfl⟩, put_layers, if_pos ⟨rfl, rfl⟩]

/-- **C49**: what is written to a layer is what is read back, through any view of the raster which knows the layer (also
after closing and opening the dataset again), until the layer is written again. Any other operations in between, such as
creating rasters, adding layers, and writing other layers, don't matter. -/
theorem layer_read_back (zero : α) (ops ops' : List (Op α β τ)) (ho : ∀ o ∈ ops, o.Ok) (ho' : ∀ o ∈ ops', o.Ok)
    {i : Nat} {v : View β τ} (hi : (after zero ops).2[i]? = some v) {n : Name} (hn : n ∈ v.layers) {xs : List α}
    (hx : xs.length = nrElements v.shape) :
    (step zero (after zero ops) (.write i n (.ofShape v.shape) xs)).1 = some .done ∧
    let st := (step zero (after zero ops) (.write i n (.ofShape v.shape) xs)).2
    (Quiet zero v.phenomenon v.propertySet v.kind n st ops' →
      let st' := (runAll (step zero) st ops').2
      ∀ (j : Nat) (w : View β τ) (buffer : List α), st'.2[j]? = some w → SameRaster v w → n ∈ w.layers →
        w.shape = v.shape ∧ (buffer.length = nrElements w.shape →
          (step zero st' (.read j n (.ofShape w.shape) buffer)).1 = some (.data xs))) := by
  have hsim := after_sim zero ops ho
  have hs : Shaped (runAll (expected zero) (Rasters.empty, []) ops).2.1 :=
    run_shaped zero ops _ (fun p s r k n x hr => by simp [Rasters.empty] at hr)
  obtain ⟨h1, y, h2, h3⟩ := step_write zero hsim hs hi hn hx
  refine ⟨h1, ?_⟩
  intro st hq st' j w buffer hj hsame hw
  obtain ⟨_, hsim1, hg1⟩ := step_sim zero hsim (.write i n (.ofShape v.shape) xs) trivial
  obtain ⟨_, hsim2⟩ := run_sim zero ops' ho' hsim1
  have hs2 := run_shaped zero ops' _ (expected_shaped zero _ (.write i n (.ofShape v.shape) xs) hs)
  have h4 := quiet_keep zero ops' ho' hsim1 hq h2
  obtain ⟨hk, hp, hps⟩ := hsame
  rw [hk, hp, hps] at h4
  have hj' := List.mem_of_getElem? hj
  have hwr := hsim2.view w (by rw [← hsim2.views]; exact hj')
  obtain ⟨r, hr, _⟩ := hwr.raster
  have hshape : w.shape = v.shape := by
    rw [view_shape hwr hr, ← h3.shape_eq]
    simp only [Rasters.array, hr, Option.bind_some] at h4
    exact (hs2 _ _ _ _ _ _ hr h4).symm
  refine ⟨hshape, fun hb => ?_⟩
  exact step_read zero hsim2 hs2 hj hw h4 (by rw [hshape]; exact h3) hb

theorem expected_open (zero : α) {sa : Rasters α β τ × List (View β τ)} {k : Kind} {p s : Name} {w : View β τ}
    (h : sa.1.view k p s = some w) : (expected zero sa (.openView k p s)).1 = some (.view w) := by
  simp only [expected, h]

/-- **C49**: once a layer has been added, the raster can be opened, with the same geometry, and the layer is listed, until
the end of time: there is no operation with which it can get lost. -/
theorem layer_listed (zero : α) (ops ops' : List (Op α β τ)) (ho : ∀ o ∈ ops, o.Ok) (ho' : ∀ o ∈ ops', o.Ok)
    {i : Nat} {v v' : View β τ} (hi : (after zero ops).2[i]? = some v) {n : Name} {noData : Option α}
    (hadd : (step zero (after zero ops) (.addLayer i n noData)).1 = some (.view v')) :
    let st' := (runAll (step zero) (step zero (after zero ops) (.addLayer i n noData)).2 ops').2
    ∃ w : View β τ, (step zero st' (.openView v.kind v.phenomenon v.propertySet)).1 = some (.view w) ∧ SameRaster v w ∧
      w.objectId = v.objectId ∧ w.box = v.box ∧ w.shape = v.shape ∧ n ∈ w.layers ∧ (∀ m ∈ v.layers, m ∈ w.layers) := by
  have hsim := after_sim zero ops ho
  have hv := hsim.view v (List.mem_of_getElem? (by rw [← hsim.views]; exact hi))
  have htimed := hsim.timed v (List.mem_of_getElem? (by rw [← hsim.views]; exact hi))
  obtain ⟨he, hsim1, hg1⟩ := step_sim zero hsim (.addLayer i n noData) trivial
  obtain ⟨_, hsim2⟩ := run_sim zero ops' ho' hsim1
  have hg2 := run_grows zero ops' ho' hsim1
  intro st'
  rw [(step_sim zero hsim2 (.openView v.kind v.phenomenon v.propertySet) trivial).1]
  obtain ⟨r, hr, hbox, hgrid, htime, hlayers⟩ := hv.raster
  obtain ⟨is, hids⟩ := hv.ids
  -- The layer is there
  have hlayer : ∃ r1, (expected zero (runAll (expected zero) (Rasters.empty, []) ops).2 (.addLayer i n noData)).2.1.raster
      v.phenomenon v.propertySet = some r1 ∧ ((r1.layers v.kind).get n).isSome := by
    rw [he] at hadd
    have hi' : (runAll (expected zero) (Rasters.empty, []) ops).2.2[i]? = some v := by rw [← hsim.views]; exact hi
    simp only [expected, hi'] at hadd ⊢
    split
    · rename_i v'' a' ha
      rw [Rasters.addLayer, hr] at ha
      simp only [Option.bind_eq_bind, Option.bind_some] at ha
      split at ha
      · cases ha
      · simp only [Option.some.injEq, Prod.mk.injEq] at ha
        obtain ⟨_, rfl⟩ := ha
        refine ⟨_, by simp [Rasters.set]; rfl, ?_⟩
        rw [put_layers, if_pos ⟨rfl, rfl⟩]; rfl
    · rename_i ha
      rw [ha] at hadd
      cases hadd
  obtain ⟨r1, hr1, hn1⟩ := hlayer
  obtain ⟨r1', a1, a2, a3, a4, a5⟩ := hg1.raster _ _ _ hr
  rw [hr1] at a1
  cases a1
  obtain ⟨r2, b1, b2, b3, b4, b5⟩ := hg2.raster _ _ _ hr1
  have hids2 := hg2.ids _ _ _ (hg1.ids _ _ _ hids)
  cases hk : v.kind with
  | constant =>
    have hview : (runAll (expected zero) (expected zero (runAll (expected zero) (Rasters.empty, []) ops).2
        (.addLayer i n noData)).2 ops').2.1.view .constant v.phenomenon v.propertySet =
        some ⟨.constant, v.phenomenon, v.propertySet, v.objectId, r2.box, [r2.grid.1, r2.grid.2], none,
          names (r2.layers .constant)⟩ := by simp [Rasters.view, b1, hids2]
    rw [hk] at hn1 hlayers
    refine ⟨_, expected_open zero hview, ⟨hk, rfl, rfl⟩, rfl, ?_, ?_, ?_, ?_⟩
    · rw [hbox, b2, a2]
    · simp only [View.shape, hk, hgrid, b3, a3]
    · exact (mem_names _ _).mpr (b5 _ _ hn1)
    · exact fun m hm => (mem_names _ _).mpr (b5 _ _ (a5 _ _ (hlayers m hm)))
  | varying =>
    obtain ⟨t, ht⟩ := Option.isSome_iff_exists.mp (htimed hk)
    have ht' : r2.time = some t := by rw [b4, a4, ← htime hk, ht]
    have hview : (runAll (expected zero) (expected zero (runAll (expected zero) (Rasters.empty, []) ops).2
        (.addLayer i n noData)).2 ops').2.1.view .varying v.phenomenon v.propertySet =
        some ⟨.varying, v.phenomenon, v.propertySet, v.objectId, r2.box, [r2.grid.1, r2.grid.2], some t,
          names (r2.layers .varying)⟩ := by simp [Rasters.view, b1, hids2, ht']
    rw [hk] at hn1 hlayers
    refine ⟨_, expected_open zero hview, ⟨hk, rfl, rfl⟩, rfl, ?_, ?_, ?_, ?_⟩
    · rw [hbox, b2, a2]
    · simp only [View.shape, hk, hgrid, b3, a3, ht]
    · exact (mem_names _ _).mpr (b5 _ _ hn1)
    · exact fun m hm => (mem_names _ _).mpr (b5 _ _ (a5 _ _ (hlayers m hm)))

/-- **C49**: creating a raster that exists already fails, and leaves all rasters as they are. -/
theorem create_existing (zero : α) (ops : List (Op α β τ)) (ho : ∀ o ∈ ops, o.Ok) {i : Nat} {v : View β τ}
    (hi : (after zero ops).2[i]? = some v) (grid : Nat × Nat) (box : β) (time : Option (τ × Nat)) :
    (step zero (after zero ops) (.create v.phenomenon v.propertySet grid box time)).1 = none ∧
    (∀ p s, (step zero (after zero ops) (.create v.phenomenon v.propertySet grid box time)).2.1.pset p s =
      (after zero ops).1.pset p s) := by
  have hsim := after_sim zero ops ho
  have hv := hsim.view v (List.mem_of_getElem? (by rw [← hsim.views]; exact hi))
  obtain ⟨r, hr, _⟩ := hv.raster
  obtain ⟨is, hids⟩ := hv.ids
  obtain ⟨ph, ps, h1, h2, _⟩ := hsim.rep.pset_some hr
  have h3 : preparePhenomenon (after zero ops).1 v.phenomenon = ph := by
    have := hsim.rep.ids v.phenomenon
    rw [h1, hids] at this
    simp only [Option.map_some, Option.some.injEq] at this
    unfold preparePhenomenon
    rw [h1]
    simp [this]
  rw [step_create, createView_eq, h3, h2]
  refine ⟨rfl, fun p s => ?_⟩
  dsimp only
  unfold File.pset insert
  dsimp only
  by_cases hp : p = v.phenomenon
  · rw [if_pos hp, hp, h1]
  · rw [if_neg hp]

/-! ### Cases -/

/-- A raster with two layers is created, layers are written, the dataset is closed and opened again, the layers are read. -/
def history : List (Op Nat Nat Nat) :=
  [.create ['a'] ['s'] (2, 2) 7 none, .addLayer 0 ['z'] (some 9), .addLayer 0 ['b'] none,
    .write 0 ['z'] (.ofShape [2, 2]) [1, 2, 3, 4], .create ['a'] ['t'] (1, 1) 8 (some (5, 2)),
    .addLayer 1 ['z'] none, .write 1 ['z'] (.ofShape [1, 2, 1, 1]) [5, 6], .reopen, .openView .constant ['a'] ['s'],
    .read 0 ['z'] (.ofShape [2, 2]) [0, 0, 0, 0], .read 0 ['b'] (.ofShape [2, 2]) [8, 8, 8, 8],
    .contains .constant ['a'] ['s'], .contains .varying ['a'] ['s'], .contains .varying ['a'] ['t'],
    .openView .varying ['a'] ['s'], .openView .varying ['a'] ['t'], .read 1 ['z'] (.ofShape [1, 2, 1, 1]) [0, 0],
    .create ['a'] ['s'] (3, 3) 7 none]

theorem history_ok : ∀ o ∈ history, o.Ok := by simp [history, Op.Ok]

/-- Answers as data -/
def show_ : Option (Answer Nat Nat Nat) → List (List Nat) × List Name
  | none => ([[99]], [])
  | some .done => ([], [])
  | some (.view v) => ([[v.objectId, v.box], v.grid], v.layers)
  | some (.data xs) => ([xs], [])
  | some (.bool b) => ([[if b then 1 else 0]], [])

/-- The layers are listed in the order of their names once the raster is opened again, contents are read back, and layers
which haven't been written contain the no-data value. -/
example : ((runAll (step 0) (newFile, []) history).1.map show_).drop 8 =
    [([[5, 7], [2, 2]], [['b'], ['z']]), ([[1, 2, 3, 4]], []), ([[0, 0, 0, 0]], []), ([[1]], []), ([[0]], []), ([[1]], []),
      ([[99]], []), ([[5, 8], [1, 1]], [['z']]), ([[5, 6]], []), ([[99]], [])] := by
  rw [views_refine 0 history history_ok]
  decide

/-- The hypotheses of `layer_read_back`: a view which knows a layer, after a history. -/
example : ((after 0 (history.take 3)).2[0]?.map fun v => (v.layers, v.shape)) = some ([['z'], ['b']], [2, 2]) := by decide

/-- A finding: a raster of a phenomenon with two objects can be used, but isn't recognized as a raster. -/
example : (runAll (step 0) (newFile, [])
    ([.addPhenomenon ['a'] [3, 4], .create ['a'] ['s'] (1, 1) 7 none, .addLayer 0 ['z'] none,
      .contains .constant ['a'] ['s']] : List (Op Nat Nat Nat))).1.map show_ =
    [([], []), ([[3, 7], [1, 1]], []), ([[3, 7], [1, 1]], [['z']]), ([[0]], [])] := by
  decide

/-- A finding: a constant raster with a layer called `time_grid_shape` isn't recognized as a raster anymore. -/
example : (runAll (step 0) (newFile, [])
    ([.create ['a'] ['s'] (1, 1) 7 none, .contains .constant ['a'] ['s'], .addLayer 0 timeGrid none,
      .contains .constant ['a'] ['s']] : List (Op Nat Nat Nat))).1.map show_ =
    [([[5, 7], [1, 1]], []), ([[1]], []), ([[5, 7], [1, 1]], [timeGrid]), ([[0]], [])] := by
  decide

/-- A finding: adding a layer through one view isn't seen by another one, which can't read it, nor add it. -/
example : (runAll (step 0) (newFile, [])
    ([.create ['a'] ['s'] (1, 1) 7 none, .openView .constant ['a'] ['s'], .addLayer 0 ['z'] none,
      .read 1 ['z'] (.ofShape [1, 1]) [0], .addLayer 1 ['z'] none] : List (Op Nat Nat Nat))).1.map show_ =
    [([[5, 7], [1, 1]], []), ([[5, 7], [1, 1]], []), ([[5, 7], [1, 1]], [['z']]), ([[99]], []), ([[99]], [])] := by
  decide

/-- A finding: the active set stored for a variable raster contains object 5, also if the phenomenon contains another
object. -/
example : ((after 0 ([.addPhenomenon ['a'] [3], .create ['a'] ['s'] (1, 1) 7 (some (2, 2))] : List (Op Nat Nat Nat))).1.pset
    ['a'] ['s']).map (fun s => s.tracker.ids) = some [5] := by decide

end Lue.RasterView

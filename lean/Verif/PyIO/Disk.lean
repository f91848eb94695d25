import Verif.PyIO.Proofs

/-!
# Reading and writing rasters from Python: datasets on disk
-/
namespace Lue.PyIO

open Lue.LueIO Lue.RasterView Lue.DataModel Lue.Index

variable {α β τ : Type}

/-- Writing partitions. -/
theorem writeParts_sim {x : PArr α} {v : Arr α} (hx : Represents x v) {path : ArrayPath} {time : Option Nat}
    {view : View β τ} (hk : view.kind = kindOf time) (hm : path.layer ∈ view.layers)
    (hp : view.phenomenon = path.phenomenon) (hs : view.propertySet = path.propertySet) (order : List Nat)
    (ho : ∀ k ∈ order, k < x.grid.n0 * x.grid.n1) : ∀ {d : File α β τ} {a : Rasters α β τ} {y : Dataset α},
    Rep d a → Shaped a → ViewRep a view → a.array path.phenomenon path.propertySet (kindOf time) path.layer = some y →
    ∃ a' y', Rep (writeParts x time path view.objectId d order).2 a' ∧ Shaped a' ∧ Grows a a' ∧
      a'.array path.phenomenon path.propertySet (kindOf time) path.layer = some y' ∧
      y'.shape = y.shape ∧ (∀ idx, (∀ i j, idx ≠ cellAt time i j) → y'.data idx = y.data idx) ∧
      (∀ p s q n, (p, s, q, n) ≠ (path.phenomenon, path.propertySet, kindOf time, path.layer) →
        a'.array p s q n = a.array p s q n) ∧
      match toLue y.toH5 x time order with
      | .ok h => (writeParts x time path view.objectId d order).1 = .ok () ∧ y'.toH5 = h
      | .error _ => ∃ e, (writeParts x time path view.objectId d order).1 = .error e := by
  induction order with
  | nil =>
    intro d a y h hsh hv hy
    exact ⟨a, y, h, hsh, .refl a, hy, rfl, fun _ _ => rfl, fun _ _ _ _ _ => rfl, rfl, rfl⟩
  | cons k order ih =>
    intro d a y h hsh hv hy
    have hw := writePart_sim h hsh hv hk hm hp hs hy hx (ho k (by simp))
    have ht : toLue y.toH5 x time (k :: order) =
        (partitionWrites y.shape x (shapeToHyperslab [x.grid.a0, x.grid.a1]).start time k).bind fun ws =>
          toLue (y.toH5.apply ws) x time order := by
      unfold toLue
      rw [List.foldlM_cons]
      cases partitionWrites y.shape x (shapeToHyperslab [x.grid.a0, x.grid.a1]).start time k <;> rfl
    rw [ht]
    unfold writeParts
    cases hws : partitionWrites y.shape x (shapeToHyperslab [x.grid.a0, x.grid.a1]).start time k with
    | error e =>
      rw [hws] at hw
      obtain ⟨e', he⟩ := hw
      rw [he]
      exact ⟨a, y, h, hsh, .refl a, hy, rfl, fun _ _ => rfl, fun _ _ _ _ _ => rfl, e', rfl⟩
    | ok ws =>
      rw [hws] at hw
      obtain ⟨d1, a1, h1, h2, h3, h4, h5, h6⟩ := hw
      rw [h1]
      obtain ⟨a2, y2, k1, k2, k3, k4, k5, k6, k7, k8⟩ := ih (fun k' hk' => ho k' (by simp [hk'])) h2 h3 (hv.mono h4) h5
      refine ⟨a2, y2, k1, k2, h4.trans k3, k4, ?_, ?_, ?_, k8⟩
      · rw [k5]; exact apply_shape ws _
      · intro idx hidx
        rw [k6 idx hidx]
        apply apply_other
        intro hmem
        rw [List.mem_map] at hmem
        obtain ⟨w, hw1, hw2⟩ := hmem
        obtain ⟨i, j, hij⟩ := writes_cells hws w hw1
        exact hidx i j (by rw [← hw2, hij])
      · intro p s q n hne
        rw [k7 p s q n hne, h6 p s q n hne]

/-- Each of the datasets is a collection of rasters. -/
def DiskRep (disk : Disk α β τ) : Prop := ∀ n d, disk n = some d → ∃ a, Rep d a ∧ Shaped a

theorem insert_same {χ : Type} (m : Items χ) (k : Name) (x : χ) : RasterView.insert m k x k = some x := by
  simp [RasterView.insert]

theorem insert_other {χ : Type} (m : Items χ) {k k' : Name} (x : χ) (h : k' ≠ k) :
    RasterView.insert m k x k' = m k' := by simp [RasterView.insert, h]

theorem DiskRep.insert {disk : Disk α β τ} (h : DiskRep disk) (n : Name) {d : File α β τ} {a : Rasters α β τ}
    (hd : Rep d a) (ha : Shaped a) : DiskRep (RasterView.insert disk n d) := by
  intro n' d' h'
  by_cases hn : n' = n
  · subst hn
    rw [insert_same] at h'
    cases h'
    exact ⟨a, hd, ha⟩
  · rw [insert_other _ _ hn] at h'
    exact h n' d' h'

/-- A layer can be found. -/
def Found (disk : Disk α β τ) (path : ArrayPath) (kind : Kind) (d : File α β τ) (view : View β τ) (y : Dataset α) : Prop :=
  disk path.dataset = some d ∧ openView d kind path.phenomenon path.propertySet = .ok view ∧
    layer d view path.layer = .ok y

theorem probeRaster_ok {disk : Disk α β τ} {kind : Kind} {path : ArrayPath} {d : File α β τ} {view : View β τ}
    {y : Dataset α} (h : Found disk path kind d view y) :
    probeRaster disk kind path = .ok (view.objectId, view.grid) := by
  obtain ⟨h1, h2, h3⟩ := h
  simp [probeRaster, item, h1, h2, h3, bind, Except.bind]

theorem probeRaster_inv {disk : Disk α β τ} {kind : Kind} {path : ArrayPath} {r : Nat × List Nat}
    (h : probeRaster disk kind path = .ok r) : ∃ d view y, Found disk path kind d view y := by
  unfold probeRaster item at h
  cases h1 : disk path.dataset with
  | none => rw [h1] at h; cases h
  | some d =>
    rw [h1] at h
    simp only [bind, Except.bind] at h
    cases h2 : openView d kind path.phenomenon path.propertySet with
    | error e => rw [h2] at h; cases h
    | ok view =>
      rw [h2] at h
      simp only at h
      cases h3 : layer d view path.layer with
      | error e => rw [h3] at h; cases h
      | ok y => exact ⟨d, view, y, h1, h2, h3⟩

/-- What is known about a layer that can be found. -/
theorem Found.rep {disk : Disk α β τ} {path : ArrayPath} {kind : Kind} {d : File α β τ} {view : View β τ} {y : Dataset α}
    (h : Found disk path kind d view y) {a : Rasters α β τ} (ha : Rep d a) :
    ViewRep a view ∧ view.kind = kind ∧ view.phenomenon = path.phenomenon ∧ view.propertySet = path.propertySet ∧
      path.layer ∈ view.layers ∧ a.array path.phenomenon path.propertySet kind path.layer = some y := by
  obtain ⟨h1, h2, h3⟩ := h
  have hv : a.view kind path.phenomenon path.propertySet = some view := by
    rw [← openView_eq ha, h2]; rfl
  have hr := view_rep ha hv
  have hl : a.layer view path.layer = some y := by
    rw [← layer_eq ha hr, h3]; rfl
  obtain ⟨k1, k2, k3, _⟩ := view_kind hv
  unfold Rasters.layer at hl
  split at hl
  · rename_i hm
    rw [k1, k2, k3] at hl
    exact ⟨hr, k1, k2, k3, hm, hl⟩
  · cases hl

/-- Writing an array: either there is no such layer, and nothing changes, or the partitions are written. -/
theorem writeArray_cases {disk : Disk α β τ} (hd : DiskRep disk) {x : PArr α} {v : Arr α} (hx : Represents x v)
    (timeStep : Option Int) (pathname : Name) {order : List Nat} (ho : ∀ k ∈ order, k < x.grid.n0 * x.grid.n1) :
    ((∃ e, (writeArray disk x timeStep pathname order).1 = .error e) ∧
      (writeArray disk x timeStep pathname order).2 = disk ∧
      ∀ path d view y, parseArrayPathname pathname = .ok path →
        ¬Found disk path (kindOf (timeStep.map u64)) d view y) ∨
    ∃ path d view y a a' y' d', parseArrayPathname pathname = .ok path ∧
      Found disk path (kindOf (timeStep.map u64)) d view y ∧ Rep d a ∧ Shaped a ∧
      (writeArray disk x timeStep pathname order).2 = RasterView.insert disk path.dataset d' ∧
      Rep d' a' ∧ Shaped a' ∧ Grows a a' ∧
      a'.array path.phenomenon path.propertySet (kindOf (timeStep.map u64)) path.layer = some y' ∧
      y'.shape = y.shape ∧ (∀ idx, (∀ i j, idx ≠ cellAt (timeStep.map u64) i j) → y'.data idx = y.data idx) ∧
      (∀ p s q n, (p, s, q, n) ≠ (path.phenomenon, path.propertySet, kindOf (timeStep.map u64), path.layer) →
        a'.array p s q n = a.array p s q n) ∧
      match toLue y.toH5 x (timeStep.map u64) order with
      | .ok h => (writeArray disk x timeStep pathname order).1 = .ok () ∧ y'.toH5 = h
      | .error _ => ∃ e, (writeArray disk x timeStep pathname order).1 = .error e := by
  unfold writeArray
  generalize htime : timeStep.map u64 = time
  dsimp only
  cases h1 : parseArrayPathname pathname with
  | error e => exact .inl ⟨⟨e, rfl⟩, rfl, by simp⟩
  | ok path =>
    rw [M.bind_ok]
    cases h2 : probeRaster disk (kindOf time) path with
    | error e =>
      refine .inl ⟨⟨e, rfl⟩, rfl, ?_⟩
      intro path' d view y hp hf
      cases hp
      rw [probeRaster_ok hf] at h2
      cases h2
    | ok r =>
      obtain ⟨d, view, y, hf⟩ := probeRaster_inv h2
      rw [probeRaster_ok hf] at h2
      cases h2
      obtain ⟨a, ha, hsh⟩ := hd _ _ hf.1
      obtain ⟨k1, k2, k3, k4, k5, k6⟩ := hf.rep ha
      obtain ⟨a', y', l1, l2, l3, l4, l5, l6, l7, l8⟩ := writeParts_sim hx k2 k5 k3 k4 order ho ha hsh k1 k6
      have hi : item disk path.dataset = .ok d := by simp [item, hf.1]
      rw [M.bind_ok, hi, M.bind_ok]
      dsimp only
      exact .inr ⟨path, d, view, y, a, a', y', _, rfl, hf, ha, hsh, rfl, l1, l2, l3, l4, l5, l6, l7, l8⟩

theorem cellAt_time {t t' : Option Nat} {i j i' j' : Nat} (h : cellAt t i j = cellAt t' i' j') : t = t' := by
  cases t <;> cases t' <;> simp [cellAt] at h
  · rfl
  · rw [h.1]

theorem shaped_empty : Shaped (Rasters.empty : Rasters α β τ) := by
  intro p s r k n x hr
  cases hr

/-- Datasets stay collections of rasters, and rasters that are not written to keep their values. -/
theorem diskStep_keep (zero : α) {disk : Disk α β τ} (hd : DiskRep disk) (o : DiskOp α β τ) (ho : o.Ok) :
    DiskRep (diskStep zero disk o) ∧
    ∀ path time rows cols v, RasterAt disk path time rows cols v → Untouched zero disk path time o →
      RasterAt (diskStep zero disk o) path time rows cols v := by
  cases o with
  | edit n ops =>
    have hsim : ∃ a, Sim' ((disk n).getD newFile, ([] : List (View β τ))) (a, []) ∧ Shaped a ∧
        ∀ d, disk n = some d → Rep d a := by
      cases hn : disk n with
      | none => exact ⟨Rasters.empty, sim_new, shaped_empty, by simp⟩
      | some d =>
        obtain ⟨a, h1, h2⟩ := hd n d hn
        exact ⟨a, ⟨⟨h1, rfl, by simp⟩, by simp⟩, h2, fun d' hd' => by cases hd'; exact h1⟩
    obtain ⟨a, h1, h2, h3⟩ := hsim
    have h4 := run_sim zero ops ho h1
    have h5 := run_shaped zero ops (a, []) h2
    have h6 := run_grows zero ops ho h1
    refine ⟨hd.insert n h4.2.rep h5, ?_⟩
    intro path time rows cols v hr hu
    by_cases hn : path.dataset = n
    · obtain ⟨d, hdn⟩ : ∃ d, disk n = some d := by
        obtain ⟨d, _, _, h, _⟩ := hr
        exact ⟨d, by rw [← hn, h]⟩
      rw [rasterAt_iff (by rw [hn]; exact hdn) (h3 d hdn)] at hr
      rw [rasterAt_iff (d := (runAll (step zero) ((disk n).getD newFile, []) ops).2.1)
        (by rw [hn]; exact insert_same _ _ _) h4.2.rep]
      apply hr.keep h6
      intro y hy
      exact ⟨y, quiet_keep zero ops ho h1 (hu hn.symm) hy, fun _ _ => rfl⟩
    · have : diskStep zero disk (.edit n ops) path.dataset = disk path.dataset := insert_other _ _ hn
      obtain ⟨d, view, array, k⟩ := hr
      exact ⟨d, view, array, by rw [this]; exact k⟩
  | write x timeStep pathname order =>
    obtain ⟨⟨vx, hx⟩, hord⟩ := ho
    have hlt : ∀ k ∈ order, k < x.grid.n0 * x.grid.n1 := fun k hk => by simpa using hord.mem_iff.mp hk
    show DiskRep (writeArray disk x timeStep pathname order).2 ∧ _
    rcases writeArray_cases hd hx timeStep pathname hlt with ⟨_, h2, _⟩ |
      ⟨path', d, view, y, a, a', y', d', h1, h2, h3, h4, h5, h6, h7, h8, h9, h10, h11, h12, h13⟩
    · simp only [diskStep, h2]
      exact ⟨hd, fun path time rows cols v h _ => h⟩
    · simp only [diskStep, h5]
      refine ⟨hd.insert _ h6 h7, ?_⟩
      intro path time rows cols v hr hu
      by_cases hn : path.dataset = path'.dataset
      · rw [rasterAt_iff (by rw [hn]; exact h2.1) h3] at hr
        rw [rasterAt_iff (d := d') (by rw [hn]; exact insert_same _ _ _) h6]
        apply hr.keep h8
        intro z hz
        by_cases he : (path.phenomenon, path.propertySet, kindOf time, path.layer) =
            (path'.phenomenon, path'.propertySet, kindOf (timeStep.map u64), path'.layer)
        · simp only [Prod.mk.injEq] at he
          obtain ⟨e1, e2, e3, e4⟩ := he
          have hpp : path' = path := by
            cases path; cases path'; simp_all
          subst hpp
          rw [e3] at hz ⊢
          rw [(h2.rep h3).2.2.2.2.2] at hz
          cases hz
          refine ⟨y', h9, fun i j => h11 _ fun i' j' hc => ?_⟩
          rcases hu _ h1 with h | h
          · exact h rfl
          · exact h (cellAt_time hc).symm
        · exact ⟨z, by rw [h12 _ _ _ _ he]; exact hz, fun _ _ => rfl⟩
      · obtain ⟨d0, view0, array0, k⟩ := hr
        exact ⟨d0, view0, array0, by rw [insert_other _ _ hn]; exact k⟩

theorem diskRep_empty : DiskRep (emptyDisk : Disk α β τ) := by
  intro n d h
  cases h

theorem diskAfter_rep (zero : α) (ops : List (DiskOp α β τ)) (ho : ∀ o ∈ ops, o.Ok) : ∀ {disk : Disk α β τ},
    DiskRep disk → DiskRep (diskAfter zero disk ops) := by
  induction ops with
  | nil => exact fun h => h
  | cons o ops ih =>
    intro disk h
    exact ih (fun o' ho' => ho o' (by simp [ho'])) (diskStep_keep zero h o (ho o (by simp))).1

theorem diskAfter_keep (zero : α) (ops : List (DiskOp α β τ)) (ho : ∀ o ∈ ops, o.Ok) {path : ArrayPath}
    {time : Option Nat} {rows cols : Nat} {v : Arr α} : ∀ {disk : Disk α β τ},
    DiskRep disk → RasterAt disk path time rows cols v → AllUntouched zero path time disk ops →
    RasterAt (diskAfter zero disk ops) path time rows cols v := by
  induction ops with
  | nil => exact fun _ h _ => h
  | cons o ops ih =>
    intro disk hd h hu
    obtain ⟨h1, h2⟩ := diskStep_keep zero hd o (ho o (by simp))
    exact ih (fun o' ho' => ho o' (by simp [ho'])) h1 (h2 _ _ _ _ _ h hu.1) hu.2

/-! ### Shapes of arrays -/

theorem absAt_shape {a : Rasters α β τ} (hs : Shaped a) {path : ArrayPath} {time : Option Nat} {rows cols : Nat}
    {v : Arr α} (h : AbsAt a path time rows cols v) {y : Dataset α}
    (hy : a.array path.phenomenon path.propertySet (kindOf time) path.layer = some y) (b0 b1 : Nat) :
    Room y.shape time b0 b1 ↔ b0 ≤ rows ∧ b1 ≤ cols := by
  obtain ⟨r, hr, hg, ht⟩ := h.raster
  have hy' : (r.layers (kindOf time)).get path.layer = some y := by simpa [Rasters.array, hr] using hy
  have hsh := hs _ _ r _ _ _ hr hy'
  rw [hsh]
  cases time with
  | none => simp [Room, Raster.shape, kindOf, hg]
  | some t =>
    obtain ⟨period, nr, h1, h2⟩ := ht t rfl
    simp [Room, Raster.shape, kindOf, hg, h1, h2]

/-- A raster that is there can be found. -/
theorem RasterAt.found {disk : Disk α β τ} (hd : DiskRep disk) {path : ArrayPath} {time : Option Nat} {rows cols : Nat}
    {v : Arr α} (h : RasterAt disk path time rows cols v) :
    ∃ d view y, Found disk path (kindOf time) d view y ∧ view.grid = [rows, cols] ∧
      (∀ b0 b1, Room y.shape time b0 b1 ↔ b0 ≤ rows ∧ b1 ≤ cols) ∧
      ∀ i j, i < rows → j < cols → y.data (cellAt time i j) = v i j := by
  have h0 := h
  obtain ⟨d, view, y, h1, h2, h3, h4, h5, h6⟩ := h
  have hf : Found disk path (kindOf time) d view y := ⟨h1, h2, h4⟩
  obtain ⟨a, ha, hsh⟩ := hd _ _ h1
  rw [rasterAt_iff h1 ha] at h0
  exact ⟨d, view, y, hf, h3, absAt_shape hsh h0 (hf.rep ha).2.2.2.2.2, h6⟩

theorem Found.openArray {disk : Disk α β τ} (hd : DiskRep disk) {path : ArrayPath} {kind : Kind} {d : File α β τ}
    {view : View β τ} {y : Dataset α} (h : Found disk path kind d view y) :
    PyIO.openArray d kind path view.objectId = .ok y := by
  obtain ⟨a, ha, _⟩ := hd _ _ h.1
  obtain ⟨_, k2, k3, k4, k5, _⟩ := h.rep ha
  rw [← k2, openArray_eq d k5 k3 k4, h.2.2]

end Lue.PyIO

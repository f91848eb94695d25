import Verif.Shapefile.Properties

/-!
# Properties of exporting to Shapefiles (C66), continued
-/
namespace Lue.Shapefile

open Lue.Validate

variable {V : Type}

/-- GDAL does not refuse to create the dataset or a layer in it -/
structure Accepts (gdal : Gdal) (dataset : Str) (layers : List Str) : Prop where
  dataset_ok : gdal.refusesDataset dataset = false
  layers_ok : ∀ name ∈ layers, gdal.refusesLayer name = false

/-! ### Points -/

/-- Where the points written for a moment start -/
def readFrom (t : Tracker) (k : Nat) : Nat := if k = 0 then 0 else t.start k

theorem readFrom_succ (t : Tracker) (k : Nat) : readFrom t (k + 1) = t.start (k + 1) := rfl

theorem foldl_max_ok (idxs : List Nat) (h : idxs.Pairwise (· ≤ ·)) (hl : 2 ≤ idxs.length) : ∃ m, maxSetSize idxs = .ok m := by
  unfold maxSetSize
  split
  · rename_i hz
    have := congrArg List.length hz
    simp at this
    omega
  · refine ⟨_, if_neg ?_⟩
    simp only [List.any_eq_true, not_exists, not_and, decide_eq_true_eq]
    intro e he
    obtain ⟨i, hi⟩ := List.mem_iff_getElem?.mp he
    rw [List.getElem?_zip_eq_some, List.getElem?_tail] at hi
    obtain ⟨h1, e1⟩ := List.getElem?_eq_some_iff.mp hi.1
    obtain ⟨h2, e2⟩ := List.getElem?_eq_some_iff.mp hi.2
    have := List.pairwise_iff_getElem.mp h i (i + 1) h1 h2 (by omega)
    omega

/-- The layers with points of valid property sets, also if the first set does not start at the first object. -/
theorem writeShapefiles_layers {gdal : Gdal} {shapefile propertySet : Str} {ids : List Nat} {t : Tracker} {box : Nat × Nat} {space : Space V}
    (ht : TrackerOk ids t) (hn : 0 < t.nrSets) (hr : space.rows.length = t.ids.length) (hw : ∀ row ∈ space.rows, row.length = 2)
    (hs : space.width = 2)
    (ha : Accepts gdal (outputName shapefile) ((List.range t.nrSets).map (layerName propertySet))) :
    ∃ out, writeShapefiles gdal shapefile propertySet t [box] [t.nrSets] space = .ok out ∧ out.name = outputName shapefile ∧
      out.layers.length = t.nrSets ∧
      ∀ k < t.nrSets, ∃ layer, out.layers[k]? = some layer ∧ layer.name = layerName propertySet k ∧
        List.Forall₂ IsPoint layer.features ((space.rows.drop (readFrom t k)).take (t.start (k + 1) - readFrom t k)) := by
  have hp : (t.setIdx ++ [t.ids.length]).Pairwise (· ≤ ·) := pairwise_snoc.mpr ⟨ht.ordered, ht.within⟩
  obtain ⟨m, hm⟩ := foldl_max_ok _ hp (by unfold Tracker.nrSets at hn; simp; omega)
  have hloop : ∃ s, forLoop t.nrSets (writeCell gdal propertySet (t.setIdx ++ [t.ids.length]) space.rows)
      (0, (⟨outputName shapefile, []⟩ : Out V)) = .ok s ∧
      (s.1 = readFrom t t.nrSets ∧ s.2.name = outputName shapefile ∧ s.2.layers.length = t.nrSets ∧
        ∀ k < t.nrSets, ∃ layer, s.2.layers[k]? = some layer ∧ layer.name = layerName propertySet k ∧
          List.Forall₂ IsPoint layer.features ((space.rows.drop (readFrom t k)).take (t.start (k + 1) - readFrom t k))) := by
    refine forLoop_inv (fun n (s : Nat × Out V) => s.1 = readFrom t n ∧ s.2.name = outputName shapefile ∧ s.2.layers.length = n ∧
        ∀ k < n, ∃ layer, s.2.layers[k]? = some layer ∧ layer.name = layerName propertySet k ∧
          List.Forall₂ IsPoint layer.features ((space.rows.drop (readFrom t k)).take (t.start (k + 1) - readFrom t k)))
      ?_ _ ⟨rfl, rfl, rfl, fun k hk => absurd hk (by omega)⟩
    rintro n hlt ⟨cur, out⟩ ⟨h1, h2, h3, h4⟩
    dsimp only at h1 h2 h3 h4
    subst h1
    have hst := start_le ht hlt
    obtain ⟨features, h5, h6⟩ := addPointLayer_ok (gdal := gdal) (out := out) (name := layerName propertySet n)
      (ha.layers_ok _ (List.mem_map.mpr ⟨n, List.mem_range.mpr hlt, rfl⟩))
      (by
        intro l hl he
        obtain ⟨i, hi⟩ := List.mem_iff_getElem?.mp hl
        have hin : i < n := by rw [← h3]; exact (List.getElem?_eq_some_iff.mp hi).1
        obtain ⟨layer, g1, g2, -⟩ := h4 i hin
        rw [hi] at g1
        cases g1
        rw [g2] at he
        have := layerName_inj he
        omega)
      ((space.rows.drop (readFrom t n)).take (t.start (n + 1) - readFrom t n))
      (fun row hrow => hw row (List.mem_of_mem_drop (List.mem_of_mem_take hrow)))
    refine ⟨(t.start (n + 1), ⟨out.name, out.layers ++ [⟨layerName propertySet n, features⟩]⟩), ?_, rfl, h2, by simp [h3], ?_⟩
    · unfold writeCell
      rw [rd_ok (start_getElem? t (n + 1) (by omega)), M.bind_ok]
      dsimp only
      unfold readRows
      rw [if_pos (by omega), M.bind_ok, h5, M.bind_ok]
    · intro k hk
      dsimp only
      by_cases hkn : k < n
      · obtain ⟨layer, g1, g2⟩ := h4 k hkn
        exact ⟨layer, by rw [List.getElem?_append_left (by omega)]; exact g1, g2⟩
      · have : k = n := by omega
        subst this
        exact ⟨⟨layerName propertySet k, features⟩, by rw [List.getElem?_append_right (by omega), h3]; simp, rfl, h6⟩
  obtain ⟨s, hs1, hs2, hs3, hs4, hs5⟩ := hloop
  refine ⟨s.2, ?_, hs3, hs4, hs5⟩
  unfold writeShapefiles
  have hd : createDataset (V := V) gdal (outputName shapefile) = .ok ⟨outputName shapefile, []⟩ := by
    unfold createDataset
    rw [ha.dataset_ok]
    rfl
  rw [show demand ([box].length == 1) = .ok () from rfl, M.bind_ok, hd, M.bind_ok, rd_ok (x := t.nrSets) rfl, M.bind_ok]
  dsimp only
  rw [show demand (space.width == 2) = .ok () by rw [hs]; rfl, M.bind_ok, hm, M.bind_ok, hs1, M.bind_ok]

theorem located_snd {t : Tracker} {rows : List (List V)} (h : rows.length = t.ids.length) (k : Nat) :
    (located t rows k).map Prod.snd = (rows.drop (t.start k)).take (t.start (k + 1) - t.start k) := by
  unfold located
  rw [List.map_take, List.map_drop, List.map_snd_zip (by omega)]

/-- C66: the objects located at a moment are the active ones, in order. -/
theorem located_fst {t : Tracker} {rows : List (List V)} (h : rows.length = t.ids.length) (k : Nat) :
    (located t rows k).map Prod.fst = t.activeSet k := by
  unfold located Tracker.activeSet
  rw [List.map_take, List.map_drop, List.map_fst_zip (by omega)]

/-- C66: each row with coordinates is of one object at one moment. -/
theorem located_all {ids : List Nat} {t : Tracker} (ht : TrackerOk ids t) (h0 : t.start 0 = 0) (rows : List (List V))
    (h : rows.length = t.ids.length) : (List.range t.nrSets).flatMap (located t rows) = t.ids.zip rows := by
  have key : ∀ n, n ≤ t.nrSets → (List.range n).flatMap (located t rows) = (t.ids.zip rows).take (t.start n) := by
    intro n
    induction n with
    | zero => intro _; rw [h0]; rfl
    | succ n ih =>
      intro hn
      have hst := start_le ht (k := n) (by omega)
      rw [List.range_succ, List.flatMap_append, ih (by omega), List.flatMap_singleton]
      unfold located
      rw [show t.start (n + 1) = t.start n + (t.start (n + 1) - t.start n) by omega, List.take_add]
      congr 2
      omega
  rw [key _ (Nat.le_refl _)]
  apply List.take_of_length_le
  have : t.start t.nrSets = t.ids.length := by
    unfold Tracker.start Tracker.nrSets
    rw [List.getD_eq_getElem?_getD]
    simp
  rw [List.length_zip, this]
  omega

theorem time_cell {t : Tracker} {items : TimeItems} (h : TimeOk t items) {box : Nat × Nat} {counts : List Nat}
    (hi : items = .cell [box] counts) : counts = [t.nrSets] := by
  subst hi
  obtain ⟨-, h1, h2⟩ := h
  match counts, h1 with
  | [n], _ => simp at h2; rw [h2]

/-- C66: the points of a valid property set with mobile points. There is a layer per time cell, with a point for each object that is active
then, in the same order, at its location. -/
theorem export_points {gdal : Gdal} {zero : V} {path : Str} {dataset : Dataset V} {shapefile : Str} {metadata : Json}
    {phenomenon propertySet : Str} {propertySets : Str → Option (PropertySet V)} {s : PropertySet V} {space : Space V} {ids : List Nat}
    {box : Nat × Nat} {counts : List Nat}
    (hm : Selects metadata (stem path) phenomenon propertySet) (h1 : dataset phenomenon = some propertySets)
    (h2 : propertySets propertySet = some s) (h3 : s.space = some space) (h4 : s.time = some (.cell [box] counts))
    (hv : Valid ids s space) (hmob : space.mobile = true) (hbox : space.isBox = false) (hw : space.width = 2)
    (hn : 0 < s.tracker.nrSets) (h0 : s.tracker.start 0 = 0)
    (ha : Accepts gdal (outputName shapefile) ((List.range s.tracker.nrSets).map (layerName propertySet))) :
    ∃ out, translate gdal zero path dataset shapefile metadata = .ok out ∧ out.name = outputName shapefile ∧
      out.layers.length = s.tracker.nrSets ∧
      ∀ k < s.tracker.nrSets, ∃ layer, out.layers[k]? = some layer ∧ layer.name = layerName propertySet k ∧
        List.Forall₂ IsPoint layer.features ((located s.tracker space.rows k).map Prod.snd) := by
  have hr : space.rows.length = s.tracker.ids.length := by have := hv.rows_ok; rwa [hmob, if_pos rfl] at this
  have hc := time_cell (hv.time_ok _ h4) rfl
  subst hc
  obtain ⟨out, g1, g2, g3, g4⟩ := writeShapefiles_layers (gdal := gdal) (shapefile := shapefile) (propertySet := propertySet) (box := box)
    hv.tracker_ok hn hr (fun row hrow => by rw [hv.widths row hrow, hw]) hw ha
  refine ⟨out, ?_, g2, g3, ?_⟩
  · unfold translate
    rw [(selection_iff _ _ _ _).mpr hm, M.bind_ok]
    dsimp only
    rw [h1]
    unfold orThrow
    dsimp only
    rw [M.bind_ok, h2]
    dsimp only
    rw [M.bind_ok, h3]
    dsimp only
    rw [M.bind_ok]
    unfold writePropertySet
    rw [hmob, hbox]
    dsimp only
    unfold timeItems
    rw [h4]
    exact g1
  · intro k hk
    obtain ⟨layer, g5, g6, g7⟩ := g4 k hk
    refine ⟨layer, g5, g6, ?_⟩
    rw [located_snd hr]
    have : readFrom s.tracker k = s.tracker.start k := by
      unfold readFrom
      split
      · subst_vars; exact h0.symm
      · rfl
    rwa [this] at g7

/-- C66, finding: validation (C46) accepts property sets whose first set does not start at the first active object. Then the first layer
also contains the points which are not active at any moment. -/
theorem first_layer_extra {gdal : Gdal} {shapefile propertySet : Str} {ids : List Nat} {t : Tracker} {box : Nat × Nat} {space : Space V}
    (ht : TrackerOk ids t) (hn : 0 < t.nrSets) (hr : space.rows.length = t.ids.length) (hw : ∀ row ∈ space.rows, row.length = 2)
    (hs : space.width = 2)
    (ha : Accepts gdal (outputName shapefile) ((List.range t.nrSets).map (layerName propertySet))) :
    ∃ out layer, writeShapefiles gdal shapefile propertySet t [box] [t.nrSets] space = .ok out ∧ out.layers[0]? = some layer ∧
      layer.features.length = t.start 0 + (t.activeSet 0).length := by
  obtain ⟨out, g1, -, -, g4⟩ := writeShapefiles_layers (gdal := gdal) (shapefile := shapefile) (propertySet := propertySet) (box := box)
    ht hn hr hw hs ha
  obtain ⟨layer, g5, -, g6⟩ := g4 0 hn
  refine ⟨out, layer, g1, g5, ?_⟩
  have := start_le ht hn
  rw [g6.length_eq, activeSet_length ht hn]
  simp only [readFrom, if_pos, List.length_take, List.length_drop]
  omega

/-! ### Boxes -/

/-- C66: the boxes of a valid property set with stationary boxes. There is a single layer, with a polygon per object, in the same order. -/
theorem export_boxes {gdal : Gdal} {zero : V} {path : Str} {dataset : Dataset V} {shapefile : Str} {metadata : Json}
    {phenomenon propertySet : Str} {propertySets : Str → Option (PropertySet V)} {s : PropertySet V} {space : Space V} {ids : List Nat}
    (hm : Selects metadata (stem path) phenomenon propertySet) (h1 : dataset phenomenon = some propertySets)
    (h2 : propertySets propertySet = some s) (h3 : s.space = some space) (h4 : s.time.isSome = true)
    (hv : Valid ids s space) (hmob : space.mobile = false) (hbox : space.isBox = true) (hw : space.width = 4)
    (ha : Accepts gdal shapefile [propertySet]) :
    ∃ features, translate gdal zero path dataset shapefile metadata = .ok ⟨shapefile, [⟨propertySet, features⟩]⟩ ∧
      features.length = ids.length ∧ List.Forall₂ IsBox features space.rows := by
  have hr : space.rows.length = ids.length := by have := hv.rows_ok; rwa [hmob, if_neg (by decide)] at this
  have hw4 : ∀ row ∈ space.rows, row.length = 4 := fun row hrow => by rw [hv.widths row hrow, hw]
  obtain ⟨features, g1, g2⟩ := addBoxLayer_ok (gdal := gdal) (out := ⟨shapefile, []⟩) (name := propertySet)
    (ha.layers_ok _ (by simp)) (by simp) space.rows hw4
  refine ⟨features, ?_, by rw [g2.length_eq, hr], g2⟩
  obtain ⟨items, h4⟩ := Option.isSome_iff_exists.mp h4
  unfold translate
  rw [(selection_iff _ _ _ _).mpr hm, M.bind_ok]
  dsimp only
  rw [h1]
  unfold orThrow
  dsimp only
  rw [M.bind_ok, h2]
  dsimp only
  rw [M.bind_ok, h3]
  dsimp only
  rw [M.bind_ok]
  unfold writePropertySet
  rw [hmob, hbox, h4]
  dsimp only
  unfold writeShapefile createDataset readInto
  rw [ha.dataset_ok, DataModel.flatten_length space.rows hw4, Nat.mul_comm, if_pos (Nat.le_refl _), Nat.sub_self]
  simp only [Bool.false_eq_true, if_false, List.replicate_zero, List.append_nil]
  rw [M.bind_ok, M.bind_ok, g1]
  rfl

/-- C66, finding: the rank of boxes is not verified. With more than two dimensions, memory outside of the buffer is written. -/
theorem boxes_overflow {gdal : Gdal} {zero : V} {shapefile propertySet : Str} {space : Space V} (hw : 4 < space.width)
    (hr : 0 < space.rows.length) (hrow : ∀ row ∈ space.rows, row.length = space.width) (ha : gdal.refusesDataset shapefile = false) :
    writeShapefile gdal zero shapefile propertySet space = .error .outOfBounds := by
  unfold writeShapefile createDataset readInto
  rw [ha, DataModel.flatten_length space.rows hrow, if_neg (c := _ ≤ _)]
  · rfl
  · have := Nat.mul_lt_mul_of_pos_left hw hr
    rw [Nat.mul_comm] at this
    omega

/-! ### Refusals -/

/-- C66: property sets with something else than stationary boxes or mobile points are refused -/
theorem refuses_items {gdal : Gdal} {zero : V} {shapefile name : Str} {s : PropertySet V} {space : Space V} (h : space.mobile = space.isBox) :
    writePropertySet gdal zero shapefile name s space = .error .thrown := by
  unfold writePropertySet
  rw [h]
  cases space.isBox <;> rfl

/-- C66: stationary boxes without time domain are refused -/
theorem refuses_static {gdal : Gdal} {zero : V} {shapefile name : Str} {s : PropertySet V} {space : Space V} (hm : space.mobile = false)
    (hb : space.isBox = true) (ht : s.time = none) : writePropertySet gdal zero shapefile name s space = .error .thrown := by
  unfold writePropertySet
  rw [hm, hb, ht]

/-- C66: mobile points at other items than cells in a single box are refused -/
theorem refuses_time {gdal : Gdal} {zero : V} {shapefile name : Str} {s : PropertySet V} {space : Space V} (hm : space.mobile = true)
    (hb : space.isBox = false) {items : TimeItems} (ht : s.time = some items)
    (hi : ∀ boxes counts, items = .cell boxes counts → boxes.length ≠ 1) :
    writePropertySet gdal zero shapefile name s space = .error .thrown := by
  unfold writePropertySet timeItems
  rw [hm, hb, ht]
  cases items with
  | cell boxes counts =>
    dsimp only
    unfold writeShapefiles
    rw [show (boxes.length == 1) = false by simpa using hi boxes counts rfl]
    rfl
  | _ => rfl

/-- C66: mobile points which are not in two dimensions are refused -/
theorem refuses_rank {gdal : Gdal} {shapefile propertySet : Str} {t : Tracker} {boxes : List (Nat × Nat)} {counts : List Nat}
    {space : Space V} (hw : space.width ≠ 2) (hc : counts.length = boxes.length) :
    writeShapefiles gdal shapefile propertySet t boxes counts space = .error .thrown := by
  unfold writeShapefiles
  by_cases h1 : boxes.length = 1
  · rw [show (boxes.length == 1) = true by simpa using h1]
    match counts, hc.trans h1 with
    | [n], _ =>
      rw [show (space.width == 2) = false by simpa using hw]
      unfold createDataset
      cases gdal.refusesDataset (outputName shapefile) <;> rfl
  · rw [show (boxes.length == 1) = false by simpa using h1]
    rfl

/-- C66: without a selection, phenomenon, property set or space domain, nothing is exported -/
theorem refuses_missing {gdal : Gdal} {zero : V} {path : Str} {dataset : Dataset V} {shapefile : Str} {metadata : Json}
    (h : ∀ phenomenon propertySet, Selects metadata (stem path) phenomenon propertySet →
      ∀ sets s space, dataset phenomenon = some sets → sets propertySet = some s → s.space ≠ some space) :
    ∀ out, translate gdal zero path dataset shapefile metadata ≠ .ok out := by
  intro out ho
  unfold translate at ho
  obtain ⟨⟨p, q⟩, h1, ho⟩ := bind_eq_ok.mp ho
  obtain ⟨sets, h2, ho⟩ := bind_eq_ok.mp ho
  obtain ⟨s, h3, ho⟩ := bind_eq_ok.mp ho
  obtain ⟨space, h4, ho⟩ := bind_eq_ok.mp ho
  have key : ∀ {β : Type} {o : Option β} {x : β}, orThrow o = .ok x → o = some x := by
    intro β o x hx
    cases o <;> simp [orThrow] at hx
    rw [hx]
  exact h p q ((selection_iff _ _ _ _).mp h1) sets s space (key h2) (key h3) (key h4)

/-- C66, finding: a valid property set with mobile points, but without moments. The maximum of an empty collection is used. -/
theorem no_moments {gdal : Gdal} {shapefile propertySet : Str} {ids : List Nat} {t : Tracker} {box : Nat × Nat} {space : Space V}
    (ht : TrackerOk ids t) (hn : t.nrSets = 0) (hw : space.width = 2) (ha : gdal.refusesDataset (outputName shapefile) = false) :
    writeShapefiles gdal shapefile propertySet t [box] [0] space = .error .outOfBounds := by
  have h1 : t.setIdx = [] := List.length_eq_zero_iff.mp hn
  have h2 := (ht.empty h1).1
  unfold writeShapefiles createDataset
  rw [ha, hw, h1, h2]
  rfl

/-- C66, finding: mobile points without time domain, for which only an assertion is in place -/
theorem no_time_domain {gdal : Gdal} {zero : V} {shapefile name : Str} {s : PropertySet V} {space : Space V} (hm : space.mobile = true)
    (hb : space.isBox = false) (ht : s.time = none) : writePropertySet gdal zero shapefile name s space = .error .outOfBounds := by
  unfold writePropertySet timeItems
  rw [hm, hb, ht]

/-! ### Examples -/

/-- A tracker of objects 5, 7 and 9, of which 5 and 7 are active at the first moment, and 7 and 9 at the second -/
def exTracker : Tracker := { setIdx := [0, 2], ids := [5, 7, 7, 9], objIdx := [] }

def exSpace : Space Nat := ⟨true, false, 2, [[1, 2], [3, 4], [5, 6], [7, 8]]⟩

def exSet : PropertySet Nat := ⟨exTracker, some (.cell [(0, 10)] [2]), some exSpace⟩

def exName (s : String) : Json := .object [("name".toList, .string s.toList)]

def exMetadata : Json :=
  .object [("areas".toList, .object [("phenomena".toList, .array [.object [("name".toList, .string "area".toList),
    ("property_sets".toList, .array [exName "obs"])]])])]

theorem exSelects : Selects exMetadata "areas".toList "area".toList "obs".toList :=
  (selection_iff _ _ _ _).mp rfl

theorem exValid : Valid [5, 7, 9] exSet exSpace where
  tracker_ok :=
    { distinct := by decide
      ordered := by decide
      within := by decide
      once := by
        intro k hk
        match k, hk with
        | 0, _ => decide
        | 1, _ => decide
      empty := by decide
      indices := by decide
      known := by decide }
  time_ok := by
    intro items h
    cases h
    exact ⟨⟨by decide, by simp⟩, rfl, rfl⟩
  rows_ok := rfl
  widths := by decide

/-- The hypotheses of `export_points` are met by an example. -/
example : ∃ out, translate ⟨fun _ => false, fun _ => false⟩ 0 "dir/areas.lue".toList
    (fun p => if p = "area".toList then some fun q => if q = "obs".toList then some exSet else none else none) "out/points.shp".toList
    exMetadata = .ok out ∧ out.name = "points".toList ∧ out.layers.length = 2 ∧
      ∀ k < 2, ∃ layer, out.layers[k]? = some layer ∧ layer.name = layerName "obs".toList k ∧
        List.Forall₂ IsPoint layer.features ((located exTracker exSpace.rows k).map Prod.snd) :=
  export_points (path := "dir/areas.lue".toList) (s := exSet) (ids := [5, 7, 9]) (box := (0, 10)) (counts := [2]) exSelects rfl rfl rfl rfl
    exValid rfl rfl rfl (by decide) rfl ⟨rfl, fun _ _ => rfl⟩

example : (located exTracker exSpace.rows 0, located exTracker exSpace.rows 1) = ([(5, [1, 2]), (7, [3, 4])], [(7, [5, 6]), (9, [7, 8])]) := rfl

example : layerName "obs".toList 11 = "obs-12".toList := by decide

def exBoxes : Space Nat := ⟨false, true, 4, [[1, 2, 3, 4], [5, 6, 7, 8]]⟩

def exBoxSet : PropertySet Nat := ⟨{ setIdx := [], ids := [], objIdx := [] }, some (.box []), some exBoxes⟩

/-- The hypotheses of `export_boxes` are met by an example. -/
example : ∃ features, translate ⟨fun _ => false, fun _ => false⟩ 0 "areas.lue".toList
    (fun p => if p = "area".toList then some fun q => if q = "obs".toList then some exBoxSet else none else none) "out/boxes.shp".toList
    exMetadata = .ok ⟨"out/boxes.shp".toList, [⟨"obs".toList, features⟩]⟩ ∧ features.length = 2 ∧
      List.Forall₂ IsBox features exBoxes.rows :=
  export_boxes (path := "areas.lue".toList) (s := exBoxSet) (ids := [3, 8]) exSelects rfl rfl rfl rfl
    { tracker_ok :=
        { distinct := by decide, ordered := by decide, within := by decide, once := by intro k hk; exact absurd hk (Nat.not_lt_zero k),
          empty := by decide, indices := by decide, known := by decide }
      time_ok := by intro items h; cases h; exact ⟨⟨by decide, by simp⟩, rfl⟩
      rows_ok := rfl
      widths := by decide } rfl rfl rfl ⟨rfl, fun _ _ => rfl⟩

/-- A first set that does not start at the first object -/
example : ∃ out layer, writeShapefiles ⟨fun _ => false, fun _ => false⟩ "p.shp".toList "obs".toList { setIdx := [1], ids := [5, 7], objIdx := [] }
    [(0, 10)] [1] (⟨true, false, 2, [[1, 2], [3, 4]]⟩ : Space Nat) = .ok out ∧ out.layers[0]? = some layer ∧ layer.features.length = 2 := by
  refine first_layer_extra (ids := [5, 7])
    { distinct := by decide, ordered := by decide, within := by decide
      once := by
        intro k hk
        match k, hk with
        | 0, _ => decide
      empty := by decide, indices := by decide, known := by decide }
    (by decide) rfl (by decide) rfl ⟨rfl, fun _ _ => rfl⟩

/-- Boxes with 2 coordinates: each polygon is made of those of two objects, and of zeros -/
example : writeShapefile ⟨fun _ => false, fun _ => false⟩ 0 "b".toList "obs".toList (⟨false, true, 2, [[1, 2], [3, 4]]⟩ : Space Nat) =
    .ok ⟨"b".toList, [⟨"obs".toList, [.polygon [(1, 2), (3, 2), (3, 4), (1, 4), (1, 2)], .polygon [(0, 0), (0, 0), (0, 0), (0, 0), (0, 0)]]⟩]⟩ :=
  rfl

end Lue.Shapefile

import Verif.PyIO.Disk
import Verif.Decomposition.Properties

/-!
# C52: arrays written with `write_array` are read back with `read_array`
-/
namespace Lue.PyIO

open Lue.LueIO Lue.RasterView Lue.DataModel Lue.Index

variable {α β τ : Type}

/-! ### Auxiliary -/

theorem tupleToShape_ok {l : List Int} (h : ∀ n ∈ l, Fits64 n) : tupleToShape l = .ok l := by
  unfold tupleToShape
  rw [if_pos]
  rw [List.all_eq_true]
  intro n hn
  simpa [Fits64] using h n hn

theorem tupleToShape_inv {l l' : List Int} (h : tupleToShape l = .ok l') : l' = l ∧ ∀ n ∈ l, Fits64 n := by
  unfold tupleToShape at h
  split at h
  · rename_i hc
    cases h
    rw [List.all_eq_true] at hc
    exact ⟨rfl, fun n hn => by simpa [Fits64] using hc n hn⟩
  · cases h

theorem choose_iff (nrThreads rows cols p0 p1 : Nat) (ps : Option (List Int)) :
    choosePartitionShape nrThreads [rows, cols] ps = .ok (p0, p1) ↔ PartitionShapeIs nrThreads rows cols p0 p1 ps := by
  cases ps with
  | none =>
    simp only [choosePartitionShape, PartitionShapeIs]
    match h : Decomposition.defaultPartitionShape (2000 * 2000) 2000 [rows, cols] nrThreads with
    | [] => simp [Numpy.twoExtents]
    | [_] => simp [Numpy.twoExtents]
    | [a, b] => simp [Numpy.twoExtents]
    | a :: b :: c :: l => simp [Numpy.twoExtents]
  | some shape =>
    simp only [choosePartitionShape, PartitionShapeIs]
    constructor
    · intro h
      cases h1 : tupleToShape shape with
      | error e => rw [h1] at h; cases h
      | ok s =>
        obtain ⟨rfl, hf⟩ := tupleToShape_inv h1
        rw [h1, M.bind_ok] at h
        split at h
        · cases h
        · rename_i hl
          simp only [List.length_cons, List.length_nil, ne_eq, not_not] at hl
          match s, hl with
          | [a, b], _ =>
            simp only [staticShape] at h
            split at h
            · rename_i hab
              simp only [Except.ok.injEq, Prod.mk.injEq] at h
              obtain ⟨rfl, rfl⟩ := h
              have ha := hf a (by simp)
              have hb := hf b (by simp)
              unfold Fits64 at ha hb
              refine ⟨?_, by omega, by omega⟩
              simp [Int.toNat_of_nonneg hab.1, Int.toNat_of_nonneg hab.2]
            · cases h
    · rintro ⟨rfl, h0, h1⟩
      rw [tupleToShape_ok (by intro n hn; simp at hn; unfold Fits64; omega), M.bind_ok]
      simp [staticShape]

theorem u64_nat {n : Nat} (h : n < 2 ^ 64) : u64 n = n := by
  unfold u64
  omega

theorem bind_ok_inv {χ ψ : Type} {x : M χ} {f : χ → M ψ} {r : ψ} (h : (x >>= f) = .ok r) :
    ∃ y, x = .ok y ∧ f y = .ok r := by
  cases x with
  | error e => cases h
  | ok y => exact ⟨y, rfl, h⟩

/-- Reading, from a layer that can be found. -/
theorem readArray_eq {nrThreads : Nat} {disk : Disk α β τ} (hd : DiskRep disk) {pathname : Name} {path : ArrayPath}
    (hp : parseArrayPathname pathname = .ok path) {timeStep : Option Int} {d : File α β τ} {view : View β τ}
    {y : Dataset α} (hf : Found disk path (kindOf (timeStep.map u64)) d view y) (ps : Option (List Int)) (run : Run α) :
    readArray nrThreads disk pathname timeStep ps run =
      (choosePartitionShape nrThreads view.grid ps >>= fun p =>
        fromLueAll y.toH5 view.grid p.1 p.2 (timeStep.map u64) run.garbage run.groups) := by
  have hi : item disk path.dataset = .ok d := by simp [item, hf.1]
  cases timeStep with
  | none =>
    simp only [readArray, readConstant]
    have h1 := probeRaster_ok hf
    have h2 := hf.openArray hd
    simp only [Option.map_none, kindOf, Option.isSome_none, Bool.false_eq_true, if_false] at h1 h2
    simp only [hp, M.bind_ok, h1, hi, h2, Option.map_none]
  | some t =>
    simp only [readArray, readVariable]
    have h1 := probeRaster_ok hf
    have h2 := hf.openArray hd
    simp only [Option.map_some, kindOf, Option.isSome_some, if_true] at h1 h2
    simp only [hp, M.bind_ok, h1, hi, h2, Option.map_some]

/-- If an array is read, its layer can be found. -/
theorem readArray_found {nrThreads : Nat} {disk : Disk α β τ} {pathname : Name} {timeStep : Option Int}
    {ps : Option (List Int)} {run : Run α} {x : PArr α}
    (h : readArray nrThreads disk pathname timeStep ps run = .ok x) :
    ∃ path d view y, parseArrayPathname pathname = .ok path ∧
      Found disk path (kindOf (timeStep.map u64)) d view y := by
  cases timeStep with
  | none =>
    simp only [readArray, readConstant] at h
    obtain ⟨path, h1, h⟩ := bind_ok_inv h
    obtain ⟨r, h2, h⟩ := bind_ok_inv h
    obtain ⟨d, view, y, hf⟩ := probeRaster_inv h2
    exact ⟨path, d, view, y, h1, hf⟩
  | some t =>
    simp only [readArray, readVariable] at h
    obtain ⟨path, h1, h⟩ := bind_ok_inv h
    obtain ⟨r, h2, h⟩ := bind_ok_inv h
    obtain ⟨d, view, y, hf⟩ := probeRaster_inv h2
    exact ⟨path, d, view, y, h1, hf⟩

/-- A layer that can be found, is there. -/
theorem Found.rasterAt {disk : Disk α β τ} (hd : DiskRep disk) {path : ArrayPath} {time : Option Nat} {d : File α β τ}
    {view : View β τ} {y : Dataset α} (h : Found disk path (kindOf time) d view y) :
    ∃ rows cols, view.grid = [rows, cols] ∧ (Room y.shape time rows cols →
      RasterAt disk path time rows cols fun i j => y.data (cellAt time i j)) := by
  obtain ⟨a, ha, hsh⟩ := hd _ _ h.1
  have hv : a.view (kindOf time) path.phenomenon path.propertySet = some view := by
    rw [← openView_eq ha, h.2.1]; rfl
  obtain ⟨k1, k2, k3, r, hr, k5, k6, k7, k8⟩ := view_kind hv
  refine ⟨r.grid.1, r.grid.2, k6, fun hroom => ⟨d, view, y, h.1, h.2.1, k6, h.2.2, ?_, fun _ _ _ _ => rfl⟩⟩
  rintro t rfl
  have hy := (h.rep ha).2.2.2.2.2
  have hy' : (r.layers .varying).get path.layer = some y := by simpa [Rasters.array, hr, kindOf] using hy
  have hs := hsh _ _ r _ _ _ hr hy'
  rw [hs] at hroom
  have ht := k7 rfl
  rw [ht]
  cases hrt : r.time with
  | none => simp [Room, Raster.shape, hrt] at hroom
  | some pn =>
    simp [Room, Raster.shape, hrt] at hroom
    exact ⟨pn.1, pn.2, rfl, hroom⟩

/-! ### Writing -/

/-- **C52**: whatever happened before, writing an array to a raster that is there succeeds if the array is not larger than the
raster. The cells of the raster then have the values of the array. If the array is smaller, the other cells keep
their values. Otherwise, an exception is thrown. -/
theorem write_spec (zero : α) (ops : List (DiskOp α β τ)) (ho : ∀ o ∈ ops, o.Ok) {path : ArrayPath} (hp : path.Ok)
    {timeStep : Option Int} {rows cols : Nat} {v0 : Arr α}
    (hr : RasterAt (diskAfter zero emptyDisk ops) path (timeStep.map u64) rows cols v0) {x : PArr α} {v : Arr α}
    (hx : Represents x v) {order : List Nat} (hord : IsOrder (x.grid.n0 * x.grid.n1) order) :
    let result := writeArray (diskAfter zero emptyDisk ops) x timeStep path.pathname order
    (x.grid.a0 ≤ rows ∧ x.grid.a1 ≤ cols → result.1 = .ok () ∧
      RasterAt result.2 path (timeStep.map u64) rows cols
        fun i j => if i < x.grid.a0 ∧ j < x.grid.a1 then v i j else v0 i j) ∧
    (¬(x.grid.a0 ≤ rows ∧ x.grid.a1 ≤ cols) → ∃ e, result.1 = .error e) := by
  have hd := diskAfter_rep zero ops ho (disk := emptyDisk) diskRep_empty
  generalize diskAfter zero emptyDisk ops = disk at hd hr
  have hlt : ∀ k ∈ order, k < x.grid.n0 * x.grid.n1 := fun k hk => by simpa using hord.mem_iff.mp hk
  obtain ⟨d0, view0, y0, hf0, hg0, hroom0, hv0⟩ := hr.found hd
  have hpp := parse_pathname hp
  rcases writeArray_cases hd hx timeStep path.pathname hlt with ⟨_, _, h3⟩ |
    ⟨path', d, view, y, a, a', y', d', h1, h2, h3, h4, h5, h6, h7, h8, h9, h10, h11, h12, h13⟩
  · exact absurd hf0 (h3 path d0 view0 y0 hpp)
  rw [hpp] at h1
  cases h1
  have e1 := hf0.1.symm.trans h2.1
  cases e1
  have e2 := hf0.2.1.symm.trans h2.2.1
  cases e2
  have e3 := hf0.2.2.symm.trans h2.2.2
  cases e3
  intro result
  constructor
  · intro hle
    obtain ⟨h', e4, hst⟩ := toLue_stores (d := y0.toH5) hx ((hroom0 _ _).mpr hle) hord
    rw [e4] at h13
    refine ⟨h13.1, ?_⟩
    show RasterAt (writeArray disk x timeStep path.pathname order).2 _ _ _ _ _
    rw [h5, rasterAt_iff (d := d') (insert_same _ _ _) h6]
    have habs := (rasterAt_iff hf0.1 h3 _ _ _ _).mp hr
    obtain ⟨id, is, hid⟩ := habs.ids
    obtain ⟨r, hr', hg', ht'⟩ := habs.raster
    obtain ⟨r', g1, g2, g3, g4, g5⟩ := h8.raster _ _ _ hr'
    refine ⟨⟨id, is, h8.ids _ _ _ hid⟩, ⟨r', g1, g3.trans hg', ?_⟩, ⟨y', h9, ?_⟩⟩
    · intro t hh
      obtain ⟨period, nr, q1, q2⟩ := ht' t hh
      exact ⟨period, nr, g4.trans q1, q2⟩
    · intro i j hi hj
      rw [h13.2]
      split
      · rename_i hij
        exact hst.cells i j hij.1 hij.2
      · rename_i hij
        rw [hst.other, hv0 i j hi hj]
        intro i' j' hi' hj' he
        obtain ⟨q1, q2⟩ := cellAt_inj he
        exact hij ⟨by omega, by omega⟩
  · intro hle
    have := (toLue_succeeds_iff (d := y0.toH5) hx (time := timeStep.map u64) hord).2 fun h => hle ((hroom0 _ _).mp h)
    rw [this] at h13
    exact h13

/-- **C52**: writing succeeds if and only if the raster, and time step, are there, and the array is not larger. -/
theorem write_succeeds_iff (zero : α) (ops : List (DiskOp α β τ)) (ho : ∀ o ∈ ops, o.Ok) {path : ArrayPath} (hp : path.Ok)
    (timeStep : Option Int) {x : PArr α} {v : Arr α}
    (hx : Represents x v) {order : List Nat} (hord : IsOrder (x.grid.n0 * x.grid.n1) order) :
    (writeArray (diskAfter zero emptyDisk ops) x timeStep path.pathname order).1 = .ok () ↔
      ∃ rows cols v0, RasterAt (diskAfter zero emptyDisk ops) path (timeStep.map u64) rows cols v0 ∧
        x.grid.a0 ≤ rows ∧ x.grid.a1 ≤ cols := by
  constructor
  · intro h
    have hd := diskAfter_rep zero ops ho (disk := emptyDisk) diskRep_empty
    have hspec := fun rows cols v0 hr => write_spec zero ops ho hp (timeStep := timeStep) (rows := rows) (cols := cols)
      (v0 := v0) hr hx hord
    generalize diskAfter zero emptyDisk ops = disk at hd h hspec
    have hlt : ∀ k ∈ order, k < x.grid.n0 * x.grid.n1 := fun k hk => by simpa using hord.mem_iff.mp hk
    rcases writeArray_cases hd hx timeStep path.pathname hlt with ⟨⟨e, h1⟩, _, _⟩ |
      ⟨path', d, view, y, a, a', y', d', h1, h2, h3, h4, h5, h6, h7, h8, h9, h10, h11, h12, h13⟩
    · rw [h1] at h; cases h
    rw [parse_pathname hp] at h1
    cases h1
    obtain ⟨rows, cols, hg, hra⟩ := h2.rasterAt hd
    have hroom : Room y.shape (timeStep.map u64) x.grid.a0 x.grid.a1 := by
      by_contra hno
      have := (toLue_succeeds_iff (d := y.toH5) hx (time := timeStep.map u64) hord).2 hno
      rw [this] at h13
      obtain ⟨e, he⟩ := h13
      rw [he] at h
      cases h
    have hv := (h2.rep h3).1
    obtain ⟨r, hr, _, hgr, _⟩ := hv.raster
    obtain ⟨_, k2, k3, k4, k5, hy⟩ := h2.rep h3
    rw [k3, k4] at hr
    have hy' : (r.layers (kindOf (timeStep.map u64))).get path.layer = some y := by simpa [Rasters.array, hr] using hy
    have hs := h4 _ _ r _ _ _ hr hy'
    have hrc : rows = r.grid.1 ∧ cols = r.grid.2 := by
      rw [hg] at hgr
      simp only [List.cons.injEq, and_true] at hgr
      exact hgr
    have hroom' : Room y.shape (timeStep.map u64) rows cols := by
      rw [hs] at hroom ⊢
      cases htime : timeStep.map u64 with
      | none => rw [htime] at hroom; simp [Room, Raster.shape, kindOf, hrc.1, hrc.2] 
      | some t =>
        rw [htime] at hroom
        simp only [Room, Raster.shape, kindOf, Option.isSome_some, if_true, List.cons.injEq, and_true] at hroom ⊢
        obtain ⟨l, n, m0, m1, ⟨e1, e2, e3, e4⟩, q1, q2, _⟩ := hroom
        exact ⟨l, n, m0, m1, ⟨e1, e2, e3, e4⟩, q1, q2, by omega, by omega⟩
    have hR := hra hroom'
    refine ⟨rows, cols, _, hR, ?_⟩
    by_contra hle
    obtain ⟨e, he⟩ := (hspec _ _ _ hR).2 hle
    rw [h] at he
    cases he
  · rintro ⟨rows, cols, v0, hr, hle⟩
    exact ((write_spec zero ops ho hp hr hx hord).1 hle).1

/-! ### Frame -/

/-- **C52**: rasters which are not written to keep their values: whatever is written to other datasets, rasters, layers or time
steps, also if writing these fails halfway, and whatever is added to the dataset. -/
theorem raster_unchanged (zero : α) (ops ops' : List (DiskOp α β τ)) (ho : ∀ o ∈ ops, o.Ok) (ho' : ∀ o ∈ ops', o.Ok)
    {path : ArrayPath} {time : Option Nat} {rows cols : Nat} {v : Arr α}
    (h : RasterAt (diskAfter zero emptyDisk ops) path time rows cols v)
    (hu : AllUntouched zero path time (diskAfter zero emptyDisk ops) ops') :
    RasterAt (diskAfter zero emptyDisk (ops ++ ops')) path time rows cols v := by
  have hd := diskAfter_rep zero ops ho (disk := emptyDisk) diskRep_empty
  unfold diskAfter at *
  rw [List.foldl_append]
  exact diskAfter_keep zero ops' ho' hd h hu

/-! ### Reading -/

/-- **C52**: reading a raster results in an array with the values of the raster, whatever the partition shape, the contents of
memory and the distribution of partitions over localities. -/
theorem read_spec (zero : α) (ops : List (DiskOp α β τ)) (ho : ∀ o ∈ ops, o.Ok) {path : ArrayPath} (hp : path.Ok)
    {timeStep : Option Int} {rows cols : Nat} {v : Arr α}
    (hr : RasterAt (diskAfter zero emptyDisk ops) path (timeStep.map u64) rows cols v) (nrThreads : Nat)
    {ps : Option (List Int)} {p0 p1 : Nat} (hps : PartitionShapeIs nrThreads rows cols p0 p1 ps)
    (h0 : 0 < p0) (h0' : p0 ≤ rows) (h1 : 0 < p1) (h1' : p1 ≤ cols) (loc : Nat → Nat) (run : Run α)
    (hrun : run.groups.Perm (idxsByLocality loc (rows / p0 * (cols / p1)))) :
    ∃ x, readArray nrThreads (diskAfter zero emptyDisk ops) path.pathname timeStep ps run = .ok x ∧
      x.grid = ⟨rows, cols, p0, p1⟩ ∧ Represents x v := by
  have hd := diskAfter_rep zero ops ho (disk := emptyDisk) diskRep_empty
  generalize diskAfter zero emptyDisk ops = disk at hd hr
  obtain ⟨d, view, y, hf, hg, hroom, hv⟩ := hr.found hd
  rw [readArray_eq hd (parse_pathname hp) hf, hg, (choose_iff nrThreads rows cols p0 p1 ps).mpr hps, M.bind_ok]
  have hgrid : Grid.Ok ⟨rows, cols, p0, p1⟩ := ⟨h0, h1, h0', h1'⟩
  have hread := fromLue_represents (d := y.toH5) (s0 := 0) (s1 := 0) (time := timeStep.map u64) hgrid
    (by rw [hroom]; omega) run.garbage loc hrun
  obtain ⟨x, e1, e2, e3⟩ := hread
  refine ⟨x, e1, e2, e3.ok, e3.nr_parts, e3.part_size, ?_⟩
  intro i j k0 k1 l0 l1 hc
  have hlt := hc.lt e3.ok
  rw [e2] at hlt
  rw [e3.elem i j k0 k1 l0 l1 hc]
  unfold contents
  rw [Nat.zero_add, Nat.zero_add, hv i j hlt.1 hlt.2]

/-- **C52**: nothing else can be read: if the raster or time step is not there, or partitions are larger than the raster or
empty, an exception is thrown. -/
theorem read_succeeds_only (zero : α) (ops : List (DiskOp α β τ)) (ho : ∀ o ∈ ops, o.Ok) {path : ArrayPath} (hp : path.Ok)
    {timeStep : Option Int} {nrThreads : Nat} {ps : Option (List Int)} {run : Run α} {x : PArr α}
    (hrun : ∀ id rows cols p0 p1,
      probeRaster (diskAfter zero emptyDisk ops) (kindOf (timeStep.map u64)) path = .ok (id, [rows, cols]) →
      PartitionShapeIs nrThreads rows cols p0 p1 ps →
      ∃ loc, run.groups.Perm (idxsByLocality loc (rows / p0 * (cols / p1))))
    (h : readArray nrThreads (diskAfter zero emptyDisk ops) path.pathname timeStep ps run = .ok x) :
    ∃ rows cols v p0 p1, RasterAt (diskAfter zero emptyDisk ops) path (timeStep.map u64) rows cols v ∧
      PartitionShapeIs nrThreads rows cols p0 p1 ps ∧ 0 < p0 ∧ p0 ≤ rows ∧ 0 < p1 ∧ p1 ≤ cols := by
  have hd := diskAfter_rep zero ops ho (disk := emptyDisk) diskRep_empty
  generalize diskAfter zero emptyDisk ops = disk at hd h hrun
  obtain ⟨path', d, view, y, h1, hf⟩ := readArray_found h
  rw [parse_pathname hp] at h1
  cases h1
  obtain ⟨rows, cols, hg, hra⟩ := hf.rasterAt hd
  rw [readArray_eq hd (parse_pathname hp) hf, hg] at h
  obtain ⟨⟨p0, p1⟩, hc, h⟩ := bind_ok_inv h
  rw [choose_iff] at hc
  have hgrid : Grid.Ok ⟨rows, cols, p0, p1⟩ := by
    by_contra hno
    have := fromLue_fails_partitionShape (d := y.toH5) (s0 := 0) (s1 := 0) (time := timeStep.map u64) hno run.garbage
      run.groups
    simp only [fromLueAll] at h
    rw [show shapeToHyperslab [rows, cols] = .ofCount [0, 0] [rows, cols] from rfl, this] at h
    cases h
  have hroom : Room y.shape (timeStep.map u64) rows cols := by
    by_contra hno
    obtain ⟨loc, hl⟩ := hrun _ _ _ _ _ (by rw [probeRaster_ok hf, hg]) hc
    have := fromLue_fails_noRoom (d := y.toH5) (s0 := 0) (s1 := 0) (a0 := rows) (a1 := cols) (p0 := p0) (p1 := p1)
      (time := timeStep.map u64) (by simpa using hno) run.garbage loc hl
    simp only [fromLueAll] at h
    rw [show shapeToHyperslab [rows, cols] = .ofCount [0, 0] [rows, cols] from rfl, this] at h
    cases h
  exact ⟨rows, cols, _, p0, p1, hra hroom, hc, hgrid.pos0, hgrid.le0, hgrid.pos1, hgrid.le1⟩

/-- **C52**: round trip. Whatever happened before, and whatever happens in between (as long as it does not write to the same time
step of the same layer), and however partitions are written and read: what was written is read. -/
theorem write_then_read (zero : α) (ops ops' : List (DiskOp α β τ)) (ho : ∀ o ∈ ops, o.Ok) (ho' : ∀ o ∈ ops', o.Ok)
    {path : ArrayPath} (hp : path.Ok) {timeStep : Option Int} {v0 v : Arr α} {x : PArr α}
    (hr : RasterAt (diskAfter zero emptyDisk ops) path (timeStep.map u64) x.grid.a0 x.grid.a1 v0)
    (hx : Represents x v) {order : List Nat} (hord : IsOrder (x.grid.n0 * x.grid.n1) order)
    (hu : AllUntouched zero path (timeStep.map u64)
      (diskAfter zero emptyDisk (ops ++ [.write x timeStep path.pathname order])) ops') (nrThreads : Nat)
    {ps : Option (List Int)} {p0 p1 : Nat} (hps : PartitionShapeIs nrThreads x.grid.a0 x.grid.a1 p0 p1 ps)
    (h0 : 0 < p0) (h0' : p0 ≤ x.grid.a0) (h1 : 0 < p1) (h1' : p1 ≤ x.grid.a1) (loc : Nat → Nat) (run : Run α)
    (hrun : run.groups.Perm (idxsByLocality loc (x.grid.a0 / p0 * (x.grid.a1 / p1)))) :
    (writeArray (diskAfter zero emptyDisk ops) x timeStep path.pathname order).1 = .ok () ∧
    ∃ y, readArray nrThreads (diskAfter zero emptyDisk (ops ++ [.write x timeStep path.pathname order] ++ ops'))
        path.pathname timeStep ps run = .ok y ∧ y.grid = ⟨x.grid.a0, x.grid.a1, p0, p1⟩ ∧ Represents y v := by
  obtain ⟨hw, hR⟩ := (write_spec zero ops ho hp hr hx hord).1 ⟨Nat.le_refl _, Nat.le_refl _⟩
  have hops : ∀ o ∈ ops ++ [DiskOp.write x timeStep path.pathname order], o.Ok := by
    intro o h
    rcases List.mem_append.mp h with h | h
    · exact ho o h
    · simp only [List.mem_singleton] at h
      subst h
      exact ⟨⟨v, hx⟩, hord⟩
  have hR' : RasterAt (diskAfter zero emptyDisk (ops ++ [.write x timeStep path.pathname order])) path
      (timeStep.map u64) x.grid.a0 x.grid.a1 v := by
    have he : diskAfter zero emptyDisk (ops ++ [.write x timeStep path.pathname order]) =
        (writeArray (diskAfter zero emptyDisk ops) x timeStep path.pathname order).2 := by
      unfold diskAfter
      rw [List.foldl_append]
      rfl
    rw [he]
    obtain ⟨d, view, array, q1, q2, q3, q4, q5, q6⟩ := hR
    refine ⟨d, view, array, q1, q2, q3, q4, q5, fun i j hi hj => ?_⟩
    rw [q6 i j hi hj, if_pos ⟨hi, hj⟩]
  have hR'' := raster_unchanged zero _ ops' hops ho' hR' hu
  refine ⟨hw, read_spec zero _ ?_ hp hR'' nrThreads hps h0 h0' h1 h1' loc run hrun⟩
  intro o h
  rcases List.mem_append.mp h with h | h
  · exact hops o h
  · exact ho' o h

/-! ### Reading part of a raster -/

theorem start_le_iff {c s : Int} {extent : Nat} (hc : Fits64 c) (hs : Fits64 s) (hne : s ≠ 0) (he : extent < 2 ^ 63) :
    subU64 (u64 c) (u64 s / 2) + u64 s ≤ extent ↔
      ∃ o n : Nat, s = n ∧ c = o + n / 2 ∧ 0 < n ∧ o + n ≤ extent := by
  unfold Fits64 at hc hs
  constructor
  · intro h
    unfold subU64 u64 at h
    have hs0 : 0 < s := by omega
    refine ⟨(c - s / 2).toNat, s.toNat, by omega, ?_, by omega, ?_⟩ <;> omega
  · rintro ⟨o, n, rfl, rfl, hn, hle⟩
    unfold subU64 u64
    omega

theorem start_eq {o n : Nat} (hc : Fits64 (o + n / 2)) (hs : Fits64 n) :
    subU64 (u64 (o + n / 2)) (u64 n / 2) = o ∧ u64 n = n := by
  unfold Fits64 at hc hs
  unfold subU64 u64
  omega

/-- Reading part of a raster, from a layer that can be found. -/
theorem readSubset_eq {nrThreads : Nat} {disk : Disk α β τ} (hd : DiskRep disk) {pathname : Name} {path : ArrayPath}
    (hp : parseArrayPathname pathname = .ok path) {d : File α β τ} {view : View β τ}
    {y : Dataset α} (hf : Found disk path .constant d view y) {c0 c1 s0 s1 : Int}
    (hc0 : Fits64 c0) (hc1 : Fits64 c1) (hs0 : Fits64 s0) (hs1 : Fits64 s1) (ps : Option (List Int)) (run : Run α) :
    readSubset nrThreads disk pathname [c0, c1] [s0, s1] ps run =
      (choosePartitionShape nrThreads view.grid ps >>= fun p =>
        if isEmpty (centredHyperslab c0 c1 s0 s1) then
          fromLueAll y.toH5 view.grid p.1 p.2 none run.garbage run.groups
        else fromLue y.toH5 (centredHyperslab c0 c1 s0 s1) p.1 p.2 none run.garbage run.groups) := by
  have hi : item disk path.dataset = .ok d := by simp [item, hf.1]
  have h1 := probeRaster_ok hf
  have h2 := hf.openArray hd
  unfold readSubset
  rw [tupleToShape_ok (by intro n hn; simp at hn; rcases hn with rfl | rfl <;> assumption),
    tupleToShape_ok (by intro n hn; simp at hn; rcases hn with rfl | rfl <;> assumption)]
  simp only [hp, M.bind_ok, h1, hi, h2]

theorem isEmpty_iff {c0 c1 s0 s1 : Int} (hs0 : Fits64 s0) (hs1 : Fits64 s1) :
    isEmpty (centredHyperslab c0 c1 s0 s1) = true ↔ s0 = 0 ∨ s1 = 0 := by
  have e : ∀ s : Int, Fits64 s → (0 = u64 s ↔ s = 0) := by
    intro s hs
    unfold Fits64 at hs
    unfold u64
    omega
  simp [isEmpty, centredHyperslab, Hyperslab.ofCount, e s0 hs0, e s1 hs1]

/-- **C52**: reading `n0` × `n1` cells at offset (`o0`, `o1`) of a raster, by passing in the center (half the extents, rounded
down, from the offset) and the extents. The result contains these cells. -/
theorem readSubset_spec (zero : α) (ops : List (DiskOp α β τ)) (ho : ∀ o ∈ ops, o.Ok) {path : ArrayPath} (hp : path.Ok)
    {rows cols : Nat} {v : Arr α} (hr : RasterAt (diskAfter zero emptyDisk ops) path none rows cols v)
    (hrows : rows < 2 ^ 63) (hcols : cols < 2 ^ 63) {o0 o1 n0 n1 : Nat} (hn0 : 0 < n0) (hn1 : 0 < n1)
    (hle0 : o0 + n0 ≤ rows) (hle1 : o1 + n1 ≤ cols) (nrThreads : Nat)
    {ps : Option (List Int)} {p0 p1 : Nat} (hps : PartitionShapeIs nrThreads rows cols p0 p1 ps)
    (h0 : 0 < p0) (h0' : p0 ≤ n0) (h1 : 0 < p1) (h1' : p1 ≤ n1) (loc : Nat → Nat) (run : Run α)
    (hrun : run.groups.Perm (idxsByLocality loc (n0 / p0 * (n1 / p1)))) :
    ∃ x, readSubset nrThreads (diskAfter zero emptyDisk ops) path.pathname
        [(o0 + n0 / 2 : Nat), (o1 + n1 / 2 : Nat)] [(n0 : Int), (n1 : Int)] ps run = .ok x ∧
      x.grid = ⟨n0, n1, p0, p1⟩ ∧ Represents x fun i j => v (o0 + i) (o1 + j) := by
  have hd := diskAfter_rep zero ops ho (disk := emptyDisk) diskRep_empty
  generalize diskAfter zero emptyDisk ops = disk at hd hr
  obtain ⟨d, view, y, hf, hg, hroom, hv⟩ := hr.found hd
  have f1 : Fits64 ((o0 + n0 / 2 : Nat) : Int) := by unfold Fits64; omega
  have f2 : Fits64 ((o1 + n1 / 2 : Nat) : Int) := by unfold Fits64; omega
  have f3 : Fits64 (n0 : Int) := by unfold Fits64; omega
  have f4 : Fits64 (n1 : Int) := by unfold Fits64; omega
  have hne : ¬isEmpty (centredHyperslab ((o0 + n0 / 2 : Nat) : Int) ((o1 + n1 / 2 : Nat) : Int) n0 n1) = true := by
    rw [isEmpty_iff f3 f4]; omega
  rw [readSubset_eq hd (parse_pathname hp) hf f1 f2 f3 f4, hg, (choose_iff nrThreads rows cols p0 p1 ps).mpr hps,
    M.bind_ok, if_neg hne]
  have e0 := start_eq (o := o0) (n := n0) (by simpa using f1) f3
  have e1 := start_eq (o := o1) (n := n1) (by simpa using f2) f4
  have hh : centredHyperslab ((o0 + n0 / 2 : Nat) : Int) ((o1 + n1 / 2 : Nat) : Int) n0 n1 =
      .ofCount [o0, o1] [n0, n1] := by
    unfold centredHyperslab
    simp only [Int.natCast_add, Int.natCast_ediv, Nat.cast_ofNat]
    rw [e0.1, e0.2, e1.1, e1.2]
  rw [hh]
  obtain ⟨x, q1, q2, q3⟩ := fromLue_represents (d := y.toH5) (s0 := o0) (s1 := o1) (time := none)
    (show Grid.Ok ⟨n0, n1, p0, p1⟩ from ⟨h0, h1, h0', h1'⟩) ((hroom _ _).mpr ⟨hle0, hle1⟩) run.garbage loc hrun
  refine ⟨x, q1, q2, q3.ok, q3.nr_parts, q3.part_size, ?_⟩
  intro i j k0 k1 l0 l1 hc
  have hlt := hc.lt q3.ok
  rw [q2] at hlt
  dsimp only at hlt
  rw [q3.elem i j k0 k1 l0 l1 hc]
  unfold contents
  rw [hv _ _ (by omega) (by omega)]

/-- **C52**: if part of a raster is read, extents being non-zero, then the part is within the raster: subsets that stick out, also
if their first row or column would be negative, result in an exception. -/
theorem readSubset_succeeds_only (zero : α) (ops : List (DiskOp α β τ)) (ho : ∀ o ∈ ops, o.Ok) {path : ArrayPath}
    (hp : path.Ok) {rows cols : Nat} {v : Arr α} (hr : RasterAt (diskAfter zero emptyDisk ops) path none rows cols v)
    (hrows : rows < 2 ^ 63) (hcols : cols < 2 ^ 63) {center subset : List Int} (hz : (0 : Int) ∉ subset)
    {nrThreads : Nat} {ps : Option (List Int)} {run : Run α} {x : PArr α}
    (hrun : ∀ s0 s1 p0 p1, subset = [s0, s1] → PartitionShapeIs nrThreads rows cols p0 p1 ps →
      ∃ loc, run.groups.Perm (idxsByLocality loc (u64 s0 / p0 * (u64 s1 / p1))))
    (h : readSubset nrThreads (diskAfter zero emptyDisk ops) path.pathname center subset ps run = .ok x) :
    ∃ o0 o1 n0 n1 p0 p1 : Nat, center = [((o0 + n0 / 2 : Nat) : Int), ((o1 + n1 / 2 : Nat) : Int)] ∧
      subset = [(n0 : Int), (n1 : Int)] ∧ o0 + n0 ≤ rows ∧ o1 + n1 ≤ cols ∧
      PartitionShapeIs nrThreads rows cols p0 p1 ps ∧ 0 < p0 ∧ p0 ≤ n0 ∧ 0 < p1 ∧ p1 ≤ n1 := by
  have hd := diskAfter_rep zero ops ho (disk := emptyDisk) diskRep_empty
  generalize diskAfter zero emptyDisk ops = disk at hd hr h
  obtain ⟨d, view, y, hf, hg, hroom, hv⟩ := hr.found hd
  have h0 := h
  unfold readSubset at h
  obtain ⟨c, hc, h⟩ := bind_ok_inv h
  obtain ⟨ec, fc⟩ := tupleToShape_inv hc
  obtain ⟨s, hs, h⟩ := bind_ok_inv h
  obtain ⟨es, fs⟩ := tupleToShape_inv hs
  rw [ec, es] at h
  clear hc hs ec es
  obtain ⟨_, _, h⟩ := bind_ok_inv h
  obtain ⟨_, _, h⟩ := bind_ok_inv h
  have hlists : ∃ c0 c1 s0 s1, center = [c0, c1] ∧ subset = [s0, s1] := by
    rcases center with _ | ⟨c0, _ | ⟨c1, _ | ⟨c2, c⟩⟩⟩ <;> rcases subset with _ | ⟨s0, _ | ⟨s1, _ | ⟨s2, s⟩⟩⟩ <;>
      first | exact ⟨_, _, _, _, rfl, rfl⟩ | (exfalso; cases h)
  obtain ⟨c0, c1, s0, s1, rfl, rfl⟩ := hlists
  clear h
  have fc0 := fc c0 (by simp)
  have fc1 := fc c1 (by simp)
  have fs0 := fs s0 (by simp)
  have fs1 := fs s1 (by simp)
  have z0 : s0 ≠ 0 := by rintro rfl; simp at hz
  have z1 : s1 ≠ 0 := by rintro rfl; simp at hz
  rw [readSubset_eq hd (parse_pathname hp) hf fc0 fc1 fs0 fs1, hg] at h0
  obtain ⟨⟨p0, p1⟩, hps, h0⟩ := bind_ok_inv h0
  rw [choose_iff] at hps
  rw [if_neg (by rw [isEmpty_iff fs0 fs1]; omega)] at h0
  unfold centredHyperslab at h0
  have hgrid : Grid.Ok ⟨u64 s0, u64 s1, p0, p1⟩ := by
    by_contra hno
    rw [fromLue_fails_partitionShape hno] at h0
    cases h0
  have hroom' : Room y.toH5.shape none (subU64 (u64 c0) (u64 s0 / 2) + u64 s0)
      (subU64 (u64 c1) (u64 s1 / 2) + u64 s1) := by
    by_contra hno
    obtain ⟨loc, hl⟩ := hrun s0 s1 p0 p1 rfl hps
    rw [fromLue_fails_noRoom hno run.garbage loc hl] at h0
    cases h0
  rw [hroom] at hroom'
  rw [start_le_iff fc0 fs0 z0 hrows, start_le_iff fc1 fs1 z1 hcols] at hroom'
  obtain ⟨⟨o0, n0, rfl, rfl, m0, l0⟩, ⟨o1, n1, rfl, rfl, m1, l1⟩⟩ := hroom'
  have e0 := (start_eq (o := o0) (n := n0) fc0 fs0).2
  have e1 := (start_eq (o := o1) (n := n1) fc1 fs1).2
  rw [e0, e1] at hgrid
  exact ⟨o0, o1, n0, n1, p0, p1, by simp, rfl, l0, l1, hps, hgrid.pos0, hgrid.le0, hgrid.pos1, hgrid.le1⟩

/-- **C52** (finding): if one of the extents of the subset is zero, the whole raster is read. -/
theorem readSubset_zero (zero : α) (ops : List (DiskOp α β τ)) (ho : ∀ o ∈ ops, o.Ok) {path : ArrayPath} (hp : path.Ok)
    {rows cols : Nat} {v : Arr α} (hr : RasterAt (diskAfter zero emptyDisk ops) path none rows cols v)
    {c0 c1 s0 s1 : Int} (hc0 : Fits64 c0) (hc1 : Fits64 c1) (hs0 : Fits64 s0) (hs1 : Fits64 s1)
    (hz : s0 = 0 ∨ s1 = 0) (nrThreads : Nat) (ps : Option (List Int)) (run : Run α) :
    readSubset nrThreads (diskAfter zero emptyDisk ops) path.pathname [c0, c1] [s0, s1] ps run =
      readArray nrThreads (diskAfter zero emptyDisk ops) path.pathname none ps run := by
  have hd := diskAfter_rep zero ops ho (disk := emptyDisk) diskRep_empty
  generalize diskAfter zero emptyDisk ops = disk at hd hr
  obtain ⟨d, view, y, hf, hg, hroom, hv⟩ := hr.found hd
  rw [readSubset_eq hd (parse_pathname hp) hf hc0 hc1 hs0 hs1,
    readArray_eq hd (parse_pathname hp) (timeStep := none) hf]
  simp only [(isEmpty_iff (c0 := c0) (c1 := c1) hs0 hs1).mpr hz, if_true]
  rfl

/-- **C52** (finding): the default partition shape is the one of the whole raster. With a single worker thread, part of a raster
can't be read without passing in a partition shape. -/
theorem readSubset_default_one_thread (zero : α) (ops : List (DiskOp α β τ)) (ho : ∀ o ∈ ops, o.Ok) {path : ArrayPath}
    (hp : path.Ok) {rows cols : Nat} {v : Arr α} (hr : RasterAt (diskAfter zero emptyDisk ops) path none rows cols v)
    (hrows : rows < 2 ^ 63) (hcols : cols < 2 ^ 63) {center : List Int} {n0 n1 : Nat} (hn0 : 0 < n0) (hn1 : 0 < n1)
    (hpart : n0 < rows ∨ n1 < cols) {run : Run α}
    (hrun : ∃ loc, run.groups.Perm (idxsByLocality loc (n0 / rows * (n1 / cols)))) :
    ∃ e, readSubset 1 (diskAfter zero emptyDisk ops) path.pathname center [(n0 : Int), (n1 : Int)] none run =
      .error e := by
  cases h : readSubset 1 (diskAfter zero emptyDisk ops) path.pathname center [(n0 : Int), (n1 : Int)] none run with
  | error e => exact ⟨e, rfl⟩
  | ok x =>
    exfalso
    by_cases hfit : n0 < 2 ^ 64 ∧ n1 < 2 ^ 64
    · obtain ⟨o0, o1, m0, m1, p0, p1, e1, e2, e3, e4, e5, e6, e7, e8, e9⟩ :=
        readSubset_succeeds_only zero ops ho hp hr hrows hcols
          (by simp; omega) (by
            intro s0 s1 p0 p1 hs hps
            simp only [List.cons.injEq, and_true] at hs
            rw [← hs.1, ← hs.2, u64_nat hfit.1, u64_nat hfit.2]
            unfold PartitionShapeIs at hps
            rw [Decomposition.defaultPartitionShape_one_thread] at hps
            simp only [List.cons.injEq, and_true] at hps
            rw [← hps.1, ← hps.2]
            exact hrun) h
      unfold PartitionShapeIs at e5
      rw [Decomposition.defaultPartitionShape_one_thread] at e5
      simp only [List.cons.injEq, and_true, Int.natCast_inj] at e5 e2
      omega
    · unfold readSubset at h
      obtain ⟨c, _, h⟩ := bind_ok_inv h
      obtain ⟨s, hs, _⟩ := bind_ok_inv h
      have := (tupleToShape_inv hs).2
      have h0 := this n0 (by simp)
      have h1 := this n1 (by simp)
      unfold Fits64 at h0 h1
      omega

/-- **C52**: the elements of an array that is read have the type of the elements in the dataset, if that type is supported.
Otherwise an exception is thrown. -/
theorem dispatch_iff (supported : Element → Bool) (t : Datatype) (e : Element) :
    dispatch supported t = .ok e ↔ t = e.datatype ∧ supported e = true := by
  have key : ∀ e', required (readAs supported e') = .ok e ↔ e' = e ∧ supported e = true := by
    intro e'
    unfold readAs
    by_cases h : supported e' = true
    · rw [if_pos h]
      simp only [required, Except.ok.injEq]
      exact ⟨fun he => ⟨he, he ▸ h⟩, fun he => he.1⟩
    · rw [if_neg h]
      constructor
      · intro he; cases he
      · rintro ⟨rfl, he⟩; exact absurd he h
  have none : required none = .ok e ↔ False := by simp [required]
  unfold dispatch
  cases t <;> simp only [if_true, reduceCtorEq, if_false, key, none] <;> cases e <;> simp [Element.datatype]

/-! ### Concrete cases -/

/-- A pathname: `/d.lue/a/s/z` -/
def somePath : ArrayPath := ⟨['/', 'd', '.', 'l', 'u', 'e'], ['a'], ['s'], ['z']⟩

theorem somePath_ok : somePath.Ok := by
  refine ⟨⟨by decide, by decide, by decide⟩, by decide, by decide, by decide⟩

/-- A raster of 4 × 3 cells with a layer, and a variable raster of 2 × 2 cells, with three time steps. -/
def someOps : List (DiskOp Nat Nat Nat) :=
  [.edit somePath.dataset [.create ['a'] ['s'] (4, 3) 7 none, .addLayer 0 ['z'] (some 9),
    .create ['a'] ['t'] (2, 2) 8 (some (5, 3)), .addLayer 1 ['z'] none]]

theorem someOps_ok : ∀ o ∈ someOps, o.Ok := by
  simp [someOps, DiskOp.Ok, Op.Ok]

theorem someRaster : RasterAt (diskAfter 0 emptyDisk someOps) somePath none 4 3 fun _ _ => 9 :=
  ⟨_, _, _, rfl, rfl, rfl, rfl, by simp, fun _ _ _ _ => rfl⟩

theorem someTimeStep : RasterAt (diskAfter 0 emptyDisk someOps) { somePath with propertySet := ['t'] } (some 2) 2 2
    fun _ _ => 0 :=
  ⟨_, _, _, rfl, rfl, rfl, rfl, by simp, fun _ _ _ _ => rfl⟩

theorem store_represents' : Represents (store ⟨4, 3, 2, 2⟩ fun i j => 10 * i + j) fun i j => 10 * i + j :=
  store_represents (by constructor <;> decide) _

/-- An array is written, partitioned in 2 × 1 partitions, and read with 4 × 2 partitions; a part of it is read too. -/
example :
    let disk := diskAfter 0 emptyDisk (someOps ++ [.write (store ⟨4, 3, 2, 2⟩ fun i j => 10 * i + j) none
      somePath.pathname [1, 0]])
    (readArray 1 disk somePath.pathname none (some [4, 2]) ⟨fun _ _ => 99, [(0, [0])]⟩).toOption.map (·.parts) =
      some [[0, 1, 2, 10, 11, 12, 20, 21, 22, 30, 31, 32]] ∧
    (readSubset 1 disk somePath.pathname [2, 1] [2, 2] (some [1, 2]) ⟨fun _ _ => 99, [(0, [0, 1])]⟩).toOption.map
      (·.parts) = some [[10, 11], [20, 21]] ∧
    (readSubset 1 disk somePath.pathname [2, 1] [2, 0] (some [4, 3]) ⟨fun _ _ => 99, [(0, [0])]⟩).toOption.map
      (·.parts) = some [[0, 1, 2, 10, 11, 12, 20, 21, 22, 30, 31, 32]] := by decide

/-- The finding: an array with more rows than the raster can't be written, but the partitions that fit are written before the
exception is thrown. -/
theorem write_fails_halfway :
    let x := store ⟨6, 3, 2, 3⟩ fun i j => 10 * i + j
    let result := writeArray (diskAfter 0 emptyDisk someOps) x none somePath.pathname [0, 1, 2]
    result.1 = .error .thrown ∧
    (readArray 1 result.2 somePath.pathname none none ⟨fun _ _ => 99, [(0, [0])]⟩).toOption.map (·.parts) =
      some [[0, 1, 2, 10, 11, 12, 20, 21, 22, 30, 31, 32]] := by decide

/-- A time step is written, another time step is not changed, and there is no fourth time step. -/
example :
    let p := { somePath with propertySet := ['t'] }.pathname
    let disk := diskAfter 0 emptyDisk (someOps ++ [.write (store ⟨2, 2, 1, 2⟩ fun i j => 10 * i + j + 1) (some 1) p [1, 0]])
    (readArray 1 disk p (some 1) none ⟨fun _ _ => 99, [(0, [0])]⟩).toOption.map (·.parts) = some [[1, 2, 11, 12]] ∧
    (readArray 1 disk p (some 0) none ⟨fun _ _ => 99, [(0, [0])]⟩).toOption.map (·.parts) = some [[0, 0, 0, 0]] ∧
    (readArray 1 disk p (some 3) none ⟨fun _ _ => 99, [(0, [0])]⟩).toOption.map (·.parts) = none ∧
    (readArray 1 disk p (some (-1)) none ⟨fun _ _ => 99, [(0, [0])]⟩).toOption.map (·.parts) = none := by decide

/-- The hypotheses of `write_then_read` are met: an array is written, then another raster and another time step. -/
example : ∃ ops', (∀ o ∈ ops', DiskOp.Ok o) ∧ ops'.length = 2 ∧
    AllUntouched 0 somePath none (diskAfter 0 emptyDisk (someOps ++ [.write (store ⟨4, 3, 2, 2⟩ fun i j => 10 * i + j) none
      somePath.pathname [1, 0]])) ops' := by
  refine ⟨[.edit ['x'] [.create ['b'] ['s'] (1, 1) 7 none],
    .write (store ⟨2, 2, 1, 2⟩ fun i j => 10 * i + j + 1) (some 1) { somePath with propertySet := ['t'] }.pathname [1, 0]],
    ?_, rfl, ?_⟩
  · intro o ho
    simp only [List.mem_cons, List.not_mem_nil, or_false] at ho
    rcases ho with rfl | rfl
    · simp [DiskOp.Ok, Op.Ok]
    · exact ⟨⟨_, store_represents (by constructor <;> decide) _⟩, by unfold IsOrder; decide⟩
  · refine ⟨?_, ?_, trivial⟩
    · intro h; exact absurd h (by decide)
    · intro path' _; exact .inr (by decide)

end Lue.PyIO

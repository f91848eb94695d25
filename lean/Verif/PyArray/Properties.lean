import Verif.PyArray.Proofs

/-!
# C42: indexing the arrays of a dataset from Python

For arrays of any rank, `array[key]` is what NumPy would return, for indices without negative steps. Assigning replaces the
selected elements, and no others.
-/
namespace Lue.PyArray

open Lue.DataModel Lue.LueIO Lue.Index

/-- The extents of an array fit in a signed 64 bit integer, and there is at least one dimension. -/
structure Ok {α : Type} (d : Dataset α) : Prop where
  ne : d.shape ≠ []
  le : ∀ n ∈ d.shape, n ≤ 9223372036854775808

/-- C42: `array[key]` contains the selected elements, in row-major order. -/
theorem getItem_correct {α : Type} (wild : Dataset α → Hyperslab → List α → M (List α)) (garbage : Nat → α)
    {d : Dataset α} (ok : Ok d) {key : Key} (hf : ∀ i ∈ key.toIndices, i.Forward) (hv : Valid d.shape key.toIndices) :
    getItem wild garbage d key
      = .ok ⟨selectedShape d.shape key.toIndices, (selected d.shape key.toIndices).map d.data⟩ := by
  obtain ⟨e, he⟩ := select_ok ok.ne ok.le hf hv
  unfold getItem
  rw [he, M.bind_ok]
  unfold readArray
  simp only [slab_not_wrapped hf hv, Bool.false_eq_true, if_false]
  rw [readHyperslab_ok (slab_valid hf hv) (by
    rw [slab_count hf hv, uninitialised]; simp [nrElements_selectedShape hf hv]), M.bind_ok]
  congr 2
  refine List.ext_getElem? fun k => ?_
  rw [slab_count hf hv]
  by_cases hk : k < (selected d.shape key.toIndices).length
  · rw [List.getElem?_map, List.getElem?_range hk, List.getElem?_map, slab_coord hf hv hk]; rfl
  · rw [List.getElem?_eq_none (by simp; omega), List.getElem?_eq_none (by simp; omega)]

/-- C42: an exception is thrown when an index is out of range, when there are too many, and when a step is zero. -/
theorem getItem_invalid {α : Type} (wild : Dataset α → Hyperslab → List α → M (List α)) (garbage : Nat → α)
    {d : Dataset α} (ok : Ok d) {key : Key} (hf : ∀ i ∈ key.toIndices, i.Forward) (hv : ¬ Valid d.shape key.toIndices) :
    getItem wild garbage d key = .error .thrown := by
  unfold getItem
  rw [select_error ok.ne ok.le hf hv]; rfl

/-- The number of elements in the result corresponds with its shape. -/
theorem getItem_shape {shape : List Nat} {indices : List PyIndex} (hf : ∀ i ∈ indices, i.Forward)
    (hv : Valid shape indices) : nrElements (selectedShape shape indices) = (selected shape indices).length :=
  nrElements_selectedShape hf hv

/-- All selected elements are within the extent of the array, and no element is selected twice. -/
theorem selected_inExtent {shape : List Nat} {indices : List PyIndex} (hf : ∀ i ∈ indices, i.Forward)
    (hv : Valid shape indices) : (selected shape indices).Nodup ∧
      ∀ c ∈ selected shape indices, c.length = shape.length ∧ ∀ d < shape.length, c.getD d 0 < shape.getD d 0 := by
  refine ⟨selected_nodup _ _, ?_⟩
  have key : ∀ (l : List (Nat × PyIndex)), (∀ x ∈ l, x.2.Valid x.1) → ∀ c ∈ combinations (l.map fun x => picked x.1 x.2),
      c.length = l.length ∧ ∀ d < l.length, c.getD d 0 < (l.map (·.1)).getD d 0 := by
    intro l
    induction l with
    | nil => intro _ c hc; simp [combinations] at hc; simp [hc]
    | cons x l ih =>
      intro h c hc
      rw [List.map_cons, combinations, List.mem_flatMap] at hc
      obtain ⟨i, hi, hc⟩ := hc
      obtain ⟨c', hc', rfl⟩ := List.mem_map.mp hc
      obtain ⟨h1, h2⟩ := ih (fun y hy => h y (List.mem_cons_of_mem _ hy)) c' hc'
      refine ⟨by simp [h1], fun d hd => ?_⟩
      cases d with
      | zero =>
        simp only [List.getD_cons_zero, List.map_cons]
        have hx := h x List.mem_cons_self
        obtain ⟨n, ix⟩ := x
        cases ix with
        | int j =>
          have hj : -(n : Int) ≤ j ∧ j < n := hx
          simp only [picked, List.mem_singleton] at hi
          subst hi
          simp only
          split <;> omega
        | slice s =>
          simp only [picked, List.mem_filter, List.mem_range] at hi
          exact hi.1
        | other => exact hx.elim
      | succ d =>
        simp only [List.getD_cons_succ, List.map_cons]
        exact h2 d (by simpa using hd)
  intro c hc
  unfold selected at hc
  rw [map_zip_picked] at hc
  have hl := complete_length hv.1
  obtain ⟨h1, h2⟩ := key _ (fun x hx => (complete_valid hf hv x hx).1) c hc
  have hz : (shape.zip (complete shape indices)).length = shape.length := by rw [List.length_zip]; omega
  rw [hz] at h1 h2
  refine ⟨h1, ?_⟩
  rwa [List.map_fst_zip (by omega)] at h2

/-! ### Assigning arrays -/

theorem mapM_error {α β : Type} {f : α → M β} {e : Err} : ∀ {l : List α}, (∀ x ∈ l, (∃ y, f x = .ok y) ∨ f x = .error e) →
    (∃ x ∈ l, f x = .error e) → l.mapM f = .error e
  | [], _, h => by obtain ⟨_, h, _⟩ := h; cases h
  | a :: l, h1, h2 => by
    rw [List.mapM_cons]
    rcases h1 a (by simp) with ⟨y, hy⟩ | he
    · rw [hy, M.bind_ok]
      obtain ⟨x, hx, hxe⟩ := h2
      rcases List.mem_cons.mp hx with rfl | hx
      · rw [hy] at hxe; cases hxe
      · rw [mapM_error (fun x hx => h1 x (by simp [hx])) ⟨x, hx, hxe⟩]; rfl
    · rw [he]; rfl

theorem writeHyperslab_short {α : Type} {d : Dataset α} {h : Hyperslab} (hv : selectionValid h d.shape = true)
    {buffer : List α} (hb : buffer.length < nrElements h.count) : writeHyperslab d h buffer = .error .outOfBounds := by
  unfold writeHyperslab
  rw [if_pos hv]
  change (List.mapM _ _ >>= _) = _
  rw [mapM_error (e := .outOfBounds) ?_ ⟨buffer.length, by simpa using hb, by simp [rd]; rfl⟩]
  · rfl
  · intro k _
    by_cases hk : k < buffer.length
    · left; exact ⟨_, by rw [rd_ok (x := buffer[k]) (by simp [hk])]; rfl⟩
    · right; rw [rd, List.getElem?_eq_none (by omega)]; rfl

theorem writeHyperslab_take {α : Type} {d : Dataset α} {h : Hyperslab} {buffer : List α}
    (hb : nrElements h.count ≤ buffer.length) :
    writeHyperslab d h buffer = writeHyperslab d h (buffer.take (nrElements h.count)) := by
  unfold writeHyperslab
  have : (List.range (nrElements h.count)).mapM (fun n => do
        let x ← rd buffer n
        (Except.ok (h.coord n, x) : M (List Nat × α)))
      = (List.range (nrElements h.count)).mapM (fun n => do
        let x ← rd (buffer.take (nrElements h.count)) n
        (Except.ok (h.coord n, x) : M (List Nat × α))) := by
    cases hbuf : buffer with
    | nil =>
      rw [hbuf] at hb
      rw [show nrElements h.count = 0 by simpa using hb]; rfl
    | cons a l =>
      rw [← hbuf]
      rw [Focal.mapM_ok (g := fun n => (h.coord n, buffer.getD n a)) fun k hk => ?_,
        Focal.mapM_ok (g := fun n => (h.coord n, buffer.getD n a)) fun k hk => ?_]
      · simp only [List.mem_range] at hk
        rw [rd_ok (x := buffer.getD k a) (by
          rw [List.getElem?_take_of_lt hk]; simp [show k < buffer.length by omega])]; rfl
      · simp only [List.mem_range] at hk
        rw [rd_ok (x := buffer.getD k a) (by simp [show k < buffer.length by omega])]; rfl
  split
  · change (List.mapM _ _ >>= _) = (List.mapM _ _ >>= _)
    rw [this]
  · rfl

/-- A NumPy array has as many elements as its shape tells. -/
def NdArray.Ok {α : Type} (a : NdArray α) : Prop := a.data.length = nrElements a.shape

/-- C42: `array[key] = values`, when the number of values equals the number of selected elements: the selected elements are
replaced by the values, in row-major order. -/
theorem setItemArray_correct {α : Type} (wild : Dataset α → Hyperslab → List α → M (Dataset α)) {d : Dataset α}
    (ok : Ok d) {key : Key} (hf : ∀ i ∈ key.toIndices, i.Forward) (hv : Valid d.shape key.toIndices)
    {values : NdArray α} (hok : values.Ok) (hl : values.data.length = (selected d.shape key.toIndices).length) :
    ∃ d', setItemArray wild d key values = .ok d' ∧ Assigned d d' (selected d.shape key.toIndices) values.data := by
  obtain ⟨e, he⟩ := select_ok ok.ne ok.le hf hv
  obtain ⟨d', h1, h2⟩ := write_slab hf hv hl
  refine ⟨d', ?_, h2⟩
  unfold setItemArray
  have hw : ∀ n, n = (selected d.shape key.toIndices).length →
      writeArray wild d n (slab d.shape key.toIndices) values.data = .ok d' := by
    intro n hn
    unfold writeArray
    simp only [slab_not_wrapped hf hv, Bool.false_eq_true, if_false]
    rw [if_neg (by rw [slab_count hf hv, hn]; simp), h1]
  split
  · rw [he, M.bind_ok]; exact hw _ (slab_count hf hv)
  · rw [he, M.bind_ok]; exact hw _ (by rw [← hok, hl])

/-- C42: what has been assigned is read back. -/
theorem getItem_setItem {α : Type} (wild : Dataset α → Hyperslab → List α → M (Dataset α))
    (wild' : Dataset α → Hyperslab → List α → M (List α)) (garbage : Nat → α) {d : Dataset α}
    (ok : Ok d) {key : Key} (hf : ∀ i ∈ key.toIndices, i.Forward) (hv : Valid d.shape key.toIndices)
    {values : NdArray α} (hok : values.Ok) (hs : values.shape = selectedShape d.shape key.toIndices) :
    ∃ d', setItemArray wild d key values = .ok d' ∧ getItem wild' garbage d' key = .ok values := by
  have hl : values.data.length = (selected d.shape key.toIndices).length := by
    rw [hok, hs, nrElements_selectedShape hf hv]
  obtain ⟨d', h1, h2⟩ := setItemArray_correct wild ok hf hv hok hl
  refine ⟨d', h1, ?_⟩
  rw [getItem_correct wild' garbage ⟨h2.shape_eq ▸ ok.ne, h2.shape_eq ▸ ok.le⟩ hf (h2.shape_eq ▸ hv), h2.shape_eq]
  obtain ⟨shape, data⟩ := values
  simp only at hs hl
  congr 2
  · exact hs.symm
  · refine List.ext_getElem? fun k => ?_
    by_cases hk : k < (selected d.shape key.toIndices).length
    · rw [h2.value_eq k hk]; simp [hk]
    · rw [List.getElem?_eq_none (by simp; omega), List.getElem?_eq_none (by omega)]

/-- C42: an exception is thrown if the indices aren't valid. Nothing is written. -/
theorem setItemArray_invalid {α : Type} (wild : Dataset α → Hyperslab → List α → M (Dataset α)) {d : Dataset α}
    (ok : Ok d) {key : Key} (hf : ∀ i ∈ key.toIndices, i.Forward) (hv : ¬ Valid d.shape key.toIndices)
    (values : NdArray α) : setItemArray wild d key values = .error .thrown := by
  have he := select_error ok.ne ok.le hf hv
  unfold setItemArray
  split <;> (rw [he]; rfl)

/-- C42: an exception is thrown if the number of values is not the number of elements selected by a slice, or by a sequence
of indices. -/
theorem setItemArray_wrong_number {α : Type} (wild : Dataset α → Hyperslab → List α → M (Dataset α)) {d : Dataset α}
    (ok : Ok d) {key : Key} (hf : ∀ i ∈ key.toIndices, i.Forward) (hv : Valid d.shape key.toIndices)
    (hk : ∀ i, key ≠ .int i) {values : NdArray α} (hok : values.Ok)
    (hl : values.data.length ≠ (selected d.shape key.toIndices).length) :
    setItemArray wild d key values = .error .thrown := by
  obtain ⟨e, he⟩ := select_ok ok.ne ok.le hf hv
  unfold setItemArray
  split
  · exact absurd rfl (hk _)
  · rw [he, M.bind_ok]
    unfold writeArray
    simp only [slab_not_wrapped hf hv, Bool.false_eq_true, if_false]
    rw [if_pos (by rw [slab_count hf hv, ← hok]; exact hl)]

/-- Finding: with an integer as key the number of values isn't checked. With too few values, elements past the end of the
values are read. -/
theorem setItemArray_int_too_few {α : Type} (wild : Dataset α → Hyperslab → List α → M (Dataset α)) {d : Dataset α}
    (ok : Ok d) {i : Int} (hf : (PyIndex.int i).Forward) (hv : Valid d.shape [.int i]) {values : NdArray α}
    (hl : values.data.length < (selected d.shape [.int i]).length) :
    setItemArray wild d (.int i) values = .error .outOfBounds := by
  have hf' : ∀ x ∈ Key.toIndices (.int i), x.Forward := by simpa [Key.toIndices] using hf
  obtain ⟨e, he⟩ := select_ok (key := .int i) ok.ne ok.le hf' hv
  unfold setItemArray
  simp only
  rw [he, M.bind_ok]
  unfold writeArray
  simp only [slab_not_wrapped hf' hv, Bool.false_eq_true, if_false, ne_eq, not_true_eq_false]
  exact writeHyperslab_short (slab_valid hf' hv) (by rw [slab_count hf' hv]; exact hl)

/-- With an integer as key, superfluous values are ignored. -/
theorem setItemArray_int_too_many {α : Type} (wild : Dataset α → Hyperslab → List α → M (Dataset α)) {d : Dataset α}
    (ok : Ok d) {i : Int} (hf : (PyIndex.int i).Forward) (hv : Valid d.shape [.int i]) {values : NdArray α}
    (hl : (selected d.shape [.int i]).length ≤ values.data.length) :
    ∃ d', setItemArray wild d (.int i) values = .ok d' ∧
      Assigned d d' (selected d.shape [.int i]) (values.data.take (selected d.shape [.int i]).length) := by
  have hf' : ∀ x ∈ [PyIndex.int i], x.Forward := by simpa using hf
  obtain ⟨e, he⟩ := select_ok (key := .int i) ok.ne ok.le hf' hv
  obtain ⟨d', h1, h2⟩ := write_slab (values := values.data.take (selected d.shape [.int i]).length) hf' hv
    (by rw [List.length_take]; omega)
  refine ⟨d', ?_, h2⟩
  unfold setItemArray
  simp only
  rw [he, M.bind_ok]
  unfold writeArray
  simp only [Key.toIndices, slab_not_wrapped hf' hv, Bool.false_eq_true, if_false, ne_eq, not_true_eq_false]
  rw [writeHyperslab_take (by rw [slab_count hf' hv]; exact hl), slab_count hf' hv, h1]

/-! ### Assigning numbers -/

theorem foldl_mul (l : List Nat) (r : Nat) : l.foldl (· * ·) r = r * nrElements l := by
  induction l generalizing r with
  | nil => simp [nrElements]
  | cons a l ih => rw [List.foldl_cons, ih, nrElements_cons, Nat.mul_assoc]

theorem hyperslabNrElements_eq {h : Hyperslab} (h1 : h.stride.length = h.start.length)
    (h2 : h.count.length = h.start.length) :
    hyperslabNrElements h = if hyperslabEmpty h then 0 else nrElements (List.zipWith (· * ·) h.stride h.count) := by
  unfold hyperslabNrElements
  split
  · rfl
  · have hm : (List.range h.start.length).map (fun i => h.stride.getD i 0 * h.count.getD i 0)
        = List.zipWith (· * ·) h.stride h.count := by
      refine List.ext_getElem? fun k => ?_
      by_cases hk : k < h.start.length
      · rw [List.getElem?_map, List.getElem?_range hk, List.getElem?_zipWith,
          List.getElem?_eq_getElem (by omega), List.getElem?_eq_getElem (by omega)]
        simp [List.getD_eq_getElem?_getD, show k < h.stride.length by omega, show k < h.count.length by omega]
      · rw [List.getElem?_eq_none (by simp; omega), List.getElem?_eq_none (by simp; omega)]
    rw [← hm, ← Nat.one_mul (nrElements _), ← foldl_mul, List.foldl_map]

/-- The distance between positions picked in the first dimension, by a key which is an integer or a slice -/
def Key.by : Key → Nat
  | .slice s => s.by
  | _ => 1

/-- Whether a key is an integer or a slice -/
def Key.Single (key : Key) : Prop := (∃ i, key = .int i) ∨ ∃ s, key = .slice s

theorem slab_nrElements {shape : List Nat} (hne : shape ≠ []) {key : Key} (hk : key.Single)
    (hf : ∀ i ∈ key.toIndices, i.Forward) (hv : Valid shape key.toIndices) :
    hyperslabNrElements (slab shape key.toIndices) = key.by * (selected shape key.toIndices).length := by
  have hl := dims_length hv.1
  rw [hyperslabNrElements_eq (by simp [slab]) (by simp [slab])]
  have hlen : 0 < shape.length := by
    cases shape with
    | nil => exact absurd rfl hne
    | cons a l => simp
  have hstr : (slab shape key.toIndices).stride.any (· == 0) = false := by
    rw [List.any_eq_false]
    intro x hx
    obtain ⟨y, hy, rfl⟩ := List.mem_map.mp hx
    obtain ⟨d, hd⟩ := List.mem_iff_getElem?.mp hy
    obtain ⟨h, _⟩ := List.getElem?_eq_some_iff.mp hd
    rw [hl] at h
    obtain ⟨z, h1, h2, _, _⟩ := dims_props hf hv h
    rw [h1] at hd
    cases hd
    simp; omega
  have hemp : hyperslabEmpty (slab shape key.toIndices) = (slab shape key.toIndices).count.any (· == 0) := by
    unfold hyperslabEmpty
    rw [hstr, show (slab shape key.toIndices).start.length = shape.length by simp [slab, hl]]
    have : (shape.length == 0) = false := by rw [beq_eq_false_iff_ne]; omega
    rw [this]
    simp
  rw [hemp]
  by_cases h0 : (slab shape key.toIndices).count.any (· == 0) = true
  · rw [if_pos h0]
    rw [← nrElements_zero_iff, slab_count hf hv] at h0
    rw [h0, Nat.mul_zero]
  · rw [if_neg h0, ← slab_count hf hv]
    cases shape with
    | nil => exact absurd rfl hne
    | cons n shape =>
      have hone : ∀ ix : PyIndex, List.zipWith (· * ·) ((dims (n :: shape) [ix]).map (·.2.1)) ((dims (n :: shape) [ix]).map (·.2.2))
          = ((dimOf n ix).2.1 * (dimOf n ix).2.2) :: shape := by
        intro ix
        rw [dims_eq (by simp)]
        simp only [List.length_singleton, List.take_succ_cons, List.take_zero, List.drop_succ_cons, List.drop_zero,
          List.zipWith_cons_cons, List.zipWith_nil_left, List.singleton_append, List.map_cons, List.map_map,
          Function.comp_def]
        congr 1
        rw [List.map_const', List.map_id', zipWith_ones]
      have hcnt : ∀ ix : PyIndex, (dims (n :: shape) [ix]).map (·.2.2) = (dimOf n ix).2.2 :: shape := by
        intro ix
        rw [dims_eq (by simp)]
        simp [Function.comp_def]
      unfold slab
      rcases hk with ⟨i, rfl⟩ | ⟨s, rfl⟩
      · simp only [Key.toIndices, Key.by]
        rw [hone, hcnt, nrElements_cons, nrElements_cons]
        simp [dimOf]
      · simp only [Key.toIndices, Key.by]
        rw [hone, hcnt, nrElements_cons, nrElements_cons]
        simp [dimOf, Nat.mul_assoc]

theorem setItemNumber_eq {α : Type} (wild : Dataset α → Hyperslab → List α → M (Dataset α)) {d : Dataset α}
    (ok : Ok d) {key : Key} (hk : key.Single) (hf : ∀ i ∈ key.toIndices, i.Forward) (hv : Valid d.shape key.toIndices)
    (x : α) : setItemNumber wild d key x = fillArray wild d (slab d.shape key.toIndices) x := by
  obtain ⟨e, he⟩ := select_ok ok.ne ok.le hf hv
  unfold setItemNumber
  rcases hk with ⟨i, rfl⟩ | ⟨s, rfl⟩ <;> (simp only; rw [he]; rfl)

/-- C42: `array[key] = x`, when the key is an integer or a slice without a step: all selected elements get the value, other
elements keep their values. -/
theorem setItemNumber_correct {α : Type} (wild : Dataset α → Hyperslab → List α → M (Dataset α)) {d : Dataset α}
    (ok : Ok d) {key : Key} (hk : key.Single) (hf : ∀ i ∈ key.toIndices, i.Forward) (hv : Valid d.shape key.toIndices)
    (hone : key.by = 1 ∨ selected d.shape key.toIndices = []) (x : α) :
    ∃ d', setItemNumber wild d key x = .ok d' ∧
      Assigned d d' (selected d.shape key.toIndices) (List.replicate (selected d.shape key.toIndices).length x) := by
  have hn : hyperslabNrElements (slab d.shape key.toIndices) = (selected d.shape key.toIndices).length := by
    rw [slab_nrElements ok.ne hk hf hv]
    rcases hone with h | h
    · rw [h, Nat.one_mul]
    · simp [h]
  obtain ⟨d', h1, h2⟩ := write_slab (values := List.replicate (selected d.shape key.toIndices).length x) hf hv (by simp)
  refine ⟨d', ?_, h2⟩
  rw [setItemNumber_eq wild ok hk hf hv]
  unfold fillArray writeArray
  simp only [hn, slab_not_wrapped hf hv, Bool.false_eq_true, if_false]
  rw [if_neg (by rw [slab_count hf hv]; simp), h1]

/-- Finding: a number can't be assigned to elements selected by a slice with a step. -/
theorem setItemNumber_step_throws {α : Type} (wild : Dataset α → Hyperslab → List α → M (Dataset α)) {d : Dataset α}
    (ok : Ok d) {s : Slice} (hf : (PyIndex.slice s).Forward) (hs : 2 ≤ s.by)
    (hne : selected d.shape [.slice s] ≠ []) (x : α) : setItemNumber wild d (.slice s) x = .error .thrown := by
  have hf' : ∀ i ∈ Key.toIndices (.slice s), i.Forward := by simpa [Key.toIndices] using hf
  have hlen : 0 < d.shape.length := List.length_pos_iff.mpr ok.ne
  have hv : Valid d.shape (Key.toIndices (.slice s)) := by
    refine ⟨by simp [Key.toIndices]; omega, ?_⟩
    intro k hk
    simp only [Key.toIndices, List.length_singleton, Nat.lt_one_iff] at hk
    subst hk
    show s.step.getD 1 ≠ 0
    unfold Slice.by at hs
    omega
  have hn := slab_nrElements ok.ne (key := .slice s) (.inr ⟨s, rfl⟩) hf' hv
  have hpos : 0 < (selected d.shape (Key.toIndices (.slice s))).length := List.length_pos_iff.mpr hne
  rw [setItemNumber_eq wild ok (.inr ⟨s, rfl⟩) hf' hv]
  unfold fillArray writeArray
  simp only [hn, slab_not_wrapped hf' hv, Bool.false_eq_true, if_false]
  rw [if_pos]
  rw [slab_count hf' hv]
  have : 2 * (selected d.shape (Key.toIndices (.slice s))).length
      ≤ s.by * (selected d.shape (Key.toIndices (.slice s))).length := Nat.mul_le_mul_right _ hs
  show s.by * _ ≠ _
  omega

/-- Slices with a negative step and no limits, as in `a[::-1]`: pybind11 determines that positions `n - 1`, `n - 1 - k`, ...
are selected, until the start of the array. See `select_negative` for what happens next. -/
theorem sliceCompute_reversed (n k : Nat) (hk : 0 < k) :
    ∃ count, sliceCompute ⟨none, none, some (-(k : Int))⟩ n = .ok ((n : Int) - 1, -(k : Int), count) ∧
      ∀ i, i < count ↔ i * k < n := by
  unfold sliceCompute
  simp only [Option.getD_some, sliceStart, sliceStop]
  rw [if_neg (by omega)]
  have hneg : -(k : Int) < 0 := by omega
  simp only [if_pos hneg, Int.neg_neg]
  refine ⟨_, rfl, fun i => ?_⟩
  by_cases hn : n = 0
  · subst hn; simp
  have e : (n : Int) - 1 - -1 - 1 = ((n - 1 : Nat) : Int) := by omega
  rw [if_pos (by omega), e]
  have e2 : (((n - 1 : Nat) : Int) / (k : Int) + 1).toNat = (n - 1) / k + 1 := by
    have h : ((n - 1 : Nat) : Int) / (k : Int) = (((n - 1) / k : Nat) : Int) := (Int.natCast_ediv _ _).symm
    rw [h]; generalize (n - 1) / k = q; omega
  rw [e2, Nat.lt_succ_iff, Nat.le_div_iff_mul_le hk]
  omega

/-- Finding: HDF5 is asked for a stride of 2^64 - `-step` for slices with a negative step. -/
theorem select_negative {shape : List Nat} {n : Nat} {s : Slice} (h : s.step.getD 1 < 0)
    (hmin : -9223372036854775808 ≤ s.step.getD 1) {sel : Selection} (hsel : select (n :: shape) (.slice s) = .ok sel) :
    wrapped sel.hyperslab = true := by
  change updateBySlice 0 s (n :: shape) (selectAll (n :: shape)) = _ at hsel
  unfold updateBySlice at hsel
  rw [rd_ok (x := n) (by simp), M.bind_ok] at hsel
  obtain ⟨start, count, hc⟩ : ∃ start count, sliceCompute s n = .ok (start, s.step.getD 1, count) := by
    unfold sliceCompute
    simp only
    rw [if_neg (by omega)]
    exact ⟨_, _, rfl⟩
  rw [hc, M.bind_ok] at hsel
  simp only [selectAll, Hyperslab.ofShape, setDimension, List.length_cons, List.replicate_succ] at hsel
  simp only [wr, List.length_cons, Nat.zero_lt_succ, if_true, List.set_cons_zero, Nat.sub_zero] at hsel
  cases hsel
  have : 9223372036854775808 ≤ toSize (s.step.getD 1) := by
    unfold toSize
    rw [show s.step.getD 1 % 18446744073709551616 = s.step.getD 1 + 18446744073709551616 by
      rw [← Int.add_emod_right, Int.emod_eq_of_lt (by omega) (by omega)]]
    omega
  simp [wrapped, this]

/-! ### Strings -/

/-- Strings without null characters, as stored in HDF5 -/
def CStrings (strings : List (List Nat)) : Prop := ∀ s ∈ strings, ∀ c ∈ s, c ≠ 0

theorem length_le_strlen (s : List Nat) : s.length ≤ strlen s := by
  unfold strlen
  induction s with
  | nil => simp
  | cons a s ih =>
    have : 1 ≤ utf8Size a := by unfold utf8Size; split <;> (try split) <;> (try split) <;> omega
    simp only [List.map_cons, List.sum_cons, List.length_cons]; omega

theorem le_foldl_max (l : List Nat) (r : Nat) : r ≤ l.foldl max r ∧ ∀ x ∈ l, x ≤ l.foldl max r := by
  induction l generalizing r with
  | nil => simp
  | cons a l ih =>
    obtain ⟨h1, h2⟩ := ih (max r a)
    rw [List.foldl_cons]
    refine ⟨by omega, fun x hx => ?_⟩
    rcases List.mem_cons.mp hx with rfl | hx
    · omega
    · exact h2 x hx

/-- The strings, each in its own slot of `n` code points -/
def slots (n : Nat) (strings : List (List Nat)) : List Nat :=
  strings.flatMap fun s => s ++ List.replicate (n - s.length) 0

theorem slots_length {n : Nat} : ∀ {strings : List (List Nat)}, (∀ s ∈ strings, s.length ≤ n) →
    (slots n strings).length = strings.length * n
  | [], _ => by simp [slots]
  | s :: strings, h => by
    have := slots_length (strings := strings) fun x hx => h x (by simp [hx])
    have hs := h s (by simp)
    unfold slots at this ⊢
    rw [List.flatMap_cons, List.length_append, this, List.length_append, List.length_replicate, List.length_cons,
      Nat.add_mul]
    omega

/-- The buffer contains the strings in slots which are four times as large as an element of the array. -/
theorem stringBuffer_eq (strings : List (List Nat)) :
    ∃ n, (∀ s ∈ strings, s.length ≤ n) ∧ stringBuffer strings = .ok (n, slots (n * 4) strings) := by
  let n := (strings.map strlen).foldl max 0
  have hn : ∀ s ∈ strings, s.length ≤ n := fun s hs =>
    (length_le_strlen s).trans ((le_foldl_max _ 0).2 _ (List.mem_map.mpr ⟨s, hs, rfl⟩))
  refine ⟨n, hn, ?_⟩
  have hn4 : ∀ s ∈ strings, s.length ≤ n * 4 := fun s hs => (hn s hs).trans (by omega)
  obtain ⟨st, h1, h2⟩ := forLoop_inv (n := strings.length)
    (fun i (st : List Nat × Nat) =>
      st = (slots (n * 4) (strings.take i) ++ List.replicate ((strings.length - i) * (n * 4)) 0, i * (n * 4)))
    (body := fun i (s : List Nat × Nat) => do
      let string ← rd strings i
      if string.length ≤ n * 4 then
        let buffer ← wrRange s.1 s.2 string
        .ok (buffer, s.2 + n * 4)
      else .error .thrown) (by
      rintro i hi st rfl
      refine ⟨_, ?_, rfl⟩
      have hs := hn4 _ (List.getElem_mem hi)
      have hl : (slots (n * 4) (strings.take i)).length = i * (n * 4) := by
        rw [slots_length fun s hs => hn4 s (List.mem_of_mem_take hs), List.length_take, Nat.min_eq_left (by omega)]
      rw [rd_ok (x := strings[i]) (by simp [hi]), M.bind_ok, if_pos hs]
      have hsplit : (strings.length - i) * (n * 4) = n * 4 + (strings.length - (i + 1)) * (n * 4) := by
        rw [show strings.length - i = (strings.length - (i + 1)) + 1 by omega, Nat.add_mul]; omega
      unfold wrRange
      rw [if_pos (by simp only [List.length_append, hl, List.length_replicate]; omega), M.bind_ok]
      simp only
      rw [← hl, List.take_left, List.drop_append, List.drop_eq_nil_of_le (Nat.le_add_right _ _), List.nil_append,
        Nat.add_sub_cancel_left, hl, hsplit, List.drop_replicate]
      congr 2
      · rw [List.take_succ_eq_append_getElem hi]
        rw [show slots (n * 4) (strings.take i ++ [strings[i]]) = slots (n * 4) (strings.take i)
          ++ (strings[i] ++ List.replicate (n * 4 - strings[i].length) 0) by
            unfold slots; rw [List.flatMap_append, List.flatMap_cons, List.flatMap_nil, List.append_nil]]
        rw [List.append_assoc, List.append_assoc, List.append_assoc, List.replicate_append_replicate]
        congr 4
        omega
      · rw [Nat.add_mul]; omega) (List.replicate (strings.length * (n * 4)) 0, 0) (by simp [slots])
  subst h2
  unfold stringBuffer
  simp only
  rw [show (strings.map strlen).foldl max 0 = n from rfl]
  rw [h1, M.bind_ok]
  simp [n]

theorem slots_getElem? {m : Nat} (hm : 0 < m) {strings : List (List Nat)} (h : ∀ s ∈ strings, s.length ≤ m) (k : Nat) :
    (slots m strings)[k]? = strings[k / m]?.bind fun s => (s ++ List.replicate (m - s.length) 0)[k % m]? := by
  unfold slots
  rw [List.flatMap_def, flatten_getElem? hm]
  · rw [List.getElem?_map]
    cases strings[k / m]? <;> rfl
  · intro x hx
    obtain ⟨s, hs, rfl⟩ := List.mem_map.mp hx
    have := h s hs
    simp; omega

theorem trim_append_zeros (s : List Nat) (k : Nat) : trim (s ++ List.replicate k 0) = trim s := by
  unfold trim
  rw [List.reverse_append, List.reverse_replicate]
  congr 1
  induction k with
  | zero => rfl
  | succ k ih => rw [List.replicate_succ, List.cons_append, List.dropWhile_cons_of_pos (by simp), ih]

theorem trim_zeros (k : Nat) : trim (List.replicate k 0) = [] := by
  have := trim_append_zeros [] k
  simpa [trim] using this

theorem trim_of_nonzero {s : List Nat} (h : ∀ c ∈ s, c ≠ 0) : trim s = s := by
  unfold trim
  rw [show s.reverse.dropWhile (· == 0) = s.reverse from ?_, List.reverse_reverse]
  cases hs : s.reverse with
  | nil => rfl
  | cons a l =>
    rw [List.dropWhile_cons_of_neg]
    have : a ∈ s := by rw [← List.mem_reverse, hs]; simp
    simpa using h a this

/-- Finding: element `i` of the NumPy array is string `i / 4` if `i` is a multiple of four, and empty otherwise. -/
theorem getStrings_elements {strings : List (List Nat)} (hc : CStrings strings) :
    ∃ n buffer, stringBuffer strings = .ok (n, buffer) ∧ ∀ i < strings.length,
      numpyString n buffer i = .ok (if i % 4 = 0 then strings.getD (i / 4) [] else []) := by
  obtain ⟨n, hn, hb⟩ := stringBuffer_eq strings
  refine ⟨n, _, hb, ?_⟩
  intro i hi
  have hn4 : ∀ s ∈ strings, s.length ≤ n * 4 := fun s hs => (hn s hs).trans (by omega)
  have hlen := slots_length hn4
  unfold numpyString rdRange
  have hin : i * n + n ≤ (slots (n * 4) strings).length := by
    rw [hlen]
    have : (i + 1) * n ≤ strings.length * n := Nat.mul_le_mul_right _ hi
    rw [Nat.add_mul] at this
    have h4 : strings.length * (n * 4) = strings.length * n * 4 := by rw [Nat.mul_assoc]
    omega
  rw [if_pos hin, M.bind_ok]
  congr 1
  have hi4 : i / 4 < strings.length := by omega
  rcases Nat.eq_zero_or_pos n with h0 | hpos
  · have hemp : strings.getD (i / 4) [] = [] := by
      have := hn _ (List.getElem_mem hi4)
      rw [h0] at this
      simp only [List.getD_eq_getElem?_getD, List.getElem?_eq_getElem hi4, Option.getD_some]
      exact List.eq_nil_of_length_eq_zero (by omega)
    rw [hemp, h0]
    simp [trim]
  · set s := strings[i / 4] with hs
    have hsn : s.length ≤ n := hn _ (List.getElem_mem hi4)
    have hget : ∀ k < n, (slots (n * 4) strings)[i * n + k]?
        = (s ++ List.replicate (n * 4 - s.length) 0)[(i % 4) * n + k]? := by
      intro k hk
      rw [slots_getElem? (by omega) hn4]
      have hdm := Nat.div_add_mod i 4
      have hm := Nat.mod_lt i (show 0 < 4 by omega)
      have heq : i * n + k = (n * 4) * (i / 4) + ((i % 4) * n + k) := by
        conv => lhs; rw [← hdm]
        rw [Nat.add_mul]
        have : 4 * (i / 4) * n = n * 4 * (i / 4) := by rw [Nat.mul_comm n 4, Nat.mul_assoc, Nat.mul_assoc, Nat.mul_comm n]
        omega
      have hlt : (i % 4) * n + k < n * 4 := by
        have : (i % 4) * n ≤ 3 * n := Nat.mul_le_mul_right _ (by omega)
        omega
      rw [heq, Nat.mul_add_div (by omega), Nat.div_eq_of_lt hlt, Nat.add_zero, Nat.mul_add_mod, Nat.mod_eq_of_lt hlt,
        List.getElem?_eq_getElem hi4]
      rfl
    have htake : ((slots (n * 4) strings).drop (i * n)).take n
        = ((s ++ List.replicate (n * 4 - s.length) 0).drop ((i % 4) * n)).take n := by
      refine List.ext_getElem? fun k => ?_
      by_cases hk : k < n
      · rw [List.getElem?_take_of_lt hk, List.getElem?_take_of_lt hk, List.getElem?_drop, List.getElem?_drop, hget k hk]
      · rw [List.getElem?_eq_none (by rw [List.length_take]; omega), List.getElem?_eq_none (by rw [List.length_take]; omega)]
    rw [htake]
    by_cases hm : i % 4 = 0
    · rw [if_pos hm, hm, Nat.zero_mul, List.drop_zero, List.take_append, List.take_of_length_le hsn,
        List.take_replicate, trim_append_zeros, trim_of_nonzero (hc _ (List.getElem_mem hi4))]
      simp [hi4, hs]
    · rw [if_neg hm, List.drop_append, List.drop_eq_nil_of_le, List.nil_append, List.drop_replicate, List.take_replicate,
        trim_zeros]
      have : 1 * n ≤ i % 4 * n := Nat.mul_le_mul_right _ (by omega)
      omega

/-- Finding: strings stored from an array of Unicode strings are all equal to the first one. -/
theorem unicodeStrings_eq {n nrStrings : Nat} {buffer : List Nat} (h : n ≤ buffer.length) :
    unicodeStrings n buffer nrStrings = .ok (List.replicate nrStrings (trim (buffer.take n))) := by
  unfold unicodeStrings
  rw [Focal.mapM_ok (g := fun _ => trim (buffer.take n))]
  · rw [List.map_const', List.length_range]
  · intro x _
    rw [rdRange, if_pos (by omega)]; rfl

/-- Encoded strings are converted correctly: the elements of the NumPy array, which have a fixed length, without the null
characters at their end. -/
theorem encodedStrings_eq {n : Nat} {strings : List (List Nat)} (hc : CStrings strings) (h : ∀ s ∈ strings, s.length ≤ n) :
    encodedStrings n (slots n strings) strings.length = .ok strings := by
  unfold encodedStrings
  rw [Focal.mapM_ok (g := fun i => strings.getD i [])]
  · congr 1
    refine List.ext_getElem? fun k => ?_
    by_cases hk : k < strings.length
    · simp [hk]
    · rw [List.getElem?_eq_none (by simp; omega), List.getElem?_eq_none (by omega)]
  · intro i hi
    simp only [List.mem_range] at hi
    have hl := slots_length h
    unfold rdRange
    rw [if_pos (by
      rw [hl]
      have : (i + 1) * n ≤ strings.length * n := Nat.mul_le_mul_right _ hi
      rw [Nat.add_mul] at this; omega), M.bind_ok]
    congr 1
    have hs := h _ (List.getElem_mem hi)
    have : ((slots n strings).drop (i * n)).take n = strings[i] ++ List.replicate (n - strings[i].length) 0 := by
      refine List.ext_getElem? fun k => ?_
      by_cases hk : k < n
      · rw [List.getElem?_take_of_lt hk, List.getElem?_drop, slots_getElem? (by omega) h, Nat.mul_comm i n,
          Nat.mul_add_div (by omega), Nat.div_eq_of_lt hk, Nat.add_zero, Nat.mul_add_mod, Nat.mod_eq_of_lt hk,
          List.getElem?_eq_getElem hi]
        rfl
      · rw [List.getElem?_eq_none (by rw [List.length_take]; omega), List.getElem?_eq_none (by simp; omega)]
    rw [this, trim_append_zeros, trim_of_nonzero (hc _ (List.getElem_mem hi))]
    simp [hi]

/-- C42: `array[:] = strings`, for encoded strings: the strings are stored. -/
theorem setStrings_encoded {d : Dataset (List Nat)} {n : Nat} {strings : List (List Nat)} (hc : CStrings strings)
    (h : ∀ s ∈ strings, s.length ≤ n) (hs : d.shape = [strings.length]) (hle : strings.length ≤ 9223372036854775808) :
    ∃ d', setStrings false d .all n (slots n strings) = .ok d' ∧ HoldsArray d' [strings.length] strings := by
  have hf : ∀ i ∈ Key.toIndices (.slice .all), i.Forward := by simp [Key.toIndices, PyIndex.Forward, Slice.all]
  have hv : Valid d.shape (Key.toIndices (.slice .all)) := by
    rw [hs]
    refine ⟨by simp [Key.toIndices], ?_⟩
    intro k hk
    simp only [Key.toIndices, List.length_singleton, Nat.lt_one_iff] at hk
    subst hk
    show (none : Option Int).getD 1 ≠ 0
    simp
  obtain ⟨e, he⟩ := select_ok (key := .slice .all) (by rw [hs]; simp) (by rw [hs]; simpa using hle) hf hv
  have hsh : selectedShape d.shape (Key.toIndices (.slice .all)) = [strings.length] := by
    rw [hs]
    have := dimOf_all strings.length
    simp [selectedShape, complete, Key.toIndices, picked, Slice.all, Slice.lower, Slice.upper, Slice.by, Nat.mod_one]
    rw [List.filter_eq_self.mpr]
    · simp
    · simp
  unfold setStrings
  rw [he, M.bind_ok, hsh]
  simp only [Bool.false_eq_true, if_false]
  rw [encodedStrings_eq hc h, M.bind_ok, hs]
  obtain ⟨d', h1, h2, h3, h4, h5⟩ := writeHyperslab_ok (d := d) (h := .ofShape [strings.length])
    (by rw [hs]; exact selectionValid_ofShape _) (buffer := strings) (by simp [Hyperslab.ofShape, nrElements])
    (by intro k hk k' hk' he
        rw [coord_ofShape, coord_ofShape] at he
        exact linear_inj hk hk' he)
  refine ⟨d', h1, by rw [h2, hs], by simp [nrElements], ?_⟩
  intro k hk
  rw [h4 k hk, coord_ofShape]

/-- Finding: assigning to a slice with fewer strings than there are in the array. The array is written as a whole, reading
elements past the end of the buffer with strings. -/
theorem setStrings_slice {d : Dataset (List Nat)} {m n k : Nat} {s : Slice} {buffer : List Nat} {sel : Selection}
    (hs : d.shape = [m]) (hsel : select d.shape (.slice s) = .ok sel) (hk : sel.sliceShape = [k]) (hlt : k < m)
    (hb : k * n ≤ buffer.length) : setStrings false d s n buffer = .error .outOfBounds := by
  unfold setStrings
  rw [hsel, M.bind_ok, hk]
  simp only [Bool.false_eq_true, if_false]
  unfold encodedStrings
  rw [Focal.mapM_ok (g := fun i => trim ((buffer.drop (i * n)).take n)), M.bind_ok]
  · rw [hs]
    refine writeHyperslab_short (by rw [hs]; exact selectionValid_ofShape _) ?_
    simp [Hyperslab.ofShape, nrElements, hlt]
  · intro i hi
    simp only [List.mem_range] at hi
    rw [rdRange, if_pos]; rfl
    have : (i + 1) * n ≤ k * n := Nat.mul_le_mul_right _ hi
    rw [Nat.add_mul] at this; omega

theorem reclaim_short {β : Type} {m : Nat} {values : List β} (h : values.length < m) :
    reclaim m values = .error .outOfBounds := by
  unfold reclaim
  refine forLoop_error (s := ()) h ?_ ?_
  · obtain ⟨s', h1, _⟩ := forLoop_inv (n := values.length) (fun _ (_ : Unit) => True)
      (body := fun i _ => do
        let _ ← rd values i
        (.ok () : M Unit)) (by
        intro i hi s _
        refine ⟨(), ?_, trivial⟩
        rw [rd_ok (x := values[i]) (by simp [hi])]; rfl) () trivial
    exact h1
  · simp [rd]; rfl

/-- Finding: reading a slice with fewer strings than there are in the array: after reading, as many strings are freed as
there are in the array. -/
theorem getStrings_slice (wild : Dataset (List Nat) → Hyperslab → List (List Nat) → M (List (List Nat)))
    {d : Dataset (List Nat)} {m : Nat} (hs : d.shape = [m]) (hm : m ≤ 9223372036854775808) {s : Slice}
    (hf : (PyIndex.slice s).Forward) (hv : (PyIndex.slice s).Valid m) (hlt : (selected d.shape [.slice s]).length < m) :
    getStrings wild d (.slice s) = .error .outOfBounds := by
  have hf' : ∀ i ∈ Key.toIndices (.slice s), i.Forward := by simpa [Key.toIndices] using hf
  have hv' : Valid d.shape (Key.toIndices (.slice s)) := by
    rw [hs]
    refine ⟨by simp [Key.toIndices], ?_⟩
    intro k hk
    simp only [Key.toIndices, List.length_singleton, Nat.lt_one_iff] at hk
    subst hk
    exact hv
  obtain ⟨e, he⟩ := select_ok (key := .slice s) (by rw [hs]; simp) (by rw [hs]; simpa using hm) hf' hv'
  have hsh : selectedShape d.shape (Key.toIndices (.slice s)) = [(selected d.shape [.slice s]).length] := by
    have := nrElements_selectedShape hf' hv'
    rw [hs] at this ⊢
    rw [show selectedShape [m] (Key.toIndices (.slice s)) = [(picked m (.slice s)).length] by
      simp [selectedShape, complete, Key.toIndices]] at this ⊢
    rw [show Key.toIndices (.slice s) = [.slice s] from rfl] at this
    rw [← this]
    simp [nrElements]
  unfold getStrings
  rw [he, M.bind_ok, hsh]
  simp only
  unfold readArray
  simp only [slab_not_wrapped hf' hv', Bool.false_eq_true, if_false]
  rw [readHyperslab_ok (slab_valid hf' hv') (by rw [slab_count hf' hv']; simp [Key.toIndices]), M.bind_ok]
  obtain ⟨n, _, hb⟩ := stringBuffer_eq ((List.range (nrElements (slab d.shape (Key.toIndices (.slice s))).count)).map
    fun n => d.data ((slab d.shape (Key.toIndices (.slice s))).coord n))
  rw [hb, M.bind_ok]
  simp only
  rw [reclaim_short]
  · rfl
  · rw [hs] at hlt ⊢
    rw [List.length_map, List.length_range, ← hs, slab_count hf' hv', hs]
    simpa [nrElements, Key.toIndices] using hlt

/-! ### Examples -/

namespace Example

/-- An array with three rows of four elements -/
def d : Dataset Nat := ⟨⟨[3, 4], fun c => 10 * c.getD 0 0 + c.getD 1 0⟩, 0⟩

theorem ok : Ok d := ⟨by simp [d], by simp [d]⟩

/-- `array[-1, 1::2]` -/
def key : Key := .indices [.int (-1), .slice ⟨some 1, none, some 2⟩]

theorem forward : ∀ i ∈ key.toIndices, i.Forward := by simp [key, Key.toIndices, PyIndex.Forward]

theorem valid : Valid d.shape key.toIndices := by
  refine ⟨by decide, ?_⟩
  intro k hk
  have : k < 2 := hk
  match k, this with
  | 0, _ => simp [key, Key.toIndices, PyIndex.Valid, d]
  | 1, _ => simp [key, Key.toIndices, PyIndex.Valid]

example (wild : Dataset Nat → Hyperslab → List Nat → M (List Nat)) (garbage : Nat → Nat) :
    getItem wild garbage d key = .ok ⟨[2], [21, 23]⟩ := getItem_correct wild garbage ok forward valid

/-- Values can be assigned -/
example (wild : Dataset Nat → Hyperslab → List Nat → M (Dataset Nat))
    (wild' : Dataset Nat → Hyperslab → List Nat → M (List Nat)) (garbage : Nat → Nat) :
    ∃ d', setItemArray wild d key ⟨[2], [5, 6]⟩ = .ok d' ∧ getItem wild' garbage d' key = .ok ⟨[2], [5, 6]⟩ :=
  getItem_setItem wild wild' garbage ok forward valid (by simp [NdArray.Ok, nrElements]) (by decide)

/-- `array[1:] = 7` -/
example (wild : Dataset Nat → Hyperslab → List Nat → M (Dataset Nat)) :
    ∃ d', setItemNumber wild d (.slice ⟨some 1, none, none⟩) 7 = .ok d' ∧
      Assigned d d' [[1, 0], [1, 1], [1, 2], [1, 3], [2, 0], [2, 1], [2, 2], [2, 3]] (List.replicate 8 7) :=
  setItemNumber_correct wild ok (.inr ⟨_, rfl⟩) (by simp [Key.toIndices, PyIndex.Forward])
    ⟨by decide, fun k hk => by
      have : k = 0 := by simpa [Key.toIndices] using hk
      subst this; simp [Key.toIndices, PyIndex.Valid]⟩ (.inl rfl) 7

/-- `array[::2] = 7` -/
example (wild : Dataset Nat → Hyperslab → List Nat → M (Dataset Nat)) :
    setItemNumber wild d (.slice ⟨none, none, some 2⟩) 7 = .error .thrown :=
  setItemNumber_step_throws wild ok (by simp [PyIndex.Forward]) (by decide) (by decide) 7

/-- `array[5]` -/
example (wild : Dataset Nat → Hyperslab → List Nat → M (List Nat)) (garbage : Nat → Nat) :
    getItem wild garbage d (.int 5) = .error .thrown :=
  getItem_invalid wild garbage ok (by simp [Key.toIndices, PyIndex.Forward]) (by
    rintro ⟨_, h⟩
    have := h 0 (by simp [Key.toIndices])
    simp [Key.toIndices, PyIndex.Valid, d] at this)

/-- `array[0] = [1, 2]` -/
example (wild : Dataset Nat → Hyperslab → List Nat → M (Dataset Nat)) :
    setItemArray wild d (.int 0) ⟨[2], [1, 2]⟩ = .error .outOfBounds :=
  setItemArray_int_too_few wild ok (by simp [PyIndex.Forward]) ⟨by decide, fun k hk => by
    have : k = 0 := by simpa using hk
    subst this; simp [PyIndex.Valid, d]⟩ (by decide)

/-- Two strings. The second one becomes empty. -/
def strings : List (List Nat) := [[97, 98], [99]]

example : ∃ n buffer, stringBuffer strings = .ok (n, buffer) ∧ numpyString n buffer 0 = .ok [97, 98] ∧
    numpyString n buffer 1 = .ok [] := by
  obtain ⟨n, b, h1, h2⟩ := getStrings_elements (strings := strings) (by simp [CStrings, strings])
  exact ⟨n, b, h1, h2 0 (by simp [strings]), h2 1 (by simp [strings])⟩

example : ∃ d', setStrings false ⟨⟨[2], fun _ => []⟩, []⟩ .all 2 [97, 98, 99, 0] = .ok d' ∧ HoldsArray d' [2] strings :=
  setStrings_encoded (strings := strings) (n := 2) (by simp [CStrings, strings]) (by simp [strings]) rfl
    (by simp [strings])

end Example

end Lue.PyArray

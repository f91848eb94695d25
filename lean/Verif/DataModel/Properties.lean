import Verif.DataModel.Groups

/-!
# C36: values stored in a LUE dataset
-/
namespace Lue.DataModel

open Lue.Index Lue.LueIO

/-! ### Values with arrays of the same shape -/

namespace SameShape

theorem run_expected {α : Type} {d : Dataset α} {fill : α} {shape : List Nat} {xss : List (List α)}
    (h : Holds d fill shape xss) {o : Op α} (ho : o.Ok (nrElements shape)) :
    Holds (o.run d) fill shape (o.expected fill (nrElements shape) xss) := by
  cases o with
  | expand n => exact holds_expand h n
  | write b arrays =>
    simp only [Op.run, Op.expected]
    by_cases he : b + arrays.length ≤ xss.length
    · obtain ⟨d', h1, h2⟩ := holds_write h he ho
      rw [if_pos he, h1]; exact h2
    · rw [if_neg he]
      by_cases hv : b + arrays.length ≤ b ∨ nrElements shape = 0
      · have hc : nrElements (hyperslab d b (b + arrays.length)).count = 0 := by
          rw [nr_read_count h]; rcases hv with hv | hv
          · rw [show b + arrays.length - b = 0 by omega]; simp
          · rw [hv]; simp
        unfold write writeHyperslab
        rw [if_pos ((selectionValid_iff d h.shape_eq b _).mpr (by rcases hv with hv | hv; exact .inl hv; exact .inr (.inl hv))),
          hc]
        exact h
      · have : ¬ selectionValid (hyperslab d b (b + arrays.length)) d.shape = true := by
          rw [selectionValid_iff d h.shape_eq]; push Not at hv ⊢; exact ⟨hv.1, hv.2, by omega⟩
        unfold write writeHyperslab
        rw [if_neg this]; exact h

/-- After any sequence of operations, a value contains what is expected: arrays which have been added and not written
contain the fill value, arrays which have been written contain what was written last. -/
theorem history {α : Type} (shape : List Nat) (fill : α) (ops : List (Op α)) (hops : ∀ o ∈ ops, o.Ok (nrElements shape)) :
    Holds (ops.foldl Op.run (create shape fill)) fill shape (ops.foldl (Op.expected fill (nrElements shape)) []) := by
  have key : ∀ (ops : List (Op α)) (d : Dataset α) (xss : List (List α)), Holds d fill shape xss →
      (∀ o ∈ ops, o.Ok (nrElements shape)) →
      Holds (ops.foldl Op.run d) fill shape (ops.foldl (Op.expected fill (nrElements shape)) xss) := by
    intro ops
    induction ops with
    | nil => intro d xss h _; exact h
    | cons o ops ih =>
      intro d xss h hok
      exact ih _ _ (run_expected h (hok o (by simp))) fun o' ho' => hok o' (by simp [ho'])
  exact key ops _ [] (create_holds shape fill) hops

/-- What is read, after any sequence of operations, are the arrays expected. The number of arrays and the shape are those
expected. -/
theorem history_read {α : Type} (shape : List Nat) (fill : α) (ops : List (Op α))
    (hops : ∀ o ∈ ops, o.Ok (nrElements shape)) :
    let d := ops.foldl Op.run (create shape fill)
    let xss := ops.foldl (Op.expected fill (nrElements shape)) []
    nrArrays d = xss.length ∧ arrayShape d = shape ∧
    (∀ b e (buffer : List α), e ≤ xss.length → buffer.length = (e - b) * nrElements shape →
      read d b e buffer = .ok ((xss.drop b).take (e - b)).flatten) ∧
    (∀ i (buffer : List α), i < xss.length → buffer.length = nrElements shape → ∃ xs, xss[i]? = some xs ∧
      readAt d i buffer = .ok xs) := by
  have h := history shape fill ops hops
  refine ⟨by simp [nrArrays, h.shape_eq], by simp [arrayShape, h.shape_eq], fun b e buffer he hb => holds_read h he hb,
    fun i buffer hi hb => ?_⟩
  refine ⟨_, List.getElem?_eq_getElem hi, ?_⟩
  have := holds_read h (b := i) (e := i + 1) (by omega) (buffer := buffer) (by rw [hb]; simp)
  unfold read at this
  unfold readAt
  rw [this, Nat.add_sub_cancel_left, List.take_one, List.head?_drop, List.getElem?_eq_getElem hi]
  simp

/-- Reading past the last array, if there is something to read, throws an exception. -/
theorem read_past_end {α : Type} {d : Dataset α} {fill : α} {shape : List Nat} {xss : List (List α)} (h : Holds d fill shape xss)
    {b e : Nat} (hbe : b < e) (hp : 0 < nrElements shape) (he : xss.length < e) (buffer : List α) :
    read d b e buffer = .error .thrown := by
  unfold read readHyperslab
  rw [if_neg]
  rw [selectionValid_iff d h.shape_eq]; omega

/-- Writing past the last array, if there is something to write, throws an exception. -/
theorem write_past_end {α : Type} {d : Dataset α} {fill : α} {shape : List Nat} {xss : List (List α)} (h : Holds d fill shape xss)
    {b e : Nat} (hbe : b < e) (hp : 0 < nrElements shape) (he : xss.length < e) (buffer : List α) :
    write d b e buffer = .error .thrown := by
  unfold write writeHyperslab
  rw [if_neg]
  rw [selectionValid_iff d h.shape_eq]; omega

/-- Writing the array at an index is writing a range of one array. -/
theorem writeAt_eq {α : Type} (d : Dataset α) (i : Nat) (buffer : List α) : writeAt d i buffer = write d i (i + 1) buffer := rfl

/-- An array which is written, is read. -/
theorem writeAt_readAt {α : Type} {d : Dataset α} {fill : α} {shape : List Nat} {xss : List (List α)} (h : Holds d fill shape xss)
    {i : Nat} (hi : i < xss.length) {ys buffer : List α} (hy : ys.length = nrElements shape)
    (hb : buffer.length = nrElements shape) :
    ∃ d', writeAt d i ys = .ok d' ∧ Holds d' fill shape (xss.set i ys) ∧ readAt d' i buffer = .ok ys := by
  obtain ⟨d', h1, h2⟩ := holds_write h (b := i) (yss := [ys]) (by simpa using hi) (by simpa using hy)
  have hs : xss.take i ++ [ys] ++ xss.drop (i + 1) = xss.set i ys := by
    rw [List.set_eq_take_cons_drop _ hi]; simp
  simp only [List.length_singleton, List.flatten_singleton] at h1 h2
  rw [hs] at h2
  refine ⟨d', h1, h2, ?_⟩
  have := holds_read h2 (b := i) (e := i + 1) (by simp; omega) (buffer := buffer) (by rw [hb]; simp)
  unfold read at this
  unfold readAt
  rw [this, Nat.add_sub_cancel_left, List.take_one, List.head?_drop, List.getElem?_set_self hi]
  simp

/-- Three arrays are added, of which two are written, two more are added, and writing past the end is refused. -/
example :
    let ops : List (Op Nat) := [.expand 3, .write 1 [[1, 2], [3, 4]], .expand 2, .write 4 [[5, 6], [7, 8]], .write 4 [[9, 10]]]
    ops.foldl (Op.expected 0 2) [] = [[0, 0], [1, 2], [3, 4], [0, 0], [9, 10]] ∧
    read (ops.foldl Op.run (create [2] 0)) 1 5 [0, 0, 0, 0, 0, 0, 0, 0] = .ok [1, 2, 3, 4, 0, 0, 9, 10] := by
  constructor
  · rfl
  · exact (history_read [2] 0 [.expand 3, .write 1 [[1, 2], [3, 4]], .expand 2, .write 4 [[5, 6], [7, 8]], .write 4 [[9, 10]]]
      (by simp [Op.Ok, nrElements])).2.2.1 1 5 _ (by decide) (by decide)

end SameShape

/-! ### Values with arrays of different shapes -/

/-- An array with a shape -/
def IsArray {α : Type} (fill : α) (d : Dataset α) (a : List Nat × List α) : Prop := HoldsArray d a.1 a.2 ∧ d.fill = fill

/-- Arrays with a shape -/
def AreArrays {α : Type} (fill : α) (d : Dataset α) (a : List Nat × List (List α)) : Prop := Holds d fill a.1 a.2

namespace DifferentShape

theorem zip_map {α β : Type} (items : List (α × β)) : (items.map (·.1)).zip (items.map (·.2)) = items := by
  induction items with
  | nil => rfl
  | cons a l ih => simp [ih]

theorem expand_items {α : Type} (fill : α) (items : List (Nat × List Nat)) :
    List.Forall₂ (fun (c : Nat × Dataset α) (e : Nat × List Nat × List α) => c.1 = e.1 ∧ IsArray fill c.2 e.2)
      (((items.map (·.1)).zip (items.map (·.2))).map fun e => (e.1, createDataset e.2 fill))
      (items.map fun e => (e.1, e.2, List.replicate (nrElements e.2) fill)) := by
  rw [zip_map]
  induction items with
  | nil => exact .nil
  | cons e items ih => exact .cons ⟨rfl, create_holdsArray _ _, rfl⟩ ih

theorem run_expected {α : Type} {fill : α} {s : Handle × Group (Dataset α)} {st : State α}
    (h : Represents (IsArray fill) s.1 s.2 st) {o : Op α} (ho : o.Ok st) :
    Represents (IsArray fill) (o.run fill s).1 (o.run fill s).2 (o.expected fill st) := by
  cases o with
  | expand items => exact (expandGroup_spec h (expand_items fill items)).1
  | write id array =>
    simp only [Op.run, Op.expected, write, openChild]
    cases hi : st.items id with
    | none => rw [(holds_none h.holds).mp hi]; exact h
    | some a =>
      obtain ⟨shape, xs⟩ := a
      obtain ⟨d, h1, h2, h3⟩ := holds_some h.holds hi
      obtain ⟨d', h4, h5, h6⟩ := holdsArray_write h2 (ys := array) (ho shape xs hi)
      rw [h1]
      simp only [M.bind_ok, h4]
      exact represents_set h hi ⟨h5, by rw [h6, h3]⟩

/-- After any sequence of operations, a value contains what is expected. -/
theorem history {α : Type} {fill : α} {st : State α} {s : Handle × Group (Dataset α)} (p : History fill st s) :
    Represents (IsArray fill) s.1 s.2 st := by
  induction p with
  | create => exact represents_create
  | @reopen st s p ih => exact ⟨ih.holds, ih.attr, ih.attr, ih.count⟩
  | @op st s p o ok ih => exact run_expected ih ok

/-- After any sequence of operations, reading the array of an object results in the array written last, or in fill values
if no array was written. Reading an array of an object which does not exist throws an exception. -/
theorem history_read {α : Type} {fill : α} {st : State α} {s : Handle × Group (Dataset α)} (p : History fill st s) (id : Nat) :
    (∀ shape xs, st.items id = some (shape, xs) → ∀ buffer : List α, buffer.length = nrElements shape →
      read s.2 id buffer = .ok xs) ∧
    (st.items id = none → ∀ buffer : List α, read s.2 id buffer = .error .thrown) := by
  have h := history p
  constructor
  · intro shape xs hi buffer hb
    obtain ⟨d, h1, h2, _⟩ := holds_some h.holds hi
    simp only [read, openChild, h1, M.bind_ok]
    exact holdsArray_read h2 hb
  · intro hi buffer
    simp only [read, openChild, (holds_none h.holds).mp hi]
    rfl

/-- After any sequence of operations, the number of objects according to the API and the file is the number of objects
for which arrays are stored, minus the number of those which have been added by calls which threw an exception. -/
theorem history_nr {α : Type} {fill : α} {st : State α} {s : Handle × Group (Dataset α)} (p : History fill st s) :
    s.1.nr = st.nr ∧ s.2.nrAttr = st.nr ∧ CountOk (s.1.nr + st.lost) st.items := by
  have h := history p
  exact ⟨h.handle, h.attr, by rw [h.handle]; exact h.count⟩

/-- Adding objects succeeds if and only if their ids are different, and not in use. Otherwise an exception is thrown. -/
theorem history_expand {α : Type} {fill : α} {st : State α} {s : Handle × Group (Dataset α)} (p : History fill st s)
    (items : List (Nat × List Nat)) :
    ((expand fill s.1 s.2 (items.map (·.1)) (items.map (·.2))).1 = .ok () ↔
      (items.map (·.1)).Nodup ∧ ∀ e ∈ items, st.items e.1 = none) ∧
    ((expand fill s.1 s.2 (items.map (·.1)) (items.map (·.2))).1 = .ok () ∨
      (expand fill s.1 s.2 (items.map (·.1)) (items.map (·.2))).1 = .error .thrown) := by
  obtain ⟨_, h2, h3⟩ := expandGroup_spec (history p) (expand_items fill items)
  refine ⟨?_, h3⟩
  unfold expand
  rw [h2]
  simp only [List.map_map, List.mem_map, Function.comp_def, forall_exists_index, and_imp]
  constructor
  · rintro ⟨h4, h5⟩
    exact ⟨h4, fun e he => h5 _ e he rfl⟩
  · rintro ⟨h4, h5⟩
    exact ⟨h4, fun _ e he heq => by rw [← heq]; exact h5 e he⟩

/-- Adding one object is adding a number of objects. -/
theorem expandOne_eq {α : Type} (fill : α) (h : Handle) (g : Group (Dataset α)) (id : Nat) (shape : List Nat) :
    expandOne fill h g id shape = expand fill h g [id] [shape] := rfl

/-- Writing the array of an object does not change the arrays of other objects. -/
theorem write_other {α : Type} {g g' : Group (Dataset α)} {id id' : Nat} {array : List α} (h : write g id array = .ok g')
    (hne : id' ≠ id) (buffer : List α) : read g' id' buffer = read g id' buffer := by
  have hn : name id' ≠ name id := fun hc => hne (name_inj hc)
  simp only [write] at h
  cases h1 : openChild g id with
  | error e => rw [h1] at h; cases h
  | ok d =>
    rw [h1, M.bind_ok] at h
    cases h2 : writeHyperslab d (.ofShape d.shape) array with
    | error e => rw [h2] at h; cases h
    | ok d' =>
      rw [h2, M.bind_ok] at h
      cases h
      simp [read, openChild, setChild, hn]

theorem flatShapes_ok (rank : Nat) (ids : List Nat) {sizes : List Nat} (hr : 2 ≤ rank) (hs : sizes.length = ids.length * rank) :
    flatShapes rank ids.length sizes =
      .ok ((List.range ids.length).map fun o => [sizes.getD (o * rank) 0, sizes.getD (o * rank + 1) 0]) := by
  unfold flatShapes
  refine Focal.mapM_ok fun o ho => ?_
  simp only [List.mem_range] at ho
  have h1 : o * rank + 1 < sizes.length := by
    rw [hs]
    calc o * rank + 1 < o * rank + rank := by omega
      _ = (o + 1) * rank := by rw [Nat.add_mul, Nat.one_mul]
      _ ≤ _ := Nat.mul_le_mul_right _ ho
  have e1 : sizes[o * rank]? = some (sizes.getD (o * rank) 0) := by
    simp [List.getD_eq_getElem?_getD, show o * rank < sizes.length by omega]
  have e2 : sizes[o * rank + 1]? = some (sizes.getD (o * rank + 1) 0) := by
    simp [List.getD_eq_getElem?_getD, h1]
  rw [rd_ok e1, M.bind_ok, rd_ok e2, M.bind_ok]

theorem getD_flatten2 (l : List (Nat × Nat)) : ∀ o, o < l.length →
    [(l.flatMap fun e => [e.1, e.2]).getD (o * 2) 0, (l.flatMap fun e => [e.1, e.2]).getD (o * 2 + 1) 0] =
      [(l.getD o (0, 0)).1, (l.getD o (0, 0)).2] := by
  induction l with
  | nil => intro o h; simp at h
  | cons a l ih =>
    intro o h
    cases o with
    | zero => simp
    | succ o =>
      have := ih o (by simpa using h)
      simpa [Nat.add_mul, List.getD_eq_getElem?_getD] using this

/-- Passing the sizes of the shapes in one array is the same as passing a collection of shapes, for arrays with rank 2. -/
theorem expandFlat_rank2 {α : Type} (fill : α) (h : Handle) (g : Group (Dataset α)) (ids : List Nat) (shapes : List (Nat × Nat))
    (hl : shapes.length = ids.length) :
    expandFlat fill h g 2 ids (shapes.flatMap fun e => [e.1, e.2]) =
      expand fill h g ids (shapes.map fun e => [e.1, e.2]) := by
  unfold expandFlat
  have hs : (shapes.flatMap fun e => [e.1, e.2]).length = ids.length * 2 := by
    rw [← hl]; clear hl
    induction shapes with
    | nil => rfl
    | cons a l ih => simp [ih]; omega
  rw [flatShapes_ok 2 ids (le_refl _) hs]
  simp only
  congr 1
  refine List.ext_getElem? fun o => ?_
  by_cases ho : o < ids.length
  · rw [← hl] at ho ⊢
    simp only [List.getElem?_map, List.getElem?_range ho, Option.map_some, getD_flatten2 shapes o ho]
    simp [List.getD_eq_getElem?_getD, ho]
  · simp [ho, hl]

/-- Passing the sizes of the shapes in one array, for arrays with a rank larger than 2: arrays with rank 2 are created,
instead of arrays with the shapes passed in. -/
theorem expandFlat_wrong {α : Type} (fill : α) (h : Handle) (g : Group (Dataset α)) (rank : Nat) (hr : 2 < rank)
    (id : Nat) (sizes : List Nat) (hs : sizes.length = rank) (hn : g.child (name id) = none) :
    ∃ d, (expandFlat fill h g rank [id] sizes).1 = .ok () ∧
      (expandFlat fill h g rank [id] sizes).2.2.child (name id) = some d ∧ d.shape.length = 2 ∧ d.shape ≠ sizes := by
  unfold expandFlat
  rw [flatShapes_ok rank [id] (by omega) (by simpa using hs)]
  refine ⟨createDataset [sizes.getD 0 0, sizes.getD 1 0] fill, ?_, ?_, rfl, fun hc => ?_⟩
  · simp [expand, expandGroup, createChildren, createChild, hn, List.range_succ]
  · simp [expand, expandGroup, createChildren, createChild, hn, List.range_succ]
  · have := congrArg List.length hc
    simp [createDataset] at this; omega

/-- Passing the sizes of the shapes in one array, for arrays with rank 1: a size is read past the end of the array of
sizes. -/
theorem expandFlat_rank1 {α : Type} (fill : α) (h : Handle) (g : Group (Dataset α)) (id n : Nat) :
    (expandFlat fill h g 1 [id] [n]).1 = .error .outOfBounds := by
  rfl

end DifferentShape

namespace DifferentShapeConstantShape

theorem expand_items {α : Type} (fill : α) (items : List (Nat × List Nat × Nat)) :
    List.Forall₂ (fun (c : Nat × Dataset α) (e : Nat × List Nat × List (List α)) => c.1 = e.1 ∧ AreArrays fill c.2 e.2)
      (items.map fun e => (e.1, SameShape.expand (SameShape.create e.2.1 fill) e.2.2))
      (items.map fun e => (e.1, e.2.1, List.replicate e.2.2 (List.replicate (nrElements e.2.1) fill))) := by
  induction items with
  | nil => exact .nil
  | cons e items ih =>
    refine .cons ⟨rfl, ?_⟩ ih
    simpa [AreArrays] using holds_expand (create_holds e.2.1 fill) e.2.2

theorem run_item {α : Type} {fill : α} {s : Handle × Group (Dataset α)} {st : State α}
    (h : Represents (AreArrays fill) s.1 s.2 st) {id : Nat} {o : SameShape.Op α}
    (ho : ∀ shape xss, st.items id = some (shape, xss) → o.Ok (nrElements shape))
    {s' : Handle × Group (Dataset α)} (hn : s.2.child (name id) = none → s' = s)
    (hs : ∀ d, s.2.child (name id) = some d → s' = (s.1, setChild s.2 id (o.run d))) :
    Represents (AreArrays fill) s'.1 s'.2 (item fill st id o) := by
  unfold item
  cases hi : st.items id with
  | none => rw [hn ((holds_none h.holds).mp hi)]; exact h
  | some a =>
    obtain ⟨shape, xss⟩ := a
    obtain ⟨d, h1, h2⟩ := holds_some h.holds hi
    rw [hs d h1]
    exact represents_set h hi (SameShape.run_expected h2 (ho shape xss hi))

theorem setChild_same {χ : Type} (g : Group χ) (id : Nat) (c : χ) (h : g.child (name id) = some c) : setChild g id c = g := by
  cases g
  simp only [setChild, Group.mk.injEq, true_and]
  funext n
  split
  · next he => rw [he]; exact h.symm
  · rfl

theorem run_expected {α : Type} {fill : α} {s : Handle × Group (Dataset α)} {st : State α}
    (h : Represents (AreArrays fill) s.1 s.2 st) {o : Op α} (ho : o.Ok st) :
    Represents (AreArrays fill) (o.run fill s).1 (o.run fill s).2 (o.expected fill st) := by
  cases o with
  | expand items => exact (expandGroup_spec h (expand_items fill items)).1
  | expandItem id n =>
    refine run_item (o := .expand n) h (fun _ _ _ => trivial) (fun hn => ?_) (fun d hd => ?_)
    · simp only [Op.run, expandItem, openChild, hn]; rfl
    · simp only [Op.run, expandItem, openChild, hd]; rfl
  | write id b arrays =>
    refine run_item (o := .write b arrays) h (fun shape xss hi => ho shape xss hi) (fun hn => ?_) (fun d hd => ?_)
    · simp only [Op.run, write, openChild, hn]; rfl
    · simp only [Op.run, write, openChild, hd, M.bind_ok, SameShape.Op.run]
      cases SameShape.write d b (b + arrays.length) arrays.flatten with
      | ok d' => rfl
      | error e => rw [setChild_same _ _ _ hd]; rfl

/-- After any sequence of operations, a value contains what is expected. -/
theorem history {α : Type} {fill : α} {st : State α} {s : Handle × Group (Dataset α)} (p : History fill st s) :
    Represents (AreArrays fill) s.1 s.2 st := by
  induction p with
  | create => exact represents_create
  | @reopen st s p ih => exact ⟨ih.holds, ih.attr, ih.attr, ih.count⟩
  | @op st s p o ok ih => exact run_expected ih ok

/-- After any sequence of operations, reading arrays of an object results in the arrays expected. Reading arrays of an
object which does not exist throws an exception. -/
theorem history_read {α : Type} {fill : α} {st : State α} {s : Handle × Group (Dataset α)} (p : History fill st s) (id : Nat) :
    (∀ shape xss, st.items id = some (shape, xss) → ∀ b e (buffer : List α), e ≤ xss.length →
      buffer.length = (e - b) * nrElements shape → read s.2 id b e buffer = .ok ((xss.drop b).take (e - b)).flatten) ∧
    (st.items id = none → ∀ b e (buffer : List α), read s.2 id b e buffer = .error .thrown) := by
  have h := history p
  constructor
  · intro shape xss hi b e buffer he hb
    obtain ⟨d, h1, h2⟩ := holds_some h.holds hi
    simp only [read, openChild, h1, M.bind_ok]
    exact holds_read h2 he hb
  · intro hi b e buffer
    simp only [read, openChild, (holds_none h.holds).mp hi]
    rfl

/-- After any sequence of operations, the number of objects according to the API and the file is the number of objects
for which arrays are stored, minus the number of those which have been added by calls which threw an exception. -/
theorem history_nr {α : Type} {fill : α} {st : State α} {s : Handle × Group (Dataset α)} (p : History fill st s) :
    s.1.nr = st.nr ∧ s.2.nrAttr = st.nr ∧ CountOk (s.1.nr + st.lost) st.items := by
  have h := history p
  exact ⟨h.handle, h.attr, by rw [h.handle]; exact h.count⟩

end DifferentShapeConstantShape

/-! ### The number of items -/

/-- Adding items succeeds: the number of items becomes that of the C++ object, not that in the file, plus the number of
items added. -/
theorem expandGroup_nr {χ : Type} {h : Handle} {g : Group χ} {items : List (Nat × χ)} (hs : (expandGroup h g items).1 = .ok ()) :
    (expandGroup h g items).2.1.nr = h.nr + items.length ∧ (expandGroup h g items).2.2.nrAttr = h.nr + items.length := by
  unfold expandGroup at hs ⊢
  rcases hc : createChildren g items with ⟨_ | _, g'⟩
  · rw [hc] at hs; cases hs
  · exact ⟨rfl, rfl⟩

/-- Two C++ objects representing the same value, used one after the other: the items added with the first one are not
counted. -/
theorem two_handles_lose_count {χ : Type} {g : Group χ} {a b : List (Nat × χ)}
    (ha : (expandGroup (openGroup g) g a).1 = .ok ())
    (hb : (expandGroup (openGroup g) (expandGroup (openGroup g) g a).2.2 b).1 = .ok ()) :
    (expandGroup (openGroup g) (expandGroup (openGroup g) g a).2.2 b).2.2.nrAttr = g.nrAttr + b.length :=
  (expandGroup_nr hb).2

/-- Two C++ objects, each used to add an item: both items are stored, the number of items is one. -/
example :
    let r := expandGroup (openGroup (createGroup (χ := Unit))) createGroup [(1, ())]
    let r' := expandGroup (openGroup (createGroup (χ := Unit))) r.2.2 [(2, ())]
    r.1 = .ok () ∧ r'.1 = .ok () ∧ r'.2.2.nrAttr = 1 ∧ r'.2.2.child (name 1) = some () ∧ r'.2.2.child (name 2) = some () := by
  have n2 : name 2 = ['2'] := by simp [name, Nat.digitChar]
  have n1 : name 1 = ['1'] := by simp [name, Nat.digitChar]
  simp [expandGroup, createChildren, createChild, createGroup, openGroup, n1, n2]

/-- Adding items with ids 5, 6, 5 throws an exception: the first two are stored but not counted. -/
example (st : GState Unit) (h : st = .empty) :
    (st.add [(5, ()), (6, ()), (5, ())]).items 6 = some () ∧ (st.add [(5, ()), (6, ()), (5, ())]).nr = 0 ∧
    (st.add [(5, ()), (6, ()), (5, ())]).lost = 2 := by
  subst h
  decide

/-- A history: two objects are added, one is written, the value is reopened, and another one is added. -/
example : ∃ (st : DifferentShape.State Nat) (s : Handle × Group (Dataset Nat)), DifferentShape.History 0 st s ∧
    st.nr = 3 ∧ st.lost = 0 ∧ st.items 9 = some ([1, 2], [3, 4]) ∧ st.items 2 = some ([2], [0, 0]) ∧
    DifferentShape.read s.2 9 [0, 0] = .ok [3, 4] := by
  have p0 := DifferentShape.History.create (α := Nat) (fill := 0)
  have p1 := DifferentShape.History.op p0 (.expand [(9, [1, 2]), (4, [3])]) trivial
  have ok2 : DifferentShape.Op.Ok ((DifferentShape.Op.expand [(9, [1, 2]), (4, [3])]).expected 0 (GState.empty))
      (.write 9 [3, 4]) := by
    intro shape xs h
    simp [DifferentShape.Op.expected, GState.add, addItems, GState.empty] at h
    rw [← h.1]; rfl
  have p2 := DifferentShape.History.op p1 (.write 9 [3, 4]) ok2
  have p := DifferentShape.History.op (DifferentShape.History.reopen p2) (.expand [(2, [2])]) trivial
  refine ⟨_, _, p, ?_, ?_, ?_, ?_, ?_⟩
  · rfl
  · rfl
  · rfl
  · rfl
  · exact (DifferentShape.history_read p 9).1 [1, 2] [3, 4] rfl _ rfl

/-! ### Values with arrays of different shapes, per location in time -/

namespace SameShapeVariableShape

/-- Adding arrays for a location in time succeeds if and only if there are none yet. The arrays contain the fill value
and the number of locations in time is increased by one. -/
theorem expand_spec {α : Type} {fill : α} {h : Handle} {g : Group (Dataset α)} {st : GState (List Nat × List (List α))}
    (hr : Represents (AreArrays fill) h g st) (idx n : Nat) (shape : List Nat) :
    Represents (AreArrays fill) (expand fill h g idx n shape).2.1 (expand fill h g idx n shape).2.2
      (st.add [(idx, shape, List.replicate n (List.replicate (nrElements shape) fill))]) ∧
    ((expand fill h g idx n shape).1 = .ok () ↔ st.items idx = none) := by
  obtain ⟨h1, h2, _⟩ := expandGroup_spec hr (DifferentShapeConstantShape.expand_items fill [(idx, shape, n)])
  exact ⟨h1, by unfold expand; simpa using h2⟩

end SameShapeVariableShape

namespace DifferentShapeVariableShape

/-- A group of arrays: what is stored for a location in time -/
def IsGroup {α : Type} (fill : α) (g : Group (Dataset α)) (st : DifferentShape.State α) : Prop :=
  Represents (IsArray fill) (openGroup g) g st

/-- Adding arrays for a location in time succeeds if and only if there are none yet for this location in time and the
ids of the objects are different. -/
theorem expand_spec {α : Type} {fill : α} {h : Handle} {g : Group (Group (Dataset α))} {st : GState (DifferentShape.State α)}
    (hr : Represents (IsGroup fill) h g st) (idx : Nat) (items : List (Nat × List Nat)) :
    let r := expand fill h g idx (items.map (·.1)) (items.map (·.2))
    let new := (DifferentShape.Op.expand (α := α) items).expected fill .empty
    (r.1 = .ok () ↔ st.items idx = none ∧ (items.map (·.1)).Nodup) ∧
    (r.1 = .ok () → Represents (IsGroup fill) r.2.1 r.2.2 (st.add [(idx, new)])) ∧
    (r.1 ≠ .ok () → r.1 = .error .thrown ∧ r.2.1 = h ∧ r.2.2.nrAttr = g.nrAttr) := by
  intro r new
  obtain ⟨e1, e2, e3⟩ := expandGroup_spec (represents_create (R := IsArray fill)) (DifferentShape.expand_items fill items)
  have hnew : Represents (IsArray fill) _ _ new := e1
  have e2' : (DifferentShape.expand fill (openGroup (createGroup (χ := Dataset α))) createGroup (items.map (·.1))
      (items.map (·.2))).1 = .ok () ↔ (items.map (·.1)).Nodup := by
    unfold DifferentShape.expand
    rw [e2]
    simp [GState.empty, Function.comp_def]
  have hr' : r = expand fill h g idx (items.map (·.1)) (items.map (·.2)) := rfl
  unfold expand at hr'
  cases hi : st.items idx with
  | some s =>
    obtain ⟨c, hc, _⟩ := holds_some hr.holds hi
    simp only [createChild, hc] at hr'
    rw [hr']
    refine ⟨by simp, fun h => by simp at h, fun _ => ⟨rfl, rfl, rfl⟩⟩
  | none =>
    have hc := (holds_none hr.holds).mp hi
    simp only [createChild, hc] at hr'
    rcases hd : DifferentShape.expand fill (openGroup (createGroup (χ := Dataset α))) createGroup (items.map (·.1))
      (items.map (·.2)) with ⟨x, h', c⟩
    have hcg : IsGroup fill c new := by
      have h3 : Represents (IsArray fill) h' c new := by
        have := hnew
        unfold DifferentShape.expand at hd
        rw [hd] at this; exact this
      exact ⟨h3.holds, h3.attr, h3.attr, h3.count⟩
    rw [hd] at hr' e2'
    simp only at hr' e2'
    cases x with
    | error e =>
      have he : e = .thrown := by
        have := e3
        unfold DifferentShape.expand at hd
        rw [hd] at this; simpa using this
      rw [hr']
      refine ⟨by simpa using e2', fun h => by simp at h, fun _ => ⟨by rw [he], rfl, rfl⟩⟩
    | ok u =>
      rw [hr']
      refine ⟨by simpa using e2', fun _ => ?_, fun h => absurd rfl h⟩
      have hset := holds_set hr.holds (id := idx) hcg
      have hadd : st.add [(idx, new)] = ⟨Function.update st.items idx (some new), st.nr + 1, st.lost⟩ := by
        simp [GState.add, addItems, hi]
      rw [hadd]
      refine ⟨fun id => ?_, by simp only; rw [hr.handle], by simp only; rw [hr.handle], ?_⟩
      · have := hset id
        by_cases he : name id = name idx <;> simp [setChild, he] at this ⊢ <;> exact this
      · have := addItems_count [(idx, new)] _ _ hr.count
        simp only [addItems, hi, Option.isSome_none, Bool.false_eq_true, if_false] at this
        simp only
        rw [show st.nr + 1 + st.lost = st.nr + st.lost + (0 + 1) by omega]; exact this

/-- Adding arrays for a location in time with ids 5 and 5: an exception is thrown, but arrays for the location in time
are in the file. Trying again, with other ids, is not possible. -/
theorem failed_expand_blocks {α : Type} (fill : α) {h : Handle} {g : Group (Group (Dataset α))} {idx : Nat}
    (hn : g.child (name idx) = none) (shape : List Nat) (ids : List Nat) (shapes : List (List Nat)) :
    (expand fill h g idx [5, 5] [shape, shape]).1 = .error .thrown ∧
    (expand fill (expand fill h g idx [5, 5] [shape, shape]).2.1 (expand fill h g idx [5, 5] [shape, shape]).2.2 idx ids
      shapes).1 = .error .thrown := by
  have h1 : expand fill h g idx [5, 5] [shape, shape] = (.error .thrown, h,
      setChild (createChild g idx createGroup).2 idx
        (DifferentShape.expand fill (openGroup (createGroup (χ := Dataset α))) createGroup [5, 5] [shape, shape]).2.2) := by
    simp [expand, createChild, hn, DifferentShape.expand, expandGroup, createChildren, createGroup]
  rw [h1]
  refine ⟨rfl, ?_⟩
  simp [expand, createChild, setChild]

end DifferentShapeVariableShape

end Lue.DataModel

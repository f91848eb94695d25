import Verif.LueIO.Spec
import Verif.Focal.Window

namespace Lue.LueIO

open Lue.Index

/-! ### Writing to a dataset -/

theorem apply_shape {α : Type} (ws : List (List Nat × α)) : ∀ d : H5 α, (d.apply ws).shape = d.shape := by
  induction ws with
  | nil => intro d; rfl
  | cons w ws ih => intro d; exact ih (d.put w)

theorem apply_other {α : Type} (ws : List (List Nat × α)) : ∀ (d : H5 α) (i : List Nat), i ∉ ws.map (·.1) →
    (d.apply ws).data i = d.data i := by
  induction ws with
  | nil => intro d i _; rfl
  | cons w ws ih =>
    intro d i hi
    simp only [List.map_cons, List.mem_cons, not_or] at hi
    have : ((d.put w).apply ws).data i = (d.put w).data i := ih _ _ hi.2
    simp only [H5.apply, List.foldl_cons] at this ⊢
    rw [this]
    simp [H5.put, hi.1]

theorem apply_mem {α : Type} (ws : List (List Nat × α)) : ∀ (d : H5 α) (i : List Nat) (x : α), (ws.map (·.1)).Nodup →
    (i, x) ∈ ws → (d.apply ws).data i = x := by
  induction ws with
  | nil => intro d i x _ h; simp at h
  | cons w ws ih =>
    intro d i x hn hm
    simp only [List.map_cons, List.nodup_cons] at hn
    rcases List.mem_cons.mp hm with rfl | h
    · have := apply_other ws (d.put (i, x)) i hn.1
      simp only [H5.apply, List.foldl_cons] at this ⊢
      rw [this]; simp [H5.put]
    · exact ih (d.put w) i x hn.2 h

theorem apply_append {α : Type} (d : H5 α) (a b : List (List Nat × α)) : d.apply (a ++ b) = (d.apply a).apply b := by
  simp [H5.apply, List.foldl_append]

/-! ### Hyperslabs of partitions -/

theorem linear2 {n r c : Nat} (h : n < r * c) : linearIdxToIdxs n [r, c] = [n / c, n % c] := by
  obtain ⟨h0, _, _⟩ := idx_split h
  simp [linearIdxToIdxs_cons, nrElements_cons, Nat.mod_eq_of_lt h0]

theorem linear4 {n r c : Nat} (h : n < r * c) : linearIdxToIdxs n [1, 1, r, c] = [0, 0, n / c, n % c] := by
  rw [linearIdxToIdxs_cons, linearIdxToIdxs_cons, linear2 h]
  simp [Nat.mod_one]

theorem nrElements_count (g : Grid) (s0 s1 : Nat) (time : Option Nat) (k : Nat) :
    nrElements (partitionHyperslab g [s0, s1] time k).count = g.rows (k / g.n1) * g.cols (k % g.n1) := by
  cases time <;> simp [partitionHyperslab, hyperslab, hyperslabAt, Hyperslab.ofCount, nrElements_cons]

theorem coord_eq (g : Grid) (s0 s1 : Nat) (time : Option Nat) {k n : Nat}
    (h : n < g.rows (k / g.n1) * g.cols (k % g.n1)) :
    (partitionHyperslab g [s0, s1] time k).coord n =
      cellAt time (s0 + k / g.n1 * g.p0 + n / g.cols (k % g.n1)) (s1 + k % g.n1 * g.p1 + n % g.cols (k % g.n1)) := by
  cases time with
  | none =>
    simp [partitionHyperslab, hyperslab, Hyperslab.ofCount, Hyperslab.coord, linear2 h, cellAt, List.replicate]
  | some t =>
    simp [partitionHyperslab, hyperslabAt, Hyperslab.ofCount, Hyperslab.coord, linear4 h, cellAt, List.replicate]

theorem range2 : List.range 2 = [0, 1] := rfl
theorem range4 : List.range 4 = [0, 1, 2, 3] := rfl

theorem fits_iff {g : Grid} (s0 s1 : Nat) {shape : List Nat} {time : Option Nat} {k : Nat}
    (h0 : 0 < g.rows (k / g.n1)) (h1 : 0 < g.cols (k % g.n1)) :
    (partitionHyperslab g [s0, s1] time k).fits shape = true ↔
      Room shape time (s0 + k / g.n1 * g.p0 + g.rows (k / g.n1)) (s1 + k % g.n1 * g.p1 + g.cols (k % g.n1)) := by
  cases time with
  | none =>
    simp only [partitionHyperslab, hyperslab, Hyperslab.ofCount, Hyperslab.fits, Room, Bool.and_eq_true, beq_iff_eq,
      List.zipWith_cons_cons, List.zipWith_nil_right, List.length_cons, List.length_nil, List.length_replicate]
    constructor
    · rintro ⟨⟨⟨h, -⟩, -⟩, h'⟩
      match shape, h with
      | [m0, m1], _ =>
        simp only [List.length_cons, List.length_nil, Nat.zero_add, Nat.reduceAdd, range2, List.all_cons, List.all_nil,
          Bool.and_true, Bool.and_eq_true, decide_eq_true_eq, List.getD_cons_zero, List.getD_cons_succ,
          List.replicate] at h'
        exact ⟨m0, m1, rfl, by omega, by omega⟩
    · rintro ⟨m0, m1, rfl, ha, hb⟩
      refine ⟨⟨⟨rfl, rfl⟩, rfl⟩, ?_⟩
      simp only [List.length_cons, List.length_nil, Nat.zero_add, Nat.reduceAdd, range2, List.all_cons, List.all_nil,
        Bool.and_true, Bool.and_eq_true, decide_eq_true_eq, List.getD_cons_zero, List.getD_cons_succ,
        List.replicate]
      omega
  | some t =>
    simp only [partitionHyperslab, hyperslabAt, Hyperslab.ofCount, Hyperslab.fits, Room, Bool.and_eq_true, beq_iff_eq,
      List.zipWith_cons_cons, List.zipWith_nil_right, List.length_cons, List.length_nil, List.length_replicate]
    constructor
    · rintro ⟨⟨⟨h, -⟩, -⟩, h'⟩
      match shape, h with
      | [l, n, m0, m1], _ =>
        simp only [List.length_cons, List.length_nil, Nat.zero_add, Nat.reduceAdd, range4, List.all_cons, List.all_nil,
          Bool.and_true, Bool.and_eq_true, decide_eq_true_eq, List.getD_cons_zero, List.getD_cons_succ,
          List.replicate] at h'
        exact ⟨l, n, m0, m1, rfl, by omega, by omega, by omega, by omega⟩
    · rintro ⟨l, n, m0, m1, rfl, hl, hn, ha, hb⟩
      refine ⟨⟨⟨rfl, rfl⟩, rfl⟩, ?_⟩
      simp only [List.length_cons, List.length_nil, Nat.zero_add, Nat.reduceAdd, range4, List.all_cons, List.all_nil,
        Bool.and_true, Bool.and_eq_true, decide_eq_true_eq, List.getD_cons_zero, List.getD_cons_succ,
        List.replicate]
      omega

theorem Room.mono {shape : List Nat} {time : Option Nat} {a0 a1 b0 b1 : Nat} (h : Room shape time b0 b1)
    (h0 : a0 ≤ b0) (h1 : a1 ≤ b1) : Room shape time a0 a1 := by
  cases time with
  | none => obtain ⟨m0, m1, e, ha, hb⟩ := h; exact ⟨m0, m1, e, by omega, by omega⟩
  | some t => obtain ⟨l, n, m0, m1, e, hl, hn, ha, hb⟩ := h; exact ⟨l, n, m0, m1, e, hl, hn, by omega, by omega⟩

theorem rows_pos {g : Grid} (hg : g.Ok) (k : Nat) : 0 < g.rows k := Decomposition.Dim.extent_pos hg.pos0 k
theorem cols_pos {g : Grid} (hg : g.Ok) (k : Nat) : 0 < g.cols k := Decomposition.Dim.extent_pos hg.pos1 k

theorem part_le {g : Grid} (hg : g.Ok) {k : Nat} (hk : k < g.n0 * g.n1) :
    k / g.n1 * g.p0 + g.rows (k / g.n1) ≤ g.a0 ∧ k % g.n1 * g.p1 + g.cols (k % g.n1) ≤ g.a1 := by
  obtain ⟨h0, h1, _⟩ := idx_split hk
  exact ⟨Decomposition.Dim.offset_add_extent_le hg.pos0 hg.le0 h0, Decomposition.Dim.offset_add_extent_le hg.pos1 hg.le1 h1⟩

/-! ### Writing an array -/

/-- The writes of the elements of partition `k` of array `v`. -/
def writesOf {α : Type} (g : Grid) (v : Arr α) (time : Option Nat) (k : Nat) : List (List Nat × α) :=
  (partIdxs g k).map fun c => (cellAt time c.1 c.2, v c.1 c.2)

theorem partitionWrites_ok {α : Type} {shape : List Nat} {x : PArr α} {v : Arr α} (hx : Represents x v)
    {time : Option Nat} (hr : Room shape time x.grid.a0 x.grid.a1) {k : Nat} (hk : k < x.grid.n0 * x.grid.n1) :
    partitionWrites shape x (shapeToHyperslab [x.grid.a0, x.grid.a1]).start time k = .ok (writesOf x.grid v time k) := by
  obtain ⟨g0, g1⟩ := part_le hx.ok hk
  have hf := (fits_iff (g := x.grid) 0 0 (shape := shape) (time := time) (k := k) (rows_pos hx.ok _) (cols_pos hx.ok _)).mpr
    (hr.mono (by omega) (by omega))
  have hs : (shapeToHyperslab [x.grid.a0, x.grid.a1]).start = [0, 0] := rfl
  unfold partitionWrites
  rw [rd_ok (hx.parts_get hk), M.bind_ok, hs]
  unfold h5Writes
  rw [if_pos hf, nrElements_count]
  rw [Focal.mapM_ok (g := fun n =>
    (cellAt time (k / x.grid.n1 * x.grid.p0 + n / x.grid.cols (k % x.grid.n1))
      (k % x.grid.n1 * x.grid.p1 + n % x.grid.cols (k % x.grid.n1)),
     v (k / x.grid.n1 * x.grid.p0 + n / x.grid.cols (k % x.grid.n1))
      (k % x.grid.n1 * x.grid.p1 + n % x.grid.cols (k % x.grid.n1))))]
  · rw [writesOf, partIdxs, List.map_map]; rfl
  · intro n hn
    simp only [List.mem_range] at hn
    rw [coord_eq _ _ _ _ hn, rd_ok (x := v (k / x.grid.n1 * x.grid.p0 + n / x.grid.cols (k % x.grid.n1))
      (k % x.grid.n1 * x.grid.p1 + n % x.grid.cols (k % x.grid.n1)))]
    · simp only [M.bind_ok, Nat.zero_add]
    · simp [partIdxs, hn]

theorem cellAt_inj {time : Option Nat} {i j i' j' : Nat} (h : cellAt time i j = cellAt time i' j') : i = i' ∧ j = j' := by
  cases time <;> simpa [cellAt] using h

theorem allWrites_perm {α : Type} {g : Grid} (hg : g.Ok) (v : Arr α) (time : Option Nat) {order : List Nat}
    (ho : IsOrder (g.n0 * g.n1) order) :
    (order.flatMap (writesOf g v time)).Perm ((cellIdxs g.a0 g.a1).map fun c => (cellAt time c.1 c.2, v c.1 c.2)) := by
  have h1 : (order.flatMap (writesOf g v time)).Perm ((List.range (g.n0 * g.n1)).flatMap (writesOf g v time)) :=
    List.Perm.flatMap_right _ ho
  refine h1.trans ?_
  have : (List.range (g.n0 * g.n1)).flatMap (writesOf g v time) =
      ((List.range (g.n0 * g.n1)).flatMap (partIdxs g)).map fun c => (cellAt time c.1 c.2, v c.1 c.2) := by
    rw [List.map_flatMap]; rfl
  rw [this]
  exact (partIdxs_perm hg).map _

theorem stored_of_perm {α : Type} (d : H5 α) {time : Option Nat} {a0 a1 : Nat} {v : Arr α} {ws : List (List Nat × α)}
    (h : ws.Perm ((cellIdxs a0 a1).map fun c => (cellAt time c.1 c.2, v c.1 c.2))) :
    Stored d (d.apply ws) time a0 a1 v := by
  have hn : (ws.map (·.1)).Nodup := by
    rw [(h.map (·.1)).nodup_iff, List.map_map]
    refine List.Nodup.map_on ?_ (nodup_cellIdxs _ _)
    intro a _ b _ hab
    obtain ⟨e0, e1⟩ := cellAt_inj hab
    exact Prod.ext e0 e1
  refine ⟨apply_shape _ _, ?_, ?_⟩
  · intro i j hi hj
    refine apply_mem ws d _ _ hn (h.mem_iff.mpr ?_)
    exact List.mem_map.mpr ⟨(i, j), mem_cellIdxs.mpr ⟨hi, hj⟩, rfl⟩
  · intro idx hidx
    apply apply_other
    rw [(h.map (·.1)).mem_iff, List.map_map, List.mem_map]
    rintro ⟨c, hc, rfl⟩
    obtain ⟨h0, h1⟩ := mem_cellIdxs.mp hc
    exact hidx c.1 c.2 h0 h1 rfl

theorem toLue_eq {α : Type} {x : PArr α} {v : Arr α} (hx : Represents x v) {time : Option Nat} (order : List Nat) :
    ∀ d : H5 α, Room d.shape time x.grid.a0 x.grid.a1 → (∀ k ∈ order, k < x.grid.n0 * x.grid.n1) →
      toLue d x time order = .ok (d.apply (order.flatMap (writesOf x.grid v time))) := by
  induction order with
  | nil => intro d _ _; rfl
  | cons k order ih =>
    intro d hr hk
    have h := ih (d.apply (writesOf x.grid v time k)) (by rw [apply_shape]; exact hr)
      (fun j hj => hk j (List.mem_cons_of_mem _ hj))
    unfold toLue at h ⊢
    rw [List.foldlM_cons, partitionWrites_ok hx hr (hk k List.mem_cons_self)]
    simp only [M.bind_ok]
    rw [h, List.flatMap_cons, apply_append]

theorem partitionWrites_error {α : Type} {shape : List Nat} {x : PArr α} {v : Arr α} (hx : Represents x v)
    {time : Option Nat} {k : Nat} (hk : k < x.grid.n0 * x.grid.n1)
    (hr : ¬ Room shape time (k / x.grid.n1 * x.grid.p0 + x.grid.rows (k / x.grid.n1))
      (k % x.grid.n1 * x.grid.p1 + x.grid.cols (k % x.grid.n1))) :
    partitionWrites shape x (shapeToHyperslab [x.grid.a0, x.grid.a1]).start time k = .error .thrown := by
  have hs : (shapeToHyperslab [x.grid.a0, x.grid.a1]).start = [0, 0] := rfl
  unfold partitionWrites
  rw [rd_ok (hx.parts_get hk), M.bind_ok, hs]
  unfold h5Writes
  rw [if_neg]
  rw [fits_iff _ _ (rows_pos hx.ok _) (cols_pos hx.ok _)]
  simpa using hr

/-- A partition is written or an exception is thrown. -/
theorem partitionWrites_cases {α : Type} (shape : List Nat) {x : PArr α} {v : Arr α} (hx : Represents x v)
    (time : Option Nat) {k : Nat} (hk : k < x.grid.n0 * x.grid.n1) :
    (∃ ws, partitionWrites shape x (shapeToHyperslab [x.grid.a0, x.grid.a1]).start time k = .ok ws) ∨
    partitionWrites shape x (shapeToHyperslab [x.grid.a0, x.grid.a1]).start time k = .error .thrown := by
  by_cases hr : Room shape time (k / x.grid.n1 * x.grid.p0 + x.grid.rows (k / x.grid.n1))
      (k % x.grid.n1 * x.grid.p1 + x.grid.cols (k % x.grid.n1))
  · left
    have hs : (shapeToHyperslab [x.grid.a0, x.grid.a1]).start = [0, 0] := rfl
    unfold partitionWrites
    rw [rd_ok (hx.parts_get hk), M.bind_ok, hs]
    unfold h5Writes
    rw [if_pos ((fits_iff _ _ (rows_pos hx.ok _) (cols_pos hx.ok _)).mpr (by simpa using hr)), nrElements_count]
    refine ⟨_, Focal.mapM_ok (g := fun n => ((partitionHyperslab x.grid [0, 0] time k).coord n,
      v (k / x.grid.n1 * x.grid.p0 + n / x.grid.cols (k % x.grid.n1))
      (k % x.grid.n1 * x.grid.p1 + n % x.grid.cols (k % x.grid.n1)))) ?_⟩
    intro n hn
    simp only [List.mem_range] at hn
    rw [rd_ok (x := v (k / x.grid.n1 * x.grid.p0 + n / x.grid.cols (k % x.grid.n1))
      (k % x.grid.n1 * x.grid.p1 + n % x.grid.cols (k % x.grid.n1)))]
    · simp only [M.bind_ok]
    · simp [partIdxs, hn]
  · exact .inr (partitionWrites_error hx hk hr)

theorem toLue_error {α : Type} {x : PArr α} {v : Arr α} (hx : Represents x v) {time : Option Nat} {shape : List Nat}
    (order : List Nat) : ∀ d : H5 α, d.shape = shape → (∀ k ∈ order, k < x.grid.n0 * x.grid.n1) →
      (∃ k ∈ order, ¬ Room shape time (k / x.grid.n1 * x.grid.p0 + x.grid.rows (k / x.grid.n1))
        (k % x.grid.n1 * x.grid.p1 + x.grid.cols (k % x.grid.n1))) →
      toLue d x time order = .error .thrown := by
  induction order with
  | nil => rintro d _ _ ⟨k, hk, _⟩; simp at hk
  | cons k order ih =>
    intro d hd hk hex
    unfold toLue
    rw [List.foldlM_cons, hd]
    rcases partitionWrites_cases shape hx time (hk k List.mem_cons_self) with ⟨ws, h⟩ | h
    · rw [h]
      simp only [M.bind_ok]
      refine ih (d.apply ws) (by rw [apply_shape, hd]) (fun j hj => hk j (List.mem_cons_of_mem _ hj)) ?_
      obtain ⟨j, hj, hjr⟩ := hex
      rcases List.mem_cons.mp hj with rfl | hj
      · rw [partitionWrites_error hx (hk j List.mem_cons_self) hjr] at h; cases h
      · exact ⟨j, hj, hjr⟩
    · rw [h]; rfl

/-- The last partition reaches the end of the array. -/
theorem last_part {g : Grid} (hg : g.Ok) : ∃ k, k < g.n0 * g.n1 ∧
    k / g.n1 * g.p0 + g.rows (k / g.n1) = g.a0 ∧ k % g.n1 * g.p1 + g.cols (k % g.n1) = g.a1 := by
  have h0 : 0 < g.n0 := Nat.div_pos hg.le0 hg.pos0
  have h1 : 0 < g.n1 := Nat.div_pos hg.le1 hg.pos1
  refine ⟨(g.n0 - 1) * g.n1 + (g.n1 - 1), idx_lt (by omega) (by omega), ?_, ?_⟩
  · rw [idx_div (by omega), Grid.rows, Decomposition.Dim.offset_add_extent hg.pos0 hg.le0 (by unfold Grid.n0 at *; omega)]
    exact if_pos rfl
  · rw [idx_mod (by omega), Grid.cols, Decomposition.Dim.offset_add_extent hg.pos1 hg.le1 (by unfold Grid.n1 at *; omega)]
    exact if_pos rfl

/-! ### Partitions by locality -/

theorem addIdx_map (r : List (Nat × List Nat)) (l k : Nat) :
    ((addIdx r l k).flatMap (·.2)).Perm (k :: r.flatMap (·.2)) := by
  induction r with
  | nil => simp [addIdx]
  | cons e r ih =>
    obtain ⟨m, ks⟩ := e
    unfold addIdx
    split
    · simp
    · split
      · simp only [List.flatMap_cons, List.append_assoc, List.singleton_append]
        exact List.perm_middle
      · simp only [List.flatMap_cons]
        exact (ih.append_left ks).trans List.perm_middle

/-- The collections are ordered by locality, without duplicates, and hold the partitions of each of the localities. -/
structure Grouped (loc : Nat → Nat) (n : Nat) (r : List (Nat × List Nat)) : Prop where
  sorted : (r.map (·.1)).Pairwise (· < ·)
  group : ∀ e ∈ r, e.2 = onLocality loc n e.1 ∧ e.2 ≠ []
  all : ∀ k < n, ∃ e ∈ r, e.1 = loc k

theorem addIdx_keys (r : List (Nat × List Nat)) (l k : Nat) (x : Nat) :
    x ∈ (addIdx r l k).map (·.1) ↔ x = l ∨ x ∈ r.map (·.1) := by
  induction r with
  | nil => simp [addIdx]
  | cons e r ih =>
    obtain ⟨m, ks⟩ := e
    unfold addIdx
    split
    · simp
    · split
      · rename_i h; subst h; simp
      · simp only [List.map_cons, List.mem_cons, ih]; tauto

theorem addIdx_sorted (r : List (Nat × List Nat)) (l k : Nat) (h : (r.map (·.1)).Pairwise (· < ·)) :
    ((addIdx r l k).map (·.1)).Pairwise (· < ·) := by
  induction r with
  | nil => simp [addIdx]
  | cons e r ih =>
    obtain ⟨m, ks⟩ := e
    simp only [List.map_cons, List.pairwise_cons] at h
    unfold addIdx
    split
    · simp only [List.map_cons, List.pairwise_cons, List.mem_cons]
      refine ⟨?_, h⟩
      rintro a (rfl | ha)
      · assumption
      · have := h.1 a ha; omega
    · split
      · simpa using h
      · simp only [List.map_cons, List.pairwise_cons]
        refine ⟨?_, ih h.2⟩
        intro a ha
        rcases (addIdx_keys r l k a).mp ha with rfl | ha
        · omega
        · exact h.1 a ha

theorem addIdx_mem (r : List (Nat × List Nat)) (l k : Nat) (h : (r.map (·.1)).Pairwise (· < ·)) (e : Nat × List Nat) :
    e ∈ addIdx r l k ↔ (e ∈ r ∧ e.1 ≠ l) ∨ (∃ ks, (l, ks) ∈ r ∧ e = (l, ks ++ [k])) ∨
      (l ∉ r.map (·.1) ∧ e = (l, [k])) := by
  induction r with
  | nil => simp [addIdx]
  | cons e' r ih =>
    obtain ⟨m, ks⟩ := e'
    simp only [List.map_cons, List.pairwise_cons] at h
    have hlt : ∀ q ∈ r, m < q.1 := fun q hq => h.1 q.1 (List.mem_map.mpr ⟨q, hq, rfl⟩)
    unfold addIdx
    split
    · rename_i hlm
      have hl : l ∉ ((m, ks) :: r).map (·.1) := by
        simp only [List.map_cons, List.mem_cons, not_or]
        refine ⟨by omega, fun hm => ?_⟩
        have := h.1 l hm; omega
      simp only [List.mem_cons]
      constructor
      · rintro (rfl | rfl | he)
        · exact .inr (.inr ⟨hl, rfl⟩)
        · exact .inl ⟨.inl rfl, by simp; omega⟩
        · exact .inl ⟨.inr he, by have := hlt e he; omega⟩
      · rintro (⟨he, _⟩ | ⟨ks', hks', rfl⟩ | ⟨_, rfl⟩)
        · exact .inr he
        · exact absurd (List.mem_map.mpr ⟨(l, ks'), List.mem_cons.mpr hks', rfl⟩) hl
        · exact .inl rfl
    · split
      · rename_i hlm; subst hlm
        simp only [List.mem_cons, List.map_cons, not_or]
        constructor
        · rintro (rfl | he)
          · exact .inr (.inl ⟨ks, .inl rfl, rfl⟩)
          · exact .inl ⟨.inr he, by have := hlt e he; omega⟩
        · rintro (⟨rfl | he, hne⟩ | ⟨ks', hks' | hks', rfl⟩ | ⟨⟨hne, _⟩, _⟩)
          · exact absurd rfl hne
          · exact .inr he
          · injection hks' with _ h2; subst h2; exact .inl rfl
          · have := hlt _ hks'; simp at this
          · exact absurd trivial hne
      · rename_i h1 h2
        simp only [List.mem_cons, ih h.2, List.map_cons, not_or]
        constructor
        · rintro (rfl | ⟨he, hne⟩ | ⟨ks', hks', rfl⟩ | ⟨hm, rfl⟩)
          · exact .inl ⟨.inl rfl, fun hh => h2 hh.symm⟩
          · exact .inl ⟨.inr he, hne⟩
          · exact .inr (.inl ⟨ks', .inr hks', rfl⟩)
          · exact .inr (.inr ⟨⟨h2, hm⟩, rfl⟩)
        · rintro (⟨rfl | he, hne⟩ | ⟨ks', hks' | hks', rfl⟩ | ⟨⟨_, hm⟩, rfl⟩)
          · exact .inl rfl
          · exact .inr (.inl ⟨he, hne⟩)
          · injection hks' with h3 _; exact absurd h3 h2
          · exact .inr (.inr (.inl ⟨ks', hks', rfl⟩))
          · exact .inr (.inr (.inr ⟨hm, rfl⟩))

theorem idxsByLocality_succ (loc : Nat → Nat) (n : Nat) :
    idxsByLocality loc (n + 1) = addIdx (idxsByLocality loc n) (loc n) n := by
  simp [idxsByLocality, List.range_succ]

theorem onLocality_succ (loc : Nat → Nat) (n l : Nat) :
    onLocality loc (n + 1) l = if loc n = l then onLocality loc n l ++ [n] else onLocality loc n l := by
  simp only [onLocality, List.range_succ, List.filter_append]
  split <;> rename_i h <;> simp [h]

theorem idxsByLocality_grouped (loc : Nat → Nat) (n : Nat) : Grouped loc n (idxsByLocality loc n) := by
  induction n with
  | zero => exact ⟨by simp [idxsByLocality], by simp [idxsByLocality], by simp⟩
  | succ n ih =>
    rw [idxsByLocality_succ]
    refine ⟨addIdx_sorted _ _ _ ih.sorted, ?_, ?_⟩
    · intro e he
      rw [onLocality_succ]
      rcases (addIdx_mem _ _ _ ih.sorted e).mp he with ⟨he, hne⟩ | ⟨ks, hks, rfl⟩ | ⟨hm, rfl⟩
      · rw [if_neg (fun h => hne h.symm)]; exact ih.group e he
      · rw [if_pos rfl]
        have := (ih.group _ hks).1
        simp only at this ⊢
        exact ⟨by rw [← this], by simp⟩
      · rw [if_pos rfl]
        have : onLocality loc n (loc n) = [] := by
          rw [onLocality, List.filter_eq_nil_iff]
          intro k hk hkl
          obtain ⟨e, he, hek⟩ := ih.all k (List.mem_range.mp hk)
          exact hm (List.mem_map.mpr ⟨e, he, by simpa [hek] using hkl⟩)
        rw [this]; simp
    · intro k hk
      have hkey : loc k ∈ (addIdx (idxsByLocality loc n) (loc n) n).map (·.1) := by
        rw [addIdx_keys]
        by_cases hkn : k = n
        · left; rw [hkn]
        · right
          obtain ⟨e, he, hek⟩ := ih.all k (by omega)
          exact List.mem_map.mpr ⟨e, he, hek⟩
      obtain ⟨e, he, hek⟩ := List.mem_map.mp hkey
      exact ⟨e, he, hek⟩

theorem idxsByLocality_perm (loc : Nat → Nat) (n : Nat) :
    ((idxsByLocality loc n).flatMap (·.2)).Perm (List.range n) := by
  induction n with
  | zero => simp [idxsByLocality]
  | succ n ih =>
    rw [idxsByLocality_succ]
    refine (addIdx_map _ _ _).trans ?_
    rw [List.range_succ]
    exact (ih.cons n).trans (List.perm_append_singleton n _).symm

theorem flatten_perm_of_forall₂ {α : Type} {a b : List (List α)} (h : List.Forall₂ List.Perm a b) :
    a.flatten.Perm b.flatten := by
  induction h with
  | nil => exact .nil
  | cons h _ ih => simpa using h.append ih

/-! ### Reading an array -/

/-- The elements of partition `k` of an array. -/
def partOf {α : Type} (g : Grid) (w : Arr α) (k : Nat) : List α := (partIdxs g k).map fun c => w c.1 c.2

theorem h5Read_ok {α : Type} {d : H5 α} {g : Grid} (hg : g.Ok) {s0 s1 : Nat} {time : Option Nat}
    (hr : Room d.shape time (s0 + g.a0) (s1 + g.a1)) {k : Nat} (hk : k < g.n0 * g.n1) {buffer : List α}
    (hb : buffer.length = g.rows (k / g.n1) * g.cols (k % g.n1)) :
    h5Read d (partitionHyperslab g [s0, s1] time k) buffer =
      .ok (partOf g (fun i j => contents d time (s0 + i) (s1 + j)) k) := by
  obtain ⟨g0, g1⟩ := part_le hg hk
  have hf := (fits_iff (g := g) s0 s1 (shape := d.shape) (time := time) (k := k) (rows_pos hg _) (cols_pos hg _)).mpr
    (hr.mono (by omega) (by omega))
  unfold h5Read
  rw [if_pos hf, nrElements_count]
  have := forLoop_write (n := g.rows (k / g.n1) * g.cols (k % g.n1))
    (fun n => d.data ((partitionHyperslab g [s0, s1] time k).coord n))
    (fun n b => wr b n (d.data ((partitionHyperslab g [s0, s1] time k).coord n)))
    (fun i hi out hl => wr_ok _ (by omega)) buffer hb
  unfold forLoop at this
  rw [this, partOf, partIdxs, List.map_map]
  congr 1
  refine List.map_congr_left fun n hn => ?_
  simp only [List.mem_range] at hn
  rw [coord_eq _ _ _ _ hn]
  simp only [contents, Function.comp, Nat.add_assoc]

theorem h5Read_error {α : Type} {d : H5 α} {g : Grid} (hg : g.Ok) {s0 s1 : Nat} {time : Option Nat} {k : Nat}
    (hr : ¬ Room d.shape time (s0 + k / g.n1 * g.p0 + g.rows (k / g.n1)) (s1 + k % g.n1 * g.p1 + g.cols (k % g.n1)))
    (buffer : List α) : h5Read d (partitionHyperslab g [s0, s1] time k) buffer = .error .thrown := by
  unfold h5Read
  rw [if_neg]
  rwa [fits_iff _ _ (rows_pos hg _) (cols_pos hg _)]

theorem storePartitions_ok {α : Type} (f : Nat → List α) (idxs : List Nat) (parts : List (List α))
    (h : ∀ k ∈ idxs, k < parts.length) :
    ∃ parts', storePartitions parts idxs (idxs.map f) = .ok parts' ∧ parts'.length = parts.length ∧
      ∀ k, k < parts.length → parts'[k]? = if k ∈ idxs then some (f k) else parts[k]? := by
  have key : ∀ m ≤ idxs.length, ∃ parts',
      (List.range m).foldlM (fun (parts : List (List α)) i => do
        let k ← rd idxs i
        let p ← rd (idxs.map f) i
        wr parts k p) parts = (.ok parts' : M _) ∧ parts'.length = parts.length ∧
      ∀ k, k < parts.length → parts'[k]? = if k ∈ idxs.take m then some (f k) else parts[k]? := by
    intro m
    induction m with
    | zero => intro _; exact ⟨parts, rfl, rfl, by simp⟩
    | succ m ih =>
      intro hm
      obtain ⟨p', he, hl, hv⟩ := ih (by omega)
      have hi : idxs[m]? = some idxs[m] := List.getElem?_eq_getElem (by omega)
      have hb := h idxs[m] (List.getElem_mem _)
      refine ⟨p'.set idxs[m] (f idxs[m]), ?_, by simp [hl], ?_⟩
      · rw [List.range_succ, List.foldlM_append, he, M.bind_ok, List.foldlM_cons, rd_ok hi, M.bind_ok,
          rd_ok (x := f idxs[m]) (by simp [hi]), M.bind_ok, wr_ok _ (by omega)]
        rfl
      · intro k hk
        have ht : ∀ k, k ∈ idxs.take (m + 1) ↔ k ∈ idxs.take m ∨ k = idxs[m] := by
          intro k; rw [List.take_succ, hi]; simp only [Option.toList_some, List.mem_append, List.mem_singleton]
        simp only [ht]
        by_cases hkm : k = idxs[m]
        · subst hkm; rw [List.getElem?_set_self (by omega)]; simp
        · rw [List.getElem?_set_ne (fun h => hkm h.symm), hv k hk]; simp [hkm]
  obtain ⟨p', he, hl, hv⟩ := key idxs.length (Nat.le_refl _)
  exact ⟨p', he, hl, by simpa using hv⟩

theorem fromLueInto_ok {α : Type} {d : H5 α} {x : PArr α} (hg : x.grid.Ok) {s0 s1 : Nat} {time : Option Nat}
    (hr : Room d.shape time (s0 + x.grid.a0) (s1 + x.grid.a1)) (hn : x.parts.length = x.grid.n0 * x.grid.n1)
    (hsz : ∀ k p, x.parts[k]? = some p → p.length = x.grid.rows (k / x.grid.n1) * x.grid.cols (k % x.grid.n1))
    {groups : List (Nat × List Nat)} (ho : IsOrder (x.grid.n0 * x.grid.n1) (groups.flatMap (·.2))) :
    fromLueInto d [s0, s1] time x groups = .ok ⟨x.grid, (List.range (x.grid.n0 * x.grid.n1)).map
      (partOf x.grid fun i j => contents d time (s0 + i) (s1 + j))⟩ := by
  have hread : ∀ k < x.grid.n0 * x.grid.n1, (do
      let buffer ← rd x.parts k
      h5Read d (partitionHyperslab x.grid [s0, s1] time k) buffer) =
        .ok (partOf x.grid (fun i j => contents d time (s0 + i) (s1 + j)) k) := by
    intro k hk
    have hp : x.parts[k]? = some x.parts[k] := List.getElem?_eq_getElem (by omega)
    rw [rd_ok hp, M.bind_ok]
    exact h5Read_ok hg hr hk (hsz _ _ hp)
  generalize (fun i j => contents d time (s0 + i) (s1 + j)) = w at *
  have key : ∀ (groups : List (Nat × List Nat)) (parts : List (List α)), parts.length = x.parts.length →
      (∀ k ∈ groups.flatMap (·.2), k < x.parts.length) →
      ∃ parts', groups.foldlM (fun parts e => do
        let read ← readPartitions d x.grid [s0, s1] time x.parts e.2
        storePartitions parts e.2 read) parts = (.ok parts' : M _) ∧ parts'.length = x.parts.length ∧
        ∀ k < x.parts.length, parts'[k]? = if k ∈ groups.flatMap (·.2) then some (partOf x.grid w k) else parts[k]? := by
    intro groups
    induction groups with
    | nil => intro parts hl _; exact ⟨parts, rfl, hl, by simp⟩
    | cons e groups ih =>
      intro parts hl hk
      simp only [List.flatMap_cons, List.mem_append] at hk
      have he : ∀ k ∈ e.2, k < x.grid.n0 * x.grid.n1 := fun k h => by rw [← hn]; exact hk k (.inl h)
      have h1 : readPartitions d x.grid [s0, s1] time x.parts e.2 = .ok (e.2.map (partOf x.grid w)) :=
        Focal.mapM_ok fun k h => hread k (he k h)
      obtain ⟨p1, h2, hl1, hv1⟩ := storePartitions_ok (partOf x.grid w) e.2 parts (fun k h => by
        have := hk k (.inl h); omega)
      obtain ⟨p2, h3, hl2, hv2⟩ := ih p1 (by omega) (fun k h => hk k (.inr h))
      refine ⟨p2, ?_, hl2, ?_⟩
      · rw [List.foldlM_cons, h1]
        simp only [M.bind_ok]
        rw [h2]; exact h3
      · intro k hkl
        rw [hv2 k hkl, hv1 k (by omega)]
        by_cases h4 : k ∈ groups.flatMap (·.2) <;> by_cases h5 : k ∈ e.2 <;> simp [h4, h5]
  obtain ⟨p', he, hl, hv⟩ := key groups x.parts rfl (fun k hk => by rw [hn]; simpa using ho.mem_iff.mp hk)
  unfold fromLueInto
  rw [he, M.bind_ok]
  congr 2
  apply List.ext_getElem?
  intro k
  by_cases hk : k < x.grid.n0 * x.grid.n1
  · rw [hv k (by omega), if_pos (ho.mem_iff.mpr (by simpa using hk))]; simp [hk]
  · rw [List.getElem?_eq_none (by omega), List.getElem?_eq_none (by simp; omega)]

theorem partOf_represents {α : Type} {g : Grid} (hg : g.Ok) (w : Arr α) :
    Represents ⟨g, (List.range (g.n0 * g.n1)).map (partOf g w)⟩ w := by
  have : (⟨g, (List.range (g.n0 * g.n1)).map (partOf g w)⟩ : PArr α) = store g w := by
    unfold store partOf partIdxs
    simp only [List.map_map]
    rfl
  rw [this]
  exact store_represents hg w

end Lue.LueIO

import Verif.LueIO.Proofs
import Verif.Localities.Properties

/-!
# C29: data written to a LUE dataset is read back unchanged, whatever the partitionings
-/
namespace Lue.LueIO

/-- C29: each of the groups of partitions handled by a locality consists of the partitions stored there, in order; the
localities are different, and every partition is part of a group. -/
theorem idxsByLocality_spec (loc : Nat → Nat) (n : Nat) :
    ((idxsByLocality loc n).map (·.1)).Pairwise (· < ·) ∧
    (∀ l idxs, (l, idxs) ∈ idxsByLocality loc n ↔ idxs = onLocality loc n l ∧ idxs ≠ []) ∧
    ((idxsByLocality loc n).flatMap (·.2)).Perm (List.range n) := by
  have h := idxsByLocality_grouped loc n
  refine ⟨h.sorted, fun l idxs => ⟨fun he => h.group _ he, ?_⟩, idxsByLocality_perm loc n⟩
  rintro ⟨rfl, hne⟩
  obtain ⟨k, hk⟩ := List.exists_mem_of_ne_nil _ hne
  simp only [onLocality, List.mem_filter, List.mem_range, decide_eq_true_eq] at hk
  obtain ⟨e, he, hek⟩ := h.all k hk.1
  have : e = (l, onLocality loc n l) := by
    rw [hk.2] at hek
    exact Prod.ext hek (by rw [(h.group e he).1, hek])
  rw [← this]; exact he

example : idxsByLocality (fun k => [3, 1, 3, 1, 0].getD k 0) 5 = [(0, [4]), (1, [1, 3]), (3, [0, 2])] := by decide

theorem onLocality_length_mono (loc : Nat → Nat) (l : Nat) {m n : Nat} (h : m ≤ n) :
    (onLocality loc m l).length ≤ (onLocality loc n l).length := by
  induction n with
  | zero => have : m = 0 := by omega
            subst this; exact Nat.le_refl _
  | succ n ih =>
    by_cases hm : m = n + 1
    · subst hm; exact Nat.le_refl _
    · have := ih (by omega)
      rw [onLocality_succ]; split
      · simp; omega
      · exact this

/-- The assertion on the amount of room reserved holds if and only if no locality stores more than
`nr_partitions / nr_localities + 1` partitions. -/
theorem idxsByLocalityAsserts_iff (loc : Nat → Nat) (n nrLocalities : Nat) :
    idxsByLocalityAsserts loc n nrLocalities = true ↔
      ∀ l, (onLocality loc n l).length ≤ n / nrLocalities + 1 := by
  have hsize : ∀ k, (((idxsByLocality loc k).find? fun e => e.1 == loc k).map (·.2.length)).getD 0 =
      (onLocality loc k (loc k)).length := by
    intro k
    have h := idxsByLocality_grouped loc k
    cases hf : (idxsByLocality loc k).find? fun e => e.1 == loc k with
    | none =>
      have hno := List.find?_eq_none.mp hf
      have : onLocality loc k (loc k) = [] := by
        rw [onLocality, List.filter_eq_nil_iff]
        intro j hj hjl
        obtain ⟨e, he, hej⟩ := h.all j (List.mem_range.mp hj)
        exact hno e he (by simpa [hej] using hjl)
      simp [this]
    | some e =>
      have he := List.mem_of_find?_eq_some hf
      have hk := List.find?_some hf
      simp only [beq_iff_eq] at hk
      simp [(h.group e he).1, hk]
  simp only [idxsByLocalityAsserts, List.all_eq_true, List.mem_range, decide_eq_true_eq, hsize]
  constructor
  · intro h l
    by_contra hc
    have : ∃ k < n, loc k = l ∧ (onLocality loc k l).length = n / nrLocalities + 1 := by
      clear hsize h
      generalize hq : n / nrLocalities + 1 = q at hc
      clear hq
      induction n with
      | zero => simp [onLocality] at hc
      | succ n ih =>
        by_cases hlt : (onLocality loc n l).length ≤ q
        · rw [onLocality_succ] at hc
          split at hc
          · rename_i hl
            refine ⟨n, by omega, hl, ?_⟩
            simp only [List.length_append, List.length_singleton] at hc
            omega
          · exact absurd hlt hc
        · obtain ⟨k, hk, h⟩ := ih hlt
          exact ⟨k, by omega, h⟩
    obtain ⟨k, hk, hl, hlen⟩ := this
    have := h k hk
    rw [hl] at this
    omega
  · intro h k hk
    have h1 := onLocality_length_mono loc (loc k) (show k + 1 ≤ n by omega)
    rw [onLocality_succ, if_pos rfl] at h1
    simp only [List.length_append, List.length_singleton] at h1
    have := h (loc k)
    omega

/-- C29: the assertion holds for arrays whose partitions are assigned to the localities the way this happens when an
array is created (C04), along any curve visiting the partitions. -/
theorem idxsByLocalityAsserts_ok (n nrLocalities : Nat) (hl : 0 < nrLocalities) (hln : nrLocalities ≤ n)
    (curve : List Nat) (hc : curve.Perm (List.range n)) (loc : Nat → Nat)
    (hloc : ∀ i k, curve[i]? = some k → loc k = Localities.localityIdx n nrLocalities i) :
    idxsByLocalityAsserts loc n nrLocalities = true := by
  rw [idxsByLocalityAsserts_iff]
  intro l
  have hlen : curve.length = n := by simpa using hc.length_eq
  have e1 : (onLocality loc n l).length = (curve.filter fun k => loc k = l).length :=
    ((hc.filter _).length_eq).symm
  have e2 : curve = (List.range n).map fun i => curve.getD i 0 := by
    apply List.ext_getElem?
    intro i
    by_cases hi : i < n
    · simp [hi, hlen]
    · rw [List.getElem?_eq_none (by omega), List.getElem?_eq_none (by simp; omega)]
  have e3 : (curve.filter fun k => loc k = l).length =
      ((List.range n).filter fun i => Localities.localityIdx n nrLocalities i = l).length := by
    conv_lhs => rw [e2]
    rw [List.filter_map, List.length_map]
    congr 1
    apply List.filter_congr
    intro i hi
    simp only [List.mem_range] at hi
    simp only [Function.comp]
    rw [hloc i (curve.getD i 0) (by simp [hlen, hi])]
  have e4 : ((List.range n).filter fun i => Localities.localityIdx n nrLocalities i = l).length =
      Localities.nrAssigned n nrLocalities l := by
    simp [Localities.nrAssigned, Finset.card, Finset.filter, Multiset.range]
  by_cases hlt : l < nrLocalities
  · have := (Localities.nrAssigned_balanced n nrLocalities l hl hln hlt).2
    omega
  · have : (List.range n).filter (fun i => Localities.localityIdx n nrLocalities i = l) = [] := by
      rw [List.filter_eq_nil_iff]
      intro i hi
      have := Localities.localityIdx_lt n nrLocalities i hl hln (List.mem_range.mp hi)
      simp; omega
    rw [this] at e3
    simp only [List.length_nil] at e3
    have := Nat.zero_le (n / nrLocalities)
    omega

/-- An uneven distribution makes the assertion fail. -/
example : idxsByLocalityAsserts (fun k => if k < 5 then 0 else 1) 6 2 = false := by decide

/-- C29: the orders in which partitions are written, one locality after the other, are orders of all partitions. -/
theorem SerialOrder.isOrder {loc : Nat → Nat} {n : Nat} {order : List Nat} (h : SerialOrder loc n order) :
    IsOrder n order := by
  obtain ⟨groups, hg, rfl⟩ := h
  have := flatten_perm_of_forall₂ hg
  rw [← List.flatMap_def] at this
  exact this.trans (idxsByLocality_perm loc n)

/-- There is such an order. -/
theorem serialOrder_exists (loc : Nat → Nat) (n : Nat) : SerialOrder loc n ((idxsByLocality loc n).flatMap (·.2)) :=
  ⟨_, List.forall₂_same.mpr fun _ _ => List.Perm.refl _, List.flatMap_def ..⟩

/-- C29: writing an array stores its values, and changes nothing else, whatever its partitioning and the order in which
the partitions are written. -/
theorem toLue_stores {α : Type} {d : H5 α} {x : PArr α} {v : Arr α} (hx : Represents x v) {time : Option Nat}
    (hr : Room d.shape time x.grid.a0 x.grid.a1) {order : List Nat} (ho : IsOrder (x.grid.n0 * x.grid.n1) order) :
    ∃ d', toLue d x time order = .ok d' ∧ Stored d d' time x.grid.a0 x.grid.a1 v :=
  ⟨_, toLue_eq hx order d hr (fun k hk => by simpa using ho.mem_iff.mp hk), stored_of_perm d (allWrites_perm hx.ok v time ho)⟩

/-- C29: each cell of the array is written once, and no other element of the dataset is written. -/
theorem toLue_each_cell_once {α : Type} {shape : List Nat} {x : PArr α} {v : Arr α} (hx : Represents x v)
    {time : Option Nat} (hr : Room shape time x.grid.a0 x.grid.a1) :
    ∃ wss, (List.range (x.grid.n0 * x.grid.n1)).mapM
        (partitionWrites shape x (shapeToHyperslab [x.grid.a0, x.grid.a1]).start time) = .ok wss ∧
      (wss.flatten.map (·.1)).Perm ((cellIdxs x.grid.a0 x.grid.a1).map fun c => cellAt time c.1 c.2) ∧
      (wss.flatten.map (·.1)).Nodup := by
  refine ⟨_, Focal.mapM_ok (g := writesOf x.grid v time) fun k hk =>
    partitionWrites_ok hx hr (List.mem_range.mp hk), ?_⟩
  have h := (allWrites_perm hx.ok v time (order := List.range (x.grid.n0 * x.grid.n1)) (List.Perm.refl _)).map (·.1)
  rw [List.flatMap_def, List.map_map] at h
  refine ⟨h, ?_⟩
  rw [h.nodup_iff]
  refine List.Nodup.map_on ?_ (nodup_cellIdxs _ _)
  intro a _ b _ hab
  obtain ⟨e0, e1⟩ := cellAt_inj hab
  exact Prod.ext e0 e1

/-- C29: with parallel I/O, the writes of elements of different partitions can be interleaved in any way. -/
theorem parallelToLue_stores {α : Type} {d : H5 α} {x : PArr α} {v : Arr α} (hx : Represents x v) {time : Option Nat}
    (hr : Room d.shape time x.grid.a0 x.grid.a1) {result : M (H5 α)} (h : ParallelToLue d x time result) :
    ∃ d', result = .ok d' ∧ Stored d d' time x.grid.a0 x.grid.a1 v := by
  unfold ParallelToLue at h
  rw [Focal.mapM_ok (g := writesOf x.grid v time) fun k hk => partitionWrites_ok hx hr (List.mem_range.mp hk)] at h
  obtain ⟨ws, hp, rfl⟩ := h
  refine ⟨_, rfl, stored_of_perm d (hp.trans ?_)⟩
  rw [← List.flatMap_def]
  exact allWrites_perm hx.ok v time (List.Perm.refl _)

/-- What is stored is determined: all ways to write an array result in the same dataset. -/
theorem Stored.unique {α : Type} {d d1 d2 : H5 α} {time : Option Nat} {a0 a1 : Nat} {v : Arr α}
    (h1 : Stored d d1 time a0 a1 v) (h2 : Stored d d2 time a0 a1 v) : d1 = d2 := by
  have hs : d1.shape = d2.shape := h1.shape.trans h2.shape.symm
  have hd : d1.data = d2.data := by
    funext idx
    by_cases h : ∀ i j, i < a0 → j < a1 → idx ≠ cellAt time i j
    · rw [h1.other idx h, h2.other idx h]
    · push Not at h
      obtain ⟨i, j, hi, hj, rfl⟩ := h
      exact (h1.cells i j hi hj).trans (h2.cells i j hi hj).symm
  cases d1; cases d2; simp_all

/-- C29: writing succeeds if there is room for the array, at the time step. Otherwise an exception is thrown. -/
theorem toLue_succeeds_iff {α : Type} {d : H5 α} {x : PArr α} {v : Arr α} (hx : Represents x v) {time : Option Nat}
    {order : List Nat} (ho : IsOrder (x.grid.n0 * x.grid.n1) order) :
    ((∃ d', toLue d x time order = .ok d') ↔ Room d.shape time x.grid.a0 x.grid.a1) ∧
    (¬ Room d.shape time x.grid.a0 x.grid.a1 → toLue d x time order = .error .thrown) := by
  have herr : ¬ Room d.shape time x.grid.a0 x.grid.a1 → toLue d x time order = .error .thrown := by
    intro hr
    refine toLue_error hx order d rfl (fun k hk => by simpa using ho.mem_iff.mp hk) ?_
    obtain ⟨k, hk, e0, e1⟩ := last_part hx.ok
    exact ⟨k, ho.mem_iff.mpr (by simpa using hk), by rw [e0, e1]; exact hr⟩
  refine ⟨⟨?_, fun hr => ?_⟩, herr⟩
  · rintro ⟨d', h⟩
    by_contra hr
    rw [herr hr] at h
    cases h
  · obtain ⟨d', h, _⟩ := toLue_stores hx hr ho
    exact ⟨d', h⟩

/-- C29: a hyperslab which skips elements is refused, instead of reading other elements than those asked for. -/
theorem fromLue_stride_throws {α : Type} (d : H5 α) (h : Hyperslab) (p0 p1 : Nat) (time : Option Nat)
    (garbage : Nat → Nat → α) (groups : List (Nat × List Nat)) (hs : ∃ n ∈ h.stride, n ≠ 1) :
    fromLue d h p0 p1 time garbage groups = .error .thrown := by
  obtain ⟨n, hn, h1⟩ := hs
  have : h.stride.all (· == 1) = false := by
    rw [List.all_eq_false]
    exact ⟨n, hn, by simpa using h1⟩
  simp [fromLue, hyperslabToShape, this, Bind.bind, Except.bind]

/-- C29: reading (a hyperslab of) an array yields the values stored, whatever the partition shape, the memory contents
of the new partitions, the distribution of the partitions over localities and the order in which these read. -/
theorem fromLue_represents {α : Type} {d : H5 α} {s0 s1 a0 a1 p0 p1 : Nat} {time : Option Nat}
    (hg : Grid.Ok ⟨a0, a1, p0, p1⟩) (hr : Room d.shape time (s0 + a0) (s1 + a1)) (garbage : Nat → Nat → α)
    (loc : Nat → Nat) {groups : List (Nat × List Nat)}
    (ho : groups.Perm (idxsByLocality loc (a0 / p0 * (a1 / p1)))) :
    ∃ y, fromLue d (.ofCount [s0, s1] [a0, a1]) p0 p1 time garbage groups = .ok y ∧ y.grid = ⟨a0, a1, p0, p1⟩ ∧
      Represents y fun i j => contents d time (s0 + i) (s1 + j) := by
  have hsh : hyperslabToShape (.ofCount [s0, s1] [a0, a1]) = .ok [a0, a1] := rfl
  have hord : IsOrder (a0 / p0 * (a1 / p1)) (groups.flatMap (·.2)) :=
    (ho.flatMap_right _).trans (idxsByLocality_perm loc _)
  refine ⟨_, ?_, rfl, partOf_represents hg _⟩
  unfold fromLue
  rw [hsh, M.bind_ok]
  simp only
  rw [if_pos ⟨hg.pos0, hg.pos1, hg.le0, hg.le1⟩]
  have hstart : (Hyperslab.ofCount [s0, s1] [a0, a1]).start = [s0, s1] := rfl
  rw [hstart]
  refine fromLueInto_ok (x := ⟨⟨a0, a1, p0, p1⟩, _⟩) hg hr (by simp) ?_ hord
  intro k p hp
  simp only [List.getElem?_map] at hp
  cases hk : (List.range (Grid.n0 ⟨a0, a1, p0, p1⟩ * Grid.n1 ⟨a0, a1, p0, p1⟩))[k]? with
  | none => simp [hk] at hp
  | some k' =>
    have : k' = k := by
      obtain ⟨_, h⟩ := List.getElem?_eq_some_iff.mp hk
      simpa using h.symm
    subst this
    simp only [hk, Option.map_some, Option.some.injEq] at hp
    rw [← hp]; simp [uninitialised]

/-- C29: round trip. An array written to a dataset, partitioned and written in any way, is read back, partitioned and
read in any way. Any hyperslab of it can be read. -/
theorem roundtrip {α : Type} {d : H5 α} {x : PArr α} {v : Arr α} (hx : Represents x v) {time : Option Nat}
    (hr : Room d.shape time x.grid.a0 x.grid.a1) {order : List Nat} (ho : IsOrder (x.grid.n0 * x.grid.n1) order)
    {s0 s1 a0 a1 p0 p1 : Nat} (hg : Grid.Ok ⟨a0, a1, p0, p1⟩) (h0 : s0 + a0 ≤ x.grid.a0) (h1 : s1 + a1 ≤ x.grid.a1)
    (garbage : Nat → Nat → α) (loc : Nat → Nat) {groups : List (Nat × List Nat)}
    (hgr : groups.Perm (idxsByLocality loc (a0 / p0 * (a1 / p1)))) :
    ∃ d' y, toLue d x time order = .ok d' ∧
      fromLue d' (.ofCount [s0, s1] [a0, a1]) p0 p1 time garbage groups = .ok y ∧ y.grid = ⟨a0, a1, p0, p1⟩ ∧
      Represents y fun i j => v (s0 + i) (s1 + j) := by
  obtain ⟨d', hw, hs⟩ := toLue_stores hx hr ho
  obtain ⟨y, hy, hyg, hrep⟩ := fromLue_represents (d := d') hg
    (by rw [hs.shape]; exact hr.mono h0 h1) garbage loc hgr
  refine ⟨d', y, hw, hy, hyg, hrep.ok, hrep.nr_parts, hrep.part_size, ?_⟩
  intro i j k0 k1 l0 l1 hc
  have hlt := hc.lt hrep.ok
  have ha0 : y.grid.a0 = a0 := by rw [hyg]
  have ha1 : y.grid.a1 = a1 := by rw [hyg]
  rw [hrep.elem i j k0 k1 l0 l1 hc, hs.cells _ _ (by omega) (by omega)]

/-- C29: round trip of a whole array. -/
theorem roundtrip_all {α : Type} {d : H5 α} {x : PArr α} {v : Arr α} (hx : Represents x v) {time : Option Nat}
    (hr : Room d.shape time x.grid.a0 x.grid.a1) {order : List Nat} (ho : IsOrder (x.grid.n0 * x.grid.n1) order)
    {p0 p1 : Nat} (hg : Grid.Ok ⟨x.grid.a0, x.grid.a1, p0, p1⟩) (garbage : Nat → Nat → α) (loc : Nat → Nat)
    {groups : List (Nat × List Nat)} (hgr : groups.Perm (idxsByLocality loc (x.grid.a0 / p0 * (x.grid.a1 / p1)))) :
    ∃ d' y, toLue d x time order = .ok d' ∧
      fromLueAll d' [x.grid.a0, x.grid.a1] p0 p1 time garbage groups = .ok y ∧
      y.grid = ⟨x.grid.a0, x.grid.a1, p0, p1⟩ ∧ Represents y v := by
  obtain ⟨d', y, h1, h2, h3, h4⟩ := roundtrip hx hr ho (s0 := 0) (s1 := 0) hg (by omega) (by omega) garbage loc hgr
  exact ⟨d', y, h1, h2, h3, by simpa using h4⟩

theorem fromLue_fails_partitionShape {α : Type} {d : H5 α} {s0 s1 a0 a1 p0 p1 : Nat} {time : Option Nat}
    (hg : ¬ Grid.Ok ⟨a0, a1, p0, p1⟩) (garbage : Nat → Nat → α) (groups : List (Nat × List Nat)) :
    fromLue d (.ofCount [s0, s1] [a0, a1]) p0 p1 time garbage groups = .error .thrown := by
  have hsh : hyperslabToShape (.ofCount [s0, s1] [a0, a1]) = .ok [a0, a1] := rfl
  unfold fromLue
  rw [hsh, M.bind_ok]
  simp only
  rw [if_neg]
  rintro ⟨h1, h2, h3, h4⟩
  exact hg ⟨h1, h2, h3, h4⟩

theorem mapM_error {β γ : Type} {f : β → M γ} {e : Err} : ∀ l : List β,
    (∀ x ∈ l, (∃ y, f x = .ok y) ∨ f x = .error e) → (∃ x ∈ l, f x = .error e) → l.mapM f = .error e := by
  intro l
  induction l with
  | nil => rintro _ ⟨x, hx, _⟩; simp at hx
  | cons a l ih =>
    intro h hex
    rw [List.mapM_cons]
    rcases h a List.mem_cons_self with ⟨y, hy⟩ | he
    · rw [hy, M.bind_ok, ih (fun x hx => h x (List.mem_cons_of_mem _ hx))]
      · rfl
      · obtain ⟨x, hx, hxe⟩ := hex
        rcases List.mem_cons.mp hx with rfl | hx
        · rw [hy] at hxe; cases hxe
        · exact ⟨x, hx, hxe⟩
    · rw [he]; rfl

/-- C29: reading a hyperslab which is not within the array, or at a time step which does not exist, throws. -/
theorem fromLue_fails_noRoom {α : Type} {d : H5 α} {s0 s1 a0 a1 p0 p1 : Nat} {time : Option Nat}
    (hr : ¬ Room d.shape time (s0 + a0) (s1 + a1)) (garbage : Nat → Nat → α)
    (loc : Nat → Nat) {groups : List (Nat × List Nat)}
    (ho : groups.Perm (idxsByLocality loc (a0 / p0 * (a1 / p1)))) :
    fromLue d (.ofCount [s0, s1] [a0, a1]) p0 p1 time garbage groups = .error .thrown := by
  by_cases hg : Grid.Ok ⟨a0, a1, p0, p1⟩
  case neg => exact fromLue_fails_partitionShape hg garbage groups
  have hsh : hyperslabToShape (.ofCount [s0, s1] [a0, a1]) = .ok [a0, a1] := rfl
  have hstart : (Hyperslab.ofCount [s0, s1] [a0, a1]).start = [s0, s1] := rfl
  have hord : IsOrder (a0 / p0 * (a1 / p1)) (groups.flatMap (·.2)) :=
    (ho.flatMap_right _).trans (idxsByLocality_perm loc _)
  unfold fromLue
  rw [hsh, M.bind_ok]
  simp only
  rw [if_pos ⟨hg.pos0, hg.pos1, hg.le0, hg.le1⟩, hstart]
  unfold fromLueInto
  simp only
  obtain ⟨k, hk, e0, e1⟩ := last_part hg
  have hk' : k ∈ groups.flatMap (·.2) := hord.mem_iff.mpr (List.mem_range.mpr hk)
  have hlt : ∀ j ∈ groups.flatMap (·.2), j < Grid.n0 ⟨a0, a1, p0, p1⟩ * Grid.n1 ⟨a0, a1, p0, p1⟩ := fun j hj =>
    List.mem_range.mp (hord.mem_iff.mp hj)
  generalize hgg : (⟨a0, a1, p0, p1⟩ : Grid) = g at *
  have ea0 : g.a0 = a0 := by rw [← hgg]
  have ea1 : g.a1 = a1 := by rw [← hgg]
  clear ho hord
  generalize hP : (List.range (g.n0 * g.n1)).map (fun k =>
    uninitialised (g.rows (k / g.n1) * g.cols (k % g.n1)) (garbage k)) = parts0
  have hpart : ∀ j < g.n0 * g.n1, parts0[j]? =
      some (uninitialised (g.rows (j / g.n1) * g.cols (j % g.n1)) (garbage j)) := by
    intro j hj; rw [← hP]; simp [hj]
  have hread : ∀ j < g.n0 * g.n1, (∃ y, (do
      let buffer ← rd parts0 j
      h5Read d (partitionHyperslab g [s0, s1] time j) buffer) = .ok y) ∨ (do
      let buffer ← rd parts0 j
      h5Read d (partitionHyperslab g [s0, s1] time j) buffer) = .error .thrown := by
    intro j hj
    rw [rd_ok (hpart j hj), M.bind_ok]
    by_cases hf : (partitionHyperslab g [s0, s1] time j).fits d.shape = true
    · left
      unfold h5Read
      rw [if_pos hf, nrElements_count]
      have := forLoop_write (n := g.rows (j / g.n1) * g.cols (j % g.n1))
        (fun n => d.data ((partitionHyperslab g [s0, s1] time j).coord n))
        (fun n b => wr b n (d.data ((partitionHyperslab g [s0, s1] time j).coord n)))
        (fun i hi out hl => wr_ok _ (by omega)) _ (show (uninitialised (g.rows (j / g.n1) * g.cols (j % g.n1))
          (garbage j)).length = _ by simp [uninitialised])
      exact ⟨_, this⟩
    · right
      unfold h5Read
      rw [if_neg hf]
  have hbad : (do
      let buffer ← rd parts0 k
      h5Read d (partitionHyperslab g [s0, s1] time k) buffer) = .error .thrown := by
    rw [rd_ok (hpart k hk), M.bind_ok]
    refine h5Read_error hg ?_ _
    rw [Nat.add_assoc, Nat.add_assoc, e0, e1, ea0, ea1]
    exact hr
  have key : ∀ (groups : List (Nat × List Nat)) (parts : List (List α)), k ∈ groups.flatMap (·.2) →
      (∀ j ∈ groups.flatMap (·.2), j < g.n0 * g.n1) → parts.length = g.n0 * g.n1 →
      groups.foldlM (fun parts e => do
        let read ← readPartitions d g [s0, s1] time parts0 e.2
        storePartitions parts e.2 read) parts = (.error .thrown : M _) := by
    intro groups
    induction groups with
    | nil => intro parts h; simp at h
    | cons e groups ih =>
      intro parts hk hlt hlen
      simp only [List.flatMap_cons, List.mem_append] at hk hlt
      rw [List.foldlM_cons]
      by_cases hex : ∃ j ∈ e.2, (do
          let buffer ← rd parts0 j
          h5Read d (partitionHyperslab g [s0, s1] time j) buffer) = .error .thrown
      · have : readPartitions d g [s0, s1] time parts0 e.2 = .error .thrown :=
          mapM_error _ (fun j hj => hread j (hlt j (.inl hj))) hex
        rw [this]; rfl
      · push Not at hex
        let f : Nat → List α := fun j => match (do
          let buffer ← rd parts0 j
          h5Read d (partitionHyperslab g [s0, s1] time j) buffer) with | .ok y => y | .error _ => []
        have hok : readPartitions d g [s0, s1] time parts0 e.2 = .ok (e.2.map f) := by
          apply Focal.mapM_ok
          intro j hj
          rcases hread j (hlt j (.inl hj)) with ⟨y, hy⟩ | he
          · simp only [f, hy]
          · exact absurd he (hex j hj)
        obtain ⟨p1, h2, hl1, _⟩ := storePartitions_ok f e.2 parts (fun j hj => by
          have := hlt j (.inl hj); omega)
        rw [hok]
        simp only [M.bind_ok]
        rw [h2]
        refine ih p1 ?_ (fun j hj => hlt j (.inr hj)) (by omega)
        rcases hk with hk | hk
        · exact absurd hbad (hex k hk)
        · exact hk
  rw [key groups parts0 hk' hlt (by rw [← hP]; simp)]
  rfl

/-- C29: writes at different time steps are independent: after any sequence of writes of arrays at time steps, the array
stored at a time step is the one written last, and time steps not written to are unchanged. -/
theorem toLue_history {α : Type} (a0 a1 : Nat) (writes : List (Nat × PArr α × Arr α × List Nat)) : ∀ (d : H5 α),
    (∀ w ∈ writes, Represents w.2.1 w.2.2.1 ∧ w.2.1.grid.a0 = a0 ∧ w.2.1.grid.a1 = a1 ∧
      Room d.shape (some w.1) a0 a1 ∧ IsOrder (w.2.1.grid.n0 * w.2.1.grid.n1) w.2.2.2) →
    ∃ d', writes.foldlM (fun d w => toLue d w.2.1 (some w.1) w.2.2.2) d = .ok d' ∧ d'.shape = d.shape ∧
      ∀ t i j, i < a0 → j < a1 → contents d' (some t) i j =
        match writes.reverse.find? fun w => w.1 = t with
        | some w => w.2.2.1 i j
        | none => contents d (some t) i j := by
  induction writes with
  | nil => intro d _; exact ⟨d, rfl, rfl, by simp⟩
  | cons w writes ih =>
    intro d h
    obtain ⟨hx, e0, e1, hr, ho⟩ := h w List.mem_cons_self
    obtain ⟨d1, hd1, hs⟩ := toLue_stores hx (by rw [e0, e1]; exact hr) ho
    obtain ⟨d', hd', hsh, hc⟩ := ih d1 (fun w' hw' => by
      rw [hs.shape]; exact h w' (List.mem_cons_of_mem _ hw'))
    refine ⟨d', by rw [List.foldlM_cons, hd1]; exact hd', by rw [hsh, hs.shape], ?_⟩
    intro t i j hi hj
    rw [hc t i j hi hj, List.reverse_cons, List.find?_append]
    cases hf : writes.reverse.find? fun w => w.1 = t with
    | some w' => simp
    | none =>
      simp only [Option.none_or]
      by_cases ht : w.1 = t
      · subst ht
        simp only [List.find?_cons, decide_true]
        exact hs.cells i j (by omega) (by omega)
      · simp only [List.find?_cons, ht, decide_false, List.find?_nil]
        refine hs.other _ ?_
        intro i' j' _ _ he
        simp only [cellAt, List.cons.injEq] at he
        exact ht he.2.1.symm

/-- Hyperslabs of different time steps do not overlap. -/
theorem timeSteps_disjoint {t t' i j i' j' : Nat} (h : t ≠ t') : cellAt (some t) i j ≠ cellAt (some t') i' j' := by
  intro he
  simp only [cellAt, List.cons.injEq] at he
  exact h he.2.1

/-! ### A concrete case -/

/-- A 5 × 4 array in partitions of 2 × 3, written at time step 2, read back in partitions of 3 × 1. -/
example : ∃ d' y, toLue ⟨[1, 3, 5, 4], fun _ => 0⟩ (store ⟨5, 4, 2, 3⟩ fun i j => 10 * i + j) (some 2) [1, 0] = .ok d' ∧
    fromLueAll d' [5, 4] 3 1 (some 2) (fun _ _ => 999) [(1, [2, 3]), (0, [0, 1])] = .ok y ∧
    y.parts = [[0, 10, 20, 30, 40], [1, 11, 21, 31, 41], [2, 12, 22, 32, 42], [3, 13, 23, 33, 43]] := by
  refine ⟨_, _, rfl, rfl, ?_⟩
  decide

example : Room [1, 3, 5, 4] (some 2) 5 4 := ⟨1, 3, 5, 4, rfl, by omega, by omega, by omega, by omega⟩

end Lue.LueIO

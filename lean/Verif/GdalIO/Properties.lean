import Verif.GdalIO.Spec

/-!
# C40: rasters are read and written cell by cell, whatever the partitions, localities and order
-/
namespace Lue.GdalIO

open Lue.Create

/-! ### Hyperslabs -/

theorem halfCount_eq (count : Nat) : halfCount count = count / 2 := by
  unfold halfCount; split <;> omega

/-- C40: a hyperslab can be created if and only if the cells around the center start at valid indices. It then contains
these cells. -/
theorem hyperslab_make (center : Int × Int) (shape : Nat × Nat) (h : Hyperslab) :
    Hyperslab.make center shape = .ok h ↔
      h.counts = shape ∧ (h.offsets.1 : Int) = windowStart center.1 shape.1 ∧
        (h.offsets.2 : Int) = windowStart center.2 shape.2 := by
  simp only [Hyperslab.make, halfCount_eq, windowStart]
  rcases h with ⟨⟨o0, o1⟩, counts⟩
  split
  · rename_i hc
    simp only [Except.ok.injEq, Hyperslab.mk.injEq, Prod.mk.injEq]
    constructor
    · rintro ⟨⟨rfl, rfl⟩, rfl⟩; refine ⟨rfl, by omega, by omega⟩
    · rintro ⟨rfl, h0, h1⟩; refine ⟨⟨by omega, by omega⟩, rfl⟩
  · rename_i hc
    constructor
    · intro h; cases h
    · rintro ⟨rfl, h0, h1⟩; exact absurd ⟨by omega, by omega⟩ hc

/-- A hyperslab with cells fits in a raster if and only if its last row and column are in the raster. -/
theorem isContainedBy_iff (h : Hyperslab) (shape : Nat × Nat) (_h0 : 0 < h.counts.1) (_h1 : 0 < h.counts.2) :
    h.isContainedBy shape = true ↔ h.offsets.1 + h.counts.1 ≤ shape.1 ∧ h.offsets.2 + h.counts.2 ≤ shape.2 := by
  simp only [Hyperslab.isContainedBy, Bool.and_eq_true, decide_eq_true_eq]
  omega

/-! ### GDAL -/

theorem toInt_eq {n : Nat} (h : n < 2 ^ 31) : toInt n = n := by
  unfold toInt
  rw [if_pos (by omega), Nat.mod_eq_of_lt (by omega)]

theorem rasterRead_ok {α γ : Type} {r : Raster α γ} {o0 o1 s0 s1 : Nat} (h0 : 0 < s0) (h1 : 0 < s1)
    (hr : o0 + s0 ≤ r.rows) (hc : o1 + s1 ≤ r.cols) {buffer : List α} (hb : buffer.length = s0 * s1) :
    ∃ out, rasterRead r o0 o1 s0 s1 buffer = .ok out ∧ out.length = s0 * s1 ∧
      ∀ i j, i < s0 → j < s1 → out[i * s1 + j]? = some (r.cells (o0 + i) (o1 + j)) := by
  obtain ⟨out, e1, e2, e3⟩ := forLoop2_write (n0 := s0) (n1 := s1) (fun i j => r.cells (o0 + i) (o1 + j))
    (fun i j (s : List α × Nat) => do
      let b ← wr s.1 s.2 (r.cells (o0 + i) (o1 + j))
      .ok (b, s.2 + 1))
    (by
      intro i hi j hj out hl
      simp only
      rw [wr_ok _ (by rw [hl]; exact idx_lt hi hj)]; rfl) buffer hb
  refine ⟨out, ?_, e2, e3⟩
  have hw : withinRaster r.rows r.cols (o0 : Int) o1 s0 s1 = true := by
    simp only [withinRaster, Bool.and_eq_true, decide_eq_true_eq]; omega
  rw [rasterRead, if_neg (by omega), if_pos hw]
  simp only [Int.toNat_natCast]
  rw [e1]; rfl

theorem rasterWrite_ok {α γ : Type} {r : Raster α γ} {o0 o1 s0 s1 : Nat} (h0 : 0 < s0) (h1 : 0 < s1)
    (hr : o0 + s0 ≤ r.rows) (hc : o1 + s1 ≤ r.cols) {buffer : List α} {v : Arr α}
    (hb : ∀ i j, i < s0 → j < s1 → buffer[i * s1 + j]? = some (v (o0 + i) (o1 + j))) :
    ∃ cells, rasterWrite r o0 o1 s0 s1 buffer = .ok { r with cells := cells } ∧
      ∀ i j, cells i j = if (o0 ≤ i ∧ i < o0 + s0) ∧ o1 ≤ j ∧ j < o1 + s1 then v i j else r.cells i j := by
  have hw : withinRaster r.rows r.cols (o0 : Int) o1 s0 s1 = true := by
    simp only [withinRaster, Bool.and_eq_true, decide_eq_true_eq]; omega
  rw [rasterWrite, if_neg (by omega), if_pos hw]
  simp only [Int.toNat_natCast]
  obtain ⟨s, e1, e2, e3⟩ := forLoop_inv (n := s0)
    (inv := fun i (s : (Nat → Nat → α) × Nat) => s.2 = i * s1 ∧
      ∀ i' j', s.1 i' j' = if (o0 ≤ i' ∧ i' < o0 + i) ∧ o1 ≤ j' ∧ j' < o1 + s1 then v i' j' else r.cells i' j')
    (body := fun i s => forLoop s1 (fun j (s : (Nat → Nat → α) × Nat) => do
      let x ← rd buffer s.2
      .ok ((fun i' j' => if i' = o0 + i ∧ j' = o1 + j then x else s.1 i' j'), s.2 + 1)) s)
    (by
      rintro i hi ⟨cells, e⟩ ⟨he, hcells⟩
      obtain ⟨s', f1, f2, f3⟩ := forLoop_inv (n := s1)
        (inv := fun j (s : (Nat → Nat → α) × Nat) => s.2 = i * s1 + j ∧
          ∀ i' j', s.1 i' j' = if i' = o0 + i ∧ o1 ≤ j' ∧ j' < o1 + j then v i' j' else cells i' j')
        (body := fun j (s : (Nat → Nat → α) × Nat) => do
          let x ← rd buffer s.2
          .ok ((fun i' j' => if i' = o0 + i ∧ j' = o1 + j then x else s.1 i' j'), s.2 + 1))
        (by
          rintro j hj ⟨cells', e'⟩ ⟨he', hcells'⟩
          simp only at he' hcells'
          subst he'
          simp only
          rw [rd_ok (hb i j hi hj), M.bind_ok]
          refine ⟨_, rfl, rfl, ?_⟩
          intro i' j'
          simp only
          rw [hcells']
          by_cases hij : i' = o0 + i ∧ j' = o1 + j
          · rw [if_pos hij, if_pos (by omega), hij.1, hij.2]
          · rw [if_neg hij]
            by_cases hin : i' = o0 + i ∧ o1 ≤ j' ∧ j' < o1 + j
            · rw [if_pos hin, if_pos (by omega)]
            · rw [if_neg hin, if_neg (by omega)])
        (cells, e) ⟨by simpa using he, by
          intro i' j'; rw [if_neg (by omega)]⟩
      refine ⟨s', f1, by rw [f2, Nat.add_mul, Nat.one_mul], ?_⟩
      intro i' j'
      rw [f3]
      simp only at hcells
      rw [hcells]
      by_cases hii : i' = o0 + i ∧ o1 ≤ j' ∧ j' < o1 + s1
      · rw [if_pos hii, if_pos (by omega)]
      · rw [if_neg hii]
        by_cases hin : (o0 ≤ i' ∧ i' < o0 + i) ∧ o1 ≤ j' ∧ j' < o1 + s1
        · rw [if_pos hin, if_pos (by omega)]
        · rw [if_neg hin, if_neg (by omega)])
    (r.cells, 0) ⟨by simp, by intro i' j'; rw [if_neg (by omega)]⟩
  refine ⟨s.1, ?_, e3⟩
  rw [e1]; rfl

/-! ### Reading -/

/-- Conversion of a raster value. -/
def convert {α : Type} (T : ElementType α) (noData : Option α) (x : α) : α :=
  if (selectPolicies T noData).isNoData x then (selectPolicies T noData).markNoData x else x

theorem convert_reads {α : Type} {T : ElementType α} (hT : T.Lawful) (noData : Option α) (x : α) :
    Reads T noData x (convert T noData x) := by
  cases noData with
  | none =>
    refine ⟨?_, fun _ => rfl⟩
    rintro ⟨v, hv, _⟩; cases hv
  | some nd =>
    have hm : Missing T (some nd) x ↔ (T.eq x nd = true ∨ (T.isNaN x = true ∧ T.isNaN nd = true)) := by
      constructor
      · rintro ⟨v, hv, h⟩; cases hv; exact h
      · intro h; exact ⟨nd, rfl, h⟩
    rw [Reads, hm]
    unfold convert selectPolicies
    by_cases hf : (T.floating && T.isNaN nd) = true
    · simp only [hf, if_true, valuePolicies]
      simp only [Bool.and_eq_true] at hf
      by_cases hx : T.isNaN x = true
      · simp [hx, hf.2]
      · rw [if_neg hx]
        refine ⟨?_, fun _ => rfl⟩
        rintro (h | h)
        · rw [hT.nan_eq _ _ (Or.inr hf.2)] at h; cases h
        · exact absurd h.1 hx
    · simp only [hf, specialValuePolicy]
      by_cases he : T.eq x nd = true
      · simp [he]
      · simp only [he, if_false, Bool.false_eq_true]
        refine ⟨?_, fun _ => trivial⟩
        rintro (h | h)
        · exact absurd h (by simp)
        · exfalso
          cases hfl : T.floating with
          | true => exact hf (by simp [hfl, h.2])
          | false => have := hT.integral_nan hfl nd; rw [h.2] at this; cases this

theorem rows_pos {g : Grid} (hg : g.Ok) (k : Nat) : 0 < g.rows k := Decomposition.Dim.extent_pos hg.pos0 k
theorem cols_pos {g : Grid} (hg : g.Ok) (k : Nat) : 0 < g.cols k := Decomposition.Dim.extent_pos hg.pos1 k

theorem rows_end {g : Grid} (hg : g.Ok) {k : Nat} (h : k < g.n0) : k * g.p0 + g.rows k ≤ g.a0 := by
  have hp := rows_pos hg k
  have := Decomposition.Dim.decompose_lt (l := g.rows k - 1) hg.pos0 hg.le0 h
    (show _ < g.rows k by omega)
  omega

theorem cols_end {g : Grid} (hg : g.Ok) {k : Nat} (h : k < g.n1) : k * g.p1 + g.cols k ≤ g.a1 := by
  have hp := cols_pos hg k
  have := Decomposition.Dim.decompose_lt (l := g.cols k - 1) hg.pos1 hg.le1 h
    (show _ < g.cols k by omega)
  omega

/-- Reading a partition. -/
theorem readPartition_ok {α γ : Type} {r : Raster α γ} {policies : Policies α} {h0 h1 : Nat} {g : Grid} (hg : g.Ok)
    (hr : h0 + g.a0 ≤ r.rows) (hc : h1 + g.a1 ≤ r.cols) (hsr : r.rows < 2 ^ 31) (hsc : r.cols < 2 ^ 31)
    {k : Nat} (hk : k < g.n0 * g.n1) (garbage : Nat → α) :
    ∃ data, readPartition r policies (h0, h1) (offsetOf g k) (shapeOf g k) garbage =
        .ok ⟨offsetOf g k, shapeOf g k, data⟩ ∧ data.length = (shapeOf g k).1 * (shapeOf g k).2 ∧
      ∀ i j, i < (shapeOf g k).1 → j < (shapeOf g k).2 →
        data[i * (shapeOf g k).2 + j]? = some (
          if policies.isNoData (r.cells (h0 + (offsetOf g k).1 + i) (h1 + (offsetOf g k).2 + j)) then
            policies.markNoData (r.cells (h0 + (offsetOf g k).1 + i) (h1 + (offsetOf g k).2 + j))
          else r.cells (h0 + (offsetOf g k).1 + i) (h1 + (offsetOf g k).2 + j)) := by
  obtain ⟨hk0, hk1, _⟩ := idx_split hk
  have b0 := rows_end hg hk0
  have b1 := cols_end hg hk1
  have q0 := rows_pos hg (k / g.n1)
  have q1 := cols_pos hg (k % g.n1)
  simp only [offsetOf, shapeOf]
  obtain ⟨out, e1, e2, e3⟩ := rasterRead_ok (r := r) (o0 := h0 + k / g.n1 * g.p0) (o1 := h1 + k % g.n1 * g.p1)
    (s0 := g.rows (k / g.n1)) (s1 := g.cols (k % g.n1)) q0 q1 (by omega) (by omega)
    (buffer := uninitialised (g.rows (k / g.n1) * g.cols (k % g.n1)) garbage) (by simp [uninitialised])
  refine ⟨out.map fun value => if policies.isNoData value then policies.markNoData value else value, ?_, ?_, ?_⟩
  · rw [readPartition]
    simp only
    rw [toInt_eq (by omega), toInt_eq (by omega), toInt_eq (by omega), toInt_eq (by omega), e1, M.bind_ok]
  · simp [e2]
  · intro i j hi hj
    simp only [List.getElem?_map, e3 i j hi hj, Option.map_some]
    rfl

/-- Reading the partitions of a locality: each of them. -/
theorem readPartitionPerLocality_ok {α γ : Type} {r : Raster α γ} {policies : Policies α} {h : Nat × Nat} {g : Grid}
    {ks : List Nat} (hne : ks ≠ []) (garbage : Nat → Nat → α) {f : Nat → Part α}
    (hf : ∀ k ∈ ks, ∀ gb, readPartition r policies h (offsetOf g k) (shapeOf g k) gb = .ok (f k)) :
    readPartitionPerLocality r policies h (ks.map (offsetOf g)) (ks.map (shapeOf g)) garbage = .ok (ks.map f) := by
  cases ks with
  | nil => exact absurd rfl hne
  | cons k ks =>
    simp only [List.map_cons, readPartitionPerLocality, List.length_map]
    rw [hf k (by simp), M.bind_ok]
    have key : ∀ n ≤ ks.length, forLoop n (fun idx (ps : List (Part α)) => do
        let partitionOffset ← rd (ks.map (offsetOf g)) idx
        let partitionShape ← rd (ks.map (shapeOf g)) idx
        let p ← readPartition r policies h partitionOffset partitionShape (garbage (idx + 1))
        .ok (ps ++ [p])) [] = .ok ((ks.take n).map f) := by
      intro n
      induction n with
      | zero => intro _; rfl
      | succ n ih =>
        intro hn
        unfold forLoop at ih ⊢
        have hk : ks[n]? = some ks[n] := by simp
        rw [List.range_succ, List.foldlM_append, ih (by omega)]
        simp only [M.bind_ok, List.foldlM_cons, List.foldlM_nil]
        rw [rd_ok (x := offsetOf g ks[n]) (by simp [hk]), M.bind_ok, rd_ok (x := shapeOf g ks[n]) (by simp [hk]),
          M.bind_ok, hf _ (by simp), M.bind_ok, M.bind_ok, List.take_add_one, hk]
        simp only [Option.toList_some, List.map_append, List.map_cons, List.map_nil]
        rfl
    rw [key _ (Nat.le_refl _), M.bind_ok, List.take_length]

/-- Reading a rectangle of a raster. -/
theorem read_ok {α γ : Type} {T : ElementType α} {r : Raster α γ} {h0 h1 : Nat} {g : Grid} (hg : g.Ok)
    (hr : h0 + g.a0 ≤ r.rows) (hc : h1 + g.a1 ≤ r.cols) (hsr : r.rows < 2 ^ 31) (hsc : r.cols < 2 ^ 31)
    {nrLocalities : Nat} (hl : 0 < nrLocalities) (hn : nrLocalities ≤ g.n0 * g.n1) (garbage : Nat → Nat → Nat → α) :
    ∃ x, createPerLocality (g.a0, g.a1) (g.p0, g.p1) nrLocalities (fun locality offsets shapes =>
        readPartitionPerLocality r (selectPolicies T r.noData) (h0, h1) offsets shapes (garbage locality)) = .ok x ∧
      Holds x g (fun i j => convert T r.noData (r.cells (h0 + i) (h1 + j))) ∧
      ∃ loc, LocalitiesAlongCurve g nrLocalities loc ∧ x.localities = (List.range (g.n0 * g.n1)).map loc := by
  -- The partitions don't depend on the contents of uninitialised memory
  have hex : ∀ k, ∃ p : Part α, k < g.n0 * g.n1 → ∀ gb,
      readPartition r (selectPolicies T r.noData) (h0, h1) (offsetOf g k) (shapeOf g k) gb = .ok p := by
    intro k
    by_cases hk : k < g.n0 * g.n1
    · obtain ⟨d, hd, hlen, hv⟩ := readPartition_ok (policies := selectPolicies T r.noData) hg hr hc hsr hsc hk
        (fun _ => T.noData)
      refine ⟨⟨offsetOf g k, shapeOf g k, d⟩, fun _ gb => ?_⟩
      · obtain ⟨d', hd', hlen', hv'⟩ := readPartition_ok (policies := selectPolicies T r.noData) hg hr hc hsr hsc hk gb
        rw [hd']
        have : d' = d := by
          apply List.ext_getElem?
          intro e
          by_cases he : e < (shapeOf g k).1 * (shapeOf g k).2
          · obtain ⟨s0, s1, hs⟩ := idx_split he
            rw [← hs, hv _ _ s0 s1, hv' _ _ s0 s1]
          · rw [List.getElem?_eq_none (by omega), List.getElem?_eq_none (by omega)]
        rw [this]
    · exact ⟨⟨(0, 0), (0, 0), []⟩, fun h => absurd h hk⟩
  obtain ⟨part, hpart⟩ := Classical.axiomOfChoice hex
  obtain ⟨loc, hloc, hcr⟩ := createPerLocality_ok hg hl hn
    (instantiate := fun locality offsets shapes =>
      readPartitionPerLocality r (selectPolicies T r.noData) (h0, h1) offsets shapes (garbage locality))
    (f := fun _ k => part k)
    (by
      intro l ks _ hne hks
      exact readPartitionPerLocality_ok hne _ (fun k hk gb => hpart k (hks k hk) gb))
  refine ⟨_, hcr, ?_, loc, hloc, rfl⟩
  have hp : ∀ k < g.n0 * g.n1, (part k).offset = offsetOf g k ∧ (part k).shape = shapeOf g k ∧
      (part k).data.length = (shapeOf g k).1 * (shapeOf g k).2 ∧
      ∀ i j, i < (shapeOf g k).1 → j < (shapeOf g k).2 →
        (part k).data[i * (shapeOf g k).2 + j]? =
          some (convert T r.noData (r.cells (h0 + (offsetOf g k).1 + i) (h1 + (offsetOf g k).2 + j))) := by
    intro k hk
    obtain ⟨d, hd, hlen, hv⟩ := readPartition_ok (policies := selectPolicies T r.noData) hg hr hc hsr hsc hk
      (fun _ => T.noData)
    rw [hpart k hk, Except.ok.injEq] at hd
    rw [hd]
    exact ⟨rfl, rfl, hlen, hv⟩
  refine holds_of_parts hg (fun k hk => ⟨(hp k hk).1, (hp k hk).2.1⟩) ?_
  intro k0 k1 hk0 hk1
  obtain ⟨_, _, h3, h4⟩ := hp _ (idx_lt hk0 hk1)
  simp only [offsetOf, shapeOf, idx_div hk1, idx_mod hk1] at h3 h4
  refine ⟨h3, fun l0 l1 hl0 hl1 => ?_⟩
  rw [h4 l0 l1 hl0 hl1, Nat.add_assoc, Nat.add_assoc]

/-! ### Writing -/

/-- The cell is in the partition. -/
def Part.Has {α : Type} (p : Part α) (i j : Nat) : Prop :=
  (p.offset.1 ≤ i ∧ i < p.offset.1 + p.shape.1) ∧ p.offset.2 ≤ j ∧ j < p.offset.2 + p.shape.2

theorem take_rotateOut {β : Type} (l : List β) (idx n : Nat) (hl : l.length = n + 1) (hi : idx < n + 1) :
    (rotateOut l idx (n + 1)).take n = l.eraseIdx idx := by
  have h1 : (l.take idx ++ (l.take (n + 1)).drop (idx + 1)) = l.eraseIdx idx := by
    rw [List.take_of_length_le (l := l) (i := n + 1) (by omega), List.eraseIdx_eq_take_drop_succ]
  unfold rotateOut
  rw [h1, List.append_assoc, List.take_append_of_le_length, List.take_of_length_le]
  · rw [List.length_eraseIdx_of_lt (by omega)]; omega
  · rw [List.length_eraseIdx_of_lt (by omega)]; omega

theorem rotateOut_length {β : Type} (l : List β) (idx n : Nat) (hl : l.length = n + 1) (hi : idx < n + 1) :
    (rotateOut l idx (n + 1)).length = n + 1 := by
  simp only [rotateOut, List.length_append, List.length_take, List.length_drop]
  omega

/-- The partitions are written one by one, each one of them once. -/
theorem writeLoop_order {α γ : Type} {ready : List (Part α) → Nat} (hready : ∀ l, l ≠ [] → ready l < l.length) :
    ∀ (n : Nat) (partitions : List (Part α)) (r : Raster α γ), n ≤ partitions.length →
      ∃ order : List (Part α), order.Perm (partitions.take n) ∧
        writeLoop ready n partitions r = order.foldlM writePartition r := by
  intro n
  induction n with
  | zero => intro ps r _; exact ⟨[], by simp, rfl⟩
  | succ n ih =>
    intro ps r hn
    have hlen : (ps.take (n + 1)).length = n + 1 := by simp; omega
    have hi : ready (ps.take (n + 1)) < n + 1 := by
      have := hready (ps.take (n + 1)) (by intro h; rw [h] at hlen; simp at hlen)
      omega
    have hget : (ps.take (n + 1))[ready (ps.take (n + 1))]? =
        some ((ps.take (n + 1))[ready (ps.take (n + 1))]'(by omega)) := List.getElem?_eq_getElem (by omega)
    rw [writeLoop]
    rw [rd_ok hget, M.bind_ok]
    generalize hp : (ps.take (n + 1))[ready (ps.take (n + 1))]'(by omega) = p at hget
    cases hw : writePartition r p with
    | ok r' =>
      obtain ⟨order, ho, he⟩ := ih (rotateOut (ps.take (n + 1)) (ready (ps.take (n + 1))) (n + 1)) r'
        (by rw [rotateOut_length _ _ _ hlen hi]; omega)
      rw [take_rotateOut _ _ _ hlen hi] at ho
      refine ⟨p :: order, ?_, ?_⟩
      · refine (ho.cons p).trans ?_
        rw [← hp]
        exact List.getElem_cons_eraseIdx_perm _
      · rw [M.bind_ok, he, List.foldlM_cons, hw, M.bind_ok]
    | error e =>
      refine ⟨p :: (ps.take (n + 1)).eraseIdx (ready (ps.take (n + 1))), ?_, ?_⟩
      · rw [← hp]
        exact List.getElem_cons_eraseIdx_perm _
      · rw [List.foldlM_cons, hw]; rfl

/-- After writing some of the partitions of an array, the cells of these have been written, and others not. -/
theorem writePartitions_ok {α γ : Type} {x : Created α} {g : Grid} {v : Arr α} (hx : Holds x g v)
    (hs0 : g.a0 < 2 ^ 31) (hs1 : g.a1 < 2 ^ 31) :
    ∀ (l : List (Part α)) (r : Raster α γ), (∀ p ∈ l, p ∈ x.partitions) → r.rows = g.a0 → r.cols = g.a1 →
      ∃ cells, l.foldlM writePartition r = .ok { r with cells := cells } ∧
        (∀ i j, (∃ p ∈ l, Part.Has p i j) → cells i j = v i j) ∧
        (∀ i j, (¬ ∃ p ∈ l, Part.Has p i j) → cells i j = r.cells i j) := by
  intro l
  induction l with
  | nil => intro r _ _ _; exact ⟨r.cells, rfl, by simp, by simp⟩
  | cons p l ih =>
    intro r hl hr hc
    obtain ⟨k, hk⟩ := List.mem_iff_getElem?.1 (hl p (by simp))
    have hkn : k < g.n0 * g.n1 := by
      have h1 := (List.getElem?_eq_some_iff.1 hk).1
      have h2 := hx.represents.nr_parts
      simp only [List.length_map] at h2
      omega
    obtain ⟨p', hp', ho, hsh⟩ := hx.parts k hkn
    rw [hk] at hp'
    cases hp'
    obtain ⟨h0, h1, hsplit⟩ := idx_split hkn
    have b0 := rows_end hx.ok h0
    have b1 := cols_end hx.ok h1
    have q0 := rows_pos hx.ok (k / g.n1)
    have q1 := cols_pos hx.ok (k % g.n1)
    obtain ⟨d, hd, _, hv⟩ := hx.represents.part h0 h1
    rw [hsplit] at hd
    simp only [List.getElem?_map, hk, Option.map_some, Option.some.injEq] at hd
    rw [← hd] at hv
    obtain ⟨cells, e1, e2⟩ := rasterWrite_ok (r := r) (o0 := k / g.n1 * g.p0) (o1 := k % g.n1 * g.p1)
      (s0 := g.rows (k / g.n1)) (s1 := g.cols (k % g.n1)) q0 q1 (by omega) (by omega) (buffer := p.data) (v := v) hv
    have hw : writePartition r p = .ok { r with cells := cells } := by
      unfold writePartition
      rw [ho, hsh]
      simp only [offsetOf, shapeOf]
      rw [toInt_eq (by omega), toInt_eq (by omega), toInt_eq (by omega), toInt_eq (by omega), e1]
    have hhas : ∀ i j, Part.Has p i j ↔ (k / g.n1 * g.p0 ≤ i ∧ i < k / g.n1 * g.p0 + g.rows (k / g.n1)) ∧
        k % g.n1 * g.p1 ≤ j ∧ j < k % g.n1 * g.p1 + g.cols (k % g.n1) := by
      intro i j
      unfold Part.Has
      rw [ho, hsh]
      simp only [offsetOf, shapeOf]
    obtain ⟨cells', f1, f2, f3⟩ := ih { r with cells := cells } (fun q hq => hl q (by simp [hq])) hr hc
    refine ⟨cells', ?_, ?_, ?_⟩
    · rw [List.foldlM_cons, hw, M.bind_ok, f1]
    · intro i j hex
      by_cases hq : ∃ q ∈ l, Part.Has q i j
      · exact f2 i j hq
      · have hpij : Part.Has p i j := by
          obtain ⟨q, hq1, hq2⟩ := hex
          rcases List.mem_cons.1 hq1 with rfl | h
          · exact hq2
          · exact absurd ⟨q, h, hq2⟩ hq
        rw [f3 i j hq]
        simp only
        rw [e2, if_pos ((hhas i j).mp hpij)]
    · intro i j hnex
      rw [f3 i j (fun ⟨q, h, h'⟩ => hnex ⟨q, by simp [h], h'⟩)]
      simp only
      rw [e2, if_neg (fun h => hnex ⟨p, by simp, (hhas i j).mpr h⟩)]

/-! ### C40 -/

/-- C40: reading a raster results in an array of the same shape in which each element is the one expected given the
raster cell, for all shapes of the partitions, numbers of localities, and contents of uninitialised memory. -/
theorem fromGdal_reads {α γ : Type} {T : ElementType α} (hT : T.Lawful) (r : Raster α γ) (p0 p1 nrLocalities : Nat)
    (hp : 0 < p0 ∧ 0 < p1 ∧ p0 ≤ r.rows ∧ p1 ≤ r.cols) (hl : 0 < nrLocalities)
    (hn : nrLocalities ≤ r.rows / p0 * (r.cols / p1)) (hs : r.rows < 2 ^ 31 ∧ r.cols < 2 ^ 31)
    (garbage : Nat → Nat → Nat → α) :
    ∃ x v, fromGdal T r (p0, p1) nrLocalities garbage = .ok x ∧ Holds x ⟨r.rows, r.cols, p0, p1⟩ v ∧
      ∀ i j, i < r.rows → j < r.cols → Reads T r.noData (r.cells i j) (v i j) := by
  obtain ⟨x, hx, hh, _⟩ := read_ok (T := T) (r := r) (h0 := 0) (h1 := 0) (g := ⟨r.rows, r.cols, p0, p1⟩)
    ⟨hp.1, hp.2.1, hp.2.2.1, hp.2.2.2⟩ (by simp) (by simp) hs.1 hs.2 hl hn garbage
  refine ⟨x, _, hx, hh, ?_⟩
  intro i j _ _
  simp only [Nat.zero_add]
  exact convert_reads hT _ _

/-- C40: reading the part of a raster around a cell. -/
theorem fromGdalHyperslab_reads {α γ : Type} {T : ElementType α} (hT : T.Lawful) (r : Raster α γ) (center : Int × Int)
    (c0 c1 p0 p1 nrLocalities : Nat) (hp : 0 < p0 ∧ 0 < p1 ∧ p0 ≤ c0 ∧ p1 ≤ c1) (hl : 0 < nrLocalities)
    (hn : nrLocalities ≤ c0 / p0 * (c1 / p1)) (hs : r.rows < 2 ^ 31 ∧ r.cols < 2 ^ 31)
    (h0 : 0 ≤ windowStart center.1 c0 ∧ windowStart center.1 c0 + c0 ≤ r.rows)
    (h1 : 0 ≤ windowStart center.2 c1 ∧ windowStart center.2 c1 + c1 ≤ r.cols) (garbage : Nat → Nat → Nat → α) :
    ∃ h x v, Hyperslab.make center (c0, c1) = .ok h ∧
      fromGdalHyperslab T r h (p0, p1) nrLocalities garbage = .ok x ∧ Holds x ⟨c0, c1, p0, p1⟩ v ∧
      ∀ i j i' j' : Nat, i < c0 → j < c1 → (i' : Int) = windowStart center.1 c0 + i →
        (j' : Int) = windowStart center.2 c1 + j → Reads T r.noData (r.cells i' j') (v i j) := by
  have hmk := (hyperslab_make center (c0, c1)
    ⟨((windowStart center.1 c0).toNat, (windowStart center.2 c1).toNat), (c0, c1)⟩).mpr ⟨rfl, by simp; omega, by simp; omega⟩
  obtain ⟨x, hx, hh, _⟩ := read_ok (T := T) (r := r) (h0 := (windowStart center.1 c0).toNat)
    (h1 := (windowStart center.2 c1).toNat) (g := ⟨c0, c1, p0, p1⟩)
    ⟨hp.1, hp.2.1, hp.2.2.1, hp.2.2.2⟩ (by simp; omega) (by simp; omega) hs.1 hs.2 hl hn garbage
  refine ⟨_, x, _, hmk, ?_, hh, ?_⟩
  · unfold fromGdalHyperslab verifyCompatibility
    rw [if_pos ((isContainedBy_iff _ _ (by simp; omega) (by simp; omega)).mpr ⟨by simp; omega, by simp; omega⟩)]
    exact hx
  · intro i j i' j' _ _ hi' hj'
    have e0 : (windowStart center.1 c0).toNat + i = i' := by omega
    have e1 : (windowStart center.2 c1).toNat + j = j' := by omega
    simp only [e0, e1]
    exact convert_reads hT _ _

/-- C40: a request to read a part of a raster which isn't part of the raster is refused: either the hyperslab can't be
created, or the reading throws. -/
theorem fromGdalHyperslab_refused {α γ : Type} (T : ElementType α) (r : Raster α γ) (center : Int × Int)
    (c0 c1 : Nat) (p : Nat × Nat) (nrLocalities : Nat) (garbage : Nat → Nat → Nat → α) (hc : 0 < c0 ∧ 0 < c1)
    (h : ¬ ((0 ≤ windowStart center.1 c0 ∧ windowStart center.1 c0 + c0 ≤ r.rows) ∧
      0 ≤ windowStart center.2 c1 ∧ windowStart center.2 c1 + c1 ≤ r.cols)) :
    (Hyperslab.make center (c0, c1) >>= fun h => fromGdalHyperslab T r h p nrLocalities garbage) = .error .thrown := by
  cases hm : Hyperslab.make center (c0, c1) with
  | error e =>
    unfold Hyperslab.make at hm
    simp only at hm
    split at hm <;> cases hm
    rfl
  | ok hs =>
    obtain ⟨h1, h2, h3⟩ := (hyperslab_make _ _ _).mp hm
    have hnc : ¬ hs.isContainedBy (r.rows, r.cols) = true := by
      rw [isContainedBy_iff _ _ (by rw [h1]; exact hc.1) (by rw [h1]; exact hc.2), h1]
      simp only at h2 h3 ⊢
      omega
    rw [M.bind_ok, fromGdalHyperslab, verifyCompatibility, if_neg hnc]
    rfl

/-- C40: a read element is no-data if and only if the raster value is missing, or happens to be the value LUE uses for
no-data. -/
theorem reads_noData_iff {α : Type} {T : ElementType α} (hT : T.Lawful) {noData : Option α} {x y : α}
    (h : Reads T noData x y) : IsNoData T y ↔ Missing T noData x ∨ IsNoData T x := by
  have hnd : IsNoData T T.noData := by
    cases hf : T.floating with
    | true => exact Or.inl (hT.floating_noData hf)
    | false => exact Or.inr ⟨hf, rfl⟩
  by_cases hm : Missing T noData x
  · rw [h.1 hm]; simp [hm, hnd]
  · rw [h.2 hm]; simp [hm]

/-- The raster before any partition is written. -/
theorem createRaster_ok {α γ : Type} (T : ElementType α) (a0 a1 : Nat) (fill : α) (defaultGeo : Nat → γ)
    (clone : Option (Raster α γ)) (h0 : 0 < a0 ∧ a0 < 2 ^ 31) (h1 : 0 < a1 ∧ a1 < 2 ^ 31)
    (hc : ∀ c, clone = some c → c.rows = a0 ∧ c.cols = a1) :
    createRaster T (a0, a1) fill defaultGeo clone =
      (some ⟨a0, a1, some T.noData, fun _ _ => fill, initialGeo defaultGeo a0 clone⟩, .ok ()) := by
  unfold createRaster
  have e0 : toInt (a0, a1).1 = a0 := toInt_eq h0.2
  have e1 : toInt (a0, a1).2 = a1 := toInt_eq h1.2
  rw [e0, e1, if_pos ⟨by omega, by omega⟩]
  cases clone with
  | none => rfl
  | some c =>
    obtain ⟨e0, e1⟩ := hc c rfl
    have : ¬ (c.rows, c.cols) ≠ (a0, a1) := by rw [e0, e1]; simp
    simp only [if_neg this]
    rfl

/-- C40: at any moment during the writing of an array, the partitions already written are those of a prefix of some
order of all partitions; the cells of these contain the elements of the array, and the other cells haven't been touched.
Which order this is, is decided by the runtime system: partitions are written when these become ready. -/
theorem toGdal_order {α γ : Type} (T : ElementType α) {x : Created α} {g : Grid} {v : Arr α} (hx : Holds x g v)
    (fill : α) (defaultGeo : Nat → γ) (clone : Option (Raster α γ)) (hs : g.a0 < 2 ^ 31 ∧ g.a1 < 2 ^ 31)
    (hc : ∀ c, clone = some c → c.rows = g.a0 ∧ c.cols = g.a1)
    (ready : List (Part α) → Nat) (hready : ∀ l, l ≠ [] → ready l < l.length) :
    ∃ order : List (Part α), order.Perm x.partitions ∧
      toGdal T x fill defaultGeo clone ready = order.foldlM writePartition
        ⟨g.a0, g.a1, some T.noData, fun _ _ => fill, initialGeo defaultGeo g.a0 clone⟩ ∧
      ∀ m, ∃ cells, (order.take m).foldlM writePartition
          ⟨g.a0, g.a1, some T.noData, fun _ _ => fill, initialGeo defaultGeo g.a0 clone⟩ =
            .ok ⟨g.a0, g.a1, some T.noData, cells, initialGeo defaultGeo g.a0 clone⟩ ∧
        (∀ i j, (∃ p ∈ order.take m, Part.Has p i j) → cells i j = v i j) ∧
        (∀ i j, (¬ ∃ p ∈ order.take m, Part.Has p i j) → cells i j = fill) := by
  obtain ⟨order, ho, he⟩ := writeLoop_order hready x.partitions.length x.partitions
    (⟨g.a0, g.a1, some T.noData, fun _ _ => fill, initialGeo defaultGeo g.a0 clone⟩ : Raster α γ) (Nat.le_refl _)
  rw [List.take_length] at ho
  refine ⟨order, ho, ?_, ?_⟩
  · have h0 := hx.ok.pos0
    have h1 := hx.ok.pos1
    have h2 := hx.ok.le0
    have h3 := hx.ok.le1
    rw [toGdal, hx.shape, createRaster_ok T _ _ _ _ _ ⟨by omega, hs.1⟩ ⟨by omega, hs.2⟩ hc]
    exact he
  · intro m
    obtain ⟨cells, e1, e2, e3⟩ := writePartitions_ok hx hs.1 hs.2 (order.take m)
      (⟨g.a0, g.a1, some T.noData, fun _ _ => fill, initialGeo defaultGeo g.a0 clone⟩ : Raster α γ)
      (fun p hp => ho.mem_iff.mp (List.mem_of_mem_take hp)) rfl rfl
    exact ⟨cells, e1, e2, e3⟩

/-- C40: writing an array results in a raster with the shape of the array, LUE's no-data value, and the elements of the
array, whatever the order in which the partitions become ready. -/
theorem toGdal_writes {α γ : Type} (T : ElementType α) {x : Created α} {g : Grid} {v : Arr α} (hx : Holds x g v)
    (fill : α) (defaultGeo : Nat → γ) (clone : Option (Raster α γ)) (hs : g.a0 < 2 ^ 31 ∧ g.a1 < 2 ^ 31)
    (hc : ∀ c, clone = some c → c.rows = g.a0 ∧ c.cols = g.a1)
    (ready : List (Part α) → Nat) (hready : ∀ l, l ≠ [] → ready l < l.length) :
    ∃ r, toGdal T x fill defaultGeo clone ready = .ok r ∧ r.rows = g.a0 ∧ r.cols = g.a1 ∧ r.noData = some T.noData ∧
      (clone = none → r.geo = some (defaultGeo g.a0)) ∧ (∀ c, clone = some c → r.geo = c.geo) ∧
      ∀ i j, i < g.a0 → j < g.a1 → r.cells i j = v i j := by
  obtain ⟨order, ho, he, hm⟩ := toGdal_order T hx fill defaultGeo clone hs hc ready hready
  obtain ⟨cells, e1, e2, _⟩ := hm order.length
  rw [List.take_length] at e1 e2
  refine ⟨_, he.trans e1, rfl, rfl, rfl, ?_, ?_, ?_⟩
  · intro h; subst h; rfl
  · intro c h; subst h; rfl
  · intro i j hi hj
    apply e2
    obtain ⟨k0, k1, l0, l1, hcell⟩ := exists_isCell hx.ok hi hj
    obtain ⟨p, hp, hpo, hps⟩ := hx.parts _ (idx_lt hcell.k0_lt hcell.k1_lt)
    refine ⟨p, ho.mem_iff.mpr (List.mem_of_getElem? hp), ?_⟩
    unfold Part.Has
    rw [hpo, hps]
    simp only [offsetOf, shapeOf, idx_div hcell.k1_lt, idx_mod hcell.k1_lt]
    have := hcell.l0_lt; have := hcell.l1_lt; have := hcell.i_eq; have := hcell.j_eq
    omega

/-- C40: an array written and read back is the same array, whatever the partitions used for writing and reading. -/
theorem gdal_round_trip {α γ : Type} {T : ElementType α} (hT : T.Lawful) {x : Created α} {g : Grid} {v : Arr α}
    (hx : Holds x g v) (fill : α) (defaultGeo : Nat → γ) (clone : Option (Raster α γ))
    (hs : g.a0 < 2 ^ 31 ∧ g.a1 < 2 ^ 31) (hc : ∀ c, clone = some c → c.rows = g.a0 ∧ c.cols = g.a1)
    (ready : List (Part α) → Nat) (hready : ∀ l, l ≠ [] → ready l < l.length)
    (p0 p1 nrLocalities : Nat) (hp : 0 < p0 ∧ 0 < p1 ∧ p0 ≤ g.a0 ∧ p1 ≤ g.a1) (hl : 0 < nrLocalities)
    (hn : nrLocalities ≤ g.a0 / p0 * (g.a1 / p1)) (garbage : Nat → Nat → Nat → α) :
    ∃ r y w, toGdal T x fill defaultGeo clone ready = .ok r ∧ fromGdal T r (p0, p1) nrLocalities garbage = .ok y ∧
      Holds y ⟨g.a0, g.a1, p0, p1⟩ w ∧ ∀ i j, i < g.a0 → j < g.a1 → Same T (w i j) (v i j) := by
  obtain ⟨r, hr, e0, e1, e2, _, _, e3⟩ := toGdal_writes T hx fill defaultGeo clone hs hc ready hready
  obtain ⟨y, w, hy, hw, hv⟩ := fromGdal_reads hT r p0 p1 nrLocalities (by rw [e0, e1]; exact hp) hl
    (by rw [e0, e1]; exact hn) (by rw [e0, e1]; exact hs) garbage
  rw [e0, e1] at hw
  refine ⟨r, y, w, hr, hy, hw, ?_⟩
  intro i j hi hj
  have hread := hv i j (by omega) (by omega)
  rw [e3 i j hi hj, e2] at hread
  by_cases hm : Missing T (some T.noData) (v i j)
  · rw [hread.1 hm]
    obtain ⟨nd, hnd, h⟩ := hm
    cases hnd
    rcases h with h | h
    · cases hf : T.floating with
      | false => exact Or.inl ((hT.integral_eq hf _ _).mp h).symm
      | true => rw [hT.nan_eq _ _ (Or.inr (hT.floating_noData hf))] at h; cases h
    · exact Or.inr ⟨h.2, h.1⟩
  · rw [hread.2 hm]; exact Or.inl rfl

/-- C40: with a clone of another shape the writing is refused. The raster which was stored under the name has been
replaced by then. -/
theorem toGdal_clone_refused {α γ : Type} (T : ElementType α) (x : Created α) (fill : α) (defaultGeo : Nat → γ)
    (c : Raster α γ) (ready : List (Part α) → Nat) (h : (c.rows, c.cols) ≠ x.shape) :
    toGdal T x fill defaultGeo (some c) ready = .error .thrown ∧
      (0 < toInt x.shape.1 ∧ 0 < toInt x.shape.2 →
        ∃ r, (createRaster T x.shape fill defaultGeo (some c)).1 = some r ∧ r.cells = fun _ _ => fill) := by
  have hcr : (createRaster T x.shape fill defaultGeo (some c)).2 = .error .thrown := by
    unfold createRaster
    split
    · simp only [if_pos h]
    · rfl
  constructor
  · unfold toGdal
    generalize createRaster T x.shape fill defaultGeo (some c) = q at hcr
    rcases q with ⟨q1, q2⟩
    simp only at hcr
    subst hcr
    rfl
  · intro hp
    unfold createRaster
    simp only
    rw [if_pos hp, if_pos h]
    exact ⟨_, rfl, rfl⟩

/-- Extents which don't fit a 32 bit integer are not noticed: the raster created for an array of 4294967298 × 1 cells
has 2 rows. -/
theorem createRaster_wraps {α γ : Type} (T : ElementType α) (fill : α) (defaultGeo : Nat → γ) :
    ∃ r, createRaster T (4294967298, 1) fill defaultGeo none = (some r, .ok ()) ∧ r.rows = 2 := by
  have h1 : toInt 4294967298 = 2 := by decide
  have h2 : toInt 1 = 1 := by decide
  unfold createRaster
  simp only [h1, h2]
  exact ⟨_, rfl, rfl⟩

/-! ### Element types -/

/-- An integral type. -/
def integral (noData : Int) : ElementType Int := ⟨false, fun _ => false, fun x y => x == y, noData⟩

/-- A floating point type: `none` is NaN. -/
def floating : ElementType (Option Int) :=
  ⟨true, fun x => x.isNone, fun x y => match x, y with | some x, some y => x == y | _, _ => false, none⟩

theorem integral_lawful (noData : Int) : (integral noData).Lawful where
  integral_nan := fun _ _ => rfl
  integral_eq := fun _ x y => by simp [integral]
  floating_noData := fun h => by cases h
  nan_eq := fun x y h => by simp [integral] at h
  eq_refl := fun x _ => by simp [integral]

theorem floating_lawful : floating.Lawful where
  integral_nan := fun h => by cases h
  integral_eq := fun h => by cases h
  floating_noData := fun _ => rfl
  nan_eq := fun x y h => by cases x <;> cases y <;> simp_all [floating]
  eq_refl := fun x h => by cases x <;> simp_all [floating]

/-- A raster of 3 × 5 cells, with no-data value 99. -/
def exampleRaster : Raster Int Int := ⟨3, 5, some 99, fun i j => if i = 1 ∧ j = 3 then 99 else 10 * i + j, none⟩

example : (fromGdal (integral (-128)) exampleRaster (2, 2) 2 fun _ _ _ => 7).toOption.map
    (fun x => x.partitions) = some [
      ⟨(0, 0), (3, 2), [0, 1, 10, 11, 20, 21]⟩, ⟨(0, 2), (3, 3), [2, 3, 4, 12, -128, 14, 22, 23, 24]⟩] := by decide

example : (Hyperslab.make (1, 3) (2, 3) >>= fun h =>
    fromGdalHyperslab (integral (-128)) exampleRaster h (1, 3) 1 fun _ _ _ => 7).toOption.map
    (fun x => x.partitions) = some [⟨(0, 0), (1, 3), [2, 3, 4]⟩, ⟨(1, 0), (1, 3), [12, -128, 14]⟩] := by decide

/-- Writing, the last partition first. -/
example : (toGdal (integral (-128)) ⟨(1, 3), (1, 2), [0, 0], [⟨(0, 0), (1, 1), [5]⟩, ⟨(0, 1), (1, 2), [6, -128]⟩]⟩ 0
    (fun rows => (rows : Int)) none fun l => l.length - 1).toOption.map
    (fun r => (r.rows, r.cols, r.noData, [r.cells 0 0, r.cells 0 1, r.cells 0 2], r.geo)) =
    some (1, 3, some (-128), [5, 6, -128], some 1) := by decide

/-- The hypotheses of the theorems are met: the arrays read are arrays which can be written. -/
example : ∃ x v, fromGdal (integral (-128)) exampleRaster (2, 2) 2 (fun _ _ _ => 7) = .ok x ∧
    Holds x ⟨3, 5, 2, 2⟩ v ∧ v 1 3 = -128 ∧ v 2 4 = 24 := by
  obtain ⟨x, v, h1, h2, h3⟩ := fromGdal_reads (integral_lawful (-128)) exampleRaster 2 2 2 (by decide) (by decide)
    (by decide) (by decide) (fun _ _ _ => 7)
  refine ⟨x, v, h1, h2, ?_, ?_⟩
  · exact (h3 1 3 (by decide) (by decide)).1 ⟨99, rfl, Or.inl (by decide)⟩
  · refine (h3 2 4 (by decide) (by decide)).2 ?_
    rintro ⟨nd, hnd, h | h⟩
    · cases hnd; exact absurd h (by decide)
    · cases h.1

end Lue.GdalIO

import Verif.Position.Spec
import Verif.GdalIO.Properties
import Mathlib.Tactic.Ring
import Mathlib.Tactic.Linarith

/-!
# Operations whose result depends on where cells and partitions are (C41)
-/
namespace Lue.Position

open Lue.Create Lue.GdalIO Lue.Decomposition

/-! ### Partitions of arrays -/

theorem partitionRow_cell {g : Grid} (hg : g.Ok) {k l : Nat} (hk : k < g.n0) (hl : l < g.rows k) :
    partitionRow g (k * g.p0 + l) = k := Dim.locate_unique hg.pos0 hg.le0 hk hl

theorem partitionCol_cell {g : Grid} (hg : g.Ok) {k l : Nat} (hk : k < g.n1) (hl : l < g.cols k) :
    partitionCol g (k * g.p1 + l) = k := Dim.locate_unique hg.pos1 hg.le1 hk hl

theorem nr_partitions {α : Type} {x : Created α} {g : Grid} {v : Arr α} (hx : Holds x g v) :
    x.partitions.length = g.n0 * g.n1 := by
  have := hx.represents.nr_parts
  simpa using this

/-- Data of a partition. -/
theorem part_data {α : Type} {x : Created α} {g : Grid} {v : Arr α} (hx : Holds x g v) {k0 k1 : Nat}
    (h0 : k0 < g.n0) (h1 : k1 < g.n1) :
    ∃ p, x.partitions[k0 * g.n1 + k1]? = some p ∧ p.offset = (k0 * g.p0, k1 * g.p1) ∧
      p.shape = (g.rows k0, g.cols k1) ∧ p.data.length = g.rows k0 * g.cols k1 ∧
      ∀ l0 l1, l0 < g.rows k0 → l1 < g.cols k1 →
        p.data[l0 * g.cols k1 + l1]? = some (v (k0 * g.p0 + l0) (k1 * g.p1 + l1)) := by
  obtain ⟨p, hp, ho, hs⟩ := hx.parts _ (idx_lt h0 h1)
  obtain ⟨d, hd, hlen, hv⟩ := hx.represents.part h0 h1
  simp only [List.getElem?_map, hp, Option.map_some, Option.some.injEq] at hd
  subst hd
  refine ⟨p, hp, ?_, ?_, hlen, hv⟩
  · rw [ho, offsetOf, idx_div h1, idx_mod h1]
  · rw [hs, shapeOf, idx_div h1, idx_mod h1]

/-- Tasks creating the partitions of a new array, given those of an existing array. -/
theorem tasks_hold {α β : Type} {x : Created α} {g : Grid} {v : Arr α} (hx : Holds x g v) {order : List Nat}
    (ho : IsOrder x.partitions.length order) {task : Nat → M (Create.Part β)} {w : Arr β}
    (ht : ∀ k0 k1, k0 < g.n0 → k1 < g.n1 → ∃ q, task (k0 * g.n1 + k1) = .ok q ∧
      q.offset = (k0 * g.p0, k1 * g.p1) ∧ q.shape = (g.rows k0, g.cols k1) ∧
      q.data.length = g.rows k0 * g.cols k1 ∧ ∀ l0 l1, l0 < g.rows k0 → l1 < g.cols k1 →
        q.data[l0 * g.cols k1 + l1]? = some (w (k0 * g.p0 + l0) (k1 * g.p1 + l1))) (locs : List Nat) :
    ∃ parts, runTasks x.partitions.length task order = .ok parts ∧
      Holds ⟨x.shape, x.shapeInPartitions, locs, parts⟩ g w := by
  rw [nr_partitions hx] at ho ⊢
  have ht' : ∀ k, ∃ q, k < g.n0 * g.n1 → task k = .ok q := by
    intro k
    by_cases hk : k < g.n0 * g.n1
    · obtain ⟨h0, h1, he⟩ := idx_split hk
      obtain ⟨q, hq, _⟩ := ht _ _ h0 h1
      exact ⟨q, fun _ => by rw [← he]; exact hq⟩
    · exact ⟨⟨(0, 0), (0, 0), []⟩, fun h => absurd h hk⟩
  choose part hpart using ht'
  refine ⟨_, runTasks_ok ho (r := part) hpart, ?_⟩
  rw [hx.shape, hx.shapeInPartitions]
  refine holds_of_parts hx.ok ?_ ?_
  · intro k hk
    obtain ⟨h0, h1, he⟩ := idx_split hk
    obtain ⟨q, hq, e1, e2, _⟩ := ht _ _ h0 h1
    rw [he] at hq
    have : part k = q := by have := hpart k hk; rw [hq] at this; exact (Except.ok.inj this).symm
    rw [this]
    exact ⟨e1, e2⟩
  · intro k0 k1 h0 h1
    obtain ⟨q, hq, _, _, e3, e4⟩ := ht _ _ h0 h1
    have : part (k0 * g.n1 + k1) = q := by
      have := hpart _ (idx_lt h0 h1); rw [hq] at this; exact (Except.ok.inj this).symm
    rw [this]
    exact ⟨e3, e4⟩

/-! ### mesh_grid -/

theorem meshGridPartition_ok {offset shape : Nat × Nat} {first step : Int} {dimension : Nat} (hd : dimension < 2)
    (garbage : Nat → Int) :
    ∃ data, meshGridPartition offset shape first step dimension garbage = .ok ⟨offset, shape, data⟩ ∧
      data.length = shape.1 * shape.2 ∧ ∀ i j, i < shape.1 → j < shape.2 →
        data[i * shape.2 + j]? = some (first + (if dimension = 0 then (offset.1 : Int) + i else offset.2 + j) * step) := by
  by_cases h : dimension = 0
  · subst h
    obtain ⟨out, e1, e2, e3⟩ := forLoop2_write (n0 := shape.1) (n1 := shape.2)
      (fun i _ => first + ((offset.1 : Int) + i) * step)
      (fun i _ (s : List Int × Nat) => do
        let data ← wr s.1 s.2 (first + ((offset.1 : Int) + i) * step)
        .ok (data, s.2 + 1))
      (by
        intro i0 h0 i1 h1 out hl
        rw [wr_ok _ (by rw [hl]; exact idx_lt h0 h1), M.bind_ok])
      (uninitialised (shape.1 * shape.2) garbage) (by simp [uninitialised])
    refine ⟨out, ?_, e2, fun i j hi hj => by rw [e3 i j hi hj]; simp⟩
    rw [meshGridPartition]
    simp only [if_true]
    rw [e1, M.bind_ok]
  · have h1 : dimension = 1 := by omega
    subst h1
    obtain ⟨out, e1, e2, e3⟩ := forLoop2_write (n0 := shape.1) (n1 := shape.2)
      (fun _ j => first + ((offset.2 : Int) + j) * step)
      (fun _ j (s : List Int × Nat) => do
        let data ← wr s.1 s.2 (first + ((offset.2 : Int) + j) * step)
        .ok (data, s.2 + 1))
      (by
        intro i0 h0 i1 h1 out hl
        rw [wr_ok _ (by rw [hl]; exact idx_lt h0 h1), M.bind_ok])
      (uninitialised (shape.1 * shape.2) garbage) (by simp [uninitialised])
    refine ⟨out, ?_, e2, fun i j hi hj => by rw [e3 i j hi hj]; simp⟩
    rw [meshGridPartition, if_neg h]
    simp only [if_true]
    rw [e1, M.bind_ok]

/-- C41: the arrays returned by `mesh_grid` contain, for each cell, the first value plus the index of the row or column of
the cell times the step. They have the partitions and localities of the input array. -/
theorem meshGrid_correct {α : Type} {x : Created α} {g : Grid} {v : Arr α} (hx : Holds x g v) (first step : Int)
    {dimension : Nat} (hd : dimension < 2) (garbage : Nat → Nat → Int) {order : List Nat}
    (ho : IsOrder x.partitions.length order) :
    ∃ y, meshGrid x first step dimension garbage order = .ok y ∧ y.localities = x.localities ∧
      Holds y g (fun i j => first + (if dimension = 0 then (i : Int) else j) * step) := by
  obtain ⟨parts, hr, hh⟩ := tasks_hold (w := fun i j => first + (if dimension = 0 then (i : Int) else j) * step) hx ho
    (task := fun k => do
      let p ← rd x.partitions k
      meshGridPartition p.offset p.shape first step dimension (garbage k))
    (by
      intro k0 k1 h0 h1
      obtain ⟨p, hp, hpo, hps, _⟩ := part_data hx h0 h1
      obtain ⟨data, e1, e2, e3⟩ := meshGridPartition_ok (offset := p.offset) (shape := p.shape) (first := first)
        (step := step) hd (garbage (k0 * g.n1 + k1))
      refine ⟨_, by rw [rd_ok hp, M.bind_ok, e1], hpo, hps, by rw [e2, hps], ?_⟩
      intro l0 l1 hl0 hl1
      rw [hps, hpo] at e3
      rw [e3 l0 l1 hl0 hl1]
      push_cast
      rfl) x.localities
  exact ⟨_, by rw [meshGrid, hr, M.bind_ok], rfl, hh⟩

/-! ### array_like, array_partition_id -/

theorem arrayLikePartition_ok {β : Type} (offset shape : Nat × Nat) (fillValue : β) (garbage : Nat → β) :
    arrayLikePartition offset shape fillValue garbage =
      .ok ⟨offset, shape, List.replicate (shape.1 * shape.2) fillValue⟩ := by
  rw [arrayLikePartition, forLoop_write (fun _ => fillValue) _ (by
    intro i hi out hl
    rw [wr_ok _ (by omega)]) _ (by simp [uninitialised]), M.bind_ok]
  congr 2
  apply List.ext_getElem?
  intro i
  by_cases hi : i < shape.1 * shape.2 <;> simp [hi]

/-- C41: `array_like` returns an array with the partitions and localities of the input array, all elements of which equal
the fill value. -/
theorem arrayLike_correct {α β : Type} {x : Created α} {g : Grid} {v : Arr α} (hx : Holds x g v) (fillValue : β)
    (garbage : Nat → Nat → β) {order : List Nat} (ho : IsOrder x.partitions.length order) :
    ∃ y, arrayLike x fillValue garbage order = .ok y ∧ y.localities = x.localities ∧ Holds y g (fun _ _ => fillValue) := by
  obtain ⟨parts, hr, hh⟩ := tasks_hold (w := fun _ _ => fillValue) hx ho
    (task := fun k => do
      let p ← rd x.partitions k
      arrayLikePartition p.offset p.shape fillValue (garbage k))
    (by
      intro k0 k1 h0 h1
      obtain ⟨p, hp, hpo, hps, _⟩ := part_data hx h0 h1
      refine ⟨_, by rw [rd_ok hp, M.bind_ok, arrayLikePartition_ok], hpo, hps, by rw [hps]; simp, ?_⟩
      intro l0 l1 hl0 hl1
      have := idx_lt hl0 hl1
      simp only [hps, List.getElem?_replicate, if_pos this]) x.localities
  exact ⟨_, by rw [arrayLike, hr, M.bind_ok], rfl, hh⟩

/-- C41: in the array returned by `array_partition_id`, each cell contains the row-major index of the partition the cell
is in. -/
theorem arrayPartitionId_correct {α : Type} {x : Created α} {g : Grid} {v : Arr α} (hx : Holds x g v)
    (garbage : Nat → Nat → Nat) {order : List Nat} (ho : IsOrder x.partitions.length order) :
    ∃ y, arrayPartitionId x garbage order = .ok y ∧ y.localities = x.localities ∧
      Holds y g (fun i j => partitionRow g i * (g.a1 / g.p1) + partitionCol g j) := by
  obtain ⟨parts, hr, hh⟩ := tasks_hold (w := fun i j => partitionRow g i * (g.a1 / g.p1) + partitionCol g j) hx ho
    (task := fun k => do
      let p ← rd x.partitions k
      arrayLikePartition p.offset p.shape k (garbage k))
    (by
      intro k0 k1 h0 h1
      obtain ⟨p, hp, hpo, hps, _⟩ := part_data hx h0 h1
      refine ⟨_, by rw [rd_ok hp, M.bind_ok, arrayLikePartition_ok], hpo, hps, by rw [hps]; simp, ?_⟩
      intro l0 l1 hl0 hl1
      have := idx_lt hl0 hl1
      simp only [hps, List.getElem?_replicate, if_pos this, partitionRow_cell hx.ok h0 hl0,
        partitionCol_cell hx.ok h1 hl1]
      rfl) x.localities
  exact ⟨_, by rw [arrayPartitionId, hr, M.bind_ok], rfl, hh⟩


/-! ### One element per partition -/

theorem perPartition_ok {g : Grid} (hg : g.Ok) : (perPartition g).Ok :=
  ⟨Nat.one_pos, Nat.one_pos, Nat.div_pos hg.le0 hg.pos0, Nat.div_pos hg.le1 hg.pos1⟩

theorem perPartition_n0 (g : Grid) : (perPartition g).n0 = g.n0 := Nat.div_one _
theorem perPartition_n1 (g : Grid) : (perPartition g).n1 = g.n1 := Nat.div_one _

theorem perPartition_rows (g : Grid) (k : Nat) : (perPartition g).rows k = 1 := by
  simp only [Grid.rows, perPartition, Dim.extent, Nat.div_one, Nat.mul_one]
  split <;> omega

theorem perPartition_cols (g : Grid) (k : Nat) : (perPartition g).cols k = 1 := by
  simp only [Grid.cols, perPartition, Dim.extent, Nat.div_one, Nat.mul_one]
  split <;> omega

/-- Arrays with a single element per partition. -/
theorem perPartition_holds {β : Type} {g : Grid} (hg : g.Ok) {locs : List Nat} {w : Arr β} {parts : List (Create.Part β)}
    (hlen : parts.length = g.n0 * g.n1)
    (h : ∀ k0 k1, k0 < g.n0 → k1 < g.n1 → parts[k0 * g.n1 + k1]? = some ⟨(k0, k1), (1, 1), [w k0 k1]⟩) :
    Holds ⟨(g.n0, g.n1), (g.n0, g.n1), locs, parts⟩ (perPartition g) w := by
  have hp : parts = (List.range ((perPartition g).n0 * (perPartition g).n1)).map
      fun k => ⟨(k / g.n1, k % g.n1), (1, 1), [w (k / g.n1) (k % g.n1)]⟩ := by
    rw [perPartition_n0, perPartition_n1]
    apply List.ext_getElem?
    intro k
    by_cases hk : k < g.n0 * g.n1
    · obtain ⟨h0, h1, he⟩ := idx_split hk
      have := h _ _ h0 h1
      rw [he] at this
      rw [this]
      simp [hk]
    · rw [List.getElem?_eq_none (by omega), List.getElem?_eq_none (by simp; omega)]
  rw [hp]
  have hn : ((g.n0, g.n1) : Nat × Nat) = ((perPartition g).n0, (perPartition g).n1) := by
    rw [perPartition_n0, perPartition_n1]
  have := holds_of_parts (perPartition_ok hg) (locs := locs) (v := w)
    (part := fun k => ⟨(k / g.n1, k % g.n1), (1, 1), [w (k / g.n1) (k % g.n1)]⟩)
    (by
      intro k hk
      simp only [offsetOf, shapeOf, perPartition_n1, perPartition_rows, perPartition_cols]
      simp [perPartition])
    (by
      intro k0 k1 h0 h1
      rw [perPartition_n1] at h1 ⊢
      rw [perPartition_rows, perPartition_cols, idx_div h1, idx_mod h1]
      refine ⟨rfl, ?_⟩
      intro l0 l1 hl0 hl1
      have e0 : l0 = 0 := by omega
      have e1 : l1 = 0 := by omega
      subst e0; subst e1
      simp [perPartition])
  rw [← hn] at this
  exact this

/-- C41: `locality_id` and `timestamp` return an array with one element per partition of the input array: element
`(k0, k1)` is the value computed on the locality of partition `(k0, k1)`. -/
theorem elementPerPartition_correct {α β : Type} {x : Created α} {g : Grid} {v : Arr α} (hx : Holds x g v)
    {loc : Nat → Nat → Nat}
    (hl : ∀ k0 k1, k0 < g.n0 → k1 < g.n1 → x.localities[k0 * g.n1 + k1]? = some (loc k0 k1)) (value : Nat → β)
    {order : List Nat} (ho : IsOrder x.partitions.length order) :
    ∃ y, elementPerPartition x value order = .ok y ∧ y.localities = x.localities ∧
      Holds y (perPartition g) (fun k0 k1 => value (loc k0 k1)) := by
  have hn := nr_partitions hx
  let r : Nat → Create.Part β := fun k =>
    ⟨(k / g.n1, k % g.n1), (1, 1), [value (loc (k / g.n1) (k % g.n1))]⟩
  have ht : ∀ k < x.partitions.length, elementTask x value k = .ok (r k) := by
    intro k hk
    rw [hn] at hk
    obtain ⟨h0, h1, he⟩ := idx_split hk
    obtain ⟨p, hp, _⟩ := part_data hx h0 h1
    have hlk := hl _ _ h0 h1
    rw [he] at hp hlk
    have hidx : Lue.Index.linearIdxToIdxs k [x.shapeInPartitions.1, x.shapeInPartitions.2] = [k / g.n1, k % g.n1] := by
      rw [hx.shapeInPartitions]
      simp [Index.linearIdxToIdxs, Index.trailingProduct, List.range_succ, Nat.mod_eq_of_lt h0]
    rw [elementTask, rd_ok hp, M.bind_ok, rd_ok hlk, M.bind_ok, hidx]
  refine ⟨⟨x.shapeInPartitions, x.shapeInPartitions, x.localities, (List.range x.partitions.length).map r⟩, ?_, rfl, ?_⟩
  · rw [elementPerPartition, runTasks_ok ho ht, M.bind_ok]
  · rw [hx.shapeInPartitions]
    refine perPartition_holds hx.ok (by simp [hn]) ?_
    intro k0 k1 h0 h1
    rw [hn]
    simp [r, idx_lt h0 h1, idx_div h1, idx_mod h1]

/-! ### partition_count_unique -/

/-- The values collected are those in the partition which are valid, each of them once. -/
theorem collect_ok {α : Type} [DecidableEq α] (isNoData : α → Bool) (data : List α) :
    ∃ values, forLoop data.length (fun idx values => do
        let x ← rd data idx
        if !isNoData x then .ok (addValue values x) else .ok values) [] = .ok values ∧
      values.Nodup ∧ ∀ x, x ∈ values ↔ isNoData x = false ∧ x ∈ data := by
  obtain ⟨values, h1, h2, h3⟩ := forLoop_inv (n := data.length)
    (fun i (values : List α) => values.Nodup ∧ ∀ x, x ∈ values ↔ isNoData x = false ∧ x ∈ data.take i)
    (body := fun idx values => do
        let x ← rd data idx
        if !isNoData x then .ok (addValue values x) else .ok values)
    (by
      intro i hi values ⟨hn, hm⟩
      have hd : data[i]? = some data[i] := by simp [hi]
      have htake : data.take (i + 1) = data.take i ++ [data[i]] := by rw [List.take_add_one, hd]; rfl
      rw [rd_ok hd, M.bind_ok]
      by_cases hnd : isNoData data[i] = true
      · refine ⟨values, by simp [hnd], hn, ?_⟩
        intro x
        rw [hm, htake, List.mem_append, List.mem_singleton]
        constructor
        · rintro ⟨a, b⟩; exact ⟨a, .inl b⟩
        · rintro ⟨a, b | rfl⟩
          · exact ⟨a, b⟩
          · rw [hnd] at a; cases a
      · have hnd' : isNoData data[i] = false := by simpa using hnd
        refine ⟨addValue values data[i], by simp [hnd'], ?_, ?_⟩
        · unfold addValue
          split
          · exact hn
          · rename_i h
            rw [List.nodup_append]
            refine ⟨hn, by simp, ?_⟩
            rintro a ha b hb rfl
            rw [List.mem_singleton] at hb
            subst hb
            exact h ha
        · intro x
          rw [htake, List.mem_append, List.mem_singleton]
          unfold addValue
          split
          · rename_i h
            rw [hm]
            constructor
            · rintro ⟨a, b⟩; exact ⟨a, .inl b⟩
            · rintro ⟨a, b | rfl⟩
              · exact ⟨a, b⟩
              · exact (hm _).mp h
          · rw [List.mem_append, List.mem_singleton, hm]
            constructor
            · rintro (⟨a, b⟩ | rfl)
              · exact ⟨a, .inl b⟩
              · exact ⟨hnd', .inr rfl⟩
            · rintro ⟨a, b | rfl⟩
              · exact .inl ⟨a, b⟩
              · exact .inr rfl) [] ⟨List.nodup_nil, by simp⟩
  refine ⟨values, h1, h2, ?_⟩
  intro x
  rw [h3, List.take_length]

/-- The values in a partition are those of the cells in it. -/
theorem mem_part_data {α : Type} {x : Created α} {g : Grid} {v : Arr α} (hx : Holds x g v) {k0 k1 : Nat}
    (h0 : k0 < g.n0) (h1 : k1 < g.n1) {p : Create.Part α} (hp : x.partitions[k0 * g.n1 + k1]? = some p) (y : α) :
    y ∈ p.data ↔ ∃ c, InPartition g k0 k1 c ∧ v c.1 c.2 = y := by
  obtain ⟨q, hq, _, _, hlen, hv⟩ := part_data hx h0 h1
  rw [hp] at hq
  cases hq
  rw [List.mem_iff_getElem?]
  constructor
  · rintro ⟨e, he⟩
    have hel : e < g.rows k0 * g.cols k1 := by
      have := (List.getElem?_eq_some_iff.1 he).1; omega
    obtain ⟨a0, a1, ae⟩ := idx_split hel
    have := hv _ _ a0 a1
    rw [ae, he] at this
    refine ⟨(k0 * g.p0 + e / g.cols k1, k1 * g.p1 + e % g.cols k1), ⟨?_, ?_, partitionRow_cell hx.ok h0 a0,
      partitionCol_cell hx.ok h1 a1⟩, (Option.some.inj this).symm⟩
    · have := rows_end hx.ok h0; simp only; omega
    · have := cols_end hx.ok h1; simp only; omega
  · rintro ⟨⟨i, j⟩, ⟨hi, hj, hr, hc⟩, rfl⟩
    simp only at hi hj hr hc ⊢
    obtain ⟨k0', k1', l0, l1, hcell⟩ := exists_isCell hx.ok hi hj
    have e0 := partitionRow_cell hx.ok hcell.k0_lt hcell.l0_lt
    have e1 := partitionCol_cell hx.ok hcell.k1_lt hcell.l1_lt
    rw [← hcell.i_eq, hr] at e0
    rw [← hcell.j_eq, hc] at e1
    subst e0
    subst e1
    refine ⟨l0 * g.cols k1 + l1, ?_⟩
    rw [hv _ _ hcell.l0_lt hcell.l1_lt, ← hcell.i_eq, ← hcell.j_eq]

/-- What is computed for a partition. -/
theorem countUniquePartition_ok {α : Type} [DecidableEq α] {asserts : Bool} {isNoData : α → Bool} {mark : Nat}
    {x : Created α} {g : Grid} {v : Arr α} (hx : Holds x g v) {k0 k1 : Nat} (h0 : k0 < g.n0) (h1 : k1 < g.n1)
    {p : Create.Part α} (hp : x.partitions[k0 * g.n1 + k1]? = some p) {offset : Nat × Nat}
    (ho : offsetInPartitions asserts (k0 * g.p0, k1 * g.p1) (g.rows k0, g.cols k1) = .ok offset) :
    countUniquePartition asserts isNoData mark p = .ok ⟨offset, (1, 1),
      [if nrDifferent isNoData v (InPartition g k0 k1) = 0 then mark
        else nrDifferent isNoData v (InPartition g k0 k1)]⟩ := by
  obtain ⟨q, hq, hqo, hqs, _, _⟩ := part_data hx h0 h1
  rw [hp] at hq
  cases hq
  obtain ⟨values, e1, e2, e3⟩ := collect_ok isNoData p.data
  have hset : {y | isNoData y = false ∧ ∃ c, InPartition g k0 k1 c ∧ v c.1 c.2 = y} = (values.toFinset : Set α) := by
    ext y
    simp only [Set.mem_setOf_eq, List.coe_toFinset, e3, mem_part_data hx h0 h1 hp]
  have hcard : nrDifferent isNoData v (InPartition g k0 k1) = values.length := by
    rw [nrDifferent, hset, Set.ncard_coe_finset, List.toFinset_card_of_nodup e2]
  rw [countUniquePartition, e1, M.bind_ok]
  simp only
  rw [hqo, hqs, ho, M.bind_ok, hcard]
  congr 2
  cases values <;> simp

theorem partitionCountUnique_ok {α : Type} [DecidableEq α] {asserts : Bool} {isNoData : α → Bool} {mark : Nat}
    {x : Created α} {g : Grid} {v : Arr α} (hx : Holds x g v) {order : List Nat}
    (ho : IsOrder x.partitions.length order) {offset : Nat → Nat → Nat × Nat}
    (hof : ∀ k0 k1, k0 < g.n0 → k1 < g.n1 →
      offsetInPartitions asserts (k0 * g.p0, k1 * g.p1) (g.rows k0, g.cols k1) = .ok (offset k0 k1)) :
    ∃ y, partitionCountUnique asserts isNoData mark x order = .ok y ∧ y.localities = x.localities ∧
      y.shape = (g.n0, g.n1) ∧ y.shapeInPartitions = (g.n0, g.n1) ∧ y.partitions.length = g.n0 * g.n1 ∧
      ∀ k0 k1, k0 < g.n0 → k1 < g.n1 → y.partitions[k0 * g.n1 + k1]? = some ⟨offset k0 k1, (1, 1),
        [if nrDifferent isNoData v (InPartition g k0 k1) = 0 then mark
          else nrDifferent isNoData v (InPartition g k0 k1)]⟩ := by
  have hn := nr_partitions hx
  let r : Nat → Create.Part Nat := fun k => ⟨offset (k / g.n1) (k % g.n1), (1, 1),
        [if nrDifferent isNoData v (InPartition g (k / g.n1) (k % g.n1)) = 0 then mark
          else nrDifferent isNoData v (InPartition g (k / g.n1) (k % g.n1))]⟩
  have ht : ∀ k < x.partitions.length, (fun k => do
      let p ← rd x.partitions k
      countUniquePartition asserts isNoData mark p) k = .ok (r k) := by
    intro k hk
    rw [hn] at hk
    obtain ⟨h0, h1, he⟩ := idx_split hk
    obtain ⟨p, hp, _⟩ := part_data hx h0 h1
    have hc := countUniquePartition_ok (isNoData := isNoData) (mark := mark) hx h0 h1 hp (hof _ _ h0 h1)
    rw [he] at hp
    simp only [rd_ok hp, M.bind_ok, hc, r]
  refine ⟨⟨x.shapeInPartitions, x.shapeInPartitions, x.localities, (List.range x.partitions.length).map r⟩, ?_, rfl,
    hx.shapeInPartitions, hx.shapeInPartitions, by simp [hn], ?_⟩
  · rw [partitionCountUnique, runTasks_ok ho ht, M.bind_ok]
  · intro k0 k1 h0 h1
    rw [hn]
    simp [r, idx_lt h0 h1, idx_div h1, idx_mod h1]

/-- C41: `partition_count_unique` counts, for each partition, the different valid values in it; the result is no-data if
there are none. The offsets of the result's partitions are right if all partitions have the same shape. -/
theorem partitionCountUnique_correct {α : Type} [DecidableEq α] (asserts : Bool) (isNoData : α → Bool) (mark : Nat)
    {x : Created α} {g : Grid} {v : Arr α} (hx : Holds x g v) {order : List Nat}
    (ho : IsOrder x.partitions.length order) (hs : g.a0 % g.p0 = 0 ∧ g.a1 % g.p1 = 0) :
    ∃ y, partitionCountUnique asserts isNoData mark x order = .ok y ∧ y.localities = x.localities ∧
      Holds y (perPartition g) (fun k0 k1 => if nrDifferent isNoData v (InPartition g k0 k1) = 0 then mark
        else nrDifferent isNoData v (InPartition g k0 k1)) := by
  have hd0 := Nat.div_mul_cancel (Nat.dvd_of_mod_eq_zero hs.1)
  have hd1 := Nat.div_mul_cancel (Nat.dvd_of_mod_eq_zero hs.2)
  have hr : ∀ k, g.rows k = g.p0 := by
    intro k; simp only [Grid.rows, Dim.extent]; split <;> omega
  have hc : ∀ k, g.cols k = g.p1 := by
    intro k; simp only [Grid.cols, Dim.extent]; split <;> omega
  obtain ⟨⟨ys, yn, yl, yp⟩, h1, h2, h3, h4, h5, h6⟩ := partitionCountUnique_ok (asserts := asserts)
    (isNoData := isNoData) (mark := mark) hx ho (offset := fun k0 k1 => (k0, k1))
    (by
      intro k0 k1 _ _
      rw [hr, hc, offsetInPartitions, if_neg (by simp)]
      simp only [Nat.mul_div_cancel _ hx.ok.pos0, Nat.mul_div_cancel _ hx.ok.pos1])
  refine ⟨_, h1, h2, ?_⟩
  simp only at h2 h3 h4 h5 h6
  subst h3; subst h4
  exact perPartition_holds hx.ok h5 h6

/-- C41: without assertions, the values are always right: the elements of the result, read partition by partition. -/
theorem partitionCountUnique_values {α : Type} [DecidableEq α] (isNoData : α → Bool) (mark : Nat)
    {x : Created α} {g : Grid} {v : Arr α} (hx : Holds x g v) {order : List Nat}
    (ho : IsOrder x.partitions.length order) :
    ∃ y, partitionCountUnique false isNoData mark x order = .ok y ∧ y.localities = x.localities ∧
      y.shape = (g.n0, g.n1) ∧ y.partitions.length = g.n0 * g.n1 ∧
      ∀ k0 k1, k0 < g.n0 → k1 < g.n1 → ∃ p, y.partitions[k0 * g.n1 + k1]? = some p ∧ p.shape = (1, 1) ∧
        p.data = [if nrDifferent isNoData v (InPartition g k0 k1) = 0 then mark
          else nrDifferent isNoData v (InPartition g k0 k1)] ∧
        (p.offset = (k0, k1) ↔ (k0 = 0 ∨ g.rows k0 = g.p0) ∧ (k1 = 0 ∨ g.cols k1 = g.p1)) := by
  obtain ⟨y, h1, h2, h3, h4, h5, h6⟩ := partitionCountUnique_ok (asserts := false)
    (isNoData := isNoData) (mark := mark) hx ho
    (offset := fun k0 k1 => (k0 * g.p0 / g.rows k0, k1 * g.p1 / g.cols k1))
    (by intro k0 k1 _ _; rfl)
  refine ⟨y, h1, h2, h3, h5, ?_⟩
  intro k0 k1 hk0 hk1
  refine ⟨_, h6 k0 k1 hk0 hk1, rfl, rfl, ?_⟩
  have key : ∀ k p e : Nat, 0 < p → p ≤ e → (k * p / e = k ↔ k = 0 ∨ e = p) := by
    intro k p e hp he
    constructor
    · intro h
      by_contra hc
      push Not at hc
      have : k * p < k * e := Nat.mul_lt_mul_of_pos_left (by omega) (by omega)
      have := (Nat.div_lt_iff_lt_mul (by omega : 0 < e)).mpr this
      omega
    · rintro (rfl | rfl)
      · simp
      · exact Nat.mul_div_cancel _ hp
  simp only [Prod.mk.injEq]
  rw [key k0 g.p0 (g.rows k0) hx.ok.pos0 (Dim.extent_ge hx.ok.pos0 _),
    key k1 g.p1 (g.cols k1) hx.ok.pos1 (Dim.extent_ge hx.ok.pos1 _)]

/-- An array of 2 x 5 cells with partitions of 2 x 2 cells. -/
def example25 : Created Int :=
  ⟨(2, 5), (1, 2), [0, 1], [⟨(0, 0), (2, 2), [3, 3, 4, -1]⟩, ⟨(0, 2), (2, 3), [5, 6, 7, 5, -1, -1]⟩]⟩

/-- A smallest case in which the offset of a partition of the result is wrong: the second partition of the result is at
the same offset as the first one. -/
example : (partitionCountUnique false (· == (-1)) 999 example25 [1, 0]).toOption.map (·.partitions) =
    some [⟨(0, 0), (1, 1), [2]⟩, ⟨(0, 0), (1, 1), [3]⟩] := by decide

/-- With assertions, the program ends. -/
example : partitionCountUnique true (· == (-1)) 999 example25 [1, 0] = .error .thrown := by rfl

/-! ### range -/

/-- Values of a partition. -/
theorem rangePartition_ok {shape : Nat × Nat} {stride : Nat} (hs : shape.2 ≤ stride) (start : Int)
    (garbage : Nat → Int) :
    ∃ data, rangePartition shape start stride garbage = .ok data ∧ data.length = shape.1 * shape.2 ∧
      ∀ i j, i < shape.1 → j < shape.2 → data[i * shape.2 + j]? = some (start + i * stride + j) := by
  have inner : ∀ idx0 < shape.1, ∀ s : List Int × Int, s.1.length = shape.1 * shape.2 → s.2 = start + idx0 * stride →
      (∀ i j, i < idx0 → j < shape.2 → s.1[i * shape.2 + j]? = some (start + i * stride + j)) →
      ∃ s', forLoop shape.2 (fun idx1 (s : List Int × Int) => do
          let data ← wr s.1 (idx0 * shape.2 + idx1) s.2
          .ok (data, s.2 + 1)) s = .ok s' ∧ s'.1.length = shape.1 * shape.2 ∧
        s'.2 = start + idx0 * stride + shape.2 ∧
        ∀ i j, i < idx0 + 1 → j < shape.2 → s'.1[i * shape.2 + j]? = some (start + i * stride + j) := by
    intro idx0 h0 s hl hv hd
    obtain ⟨s', e1, e2, e3, e4⟩ := forLoop_inv (n := shape.2)
      (fun j (s' : List Int × Int) => s'.1.length = shape.1 * shape.2 ∧ s'.2 = start + idx0 * stride + j ∧
        ∀ i j', i < idx0 ∧ j' < shape.2 ∨ i = idx0 ∧ j' < j →
          s'.1[i * shape.2 + j']? = some (start + i * stride + j'))
      (body := fun idx1 (s : List Int × Int) => do
          let data ← wr s.1 (idx0 * shape.2 + idx1) s.2
          .ok (data, s.2 + 1))
      (by
        intro j hj s' ⟨a1, a2, a3⟩
        have hlt := idx_lt h0 hj
        refine ⟨(s'.1.set (idx0 * shape.2 + j) s'.2, s'.2 + 1), ?_, by simp [a1], by rw [a2]; push_cast; ring, ?_⟩
        · rw [wr_ok _ (by omega), M.bind_ok]
        · intro i j' hij
          by_cases he : i = idx0 ∧ j' = j
          · obtain ⟨rfl, rfl⟩ := he
            rw [List.getElem?_set_self (by omega), a2]
          · have hne : idx0 * shape.2 + j ≠ i * shape.2 + j' := by
              rcases hij with ⟨hi, hj'⟩ | ⟨rfl, hj'⟩
              · have := idx_lt hi hj'; omega
              · intro hc; apply he; exact ⟨rfl, by omega⟩
            rw [List.getElem?_set_ne hne]
            apply a3
            rcases hij with hi | ⟨rfl, hj'⟩
            · exact .inl hi
            · exact .inr ⟨rfl, by simp only [true_and] at he; omega⟩) s
      ⟨hl, by rw [hv]; simp, fun i j hij => hd i j (by omega) (by omega)⟩
    refine ⟨s', e1, e2, e3, ?_⟩
    intro i j hi hj
    apply e4
    omega
  obtain ⟨s', e1, e2, e3, e4⟩ := forLoop_inv (n := shape.1)
    (fun i (s : List Int × Int) => s.1.length = shape.1 * shape.2 ∧ s.2 = start + i * stride ∧
      ∀ i' j, i' < i → j < shape.2 → s.1[i' * shape.2 + j]? = some (start + i' * stride + j))
    (body := fun idx0 s => do
      let (data, value) ← forLoop shape.2 (fun idx1 (s : List Int × Int) => do
        let data ← wr s.1 (idx0 * shape.2 + idx1) s.2
        .ok (data, s.2 + 1)) s
      .ok (data, value + ((stride : Int) - shape.2)))
    (by
      intro i hi s ⟨a1, a2, a3⟩
      obtain ⟨s', b1, b2, b3, b4⟩ := inner i hi s a1 a2 a3
      refine ⟨(s'.1, s'.2 + ((stride : Int) - shape.2)), by rw [b1, M.bind_ok], b2, ?_, b4⟩
      simp only [b3]
      push_cast
      ring)
    (uninitialised (shape.1 * shape.2) garbage, start) ⟨by simp [uninitialised], by simp, by omega⟩
  refine ⟨s'.1, ?_, e2, e4⟩
  rw [rangePartition, if_pos hs]
  simp only
  rw [e1, M.bind_ok]

/-- Start values of the partitions. -/
theorem rangeStarts_ok {g : Grid} (hg : g.Ok) (start : Int) :
    ∃ starts value, rangeStarts g.n0 g.n1 g.a1 (shapeOf g) start = .ok (starts, value) ∧
      ∀ k0 k1, k0 < g.n0 → k1 < g.n1 → starts[k0 * g.n1 + k1]? =
        some (start + k0 * (g.n1 * g.cols 0 + ((g.p0 : Int) - 1) * g.a1) + k1 * g.cols 0) := by
  have hn1 : 0 < g.n1 := Nat.div_pos hg.le1 hg.pos1
  have hcol : ∀ k0, (shapeOf g (k0 * g.n1 + 0)).2 = g.cols 0 := by
    intro k0; simp only [shapeOf, idx_mod hn1]
  have hrow : ∀ k0, (shapeOf g (k0 * g.n1 + 0)).1 = g.rows k0 := by
    intro k0; simp only [shapeOf, idx_div hn1]
  obtain ⟨s, e1, _, _, e4⟩ := forLoop_inv (n := g.n0)
    (fun k (s : List Int × Int) => s.1.length = k * g.n1 ∧
      (k < g.n0 → s.2 = start + k * (g.n1 * g.cols 0 + ((g.p0 : Int) - 1) * g.a1)) ∧
      ∀ k0 k1, k0 < k → k1 < g.n1 → s.1[k0 * g.n1 + k1]? =
        some (start + k0 * (g.n1 * g.cols 0 + ((g.p0 : Int) - 1) * g.a1) + k1 * g.cols 0))
    (body := fun idx0 s => do
      let shape := shapeOf g (idx0 * g.n1 + 0)
      let (starts, value) ← forLoop g.n1 (fun _ (s : List Int × Int) => .ok (s.1 ++ [s.2], s.2 + shape.2)) s
      .ok (starts, value + ((shape.1 : Int) - 1) * g.a1))
    (by
      intro k hk s ⟨a1, a2, a3⟩
      have a2 := a2 hk
      obtain ⟨s', b1, b2, b3, b4⟩ := forLoop_inv (n := g.n1)
        (fun k1 (s' : List Int × Int) => s'.1.length = k * g.n1 + k1 ∧ s'.2 = s.2 + k1 * g.cols 0 ∧
          ∀ k0 k1', k0 < k ∧ k1' < g.n1 ∨ k0 = k ∧ k1' < k1 → s'.1[k0 * g.n1 + k1']? =
            some (start + k0 * (g.n1 * g.cols 0 + ((g.p0 : Int) - 1) * g.a1) + k1' * g.cols 0))
        (body := fun _ (s : List Int × Int) => .ok (s.1 ++ [s.2], s.2 + (shapeOf g (k * g.n1 + 0)).2))
        (by
          intro j hj s' ⟨c1, c2, c3⟩
          refine ⟨_, rfl, by simp [c1]; omega, by rw [hcol, c2]; push_cast; ring, ?_⟩
          intro k0 k1' hij
          by_cases he : k0 = k ∧ k1' = j
          · obtain ⟨rfl, rfl⟩ := he
            rw [List.getElem?_append_right (by omega), c1]
            simp [c2, a2]
          · have hlt : k0 * g.n1 + k1' < s'.1.length := by
              rw [c1]
              rcases hij with ⟨hi, hj'⟩ | ⟨rfl, hj'⟩
              · have := idx_lt hi hj'; omega
              · simp only [true_and] at he; omega
            rw [List.getElem?_append_left hlt]
            apply c3
            rcases hij with hi | ⟨rfl, hj'⟩
            · exact .inl hi
            · exact .inr ⟨rfl, by simp only [true_and] at he; omega⟩) s
        ⟨by simpa using a1, by simp, fun k0 k1 h => a3 k0 k1 (by omega) (by omega)⟩
      refine ⟨(s'.1, s'.2 + (((shapeOf g (k * g.n1 + 0)).1 : Int) - 1) * g.a1), by simp only [b1, M.bind_ok],
        by rw [b2, Nat.add_mul, Nat.one_mul], ?_, ?_⟩
      · intro hk1
        have hr : g.rows k = g.p0 := Dim.extent_of_not_last (by
          have : k + 1 < g.a0 / g.p0 := hk1
          omega)
        simp only [hrow, hr, b3, a2]
        push_cast
        ring
      · intro k0 k1 h0 h1
        exact b4 k0 k1 (by omega)) ([], start) ⟨by simp, by simp, by omega⟩
  exact ⟨s.1, s.2, by rw [rangeStarts]; exact e1, e4⟩

/-- The number of cells by which the last partition of each row of partitions is wider than the first one. -/
def surplus (g : Grid) : Nat := g.a1 - g.n1 * g.cols 0

/-- C41: the values `range` assigns: in each next row of partitions, the values are too small. -/
theorem range_values {g : Grid} (hg : g.Ok) (start : Int) (garbage : Nat → Nat → Int) {order : List Nat}
    (ho : IsOrder (g.n0 * g.n1) order) :
    ∃ y, range g start garbage order = .ok y ∧
      Represents y (fun i j => rowMajor g.a1 start i j - partitionRow g i * surplus g) := by
  obtain ⟨starts, value, hs, hst⟩ := rangeStarts_ok hg start
  have hn1 : 0 < g.n1 := Nat.div_pos hg.le1 hg.pos1
  have hle : g.n1 * g.cols 0 ≤ g.a1 := by
    by_cases h : g.n1 = 1
    · rw [h, Nat.one_mul]; have := cols_end hg (k := 0) hn1; omega
    · have : g.cols 0 = g.p1 := Dim.extent_of_not_last (by
        change 0 + 1 < g.n1; omega)
      rw [this]
      exact Dim.nr_mul_le
  obtain ⟨parts, hr, hrep⟩ := runTasks_represents hg ho
    (task := fun k => do
      let start ← rd starts k
      rangePartition (shapeOf g k) start g.a1 (garbage k))
    (w := fun i j => rowMajor g.a1 start i j - partitionRow g i * surplus g)
    (by
      intro k0 k1 h0 h1
      have hce := cols_end hg h1
      obtain ⟨data, e1, e2, e3⟩ := rangePartition_ok (shape := shapeOf g (k0 * g.n1 + k1)) (stride := g.a1)
        (by simp only [shapeOf, idx_mod h1]; omega)
        (start + k0 * (g.n1 * g.cols 0 + ((g.p0 : Int) - 1) * g.a1) + k1 * g.cols 0) (garbage (k0 * g.n1 + k1))
      have hsh : shapeOf g (k0 * g.n1 + k1) = (g.rows k0, g.cols k1) := by rw [shapeOf, idx_div h1, idx_mod h1]
      refine ⟨data, by rw [rd_ok (hst k0 k1 h0 h1), M.bind_ok, e1], by rw [e2, hsh], ?_⟩
      intro l0 l1 hl0 hl1
      rw [hsh] at e3
      rw [e3 l0 l1 hl0 hl1, partitionRow_cell hg h0 hl0]
      congr 1
      have hk1 : (k1 : Int) * g.cols 0 = k1 * g.p1 := by
        by_cases h : k1 = 0
        · subst h; simp
        · have : g.cols 0 = g.p1 := Dim.extent_of_not_last (by
            change 0 + 1 < g.n1; omega)
          rw [this]
      simp only [rowMajor, surplus, Nat.cast_sub hle, hk1]
      push_cast
      ring)
  refine ⟨⟨g, parts⟩, ?_, hrep⟩
  rw [range, hs]
  simp only [M.bind_ok]
  rw [hr]
  rfl

theorem surplus_eq {g : Grid} (hg : g.Ok) : surplus g = if g.n1 = 1 then 0 else g.a1 % g.p1 := by
  have hn1 : 0 < g.n1 := Nat.div_pos hg.le1 hg.pos1
  unfold surplus
  split
  · rename_i h
    have h' : g.a1 / g.p1 = 1 := h
    rw [h, Nat.one_mul]
    simp only [Grid.cols, Dim.extent, h']
    simp only [Nat.sub_self, if_true, Nat.one_mul]
    omega
  · rename_i h
    have : g.cols 0 = g.p1 := Dim.extent_of_not_last (by
      change 0 + 1 < g.n1; omega)
    rw [this]
    have := Nat.div_add_mod g.a1 g.p1
    rw [Nat.mul_comm] at this
    change g.a1 - g.a1 / g.p1 * g.p1 = _
    omega

/-- C41: `range` numbers the cells consecutively, row by row, if the number of columns is a multiple of the number of
columns of a partition, or if there is a single partition in one of the dimensions. -/
theorem range_correct {g : Grid} (hg : g.Ok) (hs : g.a1 % g.p1 = 0 ∨ g.a1 / g.p1 = 1 ∨ g.a0 / g.p0 = 1)
    (start : Int) (garbage : Nat → Nat → Int) {order : List Nat} (ho : IsOrder (g.n0 * g.n1) order) :
    ∃ y, range g start garbage order = .ok y ∧ Represents y (rowMajor g.a1 start) := by
  obtain ⟨y, h1, h2⟩ := range_values hg start garbage ho
  refine ⟨y, h1, ?_⟩
  have hz : ∀ i, i < g.a0 → (partitionRow g i : Int) * surplus g = 0 := by
    intro i hi
    rw [surplus_eq hg]
    rcases hs with h | h | h
    · simp [h]
    · simp [Grid.n1, h]
    · have : partitionRow g i = 0 := by unfold partitionRow; rw [h]; exact Nat.min_zero _
      simp [this]
  have hgrid : y.grid = g := by
    unfold range at h1
    rcases hrs : rangeStarts g.n0 g.n1 g.a1 (shapeOf g) start with _ | ⟨a, b⟩
    · rw [hrs] at h1; cases h1
    · rw [hrs, M.bind_ok] at h1
      simp only at h1
      generalize hrt : runTasks (g.n0 * g.n1) _ order = t at h1
      cases t with
      | error => cases h1
      | ok t => rw [M.bind_ok] at h1; exact (congrArg PArr.grid (Except.ok.inj h1)).symm
  refine ⟨h2.ok, h2.nr_parts, h2.part_size, ?_⟩
  intro i j k0 k1 l0 l1 hc
  have := h2.elem i j k0 k1 l0 l1 hc
  rw [this]
  have hi := (hc.lt h2.ok).1
  rw [hgrid] at hi
  simp [hz i hi]

/-- C41: in all other cases, the numbers `range` assigns aren't unique: two different cells get the same number. -/
theorem range_not_unique {g : Grid} (hg : g.Ok) (hs : g.a1 % g.p1 ≠ 0 ∧ g.a1 / g.p1 ≠ 1 ∧ g.a0 / g.p0 ≠ 1)
    (start : Int) (garbage : Nat → Nat → Int) {order : List Nat} (ho : IsOrder (g.n0 * g.n1) order) :
    ∃ y v i j i' j', range g start garbage order = .ok y ∧ Represents y v ∧ i < g.a0 ∧ j < g.a1 ∧ i' < g.a0 ∧
      j' < g.a1 ∧ (i, j) ≠ (i', j') ∧ v i j = v i' j' := by
  obtain ⟨y, h1, h2⟩ := range_values hg start garbage ho
  have hn0 : 0 < g.a0 / g.p0 := Nat.div_pos hg.le0 hg.pos0
  have hmod := Nat.mod_lt g.a1 hg.pos1
  have hp0 := hg.pos0
  have hlt : g.p0 < g.a0 := by
    rcases Nat.lt_or_ge g.p0 g.a0 with h | h
    · exact h
    · have : g.a0 = g.p0 := Nat.le_antisymm h hg.le0
      exact absurd (by rw [this]; exact Nat.div_self hg.pos0) hs.2.2
  have hle1 := hg.le1
  refine ⟨y, _, g.p0, 0, g.p0 - 1, g.a1 - g.a1 % g.p1, h1, h2, hlt, by omega, by omega, by omega, ?_, ?_⟩
  · intro hc
    simp only [Prod.mk.injEq] at hc
    omega
  · have e1 : partitionRow g g.p0 = 1 := by
      unfold partitionRow; rw [Nat.div_self hg.pos0]; omega
    have e2 : partitionRow g (g.p0 - 1) = 0 := by
      unfold partitionRow; rw [Nat.div_eq_of_lt (by omega)]; omega
    rw [e1, e2, surplus_eq hg, if_neg (show ¬ g.n1 = 1 from hs.2.1)]
    simp only [rowMajor]
    rw [Nat.cast_sub (by omega : 1 ≤ g.p0), Nat.cast_sub (by omega : g.a1 % g.p1 ≤ g.a1)]
    push_cast
    ring

/-- A smallest such case: 4 x 5 cells, partitions of 2 x 2 cells. The value 9 occurs twice. -/
example : (range ⟨4, 5, 2, 2⟩ 0 (fun _ _ => 77) [3, 1, 2, 0]).toOption.map (·.parts) =
    some [[0, 1, 5, 6], [2, 3, 4, 7, 8, 9], [9, 10, 14, 15], [11, 12, 13, 16, 17, 18]] := by decide

example : (Grid.mk 4 5 2 2).Ok := ⟨by decide, by decide, by decide, by decide⟩

example : (range ⟨4, 4, 2, 2⟩ 0 (fun _ _ => 77) [3, 1, 2, 0]).toOption.map (·.parts) =
    some [[0, 1, 4, 5], [2, 3, 6, 7], [8, 9, 12, 13], [10, 11, 14, 15]] := by decide

/-- The hypotheses are met. -/
example : ∃ x : Created Int, ∃ v, Holds x ⟨4, 5, 2, 2⟩ v :=
  ⟨_, _, holds_of_parts (g := ⟨4, 5, 2, 2⟩) ⟨by decide, by decide, by decide, by decide⟩ (locs := [0, 0, 1, 1])
    (part := fun k => ⟨offsetOf ⟨4, 5, 2, 2⟩ k, shapeOf ⟨4, 5, 2, 2⟩ k,
      List.replicate ((shapeOf ⟨4, 5, 2, 2⟩ k).1 * (shapeOf ⟨4, 5, 2, 2⟩ k).2) 7⟩) (v := fun _ _ => 7)
    (fun k _ => ⟨rfl, rfl⟩) (by
      intro k0 k1 h0 h1
      have e : shapeOf ⟨4, 5, 2, 2⟩ (k0 * (Grid.mk 4 5 2 2).n1 + k1) =
          ((Grid.mk 4 5 2 2).rows k0, (Grid.mk 4 5 2 2).cols k1) := by rw [shapeOf, idx_div h1, idx_mod h1]
      simp only [e]
      refine ⟨by simp, ?_⟩
      intro l0 l1 hl0 hl1
      rw [List.getElem?_replicate, if_pos (idx_lt hl0 hl1)])⟩

end Lue.Position

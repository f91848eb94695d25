import Verif.Partitioned.Store
import Mathlib.Data.List.Nodup
import Mathlib.Data.List.Perm.Lattice

/-!
All cells of an array, versus all elements of all partitions.
-/
namespace Lue

/-- The cells of an array of the given shape, in row-major order. -/
def cellIdxs (a0 a1 : Nat) : List (Nat × Nat) := (List.range a0).flatMap fun i => (List.range a1).map fun j => (i, j)

/-- The elements of an array, in row-major order. -/
def cells {α : Type} (g : Grid) (v : Arr α) : List α := (cellIdxs g.a0 g.a1).map fun c => v c.1 c.2

theorem mem_cellIdxs {a0 a1 : Nat} {c : Nat × Nat} : c ∈ cellIdxs a0 a1 ↔ c.1 < a0 ∧ c.2 < a1 := by
  rcases c with ⟨i, j⟩
  simp [cellIdxs]

theorem nodup_cellIdxs (a0 a1 : Nat) : (cellIdxs a0 a1).Nodup := by
  rw [cellIdxs, List.nodup_flatMap]
  refine ⟨fun i _ => List.nodup_range.map (fun a b h => by simpa using h), ?_⟩
  refine List.Pairwise.imp ?_ (List.nodup_range (n := a0))
  intro a b hab c hc hc'
  simp only [List.mem_map] at hc hc'
  obtain ⟨_, _, rfl⟩ := hc
  obtain ⟨_, _, h⟩ := hc'
  exact hab (Prod.mk.inj h).1.symm

theorem mem_cells {α : Type} {g : Grid} {v : Arr α} {x : α} :
    x ∈ cells g v ↔ ∃ i j, i < g.a0 ∧ j < g.a1 ∧ v i j = x := by
  simp only [cells, List.mem_map, mem_cellIdxs, Prod.exists]
  constructor
  · rintro ⟨i, j, ⟨h0, h1⟩, h⟩; exact ⟨i, j, h0, h1, h⟩
  · rintro ⟨i, j, h0, h1, h⟩; exact ⟨i, j, ⟨h0, h1⟩, h⟩

/-- The indices of the cells of partition `k`. -/
def partIdxs (g : Grid) (k : Nat) : List (Nat × Nat) :=
  (List.range (g.rows (k / g.n1) * g.cols (k % g.n1))).map fun e =>
    (k / g.n1 * g.p0 + e / g.cols (k % g.n1), k % g.n1 * g.p1 + e % g.cols (k % g.n1))

theorem mem_partIdxs {g : Grid} {k : Nat} (hk : k < g.n0 * g.n1) {c : Nat × Nat} :
    c ∈ partIdxs g k ↔ ∃ l0 l1, IsCell g c.1 c.2 (k / g.n1) (k % g.n1) l0 l1 := by
  obtain ⟨h0, h1, _⟩ := idx_split hk
  simp only [partIdxs, List.mem_map, List.mem_range]
  constructor
  · rintro ⟨e, he, rfl⟩
    obtain ⟨h2, h3, _⟩ := idx_split he
    exact ⟨_, _, h0, h1, h2, h3, rfl, rfl⟩
  · rintro ⟨l0, l1, hc⟩
    refine ⟨l0 * g.cols (k % g.n1) + l1, idx_lt hc.l0_lt hc.l1_lt, ?_⟩
    rw [idx_div hc.l1_lt, idx_mod hc.l1_lt, ← hc.i_eq, ← hc.j_eq]

theorem IsCell.unique {g : Grid} (hg : g.Ok) {i j k0 k1 l0 l1 k0' k1' l0' l1' : Nat}
    (h : IsCell g i j k0 k1 l0 l1) (h' : IsCell g i j k0' k1' l0' l1') : k0 = k0' ∧ k1 = k1' ∧ l0 = l0' ∧ l1 = l1' := by
  have e0 := Decomposition.Dim.locate_unique hg.pos0 hg.le0 h.k0_lt h.l0_lt
  have e1 := Decomposition.Dim.locate_unique hg.pos1 hg.le1 h.k1_lt h.l1_lt
  have e0' := Decomposition.Dim.locate_unique hg.pos0 hg.le0 h'.k0_lt h'.l0_lt
  have e1' := Decomposition.Dim.locate_unique hg.pos1 hg.le1 h'.k1_lt h'.l1_lt
  rw [← h.i_eq] at e0; rw [← h.j_eq] at e1; rw [← h'.i_eq] at e0'; rw [← h'.j_eq] at e1'
  have a : k0 = k0' := by rw [← e0, ← e0']
  have b : k1 = k1' := by rw [← e1, ← e1']
  subst a; subst b
  have := h.i_eq; have := h'.i_eq; have := h.j_eq; have := h'.j_eq
  exact ⟨rfl, rfl, by omega, by omega⟩

theorem nodup_partIdxs (g : Grid) (k : Nat) : (partIdxs g k).Nodup := by
  refine List.Nodup.map_on ?_ List.nodup_range
  intro a ha b hb hab
  simp only [List.mem_range] at ha hb
  obtain ⟨_, _, e1⟩ := idx_split ha
  obtain ⟨_, _, e2⟩ := idx_split hb
  simp only [Prod.mk.injEq] at hab
  have h1 : a / g.cols (k % g.n1) = b / g.cols (k % g.n1) := by omega
  have h2 : a % g.cols (k % g.n1) = b % g.cols (k % g.n1) := by omega
  rw [← e1, ← e2, h1, h2]

/-- The partitions together hold each cell once. -/
theorem partIdxs_perm {g : Grid} (hg : g.Ok) :
    ((List.range (g.n0 * g.n1)).flatMap (partIdxs g)).Perm (cellIdxs g.a0 g.a1) := by
  rw [List.perm_ext_iff_of_nodup _ (nodup_cellIdxs _ _)]
  · intro c
    simp only [List.mem_flatMap, List.mem_range, mem_cellIdxs]
    constructor
    · rintro ⟨k, hk, hc⟩
      obtain ⟨l0, l1, h⟩ := (mem_partIdxs hk).mp hc
      exact h.lt hg
    · rintro ⟨hi, hj⟩
      obtain ⟨k0, k1, l0, l1, h⟩ := exists_isCell hg hi hj
      refine ⟨k0 * g.n1 + k1, idx_lt h.k0_lt h.k1_lt, (mem_partIdxs (idx_lt h.k0_lt h.k1_lt)).mpr ⟨l0, l1, ?_⟩⟩
      rw [idx_div h.k1_lt, idx_mod h.k1_lt]; exact h
  · rw [List.nodup_flatMap]
    refine ⟨fun k _ => nodup_partIdxs g k, ?_⟩
    refine List.Pairwise.imp_of_mem ?_ (List.nodup_range (n := g.n0 * g.n1))
    intro a b ha hb hab c hc hc'
    simp only [List.mem_range] at ha hb
    obtain ⟨_, _, h⟩ := (mem_partIdxs ha).mp hc
    obtain ⟨_, _, h'⟩ := (mem_partIdxs hb).mp hc'
    obtain ⟨e0, e1, _⟩ := h.unique hg h'
    apply hab
    rw [← (idx_split ha).2.2, ← (idx_split hb).2.2, e0, e1]

/-- The elements of partition `k`. -/
theorem Represents.parts_get {α : Type} {x : PArr α} {v : Arr α} (hx : Represents x v) {k : Nat}
    (hk : k < x.grid.n0 * x.grid.n1) :
    x.parts[k]? = some ((partIdxs x.grid k).map fun c => v c.1 c.2) := by
  obtain ⟨h0, h1, he⟩ := idx_split hk
  obtain ⟨p, hp, hlen, hv⟩ := hx.part h0 h1
  rw [he] at hp
  rw [hp]
  congr 1
  apply List.ext_getElem?
  intro e
  by_cases hel : e < x.grid.rows (k / x.grid.n1) * x.grid.cols (k % x.grid.n1)
  · obtain ⟨h2, h3, h4⟩ := idx_split hel
    have := hv _ _ h2 h3
    rw [h4] at this
    rw [this]
    simp [partIdxs, hel]
  · rw [List.getElem?_eq_none (by omega), List.getElem?_eq_none (by simp [partIdxs]; omega)]

theorem Represents.parts_eq {α : Type} {x : PArr α} {v : Arr α} (hx : Represents x v) :
    x.parts = (List.range (x.grid.n0 * x.grid.n1)).map fun k => (partIdxs x.grid k).map fun c => v c.1 c.2 := by
  apply List.ext_getElem?
  intro k
  by_cases hk : k < x.grid.n0 * x.grid.n1
  · rw [hx.parts_get hk]; simp [hk]
  · rw [List.getElem?_eq_none (by rw [hx.nr_parts]; omega), List.getElem?_eq_none (by simp; omega)]

/-- The elements of all partitions are the elements of the array, in some order. -/
theorem Represents.flatten_perm {α : Type} {x : PArr α} {v : Arr α} (hx : Represents x v) :
    x.parts.flatten.Perm (cells x.grid v) := by
  have : x.parts.flatten = ((List.range (x.grid.n0 * x.grid.n1)).flatMap (partIdxs x.grid)).map fun c => v c.1 c.2 := by
    conv_lhs => rw [hx.parts_eq]
    rw [List.map_flatMap, List.flatMap_def]
  rw [this]
  exact (partIdxs_perm hx.ok).map _

end Lue

import Verif.Aggregate.Properties
import Verif.LocalOp.Properties
import Verif.Util.AMap

/-!
C33: reclassify, and the zonal operations which are implemented with it: zonal_uniform and zonal_normal.
`A` below is `source/framework/algorithm/include/lue/framework/algorithm`.
-/
namespace Lue.Zonal

open LocalOp

variable {Z ω : Type} [DecidableEq Z]

/-- `A/definition/reclassify.hpp:25-70` -/
def reclassifyPartition (isNoData : Z → Bool) (mark : ω) (garbage : Nat → ω) (table : AMap Z ω) (data : List Z) :
    M (List ω) :=
  forLoop data.length (fun i out => do
    let x ← rd data i
    if isNoData x then wr out i mark
    else
      match table.get x with
      | none => wr out i mark
      | some v => wr out i v) (uninitialised data.length garbage)

/-- `A/definition/reclassify.hpp:88-120` -/
def reclassify (isNoData : Z → Bool) (mark : ω) (garbage : Nat → ω) (table : AMap Z ω) (order : List Nat)
    (x : PArr Z) : M (PArr ω) :=
  array1 (reclassifyPartition isNoData mark garbage table) order x

/-- `A/definition/zonal_uniform.hpp:55-83`, `A/definition/zonal_normal.hpp`: associate the next random number with each
zone. `draw` is the sequence of random numbers. -/
def randomTable (draw : Nat → ω) (zones : List Z) : AMap Z ω :=
  (zones.zipIdx).map fun (z, i) => (z, draw i)

/-- `A/definition/zonal_uniform.hpp:14-95`, `A/definition/zonal_normal.hpp`. `order1` and `order2` are the orders of
completion of the tasks of unique and reclassify. -/
def zonalRandom (isNoData : Z → Bool) (mark : ω) (garbage : Nat → ω) (draw : Nat → ω) (order1 order2 : List Nat)
    (x : PArr Z) : M (PArr ω) := do
  let zones ← Aggregate.unique isNoData order1 x
  reclassify isNoData mark garbage (randomTable draw zones) order2 x

theorem reclassifyPartition_elementWise (isNoData : Z → Bool) (mark : ω) (garbage : Nat → ω) (table : AMap Z ω) :
    ElementWise1 (reclassifyPartition isNoData mark garbage table)
      (fun x => if isNoData x then mark else (table.get x).getD mark) := by
  refine elementWise_of_loop1 _ _ _ garbage (fun p => rfl) ?_
  intro p i x out hx ho
  have hi : i < out.length := by have := (List.getElem?_eq_some_iff.mp hx).1; omega
  simp only [rd_ok hx, M.bind_ok]
  by_cases h : isNoData x
  · simp [h, wr_ok, hi]
  · cases hg : table.get x <;> simp [h, wr_ok, hi]

/-- C33: each cell gets the value in the lookup table, or no-data if there is none or if the cell is no-data. -/
theorem reclassify_spec (isNoData : Z → Bool) (mark : ω) (garbage : Nat → ω) (table : AMap Z ω) {x : PArr Z}
    {v : Arr Z} (hx : Represents x v) {order : List Nat} (ho : IsOrder (x.grid.n0 * x.grid.n1) order) :
    ∃ r, reclassify isNoData mark garbage table order x = .ok r ∧ r.grid = x.grid ∧
      Represents r (fun i j => if isNoData (v i j) then mark else (table.get (v i j)).getD mark) :=
  array1_spec (reclassifyPartition_elementWise isNoData mark garbage table) hx ho

theorem randomTable_get (draw : Nat → ω) (zones : List Z) (z : Z) (hz : z ∈ zones) :
    ∃ i < zones.length, (randomTable draw zones).get z = some (draw i) := by
  have key : ∀ (l : List Z) (n : Nat), z ∈ l →
      ∃ i, n ≤ i ∧ i < n + l.length ∧ AMap.get ((l.zipIdx n).map fun (z, i) => (z, draw i)) z = some (draw i) := by
    intro l
    induction l with
    | nil => intro n h; cases h
    | cons a l ih =>
      intro n h
      simp only [List.zipIdx_cons, List.map_cons, AMap.get_cons]
      by_cases ha : a = z
      · exact ⟨n, Nat.le_refl _, by simp, by simp [ha]⟩
      · obtain ⟨i, h1, h2, h3⟩ := ih (n + 1) (by
          rcases List.mem_cons.mp h with h | h
          · exact absurd h.symm ha
          · exact h)
        exact ⟨i, by omega, by simp only [List.length_cons]; omega, by rw [if_neg ha]; exact h3⟩
  obtain ⟨i, _, h2, h3⟩ := key zones 0 hz
  exact ⟨i, by omega, h3⟩

/-- C33: zonal_uniform and zonal_normal assign one of the drawn random numbers to each cell with a valid zone, the same
number to cells in the same zone, and no-data to the other cells. -/
theorem zonalRandom_spec (isNoData : Z → Bool) (mark : ω) (garbage : Nat → ω) (draw : Nat → ω) {x : PArr Z}
    {v : Arr Z} (hx : Represents x v) {order1 order2 : List Nat} (ho1 : IsOrder (x.grid.n0 * x.grid.n1) order1)
    (ho2 : IsOrder (x.grid.n0 * x.grid.n1) order2) :
    ∃ r u, zonalRandom isNoData mark garbage draw order1 order2 x = .ok r ∧ r.grid = x.grid ∧ Represents r u ∧
      (∀ i j, isNoData (v i j) = true → u i j = mark) ∧
      (∀ i j, i < x.grid.a0 → j < x.grid.a1 → isNoData (v i j) = false → ∃ n, u i j = draw n) ∧
      (∀ i j i' j', v i j = v i' j' → u i j = u i' j') := by
  obtain ⟨zones, h1, h2, h3⟩ := Aggregate.unique_spec isNoData hx ho1
  obtain ⟨r, h4, h5, h6⟩ := reclassify_spec isNoData mark garbage (randomTable draw zones) hx ho2
  refine ⟨r, _, by simp only [zonalRandom, h1, M.bind_ok, h4], h5, h6, ?_, ?_, ?_⟩
  · intro i j h; simp [h]
  · intro i j hi hj h
    obtain ⟨n, _, hn⟩ := randomTable_get draw zones (v i j) ((h3 _).mpr ⟨h, i, j, hi, hj, rfl⟩)
    exact ⟨n, by simp [h, hn]⟩
  · intro i j i' j' h; simp only [h]

theorem randomTable_get_idxOf (draw : Nat → ω) (zones : List Z) (z : Z) (hz : z ∈ zones) :
    (randomTable draw zones).get z = some (draw (zones.idxOf z)) := by
  have key : ∀ (l : List Z) (n : Nat), z ∈ l →
      AMap.get ((l.zipIdx n).map fun (z, i) => (z, draw i)) z = some (draw (n + l.idxOf z)) := by
    intro l
    induction l with
    | nil => intro n h; cases h
    | cons a l ih =>
      intro n h
      simp only [List.zipIdx_cons, List.map_cons, AMap.get_cons]
      by_cases ha : a = z
      · subst ha; simp
      · rw [if_neg ha, ih (n + 1) (by
          rcases List.mem_cons.mp h with h | h
          · exact absurd h.symm ha
          · exact h), List.idxOf_cons_ne _ ha]
        congr 2
        omega
  have := key zones 0 hz
  rwa [Nat.zero_add] at this

/-- C33: one draw per zone: the zones are numbered, different zones have different numbers, the numbers are those up to the
number of zones, and each cell gets the draw with the number of its zone. -/
theorem zonalRandom_draws (isNoData : Z → Bool) (mark : ω) (garbage : Nat → ω) (draw : Nat → ω) {x : PArr Z}
    {v : Arr Z} (hx : Represents x v) {order1 order2 : List Nat} (ho1 : IsOrder (x.grid.n0 * x.grid.n1) order1)
    (ho2 : IsOrder (x.grid.n0 * x.grid.n1) order2) :
    ∃ r u, zonalRandom isNoData mark garbage draw order1 order2 x = .ok r ∧ Represents r u ∧
      ∃ zones : List Z, zones.Nodup ∧
        (∀ z, z ∈ zones ↔ isNoData z = false ∧ ∃ i j, i < x.grid.a0 ∧ j < x.grid.a1 ∧ v i j = z) ∧
        ∃ number : Z → Nat, (∀ z ∈ zones, number z < zones.length ∧ ∀ z' ∈ zones, number z = number z' → z = z') ∧
          ∀ i j, i < x.grid.a0 → j < x.grid.a1 → isNoData (v i j) = false → u i j = draw (number (v i j)) := by
  obtain ⟨zones, h1, h2, h3⟩ := Aggregate.unique_spec isNoData hx ho1
  obtain ⟨r, h4, _, h6⟩ := reclassify_spec isNoData mark garbage (randomTable draw zones) hx ho2
  refine ⟨r, _, by simp only [zonalRandom, h1, M.bind_ok, h4], h6, zones, h2, h3, fun z => zones.idxOf z, ?_, ?_⟩
  · intro z hz
    refine ⟨List.idxOf_lt_length_iff.2 hz, fun z' hz' e => ?_⟩
    simpa [hz, hz'] using List.idxOf_inj hz |>.1 e
  · intro i j hi hj h
    have := randomTable_get_idxOf draw zones (v i j) ((h3 _).mpr ⟨h, i, j, hi, hj, rfl⟩)
    simp [h, this]

/-- The number of random numbers drawn is the number of zones, and different zones use different draws. -/
theorem randomTable_draws (draw : Nat → ω) (zones : List Z) :
    (randomTable draw zones).map Prod.snd = (List.range zones.length).map draw := by
  unfold randomTable
  rw [List.map_map]
  apply List.ext_getElem?
  intro i
  by_cases h : i < zones.length
  · simp [h]
  · simp [h, List.getElem?_eq_none (Nat.not_lt.mp h)]

example : ∃ (x : PArr Nat), Represents x (fun _ j => [5, 99, 7, 7].getD j 0) ∧
    IsOrder (x.grid.n0 * x.grid.n1) [1, 0] ∧
    reclassify (· == 99) 0 (fun _ => 0) [(7, 70)] [1, 0] x = .ok ⟨x.grid, [[0, 0], [70, 70]]⟩ :=
  ⟨store ⟨1, 4, 1, 2⟩ _, store_represents ⟨by decide, by decide, by decide, by decide⟩ _,
    by unfold IsOrder; decide, rfl⟩

end Lue.Zonal

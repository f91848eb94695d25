import Verif.Random.Model

/-!
# Arrays with random values: properties (C64)
-/
namespace Lue.Random

open Lue.Create Lue.LocalOp Lue.Numpy

variable {α ε : Type}

/-! ### Specification -/

/-- The states of the generator, after each of the numbers drawn -/
def Dist.stateAt (d : Dist ε) (s : d.τ) : Nat → d.τ
  | 0 => s
  | n + 1 => (d.next (d.stateAt s n)).2

/-- The `n`-th number obtained with a generator with arguments `a` and `b`, seeded with `seed` -/
def Dist.draw (d : Dist ε) (a b : ε) (seed n : Nat) : ε := (d.next (d.stateAt (d.start a b seed) n)).1

/-- What the distribution promises about the numbers drawn -/
def Dist.Promises (d : Dist ε) (R : ε → ε → ε → Prop) : Prop :=
  ∀ a b, d.usable a b = true → ∀ seed n, R a b (d.draw a b seed n)

/-- The array contains a number drawn in each of its cells. Each partition uses its own generator. No number is used
twice: different cells in a partition contain numbers drawn at different moments. -/
def Drawn (d : Dist ε) (a b : ε) (device : Nat → Nat) (g : Grid) (u : Arr ε) : Prop :=
  ∀ i j k0 k1 l0 l1, IsCell g i j k0 k1 l0 l1 → u i j = d.draw a b (device (k0 * g.n1 + k1)) (l0 * g.cols k1 + l1)

/-! ### Filling -/

theorem generate_length (d : Dist ε) : ∀ (l : List ε) (s : d.τ), (generate d l s).length = l.length
  | [], _ => rfl
  | _ :: l, s => by rw [generate, List.length_cons, List.length_cons, generate_length d l]

theorem stateAt_next (d : Dist ε) (s : d.τ) : ∀ n, d.stateAt (d.next s).2 n = d.stateAt s (n + 1)
  | 0 => rfl
  | n + 1 => by
    show (d.next (d.stateAt (d.next s).2 n)).2 = (d.next (d.stateAt s (n + 1))).2
    rw [stateAt_next d s n]

theorem generate_get (d : Dist ε) : ∀ (l : List ε) (s : d.τ) (n : Nat), n < l.length →
    (generate d l s)[n]? = some (d.next (d.stateAt s n)).1
  | [], _, _, h => absurd h (Nat.not_lt_zero _)
  | _ :: l, s, 0, _ => rfl
  | _ :: l, s, n + 1, h => by
    rw [generate, List.getElem?_cons_succ, generate_get d l _ n (Nat.lt_of_succ_lt_succ h), stateAt_next]

/-- The elements drawn for a partition -/
def drawn (d : Dist ε) (a b : ε) (seed n : Nat) : List ε := (List.range n).map (d.draw a b seed)

theorem generate_eq (d : Dist ε) (a b : ε) (seed n : Nat) (garbage : Nat → ε) :
    generate d (uninitialised n garbage) (d.start a b seed) = drawn d a b seed n := by
  apply List.ext_getElem?
  intro i
  have hl : (uninitialised n garbage).length = n := by simp [uninitialised]
  by_cases h : i < n
  · rw [generate_get d _ _ i (by omega)]
    simp [drawn, h, Dist.draw]
  · rw [List.getElem?_eq_none (by rw [generate_length, hl]; omega), List.getElem?_eq_none (by simp [drawn]; omega)]

theorem fillRandom_ok {d : Dist ε} {a b : ε} (h : d.usable a b = true) (seed n : Nat) (garbage : Nat → ε) :
    fillRandom d a b seed (uninitialised n garbage) = .ok (drawn d a b seed n) := by
  rw [fillRandom, if_pos h, generate_eq]

/-- An operation per partition of which the result consists of the values of a function. -/
theorem perPartition_ok {op : Nat → List α → M (List ε)} {device : Nat → Nat} {x : PArr α} {v : Arr α} (hx : Represents x v)
    {f : Nat → Nat → ε} (hop : ∀ k (p : List α), op (device k) p = .ok ((List.range p.length).map (f k)))
    {order : List Nat} (ho : IsOrder (x.grid.n0 * x.grid.n1) order) :
    ∃ r u, perPartition op device order x = .ok r ∧ r.grid = x.grid ∧ Represents r u ∧
      ∀ i j k0 k1 l0 l1, IsCell x.grid i j k0 k1 l0 l1 → u i j = f (k0 * x.grid.n1 + k1) (l0 * x.grid.cols k1 + l1) := by
  let w : Arr ε := assemble x.grid fun k0 k1 l0 l1 => f (k0 * x.grid.n1 + k1) (l0 * x.grid.cols k1 + l1)
  have hw : ∀ i j k0 k1 l0 l1, IsCell x.grid i j k0 k1 l0 l1 →
      w i j = f (k0 * x.grid.n1 + k1) (l0 * x.grid.cols k1 + l1) := fun i j k0 k1 l0 l1 hc => hc.assemble hx.ok _
  obtain ⟨parts, h1, h2⟩ := runTasks_represents hx.ok ho
    (task := fun k => do op (device k) (← rd x.parts k)) (w := w) (by
      intro k0 k1 h0 h1
      obtain ⟨p, hp, hl, -⟩ := hx.part h0 h1
      refine ⟨(List.range p.length).map (f (k0 * x.grid.n1 + k1)), by rw [rd_ok hp, M.bind_ok, hop], by simp [hl], ?_⟩
      intro l0 l1 hl0 hl1
      have hlt := idx_lt hl0 hl1
      rw [List.getElem?_map, List.getElem?_range (by omega), Option.map_some]
      rw [hw _ _ k0 k1 l0 l1 ⟨h0, h1, hl0, hl1, rfl, rfl⟩])
  exact ⟨_, w, by rw [perPartition, h1]; rfl, rfl, h2, hw⟩

theorem markAll_map (mark : ε) (n : Nat) (garbage : Nat → ε) :
    markAll mark n (uninitialised n garbage) = .ok ((List.range n).map fun _ => mark) := markAll_eq mark n garbage

/-! ### Arrays, given an array -/

/-- C64: `uniform`, given an array. If one of the arguments is no-data, all cells are. Otherwise, if the arguments can be
used, each cell contains a number drawn, with everything the distribution promises. The values in the array passed in
are irrelevant, and so is the order in which the partitions are handled. -/
theorem uniformArray_spec (P : Policies ε) {d : Dist ε} {R : ε → ε → ε → Prop} (hR : d.Promises R) (garbage : Nat → ε)
    (a b : ε) (device : Nat → Nat) {x : PArr α} {v : Arr α} (hx : Represents x v) {order : List Nat}
    (ho : IsOrder (x.grid.n0 * x.grid.n1) order)
    (hu : P.isNoData a = false → P.isNoData b = false → d.usable a b = true) :
    ∃ r u, uniformArray P d garbage a b device order x = .ok r ∧ r.grid = x.grid ∧ Represents r u ∧
      (P.isNoData a = true ∨ P.isNoData b = true → ∀ i j, i < x.grid.a0 → j < x.grid.a1 → u i j = P.mark) ∧
      (P.isNoData a = false → P.isNoData b = false →
        Drawn d a b device x.grid u ∧ ∀ i j, i < x.grid.a0 → j < x.grid.a1 → R a b (u i j)) := by
  by_cases hn : P.isNoData a = true ∨ P.isNoData b = true
  · obtain ⟨r, u, h1, h2, h3, h4⟩ := perPartition_ok (op := uniformPartition P d garbage a b) (device := device) hx
      (f := fun _ _ => P.mark) (by
        intro k p
        rw [uniformPartition, if_pos (by rcases hn with h | h <;> simp [h]), markAll_map]) ho
    refine ⟨r, u, h1, h2, h3, fun _ i j hi hj => ?_, fun ha hb => by rcases hn with h | h <;> simp_all⟩
    obtain ⟨k0, k1, l0, l1, hc⟩ := exists_isCell hx.ok hi hj
    exact h4 _ _ _ _ _ _ hc
  · obtain ⟨ha, hb⟩ := not_or.mp hn
    have ha : P.isNoData a = false := by simpa using ha
    have hb : P.isNoData b = false := by simpa using hb
    obtain ⟨r, u, h1, h2, h3, h4⟩ := perPartition_ok (op := uniformPartition P d garbage a b) (device := device) hx
      (f := fun k => d.draw a b (device k)) (by
        intro k p
        rw [uniformPartition, if_neg (by simp [ha, hb]), fillRandom_ok (hu ha hb)]; rfl) ho
    refine ⟨r, u, h1, h2, h3, fun h => absurd h hn, fun _ _ => ⟨h4, fun i j hi hj => ?_⟩⟩
    obtain ⟨k0, k1, l0, l1, hc⟩ := exists_isCell hx.ok hi hj
    rw [h4 _ _ _ _ _ _ hc]
    exact hR a b (hu ha hb) _ _

/-- C64: `normal`, given an array. Idem, but if the arguments are not within the domain, all cells are no-data too. -/
theorem normalArray_spec (P : Policies ε) {d : Dist ε} {R : ε → ε → ε → Prop} (hR : d.Promises R) (garbage : Nat → ε)
    (a b : ε) (device : Nat → Nat) {x : PArr α} {v : Arr α} (hx : Represents x v) {order : List Nat}
    (ho : IsOrder (x.grid.n0 * x.grid.n1) order)
    (hu : P.isNoData a = false → P.isNoData b = false → P.within a b = true → d.usable a b = true) :
    ∃ r u, normalArray P d garbage a b device order x = .ok r ∧ r.grid = x.grid ∧ Represents r u ∧
      (P.isNoData a = true ∨ P.isNoData b = true ∨ P.within a b = false →
        ∀ i j, i < x.grid.a0 → j < x.grid.a1 → u i j = P.mark) ∧
      (P.isNoData a = false → P.isNoData b = false → P.within a b = true →
        Drawn d a b device x.grid u ∧ ∀ i j, i < x.grid.a0 → j < x.grid.a1 → R a b (u i j)) := by
  by_cases hn : P.isNoData a = true ∨ P.isNoData b = true ∨ P.within a b = false
  · obtain ⟨r, u, h1, h2, h3, h4⟩ := perPartition_ok (op := normalPartition P d garbage a b) (device := device) hx
      (f := fun _ _ => P.mark) (by
        intro k p
        rw [normalPartition]
        by_cases hab : (P.isNoData a || P.isNoData b) = true
        · rw [if_pos hab, markAll_map]
        · rw [if_neg hab, if_pos (by rcases hn with h | h | h <;> simp_all), markAll_map]) ho
    refine ⟨r, u, h1, h2, h3, fun _ i j hi hj => ?_, fun ha hb hw => by rcases hn with h | h | h <;> simp_all⟩
    obtain ⟨k0, k1, l0, l1, hc⟩ := exists_isCell hx.ok hi hj
    exact h4 _ _ _ _ _ _ hc
  · have ha : P.isNoData a = false := by cases h : P.isNoData a <;> simp_all
    have hb : P.isNoData b = false := by cases h : P.isNoData b <;> simp_all
    have hw : P.within a b = true := by cases h : P.within a b <;> simp_all
    obtain ⟨r, u, h1, h2, h3, h4⟩ := perPartition_ok (op := normalPartition P d garbage a b) (device := device) hx
      (f := fun k => d.draw a b (device k)) (by
        intro k p
        rw [normalPartition, if_neg (by simp [ha, hb]), if_neg (by simp [hw]), fillRandom_ok (hu ha hb hw)]; rfl) ho
    refine ⟨r, u, h1, h2, h3, fun h => absurd h hn, fun _ _ _ => ⟨h4, fun i j hi hj => ?_⟩⟩
    obtain ⟨k0, k1, l0, l1, hc⟩ := exists_isCell hx.ok hi hj
    rw [h4 _ _ _ _ _ _ hc]
    exact hR a b (hu ha hb hw) _ _

/-- C64: with the value policies, `normal` given an array is never undefined: a standard deviation which is not positive
yields no-data. -/
theorem normalArray_total (P : Policies ε) {d : Dist ε} (hP : ∀ m s, P.isNoData m = false → P.isNoData s = false →
      P.within m s = true → d.usable m s = true) (garbage : Nat → ε) (a b : ε) (device : Nat → Nat) {x : PArr α} {v : Arr α}
    (hx : Represents x v) {order : List Nat} (ho : IsOrder (x.grid.n0 * x.grid.n1) order) :
    ∃ r, normalArray P d garbage a b device order x = .ok r := by
  obtain ⟨r, -, h, -⟩ := normalArray_spec (R := fun _ _ _ => True) P (fun _ _ _ _ _ => trivial) garbage a b device hx ho (hP a b)
  exact ⟨r, h⟩

/-- The first task to complete that fails. -/
theorem perPartition_error {op : Nat → List α → M (List ε)} {device : Nat → Nat} {x : PArr α} {v : Arr α} (hx : Represents x v)
    {e : Err} (hop : ∀ k (p : List α), op (device k) p = .error e) {order : List Nat}
    (ho : IsOrder (x.grid.n0 * x.grid.n1) order) : perPartition op device order x = .error e := by
  have hpos : 0 < x.grid.n0 * x.grid.n1 :=
    Nat.mul_pos (Nat.div_pos hx.ok.le0 hx.ok.pos0) (Nat.div_pos hx.ok.le1 hx.ok.pos1)
  have hne : order ≠ [] := by
    intro h
    have hl := ho.length_eq
    rw [h, List.length_nil, List.length_range] at hl
    omega
  obtain ⟨k, rest, rfl⟩ := List.exists_cons_of_ne_nil hne
  have hk : k < x.grid.n0 * x.grid.n1 := by
    have : k ∈ List.range (x.grid.n0 * x.grid.n1) := ho.subset (by simp)
    simpa using this
  have hlen : k < x.parts.length := by rw [hx.nr_parts]; exact hk
  have hrd : rd x.parts k = .ok x.parts[k] := rd_ok (by simp [hlen])
  rw [perPartition, runTasks, List.foldlM_cons, hrd, M.bind_ok, hop]
  rfl

/-- C64 (finding): `uniform` does not verify that the minimum is not larger than the maximum. The behaviour is
undefined if the arguments don't meet the requirements of the distribution. -/
theorem uniformArray_undefined (P : Policies ε) (d : Dist ε) (garbage : Nat → ε) {a b : ε} (device : Nat → Nat) {x : PArr α}
    {v : Arr α} (hx : Represents x v) {order : List Nat} (ho : IsOrder (x.grid.n0 * x.grid.n1) order)
    (ha : P.isNoData a = false) (hb : P.isNoData b = false) (hu : d.usable a b = false) :
    uniformArray P d garbage a b device order x = .error undefinedBehaviour := by
  apply perPartition_error hx _ ho
  intro k p
  rw [uniformPartition, if_neg (by simp [ha, hb]), fillRandom, if_neg (by simp [hu])]

/-- C64: the result does not depend on the order in which the partitions are handled, nor on what the memory happened to
contain. -/
theorem uniformArray_order (P : Policies ε) (d : Dist ε) (garbage garbage' : Nat → ε) (a b : ε) (device : Nat → Nat) {x : PArr α}
    {v : Arr α} (hx : Represents x v) {order order' : List Nat} (ho : IsOrder (x.grid.n0 * x.grid.n1) order)
    (ho' : IsOrder (x.grid.n0 * x.grid.n1) order') :
    uniformArray P d garbage a b device order x = uniformArray P d garbage' a b device order' x := by
  by_cases hn : (P.isNoData a || P.isNoData b) = true
  · have h : ∀ (garbage : Nat → ε) (order : List Nat), IsOrder (x.grid.n0 * x.grid.n1) order →
        uniformArray P d garbage a b device order x =
          .ok ⟨x.grid, (List.range (x.grid.n0 * x.grid.n1)).map fun k =>
            (List.range (x.parts.getD k []).length).map fun _ => P.mark⟩ := by
      intro garbage order ho
      rw [uniformArray, perPartition, runTasks_ok ho
        (r := fun k => (List.range (x.parts.getD k []).length).map fun _ => P.mark) (by
          intro k hk
          have hlen : k < x.parts.length := by rw [hx.nr_parts]; exact hk
          rw [rd_ok (x := x.parts[k]) (by simp [hlen]), M.bind_ok, uniformPartition, if_pos hn, markAll_map]
          simp [List.getD, hlen])]
      rfl
    rw [h _ _ ho, h _ _ ho']
  · have ha : P.isNoData a = false := by cases h : P.isNoData a <;> simp_all
    have hb : P.isNoData b = false := by cases h : P.isNoData b <;> simp_all
    cases hu : d.usable a b with
    | false =>
      rw [uniformArray_undefined P d _ device hx ho ha hb hu, uniformArray_undefined P d _ device hx ho' ha hb hu]
    | true =>
      have h : ∀ (garbage : Nat → ε) (order : List Nat), IsOrder (x.grid.n0 * x.grid.n1) order →
          uniformArray P d garbage a b device order x =
            .ok ⟨x.grid, (List.range (x.grid.n0 * x.grid.n1)).map fun k =>
              drawn d a b (device k) (x.parts.getD k []).length⟩ := by
        intro garbage order ho
        rw [uniformArray, perPartition, runTasks_ok ho
          (r := fun k => drawn d a b (device k) (x.parts.getD k []).length) (by
            intro k hk
            have hlen : k < x.parts.length := by rw [hx.nr_parts]; exact hk
            rw [rd_ok (x := x.parts[k]) (by simp [hlen]), M.bind_ok, uniformPartition, if_neg hn, fillRandom_ok hu]
            simp [List.getD, hlen])]
        rfl
      rw [h _ _ ho, h _ _ ho']

/-! ### Scalars -/

/-- C64: a scalar is no-data if one of the arguments is, and a number drawn otherwise. -/
theorem randomScalar_spec (P : Policies ε) {d : Dist ε} {R : ε → ε → ε → Prop} (hR : d.Promises R) (a b : ε) (seed : Nat)
    (hu : P.isNoData a = false → P.isNoData b = false → d.usable a b = true) :
    ∃ z, randomScalar P d a b seed = .ok z ∧ (P.isNoData a = true ∨ P.isNoData b = true → z = P.mark) ∧
      (P.isNoData a = false → P.isNoData b = false → z = d.draw a b seed 0 ∧ R a b z) := by
  by_cases hn : P.isNoData a = true ∨ P.isNoData b = true
  · refine ⟨P.mark, by rw [randomScalar, if_pos (by rcases hn with h | h <;> simp [h])], fun _ => rfl, fun ha hb => ?_⟩
    rcases hn with h | h <;> simp_all
  · have ha : P.isNoData a = false := by cases h : P.isNoData a <;> simp_all
    have hb : P.isNoData b = false := by cases h : P.isNoData b <;> simp_all
    exact ⟨d.draw a b seed 0, by rw [randomScalar, if_neg (by simp [ha, hb]), if_pos (hu ha hb)]; rfl, fun h => absurd h hn,
      fun _ _ => ⟨rfl, hR a b (hu ha hb) seed 0⟩⟩

/-- C64 (finding): contrary to `normal` given an array, `normal` does not verify its arguments are within the domain: a
standard deviation of zero is undefined behaviour. -/
theorem randomScalar_undefined (P : Policies ε) {d : Dist ε} {a b : ε} (seed : Nat) (ha : P.isNoData a = false)
    (hb : P.isNoData b = false) (hu : d.usable a b = false) : randomScalar P d a b seed = .error undefinedBehaviour := by
  rw [randomScalar, if_neg (by simp [ha, hb]), if_neg (by simp [hu])]

/-! ### Arrays, given a shape -/

/-- C64: an array with the shape, partitions and values asked for. -/
theorem randomShape_spec {d : Dist ε} {R : ε → ε → ε → Prop} (hR : d.Promises R) (garbage : Nat → Nat → ε) {a b : ε}
    (hu : d.usable a b = true) (device : Nat → Nat) {rows cols p0 p1 : Nat} (h0 : 0 < p0 ∧ p0 ≤ rows)
    (h1 : 0 < p1 ∧ p1 ≤ cols) {nrLocalities : Nat} (hl : 0 < nrLocalities) (hn : nrLocalities ≤ rows / p0 * (cols / p1)) :
    ∃ x u, randomShape d garbage a b device (rows, cols) (p0, p1) nrLocalities = .ok x ∧ Holds x ⟨rows, cols, p0, p1⟩ u ∧
      Drawn d a b device ⟨rows, cols, p0, p1⟩ u ∧ ∀ i j, i < rows → j < cols → R a b (u i j) := by
  let g : Grid := ⟨rows, cols, p0, p1⟩
  have hg : g.Ok := ⟨h0.1, h1.1, h0.2, h1.2⟩
  let part : Nat → Create.Part ε := fun k =>
    ⟨offsetOf g k, shapeOf g k, drawn d a b (device k) ((shapeOf g k).1 * (shapeOf g k).2)⟩
  let w : Arr ε := assemble g fun k0 k1 l0 l1 => d.draw a b (device (k0 * g.n1 + k1)) (l0 * g.cols k1 + l1)
  have hw : Drawn d a b device g w := fun i j k0 k1 l0 l1 hc => hc.assemble hg _
  obtain ⟨loc, along, -, -, hce⟩ := createEach_ok hg hl hn
    (instantiate := fun _ _ _ _ k offset shape => do
      let data ← fillRandom d a b (device k) (uninitialised (shape.1 * shape.2) (garbage k))
      (.ok ⟨offset, shape, data⟩ : M (Create.Part ε)))
    (f := fun _ _ k => part k) (by
      intro l i k _ _ _
      rw [fillRandom_ok hu]; rfl)
  refine ⟨_, w, hce, holds_of_parts hg (v := w) (part := part)
    (locs := (List.range (g.n0 * g.n1)).map loc) (fun k hk => ⟨rfl, rfl⟩) ?_, hw, ?_⟩
  · intro k0 k1 hk0 hk1
    simp only [part, shapeOf, idx_div hk1, idx_mod hk1]
    refine ⟨by simp [drawn], fun l0 l1 hl0 hl1 => ?_⟩
    rw [drawn, List.getElem?_map, List.getElem?_range (idx_lt hl0 hl1), Option.map_some,
      hw _ _ k0 k1 l0 l1 ⟨hk0, hk1, hl0, hl1, rfl, rfl⟩]
  · intro i j hi hj
    obtain ⟨k0, k1, l0, l1, hc⟩ := exists_isCell hg hi hj
    rw [hw _ _ _ _ _ _ hc]
    exact hR a b hu _ _

end Lue.Random

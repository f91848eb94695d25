import Verif.Random.Properties
import Verif.FloatOps.Model

/-!
# Arrays with random values: the distributions of the standard library, Python, fields, and noise (C64)
-/
namespace Lue.Random

open Lue.Create Lue.LocalOp Lue.Numpy Lue.FloatOps

variable {α : Type}

/-! ### Requirements and promises of the distributions, as stated in the C++ standard -/

/-- `std::uniform_int_distribution`: requires `a ≤ b`, produces numbers in `[a, b]`. -/
structure IsUniformInt (d : Dist Int) : Prop where
  usable : ∀ a b, d.usable a b = true ↔ a ≤ b
  range : ∀ a b, a ≤ b → ∀ seed n, a ≤ d.draw a b seed n ∧ d.draw a b seed n ≤ b

/-- The value is a number -/
def Number (x : Fl) (r : ℝ) : Prop := x = .fin r

/-- `std::uniform_real_distribution`: requires `a ≤ b` and `b - a ≤ big`, the largest number, produces numbers in `[a, b)`. -/
structure IsUniformReal (big : ℝ) (d : Dist Fl) : Prop where
  usable : ∀ a b, d.usable a b = true ↔ ∃ x y, Number a x ∧ Number b y ∧ x ≤ y ∧ y - x ≤ big
  range : ∀ a b x y, Number a x → Number b y → x ≤ y → y - x ≤ big → ∀ seed n,
    ∃ z, Number (d.draw a b seed n) z ∧ x ≤ z ∧ z ≤ y ∧ (x < y → z < y)

/-- Larger than zero -/
noncomputable def positive : Fl → Bool
  | .nan => false
  | .inf negative => ! negative
  | .fin r => decide (0 < r)

/-- `std::normal_distribution`: requires the standard deviation to be larger than zero. -/
structure IsNormal (d : Dist Fl) : Prop where
  usable : ∀ m s, d.usable m s = positive s

/-- Value policies, integers: `source/framework/algorithm/include/lue/framework/algorithm/policy/default_value_policies.hpp` -/
def intPolicies (noData : Int) : Policies Int := ⟨fun x => x == noData, fun _ _ => true, noData⟩

/-- Value policies of `uniform`, floating point numbers -/
def realPolicies : Policies Fl := ⟨isNaN, fun _ _ => true, .nan⟩

/-- Value policies of `normal`: `source/framework/algorithm/include/lue/framework/algorithm/value_policies/normal.hpp:8-28` -/
noncomputable def normalPolicies : Policies Fl := ⟨isNaN, fun _ s => positive s, .nan⟩

theorem IsUniformInt.promises {d : Dist Int} (h : IsUniformInt d) : d.Promises fun a b z => a ≤ z ∧ z ≤ b :=
  fun a b hu => h.range a b ((h.usable a b).mp hu)

theorem IsUniformReal.promises {big : ℝ} {d : Dist Fl} (h : IsUniformReal big d) : d.Promises fun a b v =>
    ∃ x y z, Number a x ∧ Number b y ∧ Number v z ∧ x ≤ z ∧ z ≤ y ∧ (x < y → z < y) := by
  intro a b hu seed n
  obtain ⟨x, y, hx, hy, hxy, hw⟩ := (h.usable a b).mp hu
  obtain ⟨z, hz, h1, h2, h3⟩ := h.range a b x y hx hy hxy hw seed n
  exact ⟨x, y, z, hx, hy, hz, h1, h2, h3⟩

/-- C64: uniformly distributed integers. All cells are no-data if one of the arguments is, otherwise they are between
the arguments. -/
theorem uniformInt_spec {d : Dist Int} (hd : IsUniformInt d) (noData : Int) (garbage : Nat → Int) {a b : Int} (hab : a ≤ b)
    (device : Nat → Nat) {x : PArr α} {v : Arr α} (hx : Represents x v) {order : List Nat}
    (ho : IsOrder (x.grid.n0 * x.grid.n1) order) :
    ∃ r u, uniformArray (intPolicies noData) d garbage a b device order x = .ok r ∧ r.grid = x.grid ∧ Represents r u ∧
      (a = noData ∨ b = noData → ∀ i j, i < x.grid.a0 → j < x.grid.a1 → u i j = noData) ∧
      (a ≠ noData → b ≠ noData → ∀ i j, i < x.grid.a0 → j < x.grid.a1 → a ≤ u i j ∧ u i j ≤ b) := by
  obtain ⟨r, u, h1, h2, h3, h4, h5⟩ := uniformArray_spec (intPolicies noData) hd.promises garbage a b device hx ho
    (fun _ _ => (hd.usable a b).mpr hab)
  refine ⟨r, u, h1, h2, h3, fun h => h4 ?_, fun ha hb => (h5 ?_ ?_).2⟩
  · rcases h with rfl | rfl <;> simp [intPolicies]
  · simpa [intPolicies] using ha
  · simpa [intPolicies] using hb

/-- C64: uniformly distributed floating point numbers. All cells are NaN if one of the arguments is, otherwise they are
between the arguments, and smaller than the second one, unless the arguments are equal. -/
theorem uniformReal_spec {big : ℝ} {d : Dist Fl} (hd : IsUniformReal big d) (garbage : Nat → Fl) (a b : Fl)
    (hab : a ≠ .nan → b ≠ .nan → ∃ x y, Number a x ∧ Number b y ∧ x ≤ y ∧ y - x ≤ big) (device : Nat → Nat) {x : PArr α} {v : Arr α}
    (hx : Represents x v) {order : List Nat} (ho : IsOrder (x.grid.n0 * x.grid.n1) order) :
    ∃ r u, uniformArray realPolicies d garbage a b device order x = .ok r ∧ r.grid = x.grid ∧ Represents r u ∧
      (a = .nan ∨ b = .nan → ∀ i j, i < x.grid.a0 → j < x.grid.a1 → u i j = .nan) ∧
      (∀ lo hi, Number a lo → Number b hi → ∀ i j, i < x.grid.a0 → j < x.grid.a1 →
        ∃ z, Number (u i j) z ∧ lo ≤ z ∧ z ≤ hi ∧ (lo < hi → z < hi)) := by
  have hn : ∀ c : Fl, isNaN c = false → c ≠ .nan := by rintro c h rfl; cases h
  obtain ⟨r, u, h1, h2, h3, h4, h5⟩ := uniformArray_spec realPolicies hd.promises garbage a b device hx ho
    (fun ha hb => (hd.usable a b).mpr (hab (hn a ha) (hn b hb)))
  refine ⟨r, u, h1, h2, h3, fun h => h4 ?_, fun lo hi ha hb i j hi' hj => ?_⟩
  · rcases h with rfl | rfl
    · exact .inl rfl
    · exact .inr rfl
  · obtain ⟨lo', hi'', z, e1, e2, e3, h⟩ := (h5 (by rw [ha]; rfl) (by rw [hb]; rfl)).2 i j hi' hj
    cases e1.symm.trans ha
    cases e2.symm.trans hb
    exact ⟨z, e3, h⟩

/-- C64: normally distributed numbers. Whatever the arguments, the result is defined. If one of the arguments is NaN or if
the standard deviation is not larger than zero, all cells are NaN. Otherwise they are numbers drawn. -/
theorem normal_spec {d : Dist Fl} (hd : IsNormal d) (garbage : Nat → Fl) (m s : Fl) (device : Nat → Nat) {x : PArr α} {v : Arr α}
    (hx : Represents x v) {order : List Nat} (ho : IsOrder (x.grid.n0 * x.grid.n1) order) :
    ∃ r u, normalArray normalPolicies d garbage m s device order x = .ok r ∧ r.grid = x.grid ∧ Represents r u ∧
      (m = .nan ∨ positive s = false → ∀ i j, i < x.grid.a0 → j < x.grid.a1 → u i j = .nan) ∧
      (m ≠ .nan → positive s = true → Drawn d m s device x.grid u) := by
  obtain ⟨r, u, h1, h2, h3, h4, h5⟩ := normalArray_spec (R := fun _ _ _ => True) normalPolicies (fun _ _ _ _ _ => trivial) garbage
    m s device hx ho (fun _ _ hw => by rw [hd.usable]; exact hw)
  refine ⟨r, u, h1, h2, h3, fun h => h4 ?_, fun hm hs => (h5 ?_ ?_ hs).1⟩
  · rcases h with rfl | h
    · exact .inl rfl
    · exact .inr (.inr h)
  · cases m <;> first | rfl | exact absurd rfl hm
  · cases s <;> first | rfl | cases hs

/-- C64 (finding): given a shape, or when a scalar is asked for, the standard deviation is not verified: for each mean and each
standard deviation that is not larger than zero, the behaviour is undefined. -/
theorem normal_not_verified {d : Dist Fl} (hd : IsNormal d) (m s : Fl) (hm : m ≠ .nan) (hs : positive s = false) (hs' : s ≠ .nan)
    (seed : Nat) : randomScalar normalPolicies d m s seed = .error undefinedBehaviour := by
  refine randomScalar_undefined _ seed ?_ ?_ (by rw [hd.usable]; exact hs)
  · cases m <;> first | rfl | exact absurd rfl hm
  · cases s <;> first | rfl | exact absurd rfl hs'

/-! ### Given a shape, arguments are not verified -/

variable {ε : Type}

/-- C64 (finding): given a shape, the arguments are not verified at all. -/
theorem randomShape_undefined {d : Dist ε} (garbage : Nat → Nat → ε) {a b : ε}
    (hu : d.usable a b = false) (device : Nat → Nat) {rows cols p0 p1 : Nat} (h0 : 0 < p0 ∧ p0 ≤ rows)
    (h1 : 0 < p1 ∧ p1 ≤ cols) {nrLocalities : Nat} (hn : nrLocalities ≤ rows / p0 * (cols / p1)) :
    randomShape d garbage a b device (rows, cols) (p0, p1) nrLocalities = .error undefinedBehaviour := by
  let g : Grid := ⟨rows, cols, p0, p1⟩
  have hg : g.Ok := ⟨h0.1, h1.1, h0.2, h1.2⟩
  obtain ⟨shapes, hs, hsp⟩ := g.shapes_eq hg
  obtain ⟨cells, hcur, hnd, hmem⟩ := curve_ok g.n0 g.n1
  have hlen := curve_length hnd hmem
  have hpos : 0 < g.n0 * g.n1 := Nat.mul_pos (Nat.div_pos h0.2 h0.1) (Nat.div_pos h1.2 h1.1)
  have hcells : cells ≠ [] := by
    intro h
    rw [h, List.length_nil] at hlen
    omega
  obtain ⟨c, rest, rfl⟩ := List.exists_cons_of_ne_nil hcells
  have hc := (hmem c).mp (by simp)
  change createEach (g.a0, g.a1) (g.p0, g.p1) nrLocalities _ = _
  rw [createEach, hs]
  simp only [orThrow, M.bind_ok, hcur]
  rw [if_neg (by rw [hlen]; exact Nat.not_lt.mpr hn)]
  have ho : offset shapes c = .ok (offsetOf g (c.1 * g.n1 + c.2)) := by
    simp only [offset, (hsp _ _ hc.1 hc.2).2, offsetOf, idx_div hc.2, idx_mod hc.2]
  have hsh : partitionShape shapes c = .ok (shapeOf g (c.1 * g.n1 + c.2)) := by
    simp only [partitionShape, (hsp _ _ hc.1 hc.2).1, shapeOf, idx_div hc.2, idx_mod hc.2]
  unfold forLoop
  rw [List.length_cons, List.range_succ_eq_map, List.foldlM_cons]
  dsimp only
  rw [rd_ok (x := c) rfl, M.bind_ok, ho, M.bind_ok, hsh, M.bind_ok,
    fillRandom, if_neg (by simp [hu])]
  rfl

/-- C64 (finding): uniformly distributed numbers between a number and NaN. Given an array, all cells are NaN. Given a shape,
the behaviour is undefined. -/
theorem uniform_nan {big : ℝ} {d : Dist Fl} (hd : IsUniformReal big d) (a : Fl) (garbage : Nat → Nat → Fl) (device : Nat → Nat)
    {rows cols p0 p1 : Nat} (h0 : 0 < p0 ∧ p0 ≤ rows) (h1 : 0 < p1 ∧ p1 ≤ cols) {nrLocalities : Nat}
    (hn : nrLocalities ≤ rows / p0 * (cols / p1)) :
    randomShape d garbage a .nan device (rows, cols) (p0, p1) nrLocalities = .error undefinedBehaviour := by
  refine randomShape_undefined garbage ?_ device h0 h1 hn
  cases h : d.usable a .nan with
  | false => rfl
  | true =>
    obtain ⟨_, _, _, hy, _⟩ := (hd.usable a .nan).mp h
    cases hy

/-- C64 (finding): uniformly distributed integers, the first argument of which is no-data. Given an array, all cells are no-data
(`uniformInt_spec`). Given a shape, the cells contain numbers between the value used for no-data and the second argument. -/
theorem uniform_noData {d : Dist Int} (hd : IsUniformInt d) {noData b : Int} (hb : noData ≤ b) (garbage : Nat → Nat → Int)
    (device : Nat → Nat) {rows cols p0 p1 : Nat} (h0 : 0 < p0 ∧ p0 ≤ rows) (h1 : 0 < p1 ∧ p1 ≤ cols) {nrLocalities : Nat}
    (hl : 0 < nrLocalities) (hn : nrLocalities ≤ rows / p0 * (cols / p1)) :
    ∃ x u, randomShape d garbage noData b device (rows, cols) (p0, p1) nrLocalities = .ok x ∧ Holds x ⟨rows, cols, p0, p1⟩ u ∧
      Drawn d noData b device ⟨rows, cols, p0, p1⟩ u := by
  obtain ⟨x, u, h1, h2, h3, -⟩ := randomShape_spec hd.promises garbage ((hd.usable noData b).mpr hb) device h0 h1 hl hn
  exact ⟨x, u, h1, h2, h3⟩

/-! ### Python -/

/-- C64: data types for which `uniform` can be used -/
theorem uniformElement_iff (supported : DType → Bool) (dtype e : DType) : uniformElement supported dtype = some e ↔
    e = dtype ∧ supported dtype = true ∧
      ((dtype.kind = 'i' ∨ dtype.kind = 'u') ∧ (dtype.itemsize = 2 ∨ dtype.itemsize = 4 ∨ dtype.itemsize = 8) ∨
        dtype.kind = 'f' ∧ (dtype.itemsize = 4 ∨ dtype.itemsize = 8)) := by
  obtain ⟨kind, itemsize⟩ := dtype
  unfold uniformElement
  dsimp only
  split <;> (try split) <;> (try split) <;> simp_all
  all_goals (first | exact ⟨fun h => h.symm, fun h => h.symm⟩ | (intro h; subst h; simp_all))

/-- C64: data types for which `normal` can be used -/
theorem normalElement_iff (supported : DType → Bool) (dtype e : DType) : normalElement supported dtype = some e ↔
    e = dtype ∧ supported dtype = true ∧ dtype.kind = 'f' ∧ (dtype.itemsize = 4 ∨ dtype.itemsize = 8) := by
  obtain ⟨kind, itemsize⟩ := dtype
  unfold normalElement
  dsimp only
  split <;> (try split) <;> (try split) <;> simp_all
  all_goals (first | exact ⟨fun h => h.symm, fun h => h.symm⟩ | (intro h; subst h; simp_all))

/-- C64: from Python, an array of the type and the shape asked for. -/
theorem randomPy_spec {β : Type} {select : DType → Option DType} {cast : DType → β → M ε} {dist : DType → Dist ε}
    {R : ε → ε → ε → Prop} {dtype element : DType} (hs : select dtype = some element) (hR : (dist element).Promises R) {a b : β}
    {x y : ε} (ha : cast element a = .ok x) (hb : cast element b = .ok y) (hu : (dist element).usable x y = true)
    (garbage : Nat → Nat → ε) (device : Nat → Nat) {rows cols p0 p1 : Nat} (h0 : 0 < p0 ∧ p0 ≤ rows)
    (h1 : 0 < p1 ∧ p1 ≤ cols) {nrLocalities : Nat} (nrThreads : Nat) (hl : 0 < nrLocalities)
    (hn : nrLocalities ≤ rows / p0 * (cols / p1)) :
    ∃ r u, randomPy select cast dist garbage [rows, cols] dtype a b (some [p0, p1]) device nrLocalities nrThreads =
        .ok (element, r) ∧ Holds r ⟨rows, cols, p0, p1⟩ u ∧ Drawn (dist element) x y device ⟨rows, cols, p0, p1⟩ u ∧
      ∀ i j, i < rows → j < cols → R x y (u i j) := by
  obtain ⟨r, u, h2, h3, h4, h5⟩ := randomShape_spec hR garbage hu device h0 h1 hl hn
  refine ⟨r, u, ?_, h3, h4, h5⟩
  rw [randomPy]
  simp only [twoExtents, M.bind_ok, selectPartitionShape, hs, orUnsupported, ha, hb, h2]

/-- C64: from Python, the type must be supported, and the ranks must be equal. -/
theorem randomPy_refused {β : Type} {select : DType → Option DType} {cast : DType → β → M ε} {dist : DType → Dist ε} {dtype : DType}
    {a b : β} (garbage : Nat → Nat → ε) (device : Nat → Nat) (arrayShape : List Nat) (partitionShape : Option (List Nat))
    (nrLocalities nrThreads : Nat)
    (h : select dtype = none ∨ arrayShape.length ≠ 2 ∨ ∃ p, partitionShape = some p ∧ p.length ≠ arrayShape.length) :
    ∀ r, randomPy select cast dist garbage arrayShape dtype a b partitionShape device nrLocalities nrThreads ≠ .ok r := by
  intro r hr
  rw [randomPy] at hr
  match arrayShape, hr, h with
  | [e0, e1], hr, h =>
    simp only [twoExtents, M.bind_ok] at hr
    cases hp : selectPartitionShape (e0, e1) nrThreads partitionShape with
    | error e => rw [hp] at hr; cases hr
    | ok p =>
      rw [hp, M.bind_ok] at hr
      rcases h with h | h | ⟨q, hq, hl⟩
      · rw [h] at hr; cases hr
      · exact h rfl
      · subst hq
        match q, hl, hp with
        | [q0, q1], hl, _ => exact hl rfl
        | [], _, hp => cases hp
        | [_], _, hp => cases hp
        | _ :: _ :: _ :: _, _, hp => cases hp
  | [], hr, _ => cases hr
  | [_], hr, _ => cases hr
  | _ :: _ :: _ :: _, hr, _ => cases hr

/-! ### Fields -/

/-- C64: for fields, `uniform` can be used with two scalars, or with two values, of the same type, which has more than a
single byte. -/
theorem uniformOverloads_iff (a b : FieldApi.Kind × PyOps.Ty) (t : PyOps.Ty) :
    FieldApi.resolve uniformOverloads [a, b] = .ok t ↔
      a = b ∧ a.2 = t ∧ a.1 ≠ .array ∧ t ≠ .uint8 ∧ t ≠ .int8 := by
  obtain ⟨k, s⟩ := a
  obtain ⟨k', s'⟩ := b
  have key : ∀ o : FieldApi.Kind, FieldApi.Overload.deduce ⟨[⟨o, none⟩, ⟨o, none⟩], fun t => t ≠ .uint8 && t ≠ .int8⟩ [(k, s), (k', s')] =
      if o = k ∧ o = k' ∧ s' = s ∧ s ≠ .uint8 ∧ s ≠ .int8 then some s else none := by
    intro o
    by_cases h1 : o = k <;> by_cases h2 : o = k' <;> by_cases h3 : s' = s <;> by_cases h4 : s = .uint8 <;> by_cases h5 : s = .int8 <;>
      simp [FieldApi.Overload.deduce, FieldApi.candidate, FieldApi.Param.accepts, h1, h2, h3, h4, h5]
  rw [FieldApi.resolve, uniformOverloads]
  simp only [List.map_cons, List.map_nil, List.filterMap_cons, List.filterMap_nil, key]
  by_cases h3 : s' = s <;> by_cases h4 : s = .uint8 <;> by_cases h5 : s = .int8 <;> cases k <;> cases k' <;> simp_all
  all_goals first | (intro h; subst h; exact ⟨h4, h5⟩) | (intro h; exact absurd h.symm h3) | skip

/-- C64: `uniform` of fields -/
theorem uniformField_spec {V : Type} {dist : PyOps.Ty → Dist V} {R : V → V → V → Prop} {t : PyOps.Ty} (hR : (dist t).Promises R)
    (h8 : t ≠ .uint8 ∧ t ≠ .int8) {x y : V} (hu : (dist t).usable x y = true) {a b : FieldApi.Fld V}
    (hab : a = .scalar t x ∧ b = .scalar t y ∨ a = .literal t x ∧ b = .literal t y) (garbage : Nat → Nat → V) (device : Nat → Nat)
    {rows cols p0 p1 : Nat} (h0 : 0 < p0 ∧ p0 ≤ rows) (h1 : 0 < p1 ∧ p1 ≤ cols) {nrLocalities : Nat} (hl : 0 < nrLocalities)
    (hn : nrLocalities ≤ rows / p0 * (cols / p1)) :
    ∃ r u, uniformField dist garbage (rows, cols) (p0, p1) a b device nrLocalities = .ok (t, r) ∧
      Holds r ⟨rows, cols, p0, p1⟩ u ∧ Drawn (dist t) x y device ⟨rows, cols, p0, p1⟩ u ∧
      ∀ i j, i < rows → j < cols → R x y (u i j) := by
  obtain ⟨r, u, h2, h3, h4, h5⟩ := randomShape_spec hR garbage hu device h0 h1 hl hn
  refine ⟨r, u, ?_, h3, h4, h5⟩
  have hr : FieldApi.resolve uniformOverloads [a.type, b.type] = .ok t := by
    rw [uniformOverloads_iff]
    rcases hab with ⟨rfl, rfl⟩ | ⟨rfl, rfl⟩ <;> exact ⟨rfl, rfl, (by intro h; cases h), h8⟩
  rw [uniformField, hr]
  rcases hab with ⟨rfl, rfl⟩ | ⟨rfl, rfl⟩ <;> simp only [valueOf, h2]

/-- C64: in all other cases, an exception is thrown. -/
theorem uniformField_refused {V : Type} {dist : PyOps.Ty → Dist V} (garbage : Nat → Nat → V) (device : Nat → Nat)
    (shape partitionShape : Nat × Nat) (nrLocalities : Nat) (a b : FieldApi.Fld V)
    (h : a.type ≠ b.type ∨ a.type.1 = .array ∨ a.type.2 = .uint8 ∨ a.type.2 = .int8) :
    ∃ e, uniformField dist garbage shape partitionShape a b device nrLocalities = .error e := by
  rw [uniformField]
  cases hr : FieldApi.resolve uniformOverloads [a.type, b.type] with
  | error e => exact ⟨e, rfl⟩
  | ok t =>
    obtain ⟨h1, h2, h3, h4, h5⟩ := (uniformOverloads_iff _ _ _).mp hr
    rcases h with h | h | h | h
    · exact absurd h1 h
    · exact absurd h h3
    · exact absurd (h2.symm.trans h) h4
    · exact absurd (h2.symm.trans h) h5

/-! ### Noise -/

/-- C64: `open_simplex_noise`, if both arrays are partitioned in the same way: noise, given the coordinates in the same
cell. No-data if one of the coordinates is no-data. -/
theorem noiseArray_spec (P : Policies2 ε ε ε) (noise : ε → ε → ε) (garbage : Nat → ε) {x y : PArr ε} {v w : Arr ε}
    (hx : Represents x v) (hy : Represents y w) (hg : y.grid = x.grid) {order : List Nat}
    (ho : IsOrder (x.grid.n0 * x.grid.n1) order) :
    ∃ r u, noiseArray P noise garbage order x y = .ok r ∧ r.grid = x.grid ∧ Represents r u ∧
      ∀ i j, i < x.grid.a0 → j < x.grid.a1 → u i j =
        if P.indp1 (v i j) = true ∨ P.indp2 (w i j) = true then P.mark
        else if P.dp (v i j) (w i j) = true ∧ P.rp (v i j) (w i j) (noise (v i j) (w i j)) = true then noise (v i j) (w i j)
        else P.mark := by
  have he : noiseArray P noise garbage order x y = binaryArray P noise garbage order x y := by
    rw [binaryArray, array2, verifyCompatible_same hg.symm, M.bind_ok]
    rfl
  obtain ⟨r, h1, h2, h3⟩ := array2_spec (binaryPartition_elementWise P noise garbage) hx hy hg ho
  refine ⟨r, _, he.trans h1, h2, h3, fun i j _ _ => ?_⟩
  by_cases h1 : P.indp1 (v i j) = true <;> by_cases h2 : P.indp2 (w i j) = true <;> by_cases h3 : P.dp (v i j) (w i j) = true <;>
    by_cases h4 : P.rp (v i j) (w i j) (noise (v i j) (w i j)) = true <;>
    simp [binarySpec, valid, h1, h2, h3, h4, guard, failure]

/-! ### Examples -/

/-- No policies -/
def free : Policies2 Int Int Int := ⟨fun _ => false, fun _ => false, fun _ _ => true, fun _ _ _ => true, 0⟩

/-- The second coordinate -/
def second (_ y : Int) : Int := y

def exX : PArr Int := store ⟨2, 4, 2, 2⟩ fun i j => 10 * i + j
def exY : PArr Int := store ⟨4, 2, 2, 2⟩ fun i j => 10 * i + j

/-- C64 (finding): it is not verified that the arrays have the same shape: coordinates of different cells are combined. The noise
in cell `(0, 2)` is based on the second coordinate in cell `(2, 0)`. -/
theorem noise_mixes : (noiseArray free second (fun _ => 0) [0, 1] exX exY).map (·.parts) =
    .ok [[0, 1, 10, 11], [20, 21, 30, 31]] := by decide +kernel

/-- C64 (finding): idem, if the partitions of the second array are smaller, its elements are read outside of the bounds. -/
theorem noise_outOfBounds : (noiseArray free second (fun _ => 0) [0, 1] exX (store ⟨1, 2, 1, 1⟩ fun i j => 10 * i + j)).map (·.parts) =
    .error .outOfBounds := by decide +kernel

/-- A distribution: counting, starting at some number between `a` and `b` -/
def counting : Dist Int := ⟨Int × Int × Int, fun a b => decide (a ≤ b), fun a b seed => (a, b, seed),
  fun s => (s.1 + s.2.2 % (s.2.1 - s.1 + 1), (s.1, s.2.1, s.2.2 + 1))⟩

theorem counting_state (a b : Int) (seed : Nat) : ∀ n, counting.stateAt (counting.start a b seed) n = (a, b, (seed : Int) + n)
  | 0 => by show ((a, b, (seed : Int)) : Int × Int × Int) = _; simp
  | n + 1 => by
    show (counting.next (counting.stateAt (counting.start a b seed) n)).2 = _
    rw [counting_state a b seed n]
    show ((a, b, (seed : Int) + n + 1) : Int × Int × Int) = _
    rw [Nat.cast_succ, Int.add_assoc]

theorem counting_uniform : IsUniformInt counting where
  usable a b := by simp [counting]
  range a b h seed n := by
    have : counting.draw a b seed n = a + ((seed : Int) + n) % (b - a + 1) := by
      rw [Dist.draw, counting_state]; rfl
    rw [this]
    have h1 := Int.emod_nonneg ((seed : Int) + n) (b := b - a + 1) (by omega)
    have h2 := Int.emod_lt_of_pos ((seed : Int) + n) (b := b - a + 1) (by omega)
    omega

/-- Other distributions -/
noncomputable def lowest (big : ℝ) : Dist Fl := by
  classical
  exact ⟨Fl, fun a b => decide (∃ x y, Number a x ∧ Number b y ∧ x ≤ y ∧ y - x ≤ big), fun a _ _ => a, fun s => (s, s)⟩

theorem lowest_state (big : ℝ) (a b : Fl) (seed : Nat) : ∀ n, (lowest big).stateAt ((lowest big).start a b seed) n = a
  | 0 => rfl
  | n + 1 => by
    show ((lowest big).next ((lowest big).stateAt ((lowest big).start a b seed) n)).2 = a
    rw [lowest_state big a b seed n]
    rfl

theorem lowest_uniform (big : ℝ) : IsUniformReal big (lowest big) where
  usable a b := by simp [lowest]
  range a b x y ha hb hxy _ seed n := by
    refine ⟨x, ?_, le_refl _, hxy, fun h => h⟩
    rw [Dist.draw, lowest_state]
    exact ha

theorem exists_normal : ∃ d : Dist Fl, IsNormal d :=
  ⟨⟨Unit, fun _ s => positive s, fun _ _ _ => (), fun _ => (.fin 0, ())⟩, ⟨fun _ _ => rfl⟩⟩

example : (uniformArray (intPolicies (-99)) counting (fun _ => 7) 1 3 (fun k => 5 * k) [1, 0] exX).map (·.parts) =
    .ok [[1, 2, 3, 1], [3, 1, 2, 3]] := by decide +kernel

example : (uniformArray (intPolicies 3) counting (fun _ => 7) 1 3 (fun k => 5 * k) [1, 0] exX).map (·.parts) =
    .ok [[3, 3, 3, 3], [3, 3, 3, 3]] := by decide +kernel

example : ∃ v, Represents exX v := ⟨_, store_represents ⟨by decide, by decide, by decide, by decide⟩ _⟩

example : uniformElement (fun _ => true) ⟨'i', 1⟩ = none := by decide
example : uniformElement (fun _ => true) ⟨'u', 2⟩ = some ⟨'u', 2⟩ := by decide

end Lue.Random

import Verif.Life.Model
import Verif.Life.Spec
import Mathlib.Tactic.IntervalCases
import Mathlib.Algebra.BigOperators.Group.Finset.Basic

/-!
C79: the Game of Life of the quick start is Conway's Game of Life.
-/
namespace Lue.Life

open Lue.LocalOp Lue.Focal Lue.FocalStats Lue.FloatOps Rules

/-- The raster contains a generation: cells are 1 if they are alive, and 0 otherwise. -/
def Shows (x : PArr Cell) (g : Grid) (w : World) : Prop :=
  x.grid = g ∧ Represents x fun i j => if w i j then 1 else 0

/-- The grid of weights -/
def weight (i j : Nat) : Cell := if i = 1 ∧ j = 1 then 0 else 1

theorem kernel_is : IsKernel kernel 1 weight where
  extent_eq := rfl
  get_eq := by
    intro i j hi hj
    interval_cases i <;> interval_cases j <;> rfl

theorem sum_filter_map {ι : Type} (l : List ι) (p : ι → Bool) (g : ι → Cell) :
    ((l.filter p).map g).sum = (l.map fun d => if p d then g d else 0).sum := by
  induction l with
  | nil => rfl
  | cons a l ih =>
    by_cases h : p a = true
    · simp [List.filter_cons, h, ih]
    · simp [List.filter_cons, h, ih]

/-- A number converted to the type of the elements -/
def code (n : Nat) : Cell := Fin.ofNat 256 n

theorem code_add (m n : Nat) : code (m + n) = code m + code n := by
  apply Fin.ext
  simp [code, Fin.ofNat, Fin.add_def]

/-- 1 for living cells -/
def one (b : Bool) : Nat := if b then 1 else 0

theorem nrAlive_eq (w : World) (i j : Int) : nrAlive w i j =
    one (w (i - 1) (j - 1)) + (one (w (i - 1) j) + (one (w (i - 1) (j + 1)) + (one (w i (j - 1)) + (one (w i (j + 1)) +
      (one (w (i + 1) (j - 1)) + (one (w (i + 1) j) + one (w (i + 1) (j + 1)))))))) := by
  unfold nrAlive neighbours
  rw [Finset.card_filter]
  repeat rw [Finset.sum_insert (by simp <;> omega)]
  rw [Finset.sum_singleton]
  rfl

theorem nrAlive_le (w : World) (i j : Int) : nrAlive w i j ≤ 8 := by
  rw [nrAlive_eq]
  have h : ∀ b, one b ≤ 1 := by intro b; cases b <;> simp [one]
  have h1 := h (w (i - 1) (j - 1)); have h2 := h (w (i - 1) j); have h3 := h (w (i - 1) (j + 1))
  have h4 := h (w i (j - 1)); have h5 := h (w i (j + 1)); have h6 := h (w (i + 1) (j - 1))
  have h7 := h (w (i + 1) j); have h8 := h (w (i + 1) (j + 1))
  omega

/-- Nothing lives outside of the world. -/
def Confined (rows cols : Nat) (w : World) : Prop := ∀ i j, inside rows cols i j = false → w i j = false

theorem next_confined (rows cols : Nat) (w : World) : Confined rows cols (next rows cols w) := by
  intro i j h
  simp [next, h]

theorem generation_confined {rows cols : Nat} {w : World} (h : Confined rows cols w) (t : Nat) :
    Confined rows cols (generation rows cols w t) := by
  cases t with
  | zero => exact h
  | succ t => exact next_confined _ _ _

variable {rows cols : Nat} {w : World}

/-- The values around the cells of the array -/
theorem extended_eq (hw : Confined rows cols w) (i j : Int) :
    extended halo rows cols (fun i j => if w i j then (1 : Cell) else 0) i j =
      if inside rows cols i j then (if w i j then 1 else 0) else noData := by
  unfold extended inside
  by_cases h1 : i < 0
  · have : ¬(0 ≤ i ∧ i < rows ∧ 0 ≤ j ∧ j < cols) := by omega
    simp only [h1, this, if_true, decide_false, Bool.false_eq_true, if_false, halo]
    split <;> [rfl; split <;> rfl]
  · by_cases h2 : i < rows
    · by_cases h3 : j < 0
      · have : ¬(0 ≤ i ∧ i < rows ∧ 0 ≤ j ∧ j < cols) := by omega
        rw [if_neg h1, if_pos h2, if_pos h3, decide_eq_false this]
        rfl
      · by_cases h4 : j < cols
        · have e : (0 ≤ i ∧ i < rows ∧ 0 ≤ j ∧ j < cols) := by omega
          simp only [h1, h2, h3, h4, if_true, if_false, e, and_self, decide_true]
          rw [Int.toNat_of_nonneg (by omega), Int.toNat_of_nonneg (by omega)]
        · have : ¬(0 ≤ i ∧ i < rows ∧ 0 ≤ j ∧ j < cols) := by omega
          simp [h1, h2, h3, h4, halo]
    · have : ¬(0 ≤ i ∧ i < rows ∧ 0 ≤ j ∧ j < cols) := by omega
      rw [if_neg h1, if_neg h2, decide_eq_false this]
      simp only [halo]
      split <;> [rfl; split <;> rfl]

/-- What a cell adds to the sum -/
theorem term_eq (hw : Confined rows cols w) (i j : Int) :
    (if isNoData (extended halo rows cols (fun i j => if w i j then (1 : Cell) else 0) i j) = false then
      extended halo rows cols (fun i j => if w i j then (1 : Cell) else 0) i j else 0) = code (one (w i j)) := by
  rw [extended_eq hw]
  cases h : inside rows cols i j
  · simp [hw i j h, isNoData, one, code]
  · cases w i j
    · simp [isNoData, one, noData, code]
    · simp only [if_true]; decide

theorem offsets_one : offsets 1 = [(0, 0), (0, 1), (0, 2), (1, 0), (1, 1), (1, 2), (2, 0), (2, 1), (2, 2)] := by decide

theorem congr {α : Type} {y : PArr α} {v v' : Arr α} (h : Represents y v)
    (he : ∀ i j, i < y.grid.a0 → j < y.grid.a1 → v i j = v' i j) : Represents y v' :=
  ⟨h.ok, h.nr_parts, h.part_size, fun i j k0 k1 l0 l1 hc => by
    rw [← he i j (hc.lt h.ok).1 (hc.lt h.ok).2]; exact h.elem i j k0 k1 l0 l1 hc⟩

/-- `focal_sum` counts the living neighbours. -/
theorem sum_eq (hw : Confined rows cols w) (i j : Nat) :
    (focalValues isNoData weight (extended halo rows cols (fun i j => if w i j then (1 : Cell) else 0)) 1 i j).sum =
      code (nrAlive w i j) := by
  have key : ∀ d0 d1 : Nat, d0 < 3 → d1 < 3 →
      (if decide (weight d0 d1 ≠ 0 ∧ isNoData (at_ (extended halo rows cols (fun i j => if w i j then (1 : Cell) else 0))
        1 i j (d0, d1)) = false) = true then
        at_ (extended halo rows cols (fun i j => if w i j then (1 : Cell) else 0)) 1 i j (d0, d1) else 0) =
      if d0 = 1 ∧ d1 = 1 then 0 else code (one (w ((i : Int) - 1 + d0) ((j : Int) - 1 + d1))) := by
    intro d0 d1 h0 h1
    rw [← term_eq hw]
    by_cases h : d0 = 1 ∧ d1 = 1
    · simp [weight, h]
    · have hwt : weight d0 d1 ≠ 0 := by simp [weight, h]
      simp only [hwt, ne_eq, not_false_eq_true, true_and, decide_eq_true_eq, h, if_false]
      rfl
  unfold focalValues
  rw [sum_filter_map, offsets_one, nrAlive_eq]
  simp only [List.map_cons, List.map_nil, List.sum_cons, List.sum_nil]
  rw [key 0 0 (by omega) (by omega), key 0 1 (by omega) (by omega), key 0 2 (by omega) (by omega),
    key 1 0 (by omega) (by omega), key 1 1 (by omega) (by omega), key 1 2 (by omega) (by omega),
    key 2 0 (by omega) (by omega), key 2 1 (by omega) (by omega), key 2 2 (by omega) (by omega)]
  have e0 : ∀ x : Nat, (x : Int) - 1 + (0 : Nat) = x - 1 := by intro x; omega
  have e1 : ∀ x : Nat, (x : Int) - 1 + (1 : Nat) = x := by intro x; omega
  have e2 : ∀ x : Nat, (x : Int) - 1 + (2 : Nat) = x + 1 := by intro x; omega
  simp only [e0, e1, e2, code_add]
  simp [add_assoc]

/-- There is a neighbour within the world. -/
theorem vals_ne_nil (hw : Confined rows cols w) (hr : 3 ≤ rows) {i j : Nat} (hi : i < rows) (hj : j < cols) :
    focalValues isNoData weight (extended halo rows cols (fun i j => if w i j then (1 : Cell) else 0)) 1 i j ≠ [] := by
  have key : ∀ i' : Int, (i' = (i : Int) - 1 ∨ i' = i + 1) → 0 ≤ i' → i' < rows →
      extended halo rows cols (fun i j => if w i j then (1 : Cell) else 0) i' j ∈
        focalValues isNoData weight (extended halo rows cols (fun i j => if w i j then (1 : Cell) else 0)) 1 i j := by
    intro i' h h0 h1
    rw [mem_focalValues]
    refine ⟨i', j, by omega, by omega, by omega, by omega, ?_, ?_, rfl⟩
    · rcases h with rfl | rfl
      · rw [show ((i : Int) - 1 - (i - (1 : Nat))).toNat = 0 by omega]; simp [weight]
      · rw [show ((i : Int) + 1 - (i - (1 : Nat))).toNat = 2 by omega]; simp [weight]
    · rw [extended_eq hw]
      have : inside rows cols i' j = true := by simp [inside]; omega
      rw [this]
      cases w i' j <;> simp [isNoData, noData]
  intro h
  by_cases hi' : i + 1 < rows
  · have := key (i + 1) (.inr rfl) (by omega) (by omega)
    rw [h] at this; simp at this
  · have := key (i - 1) (.inl rfl) (by omega) (by omega)
    rw [h] at this; simp at this

/-- The local operations -/
theorem rule_eq (alive : Bool) (n : Nat) (hn : n ≤ 8) :
    (whereSpec isNoData isNoData isNoData truth (if alive then (1 : Cell) else 0)
      ((unarySpec policies1 (fun x => ofBool (!truth x)) ((binarySpec policies2 (fun x y => ofBool (truth x || truth y))
        ((binarySpec policies2 (fun x y => ofBool (decide (x < y))) (code n) 2).getD noData)
        ((binarySpec policies2 (fun x y => ofBool (decide (x > y))) (code n) 3).getD noData)).getD noData)).getD noData)
      ((binarySpec policies2 (fun x y => ofBool (decide (x = y))) (code n) 3).getD noData)).getD noData =
      if lives alive n then 1 else 0 := by
  interval_cases n <;> cases alive <;> decide

/-- C79: a generation follows the previous one by the rules of the game, whatever the partitioning and the order in which
tasks complete. -/
theorem nextGeneration_correct {s : Sched} {x : PArr Cell} {g : Grid} (hx : Shows x g w) (hw : Confined g.a0 g.a1 w)
    (hp : 3 ≤ g.p0 ∧ 3 ≤ g.p1) (hs : ∀ n, IsOrder (g.n0 * g.n1) (s.order n)) :
    ∃ r, nextGeneration s x = .ok r ∧ Shows r g (next g.a0 g.a1 w) := by
  obtain ⟨rfl, hx⟩ := hx
  obtain ⟨n, e1, g1, r1⟩ := focal_sum_spec kernel_is halo (s.garbage 0) hx (largeEnough hx.ok 3 hp) (hs 0) noData
    (isNoData := isNoData)
  have ho : ∀ k, IsOrder (n.grid.n0 * n.grid.n1) (s.order k) := by intro k; rw [g1]; exact hs k
  obtain ⟨u, e2, g2, r2⟩ := binaryAS_spec policies2 (fun x y => ofBool (decide (x < y))) (s.garbage 1) r1 2 (ho 1)
  obtain ⟨o, e3, g3, r3⟩ := binaryAS_spec policies2 (fun x y => ofBool (decide (x > y))) (s.garbage 2) r1 3 (ho 2)
  obtain ⟨p, e4, g4, r4⟩ := binaryAS_spec policies2 (fun x y => ofBool (decide (x = y))) (s.garbage 3) r1 3 (ho 3)
  obtain ⟨b, e5, g5, r5⟩ := binary_spec policies2 (fun x y => ofBool (truth x || truth y)) (s.garbage 4) r2 r3
    (g3.trans g2.symm) (order := s.order 4) (by rw [g2]; exact ho 4)
  obtain ⟨a, e6, g6, r6⟩ := unary_spec policies1 (fun x => ofBool (!truth x)) (s.garbage 5) r5 (order := s.order 5)
    (by rw [g5, g2]; exact ho 5)
  obtain ⟨r, e7, g7, r7⟩ := (where_spec policies3 (fun _ _ _ => rfl) truth (s.garbage 6) hx r6 r4
    (g6.trans (g5.trans (g2.trans g1))) (g4.trans g1) 0 (hs 6)).1
  refine ⟨r, ?_, g7, ?_⟩
  · unfold nextGeneration
    rw [e1]
    simp only [M.bind_ok]
    rw [e2]; simp only [M.bind_ok]
    rw [e3]; simp only [M.bind_ok]
    rw [e4]; simp only [M.bind_ok]
    rw [e5]; simp only [M.bind_ok]
    rw [e6]; simp only [M.bind_ok]
    exact e7
  · refine congr r7 fun i j hi hj => ?_
    rw [g7] at hi hj
    have hv := vals_ne_nil hw (by have := hx.ok.le0; omega) hi hj
    rw [if_neg hv, sum_eq hw]
    have : inside x.grid.a0 x.grid.a1 i j = true := by simp [inside]; omega
    simp only [next, this, Bool.true_and]
    exact rule_eq (w i j) (nrAlive w i j) (nrAlive_le _ _ _)

/-- C79: the files contain the generations, in order. -/
theorem simulate_correct {s : Nat → Sched} {g : Grid} (hw : Confined g.a0 g.a1 w) (hp : 3 ≤ g.p0 ∧ 3 ≤ g.p1)
    (hs : ∀ t n, IsOrder (g.n0 * g.n1) ((s t).order n)) : ∀ (n t : Nat) (x : PArr Cell),
    Shows x g (generation g.a0 g.a1 w t) → ∃ files, simulate s t n x = .ok files ∧ files.length = n ∧
      ∀ k < n, ∃ r, files[k]? = some (t + k + 1, r) ∧ Shows r g (generation g.a0 g.a1 w (t + k + 1)) := by
  intro n
  induction n with
  | zero => intro t x _; exact ⟨[], rfl, rfl, fun k hk => absurd hk (by omega)⟩
  | succ n ih =>
    intro t x hx
    obtain ⟨r, e, hr⟩ := nextGeneration_correct (s := s (t + 1)) hx (generation_confined hw t) hp (hs (t + 1))
    obtain ⟨files, e', hl, hf⟩ := ih (t + 1) r hr
    refine ⟨(t + 1, r) :: files, ?_, by simp [hl], ?_⟩
    · simp only [simulate, e, M.bind_ok, e']; rfl
    · intro k hk
      cases k with
      | zero => exact ⟨r, rfl, hr⟩
      | succ k =>
        obtain ⟨r', h1, h2⟩ := hf k (by omega)
        refine ⟨r', ?_, ?_⟩
        · rw [List.getElem?_cons_succ, h1]; congr 2; omega
        · rw [show t + (k + 1) + 1 = t + 1 + k + 1 by omega]; exact h2

/-- C79: for each initial generation, number of generations, partitioning (in partitions of at least 3 × 3 cells), contents of
memory and orders in which the tasks complete: the files written contain the generations of Conway's Game of Life. -/
theorem gameOfLife_correct {s : Nat → Sched} {g : Grid} (hw : Confined g.a0 g.a1 w) (hp : 3 ≤ g.p0 ∧ 3 ≤ g.p1)
    (hs : ∀ t n, IsOrder (g.n0 * g.n1) ((s t).order n)) (n : Nat) {x : PArr Cell} (hx : Shows x g w) :
    ∃ files, gameOfLife s n x = .ok files ∧ files.length = n ∧
      ∀ k < n, ∃ r, files[k]? = some (k + 1, r) ∧ Shows r g (generation g.a0 g.a1 w (k + 1)) := by
  obtain ⟨files, h1, h2, h3⟩ := simulate_correct hw hp hs n 0 x hx
  refine ⟨files, h1, h2, fun k hk => ?_⟩
  have := h3 k hk
  rwa [Nat.zero_add] at this

/-- C79: if some partition is smaller than the kernel, the first generation already fails. Nothing is written. -/
theorem gameOfLife_fails {s : Nat → Sched} {g : Grid} (hp : ¬ LargeEnough g 3)
    (hs : ∀ t n, IsOrder (g.n0 * g.n1) ((s t).order n)) (n : Nat) {x : PArr Cell} (hx : Shows x g w) :
    gameOfLife s (n + 1) x = .error .thrown := by
  obtain ⟨rfl, hx⟩ := hx
  have := focal1_throws halo ((s 1).garbage 0) ((s 1).garbage 0) 1 (focalSum isNoData kernel noData) hx hp _
    (fun i j _ _ => focalSum_ok kernel_is noData _ i j) (hs 1 0)
  simp only [gameOfLife, simulate, nextGeneration]
  have e : kernel.radius = 1 := rfl
  rw [e, Nat.zero_add, this]
  rfl

/-- C79: the initial generation. A cell is alive if and only if the random number drawn for the cell is at most 1/4. -/
theorem initializeGeneration_correct {big : ℝ} (hbig : 1 ≤ big) {dist : Random.Dist Fl} (hd : Random.IsUniformReal big dist)
    (device : Nat → Nat) (garbageField : Nat → Nat → Fl) (garbage : Nat → Cell) {rows cols p0 p1 : Nat}
    (h0 : 0 < p0 ∧ p0 ≤ rows) (h1 : 0 < p1 ∧ p1 ≤ cols) {nrLocalities : Nat} (hl : 0 < nrLocalities)
    (hn : nrLocalities ≤ rows / p0 * (cols / p1)) {order : List Nat} (ho : IsOrder (rows / p0 * (cols / p1)) order) :
    ∃ x u w, initializeGeneration dist device garbageField garbage order (rows, cols) (p0, p1) nrLocalities = .ok x ∧
      Shows x ⟨rows, cols, p0, p1⟩ w ∧ Confined rows cols w ∧
      Random.Drawn dist (.fin 0) (.fin 1) device ⟨rows, cols, p0, p1⟩ u ∧
      ∀ i j : Nat, i < rows → j < cols → ∃ z : ℝ, u i j = .fin z ∧ (w i j = true ↔ z ≤ 1 / 4) := by
  classical
  obtain ⟨c, u, e1, hc, hdr, hr⟩ := Random.randomShape_spec hd.promises garbageField (a := .fin 0) (b := .fin 1)
    ((hd.usable _ _).mpr ⟨0, 1, rfl, rfl, zero_le_one, by linarith⟩) device h0 h1 hl hn
  obtain ⟨r, e2, g2, r2⟩ := binaryAS_spec comparePolicies (fun x y => ofBool (compare .le x y)) garbage hc.represents
    fractionAliveCells (order := order) ho
  have hz : ∀ i j : Nat, i < rows → j < cols → ∃ z : ℝ, u i j = .fin z := by
    intro i j hi hj
    obtain ⟨-, -, z, -, -, hz, -⟩ := hr i j hi hj
    exact ⟨z, hz⟩
  let w : World := fun i j => inside rows cols i j && decide (∃ z : ℝ, u i.toNat j.toNat = .fin z ∧ z ≤ 1 / 4)
  refine ⟨r, u, w, ?_, ⟨g2, congr r2 fun i j hi hj => ?_⟩, ?_, hdr, ?_⟩
  · unfold initializeGeneration
    rw [e1]
    simp only [M.bind_ok]
    exact e2
  · rw [g2] at hi hj
    obtain ⟨z, hz⟩ := hz i j hi hj
    have hin : inside rows cols i j = true := by simp only [inside, decide_eq_true_eq]; simp only at hi hj; omega
    simp only [w, hin, Bool.true_and, Int.toNat_natCast, hz]
    by_cases h : z ≤ 1 / 4
    · simp [binarySpec, valid, comparePolicies, isNaN, fractionAliveCells, FloatOps.compare, cmpReal, ofBool, guard, h]
    · simp [binarySpec, valid, comparePolicies, isNaN, fractionAliveCells, FloatOps.compare, cmpReal, ofBool, guard, h]
  · intro i j h
    simp [w, h]
  · intro i j hi hj
    obtain ⟨z, hz⟩ := hz i j hi hj
    refine ⟨z, hz, ?_⟩
    have hin : inside rows cols i j = true := by simp only [inside, decide_eq_true_eq]; omega
    simp [w, hin, hz]

end Lue.Life

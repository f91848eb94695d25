import Verif.Pcraster.Convert
import Mathlib.Tactic.Ring
import Mathlib.Algebra.Order.Floor.Ring
import Mathlib.Tactic.FieldSimp
import Mathlib.Tactic.Linarith

/-!
# C53: coordinates, windows, and the total of the catchment
-/
namespace Lue.Pcraster

open Lue.LocalOp Lue.PyOps

section Coordinates

variable {V Num K : Type} [_root_.Field K] {lib : Lib V Num} {g : Grid} {cfg : Configuration Num}
  {real : V → K} {num : Num → K}

theorem Lib.Exact.add_number (he : lib.Exact real num) {n : Num} {w : V} (hn : lib.convert .float32 n = some w)
    (y : V) : (lib.value .float32 (lib.element2 .add .float32 w y)).map real =
      ((lib.value .float32 y).map real).map (num n + ·) := by
  obtain ⟨w', h1, h2, h3⟩ := he.number n
  rw [hn] at h1
  cases h1
  rw [he.add, show lib.value .float32 w = some w by unfold Lib.value; rw [h2]; rfl, Option.bind_some, Option.map_map, h3]
  rfl

theorem Lib.Exact.number_add (he : lib.Exact real num) {n : Num} {w : V} (hn : lib.convert .float32 n = some w)
    (y : V) : (lib.value .float32 (lib.element2 .add .float32 y w)).map real =
      ((lib.value .float32 y).map real).map (· + num n) := by
  obtain ⟨w', h1, h2, h3⟩ := he.number n
  rw [hn] at h1
  cases h1
  rw [he.add, show lib.value .float32 w = some w by unfold Lib.value; rw [h2]; rfl]
  cases lib.value .float32 y <;> simp [h3]

theorem Lib.Exact.number_mul (he : lib.Exact real num) {n : Num} {w : V} (hn : lib.convert .float32 n = some w)
    (y : V) : (lib.value .float32 (lib.element2 .multiply .float32 y w)).map real =
      ((lib.value .float32 y).map real).map (· * num n) := by
  obtain ⟨w', h1, h2, h3⟩ := he.number n
  rw [hn] at h1
  cases h1
  rw [he.mul, show lib.value .float32 w = some w by unfold Lib.value; rw [h2]; rfl]
  cases lib.value .float32 y <;> simp [h3]

theorem indexValue (he : lib.Exact real num) {n : Nat} (hn : n < lib.integerMark) (b : Bool) :
    (castValue lib lib.indexType .float32 (lib.value lib.indexType (lib.integer
      (if b = true then n else lib.integerMark)))).map real = if b = true then some (n : K) else none := by
  rw [he.index]
  cases b with
  | true => simp [hn.ne]
  | false => simp

/-- C53: `xcoordinate`. In exact arithmetic, the result is the x-coordinate of the centre of the cell, and missing where
the argument is missing. The indices of cells must be right (C12). -/
theorem xcoordinate_correct (hl : lib.Ok) (hm : lib.toLib.Mirrored) (he : lib.Exact real num) (hg : cfg.Creates g)
    {t : Ty} (ht : t ∈ pcrasterTypes) {s : Sched V} (hs : ∀ n, IsOrder (g.n0 * g.n1) (s.order n))
    {s' : List Nat → Sched V} (hs' : ∀ p n, IsOrder (g.n0 * g.n1) ((s' p).order n)) (garbage : Nat → Nat)
    (hf : CellIndex.Fits g 1) (hsize : g.a1 ≤ lib.integerMark) {half : Num} (hh : num half = 1 / 2) {x : Obj V Num}
    {f : Nat → Nat → Option V} (hx : Stands lib g t x f) (ho : OwnType lib t x) :
    ∃ r f', xcoordinate lib cfg half s garbage s' x = .ok r ∧ Field lib g .float32 .array r f' ∧
      ∀ i j, i < g.a0 → j < g.a1 →
        (f' i j).map real = (f i j).map fun _ => num cfg.west + ((j : K) + 1 / 2) * num cfg.cellSize := by
  obtain ⟨c, h1, h2⟩ := cellIndices_ok hl hg ht hs garbage (.inr rfl) hf hx ho
  obtain ⟨u, hu, hfu⟩ := h2.denotes
  obtain ⟨n1, e1, q1⟩ := he.numMul half cfg.cellSize
  obtain ⟨n2, e2, q2⟩ := he.numAdd cfg.west n1
  obtain ⟨w, hw, -, -⟩ := he.number cfg.cellSize
  obtain ⟨w2, hw2, -, -⟩ := he.number n2
  obtain ⟨r, h3, h4⟩ := eval_correct hm (e := xExpr cfg half c)
    (.binary (.binary (.obj (.number cfg.west)) (.binary (.obj (.number half)) (.obj (.number cfg.cellSize))
      (r := .number n1) (by simp [denote2, e1]) (by simp)) (r := .number n2) (by simp [denote2, e2]) (by simp))
      (.binary (.obj hu) (.obj (.number cfg.cellSize))
        (r := .field .array .float32 fun i j => lib.meaning .float32 .mul (u i j) w)
        (by simp [denote2, hw, BinOp.general, BinOp.logical, Ty.floating, BinOp.result]) (by simp))
      (r := .field .array .float32 fun i j =>
        lib.meaning .float32 .add w2 (lib.meaning .float32 .mul (u i j) w))
      (by simp [denote2, hw2, BinOp.general, BinOp.result]) (by simp)) s' hs'
  refine ⟨r, _, ?_, Field.ofDenotes (lib := lib) h4, fun i j hi hj => ?_⟩
  · unfold xcoordinate
    rw [h1, ok_bind, h3]
  · have e := hfu i j hi hj
    dsimp only at e ⊢
    change (lib.value .float32 (lib.element2 .add .float32 w2 (lib.element2 .multiply .float32 (u i j) w))).map real = _
    rw [he.add_number hw2, he.number_mul hw, e, if_neg (show ¬ (1 = 0) by decide), indexValue he (by omega)]
    cases f i j with
    | none => rfl
    | some v =>
      simp only [Option.isSome_some, if_true, Option.map_some, Option.some.injEq]
      rw [q2, q1, hh]
      ring

/-- C53: `ycoordinate`. In exact arithmetic, the result is the y-coordinate of the centre of the cell, and missing where
the argument is missing. -/
theorem ycoordinate_correct [CharZero K] (hl : lib.Ok) (hm : lib.toLib.Mirrored) (he : lib.Exact real num) (hg : cfg.Creates g)
    {t : Ty} (ht : t ∈ pcrasterTypes) {s : Sched V} (hs : ∀ n, IsOrder (g.n0 * g.n1) (s.order n))
    {s' : List Nat → Sched V} (hs' : ∀ p n, IsOrder (g.n0 * g.n1) ((s' p).order n)) (garbage : Nat → Nat)
    (hf : CellIndex.Fits g 0) (hsize : g.a0 ≤ lib.integerMark) {half lastRow : Num} (hh : num half = 1 / 2)
    (hr : num lastRow = (cfg.rows : K) - 1)
    (hsouth : num cfg.south = num cfg.north - cfg.rows * num cfg.cellSize) {x : Obj V Num}
    {f : Nat → Nat → Option V} (hx : Stands lib g t x f) (ho : OwnType lib t x) :
    ∃ r f', ycoordinate lib cfg half lastRow s garbage s' x = .ok r ∧ Field lib g .float32 .array r f' ∧
      ∀ i j, i < g.a0 → j < g.a1 →
        (f' i j).map real = (f i j).map fun _ => num cfg.north - ((i : K) + 1 / 2) * num cfg.cellSize := by
  obtain ⟨c, h1, h2⟩ := cellIndices_ok hl hg ht hs garbage (.inl rfl) hf hx ho
  obtain ⟨u, hu, hfu⟩ := h2.denotes
  obtain ⟨n1, e1, q1⟩ := he.numMul half cfg.cellSize
  obtain ⟨n2, e2, q2⟩ := he.numAdd cfg.south n1
  obtain ⟨w, hw, -, -⟩ := he.number cfg.cellSize
  obtain ⟨w2, hw2, -, -⟩ := he.number n2
  obtain ⟨w3, hw3, -, -⟩ := he.number lastRow
  obtain ⟨r, h3, h4⟩ := eval_correct hm (e := yExpr cfg half lastRow c)
    (.binary (.binary (.obj (.number cfg.south)) (.binary (.obj (.number half)) (.obj (.number cfg.cellSize))
      (r := .number n1) (by simp [denote2, e1]) (by simp)) (r := .number n2) (by simp [denote2, e2]) (by simp))
      (.binary (.binary (.unary (.obj hu) (r := .field .array .float32 fun i j => lib.element1 .negate .float32 (u i j))
          (by simp [denote1, Ty.signed])) (.obj (.number lastRow))
          (r := .field .array .float32 fun i j => lib.meaning .float32 .add (lib.element1 .negate .float32 (u i j)) w3)
          (by simp [denote2, hw3, BinOp.general, BinOp.result]) (by simp)) (.obj (.number cfg.cellSize))
        (r := .field .array .float32 fun i j => lib.meaning .float32 .mul
          (lib.meaning .float32 .add (lib.element1 .negate .float32 (u i j)) w3) w)
        (by simp [denote2, hw, BinOp.general, BinOp.logical, Ty.floating, BinOp.result]) (by simp))
      (r := .field .array .float32 fun i j => lib.meaning .float32 .add w2 (lib.meaning .float32 .mul
          (lib.meaning .float32 .add (lib.element1 .negate .float32 (u i j)) w3) w))
      (by simp [denote2, hw2, BinOp.general, BinOp.result]) (by simp)) s' hs'
  refine ⟨r, _, ?_, Field.ofDenotes (lib := lib) h4, fun i j hi hj => ?_⟩
  · unfold ycoordinate
    rw [h1, ok_bind, h3]
  · have e := hfu i j hi hj
    dsimp only at e ⊢
    change (lib.value .float32 (lib.element2 .add .float32 w2 (lib.element2 .multiply .float32
      (lib.element2 .add .float32 (lib.element1 .negate .float32 (u i j)) w3) w))).map real = _
    rw [he.add_number hw2, he.number_mul hw, he.number_add hw3, he.neg,
      show (lib.value .float32 (u i j)).map (fun a => - real a) = ((lib.value .float32 (u i j)).map real).map (- ·) by
        rw [Option.map_map]; rfl, e, if_pos (show (0 : Nat) = 0 from rfl), indexValue he (by omega)]
    cases f i j with
    | none => rfl
    | some v =>
      simp only [Option.isSome_some, if_true, Option.map_some, Option.some.injEq]
      rw [q2, q1, hh, hr, hsouth]
      have h2 : (2 : K) ≠ 0 := by exact_mod_cast (show (2 : Nat) ≠ 0 by decide)
      field_simp
      ring

end Coordinates

/-! ### Windows -/

/-- C53: the length of a window is accepted if it is an odd number of times the size of a cell. The result is that number. -/
theorem translateWindowLength_iff {K : Type} [_root_.Field K] [LinearOrder K] [IsStrictOrderedRing K] [FloorRing K]
    {cellSize : K} (hc : 0 < cellSize) (length : K) (n : Nat) :
    translateWindowLength cellSize length = .ok n ↔ n % 2 = 1 ∧ length = n * cellSize := by
  unfold translateWindowLength
  dsimp only
  constructor
  · intro h
    split at h
    · cases h
    · rename_i h1
      split at h
      · cases h
      · rename_i h2
        split at h
        · cases h
        · rename_i h3
          cases h
          push Not at h1 h2 h3
          have hp : 0 ≤ ⌊length / cellSize⌋ := Int.floor_nonneg.2 h3.le
          refine ⟨by omega, ?_⟩
          have : ((⌊length / cellSize⌋.toNat : Nat) : K) = length / cellSize := by
            rw [← Int.cast_natCast, Int.toNat_of_nonneg hp, h1]
          rw [this, div_mul_cancel₀ _ hc.ne']
  · rintro ⟨h1, rfl⟩
    have : (n : K) * cellSize / cellSize = n := by rw [mul_div_cancel_right₀ _ hc.ne']
    rw [this, Int.floor_natCast]
    rw [if_neg (by simp), if_neg (by omega), if_neg (by simp; omega)]
    simp

/-! ### `catchmenttotal` -/

/-- `catchmenttotal(amount, flow_direction)` can result in `r`: P:635-638. The remainder of `accu_threshold`, with 0 as
threshold. The domain is that of `value_policies/accu_threshold.hpp:16-20`. `amount` and `flow_direction` are arrays
or scalars of the types expected. -/
def CatchmentTotal {K : Type} [_root_.Field K] [LinearOrder K] (isNoData : Nat → Bool) (fd : PArr Nat)
    (amount : Accu.Arg (Option K)) (r : PArr (Option K)) : Prop :=
  ∃ outflow, Accu.SplitYields (fun x p => decide (0 ≤ x ∧ 0 ≤ p)) Accu.thresholdSplit isNoData fd amount (.scalar (some 0))
    outflow r

open Lue.Routing Lue.InflowCount Lue.Router Lue.Accu in
/-- C53, the negative part: `catchmenttotal` does not compute the total of the amounts in the catchment. Whatever
the amounts and the flow directions, all cells that aren't missing contain 0. -/
theorem catchmenttotal_zero {K : Type} [_root_.Field K] [LinearOrder K] [IsStrictOrderedRing K] {isNoData : Nat → Bool}
    {fd : PArr Nat} {v : Arr Nat} (hfd : FlowDirections isNoData fd v) {amount : Accu.Arg (Option K)} {f : Arr (Option K)}
    (hin : amount.IsValues fd.grid f) {r : PArr (Option K)} (h : CatchmentTotal isNoData fd amount r) :
    ∃ u, Represents r u ∧ r.grid = fd.grid ∧ ∀ i j, i < fd.grid.a0 → j < fd.grid.a1 →
      ¬ OnCycle fd.grid.a0 fd.grid.a1 v (i, j) → u i j = none ∨ u i j = some 0 := by
  obtain ⟨outflow, hy⟩ := h
  obtain ⟨out, rem, h1, h2, h3, h4, h5⟩ := Accu.accuThreshold_correct hfd hin (parameter := .scalar (some 0)) (q := fun _ _ => some 0) (fun _ _ => rfl) hy
  obtain ⟨out', rem', h1', h2', h3'⟩ := Accu.operations_bounds hfd hin (parameter := .scalar (some 0)) (q := fun _ _ => some 0) (fun _ _ => rfl)
    (.inl ⟨.inl rfl, fun i j x p _ _ hw => by simpa using hw⟩) hy
  refine ⟨rem, h2, h4, fun i j hi hj hc => ?_⟩
  cases hr : rem i j with
  | none => exact .inl rfl
  | some a =>
    right
    cases ho : out i j with
    | none =>
      have := (h5.noData i j hi hj hc)
      rw [this.2.2 (this.1.1 ho)] at hr
      cases hr
    | some o =>
      obtain ⟨x, p, -, e2, -, e3⟩ := h5.rule i j hi hj hc o a ho hr
      cases e2
      have e4 := (h3' i j hi hj hc o a
        (by rw [h1'.unique h1 (by rw [h3]; exact hi) (by rw [h3]; exact hj), ho])
        (by rw [h2'.unique h2 (by rw [h4]; exact hi) (by rw [h4]; exact hj), hr])).2
      have e5 : a ≤ 0 := e3 ▸ min_le_right _ _
      rw [le_antisymm e5 e4]

end Lue.Pcraster

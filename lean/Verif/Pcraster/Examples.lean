import Verif.Pcraster.Coordinates
import Mathlib.Data.Rat.Floor

/-!
# C53: concrete cases

Elements are rational numbers, or missing. There is no-data in all types.
-/
namespace Lue.Pcraster

open Lue.LocalOp Lue.PyOps

/-- A boolean. -/
def ratBool (b : Bool) : Option ℚ := if b then some 1 else some 0

/-- Functors, on values. -/
def ratFunctor2 : Fn2 → ℚ → ℚ → Option ℚ
  | .lessThan => fun x y => ratBool (x < y)
  | .lessThanEqualTo => fun x y => ratBool (x ≤ y)
  | .equalTo => fun x y => ratBool (x = y)
  | .notEqualTo => fun x y => ratBool (x ≠ y)
  | .greaterThan => fun x y => ratBool (y < x)
  | .greaterThanEqualTo => fun x y => ratBool (y ≤ x)
  | .add => fun x y => some (x + y)
  | .subtract => fun x y => some (x - y)
  | .multiply => fun x y => some (x * y)
  | .divide => fun x y => some (x / y)
  | .modulus => fun x y => some (x - y * ⌊x / y⌋)
  | .pow => fun x _ => some x
  | .logicalInclusiveOr => fun x y => ratBool (x ≠ 0 || y ≠ 0)
  | .logicalExclusiveOr => fun x y => ratBool (decide (x ≠ 0) != decide (y ≠ 0))
  | .logicalAnd => fun x y => ratBool (x ≠ 0 && y ≠ 0)

/-- Functors, on elements. -/
def ratFunctor (fn : Fn2) (x y : Option ℚ) : Option ℚ := x.bind fun a => y.bind fun b => ratFunctor2 fn a b

/-- Functors, on elements. -/
def ratFunctor1 (fn : Fn1) (x : Option ℚ) : Option ℚ := x.map fun a =>
  match fn with
  | .abs => |a|
  | .negate => -a
  | .logicalNot => if a = 0 then 1 else 0
  | .floor => (⌊a⌋ : Int)

/-- Whether a number can be an element. -/
def ratConvert (t : Ty) (n : ℚ) : Option (Option ℚ) :=
  if t.floating ∨ (n.den = 1 ∧ (t.signed ∨ 0 ≤ n)) then some (some n) else none

def ratLib : Lib (Option ℚ) ℚ where
  policies2 _ _ := ⟨Option.isNone, Option.isNone, fun _ _ => true, fun _ _ _ => true, none⟩
  functor2 fn _ := ratFunctor fn
  policies1 _ _ := ⟨Option.isNone, fun _ => true, fun _ _ => true, none⟩
  functor1 fn _ := ratFunctor1 fn
  convert := ratConvert
  numeric2 op n m := match op with
    | .add => .ok (n + m)
    | .mul => .ok (n * m)
    | .ne => .ok (if n ≠ m then 1 else 0)
    | _ => .error .other
  numeric1 _ n := .ok (-n)
  ofBool b := if b then 1 else 0
  truth n := n != 0
  identical _ _ := false
  noData _ := Option.isNone
  mark _ := none
  isTrue x := x ≠ some 0
  one := some 1
  zero := some 0
  cast t t' x := if t' = t ∨ t'.floating then x else x.map fun a => (⌊a⌋ : Int)
  castInRange t t' x := t' = t || t'.signed || decide (0 ≤ x.getD 0)
  numberType n := if n.den = 1 then some .int32 else some .float32
  number0 := 0
  number1 := 1
  types := [.float32, .int32, .uint8]
  indexType := .uint64
  integer n := if n = 255 then none else some n
  integerMark := 255

theorem ratLib_ok : ratLib.Ok where
  mark _ := rfl
  one := ⟨rfl, by decide⟩
  zero := ⟨rfl, by decide⟩

theorem ratValue (t : Ty) (x : Option ℚ) : ratLib.value t x = x.map some := by
  cases x <;> rfl

theorem ratElement2 (fn : Fn2) (t : Ty) (x y : Option ℚ) : ratLib.element2 fn t x y = ratFunctor fn x y := by
  cases x with
  | none => rfl
  | some a =>
    cases y with
    | none => rfl
    | some b =>
      simp [PyOps.Lib.element2, ratLib, binarySpec, LocalOp.valid]

theorem ratElement1 (fn : Fn1) (t : Ty) (x : Option ℚ) : ratLib.element1 fn t x = ratFunctor1 fn x := by
  cases x with
  | none => rfl
  | some a => simp [PyOps.Lib.element1, ratLib, unarySpec, LocalOp.valid, guard]

theorem ratSwap (fn fn' : Fn2) (h : ∀ a b, ratFunctor2 fn a b = ratFunctor2 fn' b a) (t : Ty) (x y : Option ℚ) :
    ratLib.element2 fn t x y = ratLib.element2 fn' t y x := by
  rw [ratElement2, ratElement2]
  cases x <;> cases y <;> simp [ratFunctor, h]

theorem ratLib_mirrored : ratLib.toLib.Mirrored where
  lt := ratSwap _ _ fun _ _ => rfl
  le := ratSwap _ _ fun _ _ => rfl
  eq := ratSwap _ _ fun a b => by simp [ratFunctor2, eq_comm]
  ne := ratSwap _ _ fun a b => by simp [ratFunctor2, eq_comm]
  or := ratSwap _ _ fun a b => by simp only [ratFunctor2, Bool.or_comm]
  xor := ratSwap _ _ fun a b => by simp only [ratFunctor2, bne_comm]
  and := ratSwap _ _ fun a b => by simp only [ratFunctor2, Bool.and_comm]

/-- The order of the values. -/
def ratLe (_ : Ty) (x y : Option ℚ) : Prop := x.getD 0 ≤ y.getD 0

instance : ∀ t x y, Decidable (ratLe t x y) := fun _ x y => inferInstanceAs (Decidable (x.getD 0 ≤ y.getD 0))

theorem ratLib_compares : ratLib.Compares ratLe where
  total _ x y _ _ := le_total _ _
  trans _ x y z _ _ _ h h' := le_trans h h'
  ge t x y := by
    rw [ratElement2]
    simp only [ratValue]
    cases x with
    | none => rfl
    | some a =>
      cases y with
      | none => rfl
      | some b =>
        by_cases h : b ≤ a <;> simp [ratFunctor, ratFunctor2, ratBool, ratLe, h, ratLib]
  le t x y := by
    rw [ratElement2]
    simp only [ratValue]
    cases x with
    | none => rfl
    | some a =>
      cases y with
      | none => rfl
      | some b =>
        by_cases h : a ≤ b <;> simp [ratFunctor, ratFunctor2, ratBool, ratLe, h, ratLib]

theorem ratLib_booleans : ratLib.Booleans .float32 (some 0) where
  zero := by simp [ratLib, ratConvert, Ty.floating]
  ne x := by
    rw [ratElement2]
    simp only [ratValue]
    cases x with
    | none => rfl
    | some a => by_cases h : a = 0 <;> simp [ratFunctor, ratFunctor2, ratBool, ratLib, h]
  mem := by simp [ratLib]
  uint8 := by simp [ratLib, ratConvert]
  cast1 t v h := by
    have : v = some 1 := by
      simp only [ratLib, ratConvert] at h
      split at h <;> simp_all
    subst this
    rw [ratValue]
    simp [castValue, ratLib, Lib.value, Ty.floating]
  cast0 t v h := by
    have : v = some 0 := by
      simp only [ratLib, ratConvert] at h
      split at h <;> simp_all
    subst this
    rw [ratValue]
    simp [castValue, ratLib, Lib.value, Ty.floating]

theorem ratLib_cast (t : Ty) (x : Option ℚ) : castValue ratLib t t (ratLib.value t x) = ratLib.value t x := by
  rw [ratValue]
  cases x <;> simp [castValue, ratLib, Lib.value]

theorem ratLib_exact : ratLib.Exact (K := ℚ) (fun x => x.getD 0) id where
  number n := ⟨some n, by simp [ratLib, ratConvert, Ty.floating], rfl, rfl⟩
  numAdd n m := ⟨n + m, rfl, rfl⟩
  numMul n m := ⟨n * m, rfl, rfl⟩
  add x y := by
    rw [ratElement2]
    simp only [ratValue]
    cases x <;> cases y <;> simp [ratFunctor, ratFunctor2]
  mul x y := by
    rw [ratElement2]
    simp only [ratValue]
    cases x <;> cases y <;> simp [ratFunctor, ratFunctor2]
  neg x := by
    rw [ratElement1]
    simp only [ratValue]
    cases x <;> simp [ratFunctor1]
  index n := by
    simp only [ratValue]
    by_cases h : n = 255
    · simp [ratLib, castValue, h]
    · simp [ratLib, castValue, h, Lib.value, Ty.floating, Ty.signed]

/-- Two partitions. -/
def exGrid : Grid := ⟨2, 4, 2, 2⟩

/-- A configuration: north 10, west 5, cells of 3. -/
def exCfg : Configuration ℚ := ⟨2, 4, some [2, 2], 10, 5, 4, 17, 3, 1, 4⟩

theorem exCfg_creates : exCfg.Creates exGrid where
  ok := ⟨by decide, by decide, by decide, by decide⟩
  shape := rfl
  partition := by decide
  localities := by decide

def exSched : Sched (Option ℚ) := ⟨fun _ => [1, 0], fun _ _ => some 77⟩

theorem exSched_order (n : Nat) : IsOrder (exGrid.n0 * exGrid.n1) (exSched.order n) := by
  show List.Perm [1, 0] (List.range 2)
  decide

def exValues (i j : Nat) : Option ℚ := if i = 0 ∧ j = 3 then none else some (i + 2 * j)

/-- An array. -/
def exArray (t : Ty) : Obj (Option ℚ) ℚ := .array t (store exGrid exValues)

theorem exArray_field (t : Ty) : Field ratLib exGrid t .array (exArray t) fun i j => (exValues i j).map some :=
  .array _ exValues _ rfl (store_represents exCfg_creates.ok _) fun i j _ _ => ratValue _ _

/-- `cover(array, 7)` -/
example : ∃ r, cover ratLib exCfg (fun _ => exSched) (exArray .float32) (.number 7) [] = .ok r ∧
    Field ratLib exGrid .float32 .array r fun i j => firstDefined [(exValues i j).map some, some (some 7)] :=
  cover_correct ratLib_ok exCfg_creates (by simp [ratLib]) (by simp [pcrasterTypes]) (fun _ => exSched_order)
    (.field (exArray_field .float32)) (.number 7 (some 7) _ (by simp [ratLib, ratConvert, Ty.floating])
      fun _ _ _ _ => rfl) (by simp [exArray, isValue]) .nil

/-- `max(array, 3, array)` -/
example : ∃ r f, max ratLib exCfg (fun _ => exSched) [exArray .float32, .number 3, exArray .float32] = .ok r ∧
    Field ratLib exGrid .float32 .array r f ∧ ∀ i j, i < 2 → j < 4 → IsExtreme (ratLe .float32)
      [(exValues i j).map some, some (some 3), (exValues i j).map some] (f i j) :=
  max_correct ratLib_ok ratLib_mirrored exCfg_creates (by simp [ratLib]) (by simp [pcrasterTypes]) ratLib_compares
    (fun _ => exSched_order) (fs := [fun i j => (exValues i j).map some, fun _ _ => some (some 3), fun i j => (exValues i j).map some])
    (.cons (.field (exArray_field .float32)) (.cons (.number 3 (some 3) _ (by simp [ratLib, ratConvert, Ty.floating])
      fun _ _ _ _ => rfl) (.cons (.field (exArray_field .float32)) .nil))) (by simp) (by
        intro pre x y h _ hy
        have : y = exArray .float32 := by
          have := congrArg List.getLast? h
          simpa using this.symm
        rw [this] at hy
        cases hy)

/-- `max(array, 0, 1)` fails, for an array of floating point elements: the maximum of 0 and 1 is an array of integers. -/
example : max ratLib exCfg (fun _ => exSched) [exArray .float32, .number 0, .number 1] = .error .other := by
  obtain ⟨r, f, h1, h2, -⟩ := max_correct (g := exGrid) (t := .int32) (args := [.number 0, .number 1]) ratLib_ok ratLib_mirrored
    exCfg_creates (by simp [ratLib]) (by simp [pcrasterTypes]) ratLib_compares (s := fun _ => exSched)
    (fun _ => exSched_order) (fs := [fun _ _ => some (some 0), fun _ _ => some (some 1)])
    (.cons (.number 0 (some 0) _ (by simp [ratLib, ratConvert, Ty.signed]) fun _ _ _ _ => rfl)
      (.cons (.number 1 (some 1) _ (by simp [ratLib, ratConvert, Ty.signed]) fun _ _ _ _ => rfl) .nil)) (by simp) (by
        intro pre x y h _ _
        cases pre with
        | nil => simp at h; rw [← h.1]; simp [OwnType, ratLib]
        | cons a l => cases l with
          | nil => simp at h
          | cons b l => cases l <;> simp at h)
  have h1' : extreme ratLib exCfg (fun _ => exSched) .ge 1 [.number 0, .number 1] = .ok r := h1
  unfold max extreme
  rw [h1', ok_bind]
  cases h2 with
  | array a u f hg hr hf => rfl

/-- `ifthenelse(array > 0, array, 1)` is refused. -/
example : ifthenelse ratLib exCfg exSched (.number 1) (exArray .float32) (.number 1) = .error .typeError :=
  ifthenelse_refused (t := .float32) (t' := .int32) exCfg_creates (by decide)
    (.number 1 (some 1) _ (by simp [ratLib, ratConvert]) fun _ _ _ _ => rfl)
    (.field (exArray_field .float32)) trivial
    (.number 1 (some 1) _ (by simp [ratLib, ratConvert, Ty.signed]) fun _ _ _ _ => rfl) (by simp [OwnType, ratLib])

/-- `boolean(array)` -/
example : ∃ r, boolean ratLib exSched (exArray .float32) = .ok r ∧ Field ratLib exGrid .uint8 .array r fun i j =>
    ((exValues i j).map some).map fun v => if v = some 0 then some 0 else some 1 :=
  boolean_correct ratLib_ok ratLib_mirrored (by simp [pcrasterTypes]) ratLib_booleans exSched_order
    (exArray_field .float32)

/-- `xcoordinate(array)` and `ycoordinate(array)` -/
example : (∃ r f', xcoordinate ratLib exCfg (1 / 2) exSched (fun _ => 9) (fun _ => exSched) (exArray .float32) = .ok r ∧
      Field ratLib exGrid .float32 .array r f' ∧ ∀ i j, i < 2 → j < 4 →
        (f' i j).map (fun x => x.getD 0) = ((exValues i j).map some).map fun _ => 5 + ((j : ℚ) + 1 / 2) * 3) ∧
    ∃ r f', ycoordinate ratLib exCfg (1 / 2) 1 exSched (fun _ => 9) (fun _ => exSched) (exArray .float32) = .ok r ∧
      Field ratLib exGrid .float32 .array r f' ∧ ∀ i j, i < 2 → j < 4 →
        (f' i j).map (fun x => x.getD 0) = ((exValues i j).map some).map fun _ => 10 - ((i : ℚ) + 1 / 2) * 3 :=
  ⟨xcoordinate_correct (g := exGrid) ratLib_ok ratLib_mirrored ratLib_exact exCfg_creates (by simp [pcrasterTypes]) exSched_order
      (fun _ => exSched_order) _ (by right; decide) (by decide) rfl (.field (exArray_field .float32)) trivial,
    ycoordinate_correct (g := exGrid) ratLib_ok ratLib_mirrored ratLib_exact exCfg_creates (by simp [pcrasterTypes]) exSched_order
      (fun _ => exSched_order) _ (by left; decide) (by decide) rfl (by simp [exCfg]; norm_num) (by simp [exCfg]; norm_num)
      (.field (exArray_field .float32)) trivial⟩

/-- A window of three cells. -/
example : translateWindowLength (3 : ℚ) 9 = .ok 3 := (translateWindowLength_iff (by norm_num) 9 3).2 ⟨rfl, by norm_num⟩

/-- `catchmenttotal` has results. -/
example : ∃ r, CatchmentTotal (K := ℚ) (· == 0) (store ⟨4, 4, 2, 2⟩ InflowCount.exampleNetwork) (.scalar (some 1)) r := by
  obtain ⟨o, r, h⟩ := (Accu.split_yields_iff (K := ℚ) (within := fun x p => decide (0 ≤ x ∧ 0 ≤ p))
    (split := Accu.thresholdSplit) (inflow := .scalar (some 1)) (parameter := .scalar (some 0))
    (f := fun _ _ => some 1) (q := fun _ _ => some 0) Accu.example_flowDirections (fun _ _ => rfl) (fun _ _ => rfl)).2
    fun ⟨u, _, _, h, _⟩ => Accu.example_acyclic u h
  exact ⟨r, o, h⟩

end Lue.Pcraster

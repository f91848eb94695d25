import Verif.PyOps.Spec
import Verif.Partitioned.Cells

/-!
# C48: operators of arrays and scalars in Python
-/
namespace Lue.PyOps

open Lue.LocalOp

variable {V Num : Type}

/-! ### Calls -/

/-- What is passed to a function stands for a value per cell. -/
inductive ArgMeans (g : Grid) : Arg V → Rank → (Nat → Nat → V) → Prop where
  | value (v : V) : ArgMeans g (.value v) .scalar fun _ _ => v
  | array (a : PArr V) (u : Nat → Nat → V) (hg : a.grid = g) (hr : Represents a u) : ArgMeans g (.array a) .array u

theorem ArgMeans.toObj {g : Grid} {x : Arg V} {k : Rank} {u : Nat → Nat → V} (h : ArgMeans g x k u) (t : Ty) :
    Denotes g (x.toObj t : Obj V Num) (.field k t u) := by
  cases h with
  | value v => exact .scalar t v
  | array a u hg hr => exact .array t a u hg hr

theorem call2_ok (lib : Lib V Num) (fn : Fn2) (t : Ty) {g : Grid} {order : List Nat} (ho : IsOrder (g.n0 * g.n1) order)
    (garbage : Nat → V) {x y : Arg V} {k k' : Rank} {u u' : Nat → Nat → V} (hx : ArgMeans g x k u)
    (hy : ArgMeans g y k' u') :
    ∃ r, call2 lib fn t order garbage x y = .ok r ∧
      ArgMeans g r (k.max k') fun i j => lib.element2 fn t (u i j) (u' i j) := by
  cases hx with
  | value v =>
    cases hy with
    | value w =>
      refine ⟨_, rfl, ?_⟩
      rw [scalar2_spec]
      exact .value _
    | array a u' hg hr =>
      obtain ⟨r, h1, h2, h3⟩ := binarySA_spec (lib.policies2 fn t) (lib.functor2 fn t) garbage v hr (by rw [hg]; exact ho)
      refine ⟨.array r, ?_, .array r _ (by rw [h2, hg]) h3⟩
      simp only [call2, h1, M.bind_ok]
  | array b u hg hr =>
    cases hy with
    | value w =>
      obtain ⟨r, h1, h2, h3⟩ := binaryAS_spec (lib.policies2 fn t) (lib.functor2 fn t) garbage hr w (by rw [hg]; exact ho)
      refine ⟨.array r, ?_, .array r _ (by rw [h2, hg]) h3⟩
      simp only [call2, h1, M.bind_ok]
    | array a u' hg' hr' =>
      obtain ⟨r, h1, h2, h3⟩ := binary_spec (lib.policies2 fn t) (lib.functor2 fn t) garbage hr hr' (by rw [hg, hg'])
        (by rw [hg]; exact ho)
      refine ⟨.array r, ?_, .array r _ (by rw [h2, hg]) h3⟩
      simp only [call2, h1, M.bind_ok]

theorem call1_ok (lib : Lib V Num) (fn : Fn1) (t : Ty) {g : Grid} {order : List Nat} (ho : IsOrder (g.n0 * g.n1) order)
    (garbage : Nat → V) {x : Arg V} {k : Rank} {u : Nat → Nat → V} (hx : ArgMeans g x k u) :
    ∃ r, call1 lib fn t order garbage x = .ok r ∧ ArgMeans g r k fun i j => lib.element1 fn t (u i j) := by
  cases hx with
  | value v =>
    refine ⟨_, rfl, ?_⟩
    rw [scalar_spec]
    exact .value _
  | array a u hg hr =>
    obtain ⟨r, h1, h2, h3⟩ := unary_spec (lib.policies1 fn t) (lib.functor1 fn t) garbage hr (by rw [hg]; exact ho)
    refine ⟨.array r, ?_, .array r _ (by rw [h2, hg]) h3⟩
    simp only [call1, h1, M.bind_ok]

/-- What is done with the result. -/
def applyPost (lib : Lib V Num) (t : Ty) : Option Fn1 → V → V
  | none, x => x
  | some p, x => lib.element1 p t x

/-- Type of the result of a method. -/
def Def.result (d : Def) (t : Ty) : Ty :=
  match d.post with
  | none => d.fn.out t
  | some p => p.out (d.fn.out t)

/-- What a method computes for a cell, given the elements of the object itself and of the argument. -/
def Def.computes (lib : Lib V Num) (t : Ty) (d : Def) (x y : V) : V :=
  applyPost lib (d.fn.out t) d.post (if d.selfFirst then lib.element2 d.fn t x y else lib.element2 d.fn t y x)

theorem Rank.max_comm (k k' : Rank) : k.max k' = k'.max k := by cases k <;> cases k' <;> rfl

theorem run_ok (lib : Lib V Num) {g : Grid} (s : Sched V) (ho : ∀ n, IsOrder (g.n0 * g.n1) (s.order n)) (d : Def) (t : Ty)
    {x y : Arg V} {k k' : Rank} {u u' : Nat → Nat → V} (hx : ArgMeans g x k u) (hy : ArgMeans g y k' u') :
    ∃ r : Obj V Num, d.run lib s t x y = .ok r ∧
      Denotes g r (.field (k.max k') (d.result t) fun i j => d.computes lib t (u i j) (u' i j)) := by
  obtain ⟨r, h1, h2⟩ : ∃ r, (if d.selfFirst then call2 lib d.fn t (s.order 0) (s.garbage 0) x y
      else call2 lib d.fn t (s.order 0) (s.garbage 0) y x) = .ok r ∧ ArgMeans g r (k.max k') fun i j =>
        (if d.selfFirst then lib.element2 d.fn t (u i j) (u' i j) else lib.element2 d.fn t (u' i j) (u i j)) := by
    by_cases hs : d.selfFirst = true
    · simp only [hs, if_true]
      exact call2_ok lib d.fn t (ho 0) (s.garbage 0) hx hy
    · simp only [hs]
      rw [Rank.max_comm]
      exact call2_ok lib d.fn t (ho 0) (s.garbage 0) hy hx
  unfold Def.run
  rw [h1]
  cases hp : d.post with
  | none =>
    refine ⟨r.toObj (d.fn.out t), rfl, ?_⟩
    have := h2.toObj (Num := Num) (d.fn.out t)
    unfold Def.result Def.computes applyPost
    rw [hp]
    exact this
  | some p =>
    obtain ⟨r', h3, h4⟩ := call1_ok lib p (d.fn.out t) (ho 1) (s.garbage 1) h2
    refine ⟨r'.toObj (p.out (d.fn.out t)), ?_, ?_⟩
    · show (raised (call1 lib p (d.fn.out t) (s.order 1) (s.garbage 1) r) >>= _) = _
      rw [h3]; rfl
    · have := h4.toObj (Num := Num) (p.out (d.fn.out t))
      unfold Def.result Def.computes applyPost
      rw [hp]
      exact this

/-! ### Selection of overloads -/

/-- Kind of an object. -/
def Obj.kind : Obj V Num → Kind
  | .array _ _ => .array
  | .scalar _ _ => .scalar
  | .number _ => .element

theorem matchArg_kind (lib : Lib V Num) (t : Ty) (κ : Kind) (x : Obj V Num) (h : κ ≠ x.kind) :
    matchArg lib t κ x = none := by
  cases κ <;> cases x <;> first | rfl | exact absurd rfl h

/-- The overload for a kind of argument. -/
def findDef (ds : List Def) (m : Method) (κ : Kind) : Option Def := ds.find? fun d => d.name = m && d.arg = κ

theorem dispatch_eq (lib : Lib V Num) (s : Sched V) (t : Ty) (self : Arg V) (x : Obj V Num) (m : Method) :
    ∀ ds, dispatch lib s t self x m ds =
      match matchArg lib t x.kind x with
      | some a => (findDef ds m x.kind).map fun d => d.run lib s t self a
      | none => none
  | [] => by unfold dispatch; cases matchArg lib t x.kind x <;> rfl
  | d :: ds => by
    unfold dispatch
    have ih := dispatch_eq lib s t self x m ds
    by_cases hn : d.name = m
    · by_cases hk : d.arg = x.kind
      · rw [if_pos hn, hk]
        cases hm : matchArg lib t x.kind x with
        | some a => simp [findDef, hn, hk]
        | none =>
          rw [hm] at ih
          simpa using ih
      · rw [if_pos hn, matchArg_kind lib t d.arg x hk, ih]
        cases hm : matchArg lib t x.kind x with
        | some a => simp [findDef, hn, hk]
        | none => rfl
    · rw [if_neg hn, ih]
      cases hm : matchArg lib t x.kind x with
      | some a => simp [findDef, hn]
      | none => rfl

/-- The function called for an operator. -/
def fnOf : BinOp → Fn2
  | .lt => .lessThan | .le => .lessThanEqualTo | .eq => .equalTo | .ne => .notEqualTo | .gt => .greaterThan
  | .ge => .greaterThanEqualTo | .add => .add | .sub => .subtract | .mul => .multiply | .truediv => .divide
  | .floordiv => .divide | .mod => .modulus | .pow => .pow | .or => .logicalInclusiveOr | .xor => .logicalExclusiveOr
  | .and => .logicalAnd

/-- The function called for a reflected operator. -/
def mirrorOf : BinOp → Fn2
  | .lt => .greaterThan | .le => .greaterThanEqualTo | .gt => .lessThan | .ge => .lessThanEqualTo
  | op => fnOf op

/-- Operators for which the object itself is the first argument of the function called, in the reflected method. -/
def mirrorFirst : BinOp → Bool
  | .lt | .le | .eq | .ne | .gt | .ge | .or | .xor | .and => true
  | _ => false

/-- Function called with the result. -/
def postOf : BinOp → Option Fn1
  | .floordiv => some .floor
  | _ => none

/-- Whether an operator is available for elements of some type. -/
def avail (op : BinOp) (t : Ty) : Bool := op.general || (op.logical && t.integral) || (!op.logical && t.floating)

theorem arrayDefs_method (t : Ty) (op : BinOp) (κ : Kind) :
    findDef (arrayDefs t) op.method κ =
      if avail op t then some ⟨op.method, κ, fnOf op, true, postOf op⟩ else none := by
  cases t <;> cases op <;> cases κ <;> rfl

theorem arrayDefs_reflected (t : Ty) (op : BinOp) (κ : Kind) (hκ : κ ≠ .array) :
    findDef (arrayDefs t) op.reflected κ =
      if avail op t then some ⟨op.reflected, κ, mirrorOf op, mirrorFirst op, postOf op⟩ else none := by
  cases κ with
  | array => exact absurd rfl hκ
  | scalar => cases t <;> cases op <;> rfl
  | element => cases t <;> cases op <;> rfl

theorem arrayDefs_reflected_none (t : Ty) (op : BinOp) (h : avail op t = false) :
    findDef (arrayDefs t) op.reflected .array = none := by
  cases t <;> cases op <;> first | rfl | exact absurd h (by decide)

theorem scalarDefs_method (t : Ty) (op : BinOp) (κ : Kind) (hκ : κ ≠ .array) :
    findDef (scalarDefs t) op.method κ =
      if avail op t then some ⟨op.method, κ, fnOf op, true, postOf op⟩ else none := by
  cases κ with
  | array => exact absurd rfl hκ
  | scalar => cases t <;> cases op <;> rfl
  | element => cases t <;> cases op <;> rfl

theorem scalarDefs_array (t : Ty) (m : Method) : findDef (scalarDefs t) m .array = none := by
  cases t <;> cases m <;> rfl

theorem scalarDefs_reflected (t : Ty) (op : BinOp) :
    findDef (scalarDefs t) op.reflected .element =
      if avail op t && !op.logical then
        some ⟨op.reflected, .element, mirrorOf op, mirrorFirst op || op = .mod, postOf op⟩ else none := by
  cases t <;> cases op <;> rfl

theorem scalarDefs_reflected_none (t : Ty) (op : BinOp) (h : avail op t = false) :
    findDef (scalarDefs t) op.reflected .scalar = none := by
  cases t <;> cases op <;> first | rfl | exact absurd h (by decide)

/-! ### What the methods compute -/

theorem computes_method (lib : Lib V Num) (t : Ty) (op : BinOp) (κ : Kind) (x y : V) :
    Def.computes lib t ⟨op.method, κ, fnOf op, true, postOf op⟩ x y = lib.meaning t op x y := by
  cases op <;> rfl

theorem computes_reflected {lib : Lib V Num} (hm : lib.Mirrored) (t : Ty) (op : BinOp) (κ : Kind) (x y : V) :
    Def.computes lib t ⟨op.reflected, κ, mirrorOf op, mirrorFirst op, postOf op⟩ x y = lib.meaning t op y x := by
  cases op
  · exact hm.lt t x y
  · exact hm.le t x y
  · exact hm.eq t x y
  · exact hm.ne t x y
  · exact (hm.lt t y x).symm
  · exact (hm.le t y x).symm
  · rfl
  · rfl
  · rfl
  · rfl
  · rfl
  · rfl
  · rfl
  · exact hm.or t x y
  · exact hm.xor t x y
  · exact hm.and t x y

theorem result_method (t : Ty) (op : BinOp) (m : Method) (κ : Kind) (b : Bool) :
    Def.result ⟨m, κ, fnOf op, b, postOf op⟩ t = op.result t := by
  cases op <;> rfl

theorem result_reflected (t : Ty) (op : BinOp) (m : Method) (κ : Kind) (b : Bool) :
    Def.result ⟨m, κ, mirrorOf op, b, postOf op⟩ t = op.result t := by
  cases op <;> rfl

theorem avail_iff (op : BinOp) (t : Ty) :
    (op.general ∨ (op.logical ∧ t.integral) ∨ (¬ op.logical ∧ t.floating)) ↔ avail op t = true := by
  unfold avail
  simp only [Bool.or_eq_true, Bool.and_eq_true, Bool.not_eq_true', or_assoc, Bool.not_eq_true]

theorem avail_reflected_iff (op : BinOp) (t : Ty) :
    (op.general ∨ (op.logical ∧ t.integral ∧ Rank.scalar = .array) ∨ (¬ op.logical ∧ t.floating)) ↔
      (avail op t && !op.logical) = true := by
  cases op <;> cases t <;> decide

/-! ### C48 -/

/-- C48: a binary operator with an array or scalar as operand. For every operator, element type, kind of operands, order
in which tasks complete: if the operation is supported (`denote2`), the result has for each cell the value the operator
gives for the values of the left and the right operand, in that order - except if the remainder is computed of a number
and a scalar. -/
theorem binary_correct {lib : Lib V Num} (hm : lib.Mirrored) {g : Grid} (s : Sched V)
    (ho : ∀ n, IsOrder (g.n0 * g.n1) (s.order n)) (op : BinOp) {x y : Obj V Num} {dx dy d : Den V Num}
    (hx : Denotes g x dx) (hy : Denotes g y dy) (hd : denote2 lib op dx dy = some d)
    (hswap : ¬ (op = .mod ∧ (∃ n, dx = .number n) ∧ ∃ t u, dy = .field .scalar t u)) :
    ∃ r, binary lib s op x y = .ok r ∧ Denotes g r d := by
  have hmethod : ∀ t κ, findDef (arrayDefs t) op.method κ = _ := fun t κ => arrayDefs_method t op κ
  cases hx with
  | number n =>
    cases hy with
    | number m =>
      unfold denote2 at hd
      cases hr : lib.numeric2 op n m with
      | error e => simp [hr] at hd
      | ok r =>
        simp only [hr, Option.some.injEq] at hd
        subst hd
        refine ⟨.number r, ?_, .number r⟩
        unfold binary
        simp only [hr]
        rfl
    | scalar t v =>
      unfold denote2 at hd
      cases hc : lib.convert t n with
      | none => simp [hc] at hd
      | some w =>
        simp only [hc] at hd
        split at hd
        · rename_i hav
          rw [avail_reflected_iff] at hav
          simp only [Option.some.injEq] at hd
          subst hd
          have hnm : op ≠ .mod := fun h => hswap ⟨h, ⟨n, rfl⟩, t, _, rfl⟩
          have hf := scalarDefs_reflected t op
          rw [if_pos hav] at hf
          have hdec : (mirrorFirst op || decide (op = .mod)) = mirrorFirst op := by simp [hnm]
          rw [hdec] at hf
          obtain ⟨r, h1, h2⟩ := run_ok lib s ho ⟨op.reflected, .element, mirrorOf op, mirrorFirst op, postOf op⟩ t
            (ArgMeans.value (g := g) v) (ArgMeans.value (g := g) w)
          refine ⟨r, ?_, ?_⟩
          · unfold binary callMethod
            simp only [dispatch_eq, Obj.kind, matchArg, hc, Option.map_some, hf, h1]
          · rw [result_reflected] at h2
            simp only [computes_reflected hm] at h2
            exact h2
        · simp at hd
    | array t a u hg hr =>
      unfold denote2 at hd
      cases hc : lib.convert t n with
      | none => simp [hc] at hd
      | some w =>
        simp only [hc] at hd
        split at hd
        · rename_i hav
          have hav' : avail op t = true := by
            rw [← avail_iff]
            rcases hav with h | h | h
            · exact Or.inl h
            · exact Or.inr (Or.inl ⟨h.1, h.2.1⟩)
            · exact Or.inr (Or.inr h)
          simp only [Option.some.injEq] at hd
          subst hd
          have hf := arrayDefs_reflected t op .element (by decide)
          rw [if_pos hav'] at hf
          obtain ⟨r, h1, h2⟩ := run_ok lib s ho ⟨op.reflected, .element, mirrorOf op, mirrorFirst op, postOf op⟩ t
            (ArgMeans.array (g := g) a u hg hr) (ArgMeans.value (g := g) w)
          refine ⟨r, ?_, ?_⟩
          · unfold binary callMethod
            simp only [dispatch_eq, Obj.kind, matchArg, hc, Option.map_some, hf, h1]
          · rw [result_reflected] at h2
            simp only [computes_reflected hm] at h2
            exact h2
        · simp at hd
  | scalar t v =>
    cases hy with
    | number n =>
      unfold denote2 at hd
      cases hc : lib.convert t n with
      | none => simp [hc] at hd
      | some w =>
        simp only [hc] at hd
        split at hd
        · rename_i hav
          rw [avail_iff] at hav
          simp only [Option.some.injEq] at hd
          subst hd
          have hf := scalarDefs_method t op .element (by decide)
          rw [if_pos hav] at hf
          obtain ⟨r, h1, h2⟩ := run_ok lib s ho ⟨op.method, .element, fnOf op, true, postOf op⟩ t
            (ArgMeans.value (g := g) v) (ArgMeans.value (g := g) w)
          refine ⟨r, ?_, ?_⟩
          · unfold binary callMethod
            simp only [dispatch_eq, Obj.kind, matchArg, hc, Option.map_some, hf, h1]
          · rw [result_method] at h2
            simp only [computes_method] at h2
            exact h2
        · simp at hd
    | scalar t' w =>
      unfold denote2 at hd
      simp only at hd
      split at hd
      · rename_i hav
        obtain ⟨rfl, hav⟩ := hav
        rw [avail_iff] at hav
        simp only [Option.some.injEq] at hd
        subst hd
        have hf := scalarDefs_method t op .scalar (by decide)
        rw [if_pos hav] at hf
        obtain ⟨r, h1, h2⟩ := run_ok lib s ho ⟨op.method, .scalar, fnOf op, true, postOf op⟩ t
          (ArgMeans.value (g := g) v) (ArgMeans.value (g := g) w)
        refine ⟨r, ?_, ?_⟩
        · unfold binary callMethod
          simp only [dispatch_eq, Obj.kind, matchArg, if_true, Option.map_some, hf, h1]
        · rw [result_method] at h2
          simp only [computes_method] at h2
          exact h2
      · simp at hd
    | array t' a u hg hr =>
      unfold denote2 at hd
      simp only at hd
      split at hd
      · rename_i hav
        obtain ⟨rfl, hav⟩ := hav
        rw [avail_iff] at hav
        simp only [Option.some.injEq] at hd
        subst hd
        have hf := arrayDefs_reflected t op .scalar (by decide)
        rw [if_pos hav] at hf
        obtain ⟨r, h1, h2⟩ := run_ok lib s ho ⟨op.reflected, .scalar, mirrorOf op, mirrorFirst op, postOf op⟩ t
          (ArgMeans.array (g := g) a u hg hr) (ArgMeans.value (g := g) v)
        refine ⟨r, ?_, ?_⟩
        · unfold binary callMethod
          simp only [dispatch_eq, Obj.kind, matchArg, if_true, Option.map_some, hf, h1, scalarDefs_array, Option.map_none]
        · rw [result_reflected] at h2
          simp only [computes_reflected hm] at h2
          exact h2
      · simp at hd
  | array t a u hg hr =>
    cases hy with
    | number n =>
      unfold denote2 at hd
      cases hc : lib.convert t n with
      | none => simp [hc] at hd
      | some w =>
        simp only [hc] at hd
        split at hd
        · rename_i hav
          rw [avail_iff] at hav
          simp only [Option.some.injEq] at hd
          subst hd
          have hf := arrayDefs_method t op .element
          rw [if_pos hav] at hf
          obtain ⟨r, h1, h2⟩ := run_ok lib s ho ⟨op.method, .element, fnOf op, true, postOf op⟩ t
            (ArgMeans.array (g := g) a u hg hr) (ArgMeans.value (g := g) w)
          refine ⟨r, ?_, ?_⟩
          · unfold binary callMethod
            simp only [dispatch_eq, Obj.kind, matchArg, hc, Option.map_some, hf, h1]
          · rw [result_method] at h2
            simp only [computes_method] at h2
            exact h2
        · simp at hd
    | scalar t' w =>
      unfold denote2 at hd
      simp only at hd
      split at hd
      · rename_i hav
        obtain ⟨rfl, hav⟩ := hav
        rw [avail_iff] at hav
        simp only [Option.some.injEq] at hd
        subst hd
        have hf := arrayDefs_method t op .scalar
        rw [if_pos hav] at hf
        obtain ⟨r, h1, h2⟩ := run_ok lib s ho ⟨op.method, .scalar, fnOf op, true, postOf op⟩ t
          (ArgMeans.array (g := g) a u hg hr) (ArgMeans.value (g := g) w)
        refine ⟨r, ?_, ?_⟩
        · unfold binary callMethod
          simp only [dispatch_eq, Obj.kind, matchArg, if_true, Option.map_some, hf, h1]
        · rw [result_method] at h2
          simp only [computes_method] at h2
          exact h2
      · simp at hd
    | array t' b u' hg' hr' =>
      unfold denote2 at hd
      simp only at hd
      split at hd
      · rename_i hav
        obtain ⟨rfl, hav⟩ := hav
        rw [avail_iff] at hav
        simp only [Option.some.injEq] at hd
        subst hd
        have hf := arrayDefs_method t op .array
        rw [if_pos hav] at hf
        obtain ⟨r, h1, h2⟩ := run_ok lib s ho ⟨op.method, .array, fnOf op, true, postOf op⟩ t
          (ArgMeans.array (g := g) a u hg hr) (ArgMeans.array (g := g) b u' hg' hr')
        refine ⟨r, ?_, ?_⟩
        · unfold binary callMethod
          simp only [dispatch_eq, Obj.kind, matchArg, if_true, Option.map_some, hf, h1]
        · rw [result_method] at h2
          simp only [computes_method] at h2
          exact h2
      · simp at hd

/-- C48, finding: the remainder of a number and a scalar is the remainder of the scalar and the number. -/
theorem mod_number_scalar (lib : Lib V Num) (s : Sched V) (t : Ty) (n : Num) (v w : V) (hc : lib.convert t n = some w) :
    binary lib s .mod (.number n) (.scalar t v) = .ok (.scalar t (lib.element2 .modulus t v w)) ∧
    binary lib s .mod (.scalar t v) (.number n) = .ok (.scalar t (lib.element2 .modulus t v w)) := by
  have hf1 := scalarDefs_reflected t .mod
  have hf2 := scalarDefs_method t .mod .element (by decide)
  have ha : avail .mod t = true := by cases t <;> rfl
  rw [if_pos (by simp [ha, BinOp.logical])] at hf1
  rw [if_pos ha] at hf2
  constructor
  · unfold binary callMethod
    simp only [dispatch_eq, Obj.kind, matchArg, hc, Option.map_some, hf1]
    show Except.ok (Obj.scalar t (binaryScalar _ _ v w)) = _
    rw [scalar2_spec]
    rfl
  · unfold binary callMethod
    simp only [dispatch_eq, Obj.kind, matchArg, hc, Option.map_some, hf2]
    show Except.ok (Obj.scalar t (binaryScalar _ _ v w)) = _
    rw [scalar2_spec]
    rfl

/-- C48: what is not supported is refused, with a `TypeError`; except that `==` and `!=` then result in a Python boolean,
which tells whether the operands are the same object. -/
theorem binary_unsupported (lib : Lib V Num) {g : Grid} (s : Sched V) (op : BinOp) {x y : Obj V Num} {dx dy : Den V Num}
    (hx : Denotes g x dx) (hy : Denotes g y dy) (hnum : ¬ (∃ n m, dx = .number n ∧ dy = .number m))
    (hd : denote2 lib op dx dy = none) :
    binary lib s op x y =
      if op = .eq then .ok (.number (lib.ofBool (lib.identical x y)))
      else if op = .ne then .ok (.number (lib.ofBool (!lib.identical x y))) else .error .typeError := by
  suffices h : callMethod lib s op.method x y = none ∧ callMethod lib s op.reflected y x = none by
    have hb : binary lib s op x y = fallback lib op x y := by
      unfold binary
      cases hx <;> cases hy <;> first | exact absurd ⟨_, _, rfl, rfl⟩ hnum | simp only [h.1, h.2]
    rw [hb]
    cases op <;> rfl
  cases hx with
  | number n =>
    cases hy with
    | number m => exact absurd ⟨n, m, rfl, rfl⟩ hnum
    | scalar t v =>
      unfold denote2 at hd
      refine ⟨rfl, ?_⟩
      unfold callMethod
      simp only [dispatch_eq, Obj.kind, matchArg]
      cases hc : lib.convert t n with
      | none => rfl
      | some w =>
        simp only [hc] at hd
        split at hd
        · simp at hd
        · rename_i hav
          rw [avail_reflected_iff] at hav
          have hf := scalarDefs_reflected t op
          rw [if_neg hav] at hf
          simp [hf]
    | array t a u hg hr =>
      unfold denote2 at hd
      refine ⟨rfl, ?_⟩
      unfold callMethod
      simp only [dispatch_eq, Obj.kind, matchArg]
      cases hc : lib.convert t n with
      | none => rfl
      | some w =>
        simp only [hc] at hd
        split at hd
        · simp at hd
        · rename_i hav
          have hav' : ¬ avail op t = true := by
            intro h
            rw [← avail_iff] at h
            apply hav
            rcases h with h | h | h
            · exact Or.inl h
            · exact Or.inr (Or.inl ⟨h.1, h.2, by trivial⟩)
            · exact Or.inr (Or.inr h)
          have hf := arrayDefs_reflected t op .element (by decide)
          rw [if_neg hav'] at hf
          simp [hf]
  | scalar t v =>
    cases hy with
    | number n =>
      unfold denote2 at hd
      refine ⟨?_, rfl⟩
      unfold callMethod
      simp only [dispatch_eq, Obj.kind, matchArg]
      cases hc : lib.convert t n with
      | none => rfl
      | some w =>
        simp only [hc] at hd
        split at hd
        · simp at hd
        · rename_i hav
          rw [avail_iff] at hav
          have hf := scalarDefs_method t op .element (by decide)
          rw [if_neg hav] at hf
          simp [hf]
    | scalar t' w =>
      unfold denote2 at hd
      simp only at hd
      split at hd
      · simp at hd
      · rename_i hav
        unfold callMethod
        simp only [dispatch_eq, Obj.kind, matchArg]
        by_cases ht : t = t'
        · subst ht
          have hav' : ¬ avail op t = true := by
            rw [← avail_iff]
            exact fun h => hav ⟨rfl, h⟩
          have hf := scalarDefs_method t op .scalar (by decide)
          rw [if_neg hav'] at hf
          have hf' := scalarDefs_reflected_none t op (by simpa using hav')
          simp [hf, hf']
        · simp [ht, Ne.symm ht]
    | array t' a u hg hr =>
      unfold denote2 at hd
      simp only at hd
      split at hd
      · simp at hd
      · rename_i hav
        unfold callMethod
        simp only [dispatch_eq, Obj.kind, matchArg, scalarDefs_array]
        by_cases ht : t = t'
        · subst ht
          have hav' : ¬ avail op t = true := by
            rw [← avail_iff]
            exact fun h => hav ⟨rfl, h⟩
          have hf := arrayDefs_reflected t op .scalar (by decide)
          rw [if_neg hav'] at hf
          simp [hf]
        · simp [ht, Ne.symm ht]
  | array t a u hg hr =>
    cases hy with
    | number n =>
      unfold denote2 at hd
      refine ⟨?_, rfl⟩
      unfold callMethod
      simp only [dispatch_eq, Obj.kind, matchArg]
      cases hc : lib.convert t n with
      | none => rfl
      | some w =>
        simp only [hc] at hd
        split at hd
        · simp at hd
        · rename_i hav
          rw [avail_iff] at hav
          have hf := arrayDefs_method t op .element
          rw [if_neg hav] at hf
          simp [hf]
    | scalar t' w =>
      unfold denote2 at hd
      simp only at hd
      split at hd
      · simp at hd
      · rename_i hav
        unfold callMethod
        simp only [dispatch_eq, Obj.kind, matchArg, scalarDefs_array]
        by_cases ht : t = t'
        · subst ht
          have hav' : ¬ avail op t = true := by
            rw [← avail_iff]
            exact fun h => hav ⟨rfl, h⟩
          have hf := arrayDefs_method t op .scalar
          rw [if_neg hav'] at hf
          simp [hf]
        · simp [ht, Ne.symm ht]
    | array t' b u' hg' hr' =>
      unfold denote2 at hd
      simp only at hd
      split at hd
      · simp at hd
      · rename_i hav
        unfold callMethod
        simp only [dispatch_eq, Obj.kind, matchArg]
        by_cases ht : t = t'
        · subst ht
          have hav' : ¬ avail op t = true := by
            rw [← avail_iff]
            exact fun h => hav ⟨rfl, h⟩
          have hf := arrayDefs_method t op .array
          rw [if_neg hav'] at hf
          have hf' := arrayDefs_reflected_none t op (by simpa using hav')
          simp [hf, hf']
        · simp [ht, Ne.symm ht]

/-- C48: a unary operator. -/
theorem unary_correct (lib : Lib V Num) {g : Grid} (s : Sched V) (ho : ∀ n, IsOrder (g.n0 * g.n1) (s.order n))
    (op : UnOp) {x : Obj V Num} {dx d : Den V Num} (hx : Denotes g x dx) (hd : denote1 lib op dx = some d) :
    ∃ r, unary lib s op x = .ok r ∧ Denotes g r d := by
  have key : ∀ (t : Ty) (fn : Fn1) (a : Arg V) (k : Rank) (u : Nat → Nat → V), unaryFn t op = some fn →
      ArgMeans g a k u → ∃ r : Obj V Num, runUnary lib s op t a = .ok r ∧
        Denotes g r (.field k (fn.out t) fun i j => lib.element1 fn t (u i j)) := by
    intro t fn a k u hfn ha
    obtain ⟨r, h1, h2⟩ := call1_ok lib fn t (ho 0) (s.garbage 0) ha
    refine ⟨r.toObj (fn.out t), ?_, h2.toObj _⟩
    unfold runUnary
    rw [hfn]
    simp only [h1]
    rfl
  cases hx with
  | number n =>
    unfold denote1 at hd
    cases hr : lib.numeric1 op n with
    | error e => simp [hr] at hd
    | ok r =>
      simp only [hr, Option.some.injEq] at hd
      subst hd
      refine ⟨.number r, ?_, .number r⟩
      unfold unary
      simp only [hr]
      rfl
  | scalar t v =>
    show ∃ r, runUnary lib s op t (.value v) = .ok r ∧ _
    unfold denote1 at hd
    cases op <;> simp only at hd
    case pos => simp at hd
    case abs =>
      split at hd
      · rename_i ht
        simp only [Option.some.injEq] at hd
        subst hd
        exact key t .abs _ _ _ (by simp [unaryFn, ht]) (.value v)
      · simp at hd
    case neg =>
      split at hd
      · rename_i ht
        simp only [Option.some.injEq] at hd
        subst hd
        exact key t .negate _ _ _ (by simp [unaryFn, ht]) (.value v)
      · simp at hd
    case invert =>
      split at hd
      · rename_i ht
        simp only [Option.some.injEq] at hd
        subst hd
        exact key t .logicalNot _ _ _ (by simp [unaryFn, ht]) (.value v)
      · simp at hd
  | array t a u hg hr =>
    show ∃ r, runUnary lib s op t (.array a) = .ok r ∧ _
    unfold denote1 at hd
    cases op <;> simp only at hd
    case pos => simp at hd
    case abs =>
      split at hd
      · rename_i ht
        simp only [Option.some.injEq] at hd
        subst hd
        exact key t .abs _ _ _ (by simp [unaryFn, ht]) (.array a u hg hr)
      · simp at hd
    case neg =>
      split at hd
      · rename_i ht
        simp only [Option.some.injEq] at hd
        subst hd
        exact key t .negate _ _ _ (by simp [unaryFn, ht]) (.array a u hg hr)
      · simp at hd
    case invert =>
      split at hd
      · rename_i ht
        simp only [Option.some.injEq] at hd
        subst hd
        exact key t .logicalNot _ _ _ (by simp [unaryFn, ht]) (.array a u hg hr)
      · simp at hd

/-- C48: unary operators which are not supported. -/
theorem unary_unsupported (lib : Lib V Num) {g : Grid} (s : Sched V) (op : UnOp) {x : Obj V Num} {k : Rank} {t : Ty}
    {u : Nat → Nat → V} (hx : Denotes g x (.field k t u)) (hd : denote1 lib op (.field k t u) = none) :
    unary lib s op x = .error .typeError := by
  have key : unaryFn t op = none := by
    unfold denote1 at hd
    cases op <;> cases t <;> simp_all [unaryFn, Ty.signed, Ty.floating, Ty.integral]
  cases hx with
  | scalar t v => simp only [unary, runUnary, key]
  | array t a u hg hr => simp only [unary, runUnary, key]

/-- C48: every expression consisting of arrays with the same partitioning, scalars, numbers and operators evaluates to
what it stands for: for each cell the value obtained by evaluating the expression for the values in that cell. This is
the case for all orders in which the tasks of the operations complete. -/
theorem eval_correct {lib : Lib V Num} (hm : lib.Mirrored) {g : Grid} {e : Expr V Num} {d : Den V Num}
    (h : Means lib g e d) : ∀ (s : List Nat → Sched V), (∀ p n, IsOrder (g.n0 * g.n1) ((s p).order n)) →
      ∃ r, eval lib s e = .ok r ∧ Denotes g r d := by
  induction h with
  | obj h => intro s _; exact ⟨_, rfl, h⟩
  | unary h hr ih =>
    intro s ho
    obtain ⟨x, h1, h2⟩ := ih (fun p => s (0 :: p)) (fun p n => ho _ n)
    obtain ⟨r, h3, h4⟩ := unary_correct lib (s []) (ho []) _ h2 hr
    refine ⟨r, ?_, h4⟩
    unfold eval
    rw [h1]
    exact h3
  | binary _ _ hr hswap ih1 ih2 =>
    intro s ho
    obtain ⟨x, h1, h2⟩ := ih1 (fun p => s (0 :: p)) (fun p n => ho _ n)
    obtain ⟨y, h3, h4⟩ := ih2 (fun p => s (1 :: p)) (fun p n => ho _ n)
    obtain ⟨r, h5, h6⟩ := binary_correct hm (s []) (ho []) _ h2 h4 hr hswap
    refine ⟨r, ?_, h6⟩
    unfold eval
    rw [h1, h3]
    exact h5

theorem Denotes.unique {g : Grid} {x y : Obj V Num} {d : Den V Num} (hx : Denotes g x d) (hy : Denotes g y d) : x = y := by
  cases hx with
  | number n => cases hy; rfl
  | scalar t v =>
    cases hd : Den.field (Num := Num) .scalar t (fun _ _ => v) with
    | number n => simp at hd
    | field k t' u =>
      rw [hd] at hy
      cases hy with
      | scalar t'' w =>
        simp only [Den.field.injEq, true_and] at hd
        obtain ⟨rfl, h⟩ := hd
        have := congrFun (congrFun h 0) 0
        rw [this]
      | array t'' a u hg hr => simp at hd
  | array t a u hg hr =>
    cases hd : Den.field (Num := Num) .array t u with
    | number n => simp at hd
    | field k t' u' =>
      rw [hd] at hy
      cases hy with
      | scalar t'' w => simp at hd
      | array t'' b u'' hg' hr' =>
        simp only [Den.field.injEq, true_and] at hd
        obtain ⟨rfl, rfl⟩ := hd
        have h1 := hr.parts_eq
        have h2 := hr'.parts_eq
        rw [hg] at h1
        rw [hg'] at h2
        cases a with
        | mk ga pa =>
          cases b with
          | mk gb pb =>
            simp only at hg hg' h1 h2
            rw [hg, hg', h1, h2]

/-- C48: the result does not depend on the orders in which tasks complete, nor on the contents of uninitialised memory. -/
theorem eval_deterministic {lib : Lib V Num} (hm : lib.Mirrored) {g : Grid} {e : Expr V Num} {d : Den V Num}
    (h : Means lib g e d) (s s' : List Nat → Sched V) (ho : ∀ p n, IsOrder (g.n0 * g.n1) ((s p).order n))
    (ho' : ∀ p n, IsOrder (g.n0 * g.n1) ((s' p).order n)) :
    eval lib s e = eval lib s' e := by
  obtain ⟨r, h1, h2⟩ := eval_correct hm h s ho
  obtain ⟨r', h3, h4⟩ := eval_correct hm h s' ho'
  rw [h1, h3, h2.unique h4]

/-- C48: a chain of comparisons (`a < b < c`) that involves an array or scalar in the first comparison raises a
`ValueError`, whatever the operands and operators. -/
theorem chain_raises {lib : Lib V Num} (hm : lib.Mirrored) {g : Grid} {op1 op2 : BinOp} {e1 e2 e3 : Expr V Num}
    {d1 d2 : Den V Num} {k : Rank} {t : Ty} {u : Nat → Nat → V} (h1 : Means lib g e1 d1) (h2 : Means lib g e2 d2)
    (hd : denote2 lib op1 d1 d2 = some (.field k t u))
    (hswap : ¬ (op1 = .mod ∧ (∃ n, d1 = .number n) ∧ ∃ t u, d2 = .field .scalar t u))
    (s : List Nat → Sched V) (ho : ∀ p n, IsOrder (g.n0 * g.n1) ((s p).order n)) :
    eval lib s (.chain op1 op2 e1 e2 e3) = .error .valueError := by
  obtain ⟨x, h3, h4⟩ := eval_correct hm h1 (fun p => s (0 :: p)) (fun p n => ho _ n)
  obtain ⟨y, h5, h6⟩ := eval_correct hm h2 (fun p => s (1 :: p)) (fun p n => ho _ n)
  obtain ⟨r, h7, h8⟩ := binary_correct hm (s []) (ho []) op1 h4 h6 hd hswap
  unfold eval
  rw [h3, h5]
  show (binary lib (s []) op1 x y >>= _) = _
  rw [h7]
  cases h8 <;> rfl

/-! ### A concrete case -/

/-- What the integral functors do: `modulus.hpp:22-24`, `divide.hpp`, `less_than.hpp`, etc. For this example, numbers don't
overflow, and floating point elements are integral numbers as well. -/
def intFunctor2 : Fn2 → Int → Int → Int
  | .lessThan => fun x y => if x < y then 1 else 0
  | .lessThanEqualTo => fun x y => if x ≤ y then 1 else 0
  | .equalTo => fun x y => if x = y then 1 else 0
  | .notEqualTo => fun x y => if x ≠ y then 1 else 0
  | .greaterThan => fun x y => if x > y then 1 else 0
  | .greaterThanEqualTo => fun x y => if x ≥ y then 1 else 0
  | .add => fun x y => x + y
  | .subtract => fun x y => x - y
  | .multiply => fun x y => x * y
  | .divide => Int.tdiv
  | .modulus => Int.tmod
  | .pow => fun x y => x ^ y.toNat
  | .logicalInclusiveOr => fun x y => if x ≠ 0 ∨ y ≠ 0 then 1 else 0
  | .logicalExclusiveOr => fun x y => if (x ≠ 0) ≠ (y ≠ 0) then 1 else 0
  | .logicalAnd => fun x y => if x ≠ 0 ∧ y ≠ 0 then 1 else 0

/-- No-data is 255 in all types. -/
def intPolicies2 (fn : Fn2) : Policies2 Int Int Int where
  indp1 := fun x => x == 255
  indp2 := fun y => y == 255
  dp := fun _ y => if fn = .divide ∨ fn = .modulus then y != 0 else true
  rp := fun _ _ _ => true
  mark := 255

/-- Elements and numbers are integral numbers. Unsigned types do not accept negative numbers. -/
def intLib : Lib Int Int where
  policies2 fn _ := intPolicies2 fn
  functor2 fn _ := intFunctor2 fn
  policies1 _ _ := ⟨fun x => x == 255, fun _ => true, fun _ _ => true, 255⟩
  functor1 fn _ x :=
    match fn with
    | .abs => |x|
    | .negate => -x
    | .logicalNot => if x = 0 then 1 else 0
    | .floor => x
  convert t n := if t.signed ∨ 0 ≤ n then some n else none
  numeric2 op n m := if op = .add then .ok (n + m) else .error .other
  numeric1 _ n := .ok n
  ofBool b := if b then 1 else 0
  truth n := n != 0
  identical _ _ := false

theorem intLib_swap (f g : Fn2) (hf : f ≠ .divide ∧ f ≠ .modulus) (hg : g ≠ .divide ∧ g ≠ .modulus)
    (h : ∀ x y, intFunctor2 f x y = intFunctor2 g y x) (t : Ty) (x y : Int) :
    intLib.element2 f t x y = intLib.element2 g t y x := by
  simp only [Lib.element2, intLib, binarySpec, intPolicies2, valid]
  by_cases hx : x = 255 <;> by_cases hy : y = 255 <;> simp [hx, hy, hf, hg, h]

theorem intLib_mirrored : intLib.Mirrored where
  lt := intLib_swap _ _ (by decide) (by decide) fun _ _ => rfl
  le := intLib_swap _ _ (by decide) (by decide) fun _ _ => rfl
  eq := intLib_swap _ _ (by decide) (by decide) fun x y => by simp only [intFunctor2, eq_comm]
  ne := intLib_swap _ _ (by decide) (by decide) fun x y => by simp only [intFunctor2, ne_comm]
  or := intLib_swap _ _ (by decide) (by decide) fun x y => by simp only [intFunctor2, or_comm]
  xor := intLib_swap _ _ (by decide) (by decide) fun x y => by
    by_cases hx : x = 0 <;> by_cases hy : y = 0 <;> simp [intFunctor2, hx, hy]
  and := intLib_swap _ _ (by decide) (by decide) fun x y => by simp only [intFunctor2, and_comm]

/-- An array of two partitions, with no-data in the last cell. -/
def exArray (l : List (List Int)) : PArr Int := ⟨⟨1, 4, 1, 2⟩, l⟩

def exSched : Sched Int := ⟨fun _ => [1, 0], fun _ _ => -7⟩

theorem exSched_order (n : Nat) : IsOrder ((exArray []).grid.n0 * (exArray []).grid.n1) (exSched.order n) := by
  show List.Perm [1, 0] (List.range 2)
  decide

/-- What a result looks like, for comparing. -/
def shown : Except PyErr (Obj Int Int) → Option (Option Ty × List (List Int))
  | .ok (.array t a) => some (some t, a.parts)
  | .ok (.scalar t v) => some (some t, [[v]])
  | .ok (.number n) => some (none, [[n]])
  | .error _ => none

/-- `5 - a` -/
example : shown (binary intLib exSched .sub (.number 5) (.array .int32 (exArray [[1, 2], [3, 255]]))) =
    some (some .int32, [[4, 3], [2, 255]]) := by decide

/-- `2 < a` is evaluated as `a > 2` -/
example : shown (binary intLib exSched .lt (.number 2) (.array .int32 (exArray [[1, 2], [3, 255]]))) =
    some (some .uint8, [[0, 0], [1, 255]]) := by decide

/-- `5 % a` for an array, and `5 % s` for a scalar: the latter is `s % 5` -/
example : shown (binary intLib exSched .mod (.number 5) (.array .int32 (exArray [[3, 0], [4, 255]]))) =
    some (some .int32, [[2, 255], [1, 255]]) ∧
    shown (binary intLib exSched .mod (.number 5) (.scalar .int32 3)) = some (some .int32, [[3]]) := by decide

/-- Arrays with different types of elements are never equal: a Python `bool` is returned -/
example : shown (binary intLib exSched .eq (.array .int32 (exArray [[1, 2], [3, 4]]))
    (.array .float64 (exArray [[1, 2], [3, 4]]))) = some (none, [[0]]) := by decide

/-- `a * a` is a `TypeError` for integral elements -/
example : binary intLib exSched .mul (.array .int32 (exArray [[1, 2], [3, 4]])) (.array .int32 (exArray [[1, 2], [3, 4]])) =
    .error .typeError := by rfl

/-- `~((a < 3) | (a == 7))` stands for what is expected, and is evaluated to that. -/
example (a : PArr Int) (u : Nat → Nat → Int) (h : Represents a u) (s : List Nat → Sched Int)
    (ho : ∀ p n, IsOrder (a.grid.n0 * a.grid.n1) ((s p).order n)) :
    ∃ r, eval intLib s (.unary .invert (.binary .or (.binary .lt (.obj (.array .int32 a)) (.obj (.number 3)))
        (.binary .eq (.obj (.array .int32 a)) (.obj (.number 7))))) = .ok r ∧
      Denotes a.grid r (.field .array .uint8 fun i j => intLib.element1 .logicalNot .uint8
        (intLib.element2 .logicalInclusiveOr .uint8 (intLib.element2 .lessThan .int32 (u i j) 3)
          (intLib.element2 .equalTo .int32 (u i j) 7))) := by
  refine eval_correct intLib_mirrored (.unary (.binary
    (.binary (.obj (.array .int32 a u rfl h)) (.obj (.number 3)) rfl (by simp))
    (.binary (.obj (.array .int32 a u rfl h)) (.obj (.number 7)) rfl (by simp)) rfl (by simp)) rfl) s ho

end Lue.PyOps

import Verif.Pcraster.Proofs

/-!
# C53: PCRaster-compatible operations
-/
namespace Lue.Pcraster

open Lue.LocalOp Lue.PyOps

variable {V Num : Type} {lib : Lib V Num} {g : Grid} {cfg : Configuration Num}

/-- C53: `spatial` results in an array with the values of the argument. -/
theorem spatial_correct (hg : cfg.Creates g) {t : Ty} (ht : t ∈ pcrasterTypes) {x : Obj V Num}
    {f : Nat → Nat → Option V} (hx : Stands lib g t x f) (ho : OwnType lib t x) :
    ∃ r, spatial lib cfg x = .ok r ∧ Field lib g t .array r f := by
  unfold spatial
  cases hx with
  | number n v f hc hf =>
    exact nonSpatialToSpatial_ok hg (.number n v f hc hf) ho (fun k hk => by cases hk)
  | field h =>
    cases h with
    | array a u f hag hr hf => exact ⟨.array t a, by simp [isSpatial, ht], .array a u f hag hr hf⟩
    | scalar v f hf =>
      exact nonSpatialToSpatial_ok hg (.field (.scalar v f hf)) trivial (scalar_of_scalar (.scalar v f hf))

theorem spatialCondition_ok (hg : cfg.Creates g) {c : Obj V Num} {fc : Nat → Nat → Option V}
    (hc : Stands lib g .uint8 c fc) : ∃ r, spatialCondition lib cfg c = .ok r ∧ Field lib g .uint8 .array r fc := by
  unfold spatialCondition
  cases hc with
  | number n v _ hc hf =>
    obtain ⟨r, h1, h2⟩ := valueToScalar_ok (lib := lib) (.number n v fc hc hf) rfl
    obtain ⟨r', h3, h4⟩ := nonSpatialToSpatial_ok hg (.field h2) (field_isOwn h2) (scalar_of_scalar h2)
    refine ⟨r', ?_, h4⟩
    simp only [isSpatial, scalarIfValue, isValue, h1, bind, Except.bind, Bool.not_false, if_true]
    exact h3
  | field h =>
    cases h with
    | array a u _ hag hr hf => exact ⟨.array .uint8 a, by simp [isSpatial, pcrasterTypes], .array a u fc hag hr hf⟩
    | scalar v _ hf =>
      exact nonSpatialToSpatial_ok hg (.field (.scalar v fc hf)) trivial (scalar_of_scalar (.scalar v fc hf))

/-- C53: `ifthen`. Where the condition is true, the result is the value of the expression, and elsewhere it is
missing. -/
theorem ifthen_correct (hl : lib.Ok) (hg : cfg.Creates g) {t : Ty} (ht : t ∈ lib.types) {s : Sched V}
    (hs : ∀ n, IsOrder (g.n0 * g.n1) (s.order n)) {c x : Obj V Num} {fc f : Nat → Nat → Option V}
    (hc : Stands lib g .uint8 c fc) (hx : Stands lib g t x f) (ho : OwnType lib t x) :
    ∃ r, ifthen lib cfg s c x = .ok r ∧
      Field lib g t .array r fun i j => ifThenElse lib.isTrue (fc i j) (f i j) none := by
  obtain ⟨c', h1, h2⟩ := spatialCondition_ok hg hc
  obtain ⟨k, x', h3, h4, -, -⟩ := fixValue_ok hx ho
  obtain ⟨r, h5, h6⟩ := where2_ok hl ht (hs 0) (s.garbage 0) h2 h4
  refine ⟨r, ?_, h6⟩
  unfold ifthen
  rw [h1, ok_bind, h3, ok_bind, h5]

/-- C53: `ifthenelse`. Where the condition is true, the result is the value of the first expression, where it is false
that of the second one. -/
theorem ifthenelse_correct (hl : lib.Ok) (hg : cfg.Creates g) {t : Ty} (ht : t ∈ lib.types) {s : Sched V}
    (hs : ∀ n, IsOrder (g.n0 * g.n1) (s.order n)) {c x y : Obj V Num} {fc f f' : Nat → Nat → Option V}
    (hc : Stands lib g .uint8 c fc) (hx : Stands lib g t x f) (ho : OwnType lib t x) (hy : Stands lib g t y f')
    (ho' : OwnType lib t y) :
    ∃ r, ifthenelse lib cfg s c x y = .ok r ∧
      Field lib g t .array r fun i j => ifThenElse lib.isTrue (fc i j) (f i j) (f' i j) := by
  obtain ⟨c', h1, h2⟩ := spatialCondition_ok hg hc
  obtain ⟨k, x', h3, h4, -, -⟩ := fixValue_ok hx ho
  obtain ⟨k', y', h5, h6, -, -⟩ := fixValue_ok hy ho'
  obtain ⟨r, h7, h8⟩ := where3_ok hl ht (hs 0) (s.garbage 0) h2 h4 h6
  refine ⟨r, ?_, h8⟩
  unfold ifthenelse
  rw [h1, ok_bind, h3, ok_bind, h5, ok_bind, h7]

/-- C53: `ifthenelse` does not support a number next to an array or scalar, unless the type of the number is that of the
elements, even if the number can be converted. An example is `ifthenelse(condition, float_array, 1)`. -/
theorem ifthenelse_refused (hg : cfg.Creates g) {t t' : Ty} (hn : t ≠ t') {s : Sched V} {c x y : Obj V Num}
    {fc f f' : Nat → Nat → Option V} (hc : Stands lib g .uint8 c fc) (hx : Stands lib g t x f) (ho : OwnType lib t x)
    (hy : Stands lib g t' y f') (ho' : OwnType lib t' y) :
    ifthenelse lib cfg s c x y = .error .typeError := by
  obtain ⟨c', h1, h2⟩ := spatialCondition_ok hg hc
  obtain ⟨k, x', h3, h4, -, -⟩ := fixValue_ok hx ho
  obtain ⟨k', y', h5, h6, -, -⟩ := fixValue_ok hy ho'
  unfold ifthenelse
  rw [h1, ok_bind, h3, ok_bind, h5, ok_bind, where3_refused hn (s.order 0) (s.garbage 0) h4 h6]

/-- C53: `defined`. The result is true where the argument has a value, and false elsewhere: it is never missing. -/
theorem defined_correct (hl : lib.Ok) {t : Ty} {s : Sched V} (hs : ∀ n, IsOrder (g.n0 * g.n1) (s.order n))
    {x : Obj V Num} {k : Rank} {f : Nat → Nat → Option V} (hx : Field lib g t k x f) :
    ∃ r, defined lib s x = .ok r ∧
      Field lib g .uint8 k r fun i j => some (if (f i j).isSome then lib.one else lib.zero) :=
  valid_ok hl (hs 0) (s.garbage 0) hx

/-! ### `cover` -/

theorem coverStep_ok (hl : lib.Ok) {t : Ty} (ht : t ∈ lib.types) {s : Sched V}
    (hs : ∀ n, IsOrder (g.n0 * g.n1) (s.order n)) {x y : Obj V Num} {f f' : Nat → Nat → Option V}
    (hx : Field lib g t .array x f) (hy : Stands lib g t y f') :
    ∃ r, coverStep lib s x y = .ok r ∧ Field lib g t .array r fun i j => (f i j).or (f' i j) := by
  obtain ⟨c, h1, h2⟩ := valid_ok hl (hs 0) (s.garbage 0) hx
  have hval : ∀ i j, ifThenElse lib.isTrue (some (if (f i j).isSome then lib.one else lib.zero)) (f i j) (f' i j) =
      (f i j).or (f' i j) := by
    intro i j
    unfold ifThenElse
    cases hf : f i j with
    | none => simp [hl.zero.2]
    | some v => simp [hl.one.2]
  have key : ∃ r, where3 lib (s.order 1) (s.garbage 1) c x y = .ok r ∧ Field lib g t .array r fun i j =>
      ifThenElse lib.isTrue (some (if (f i j).isSome then lib.one else lib.zero)) (f i j) (f' i j) := by
    cases hy with
    | field h => exact where3_ok hl ht (hs 1) (s.garbage 1) h2 hx h
    | number n v f' hc hf' =>
      obtain ⟨r, h3, h4⟩ := where3_number hl ht (hs 1) (s.garbage 1) h2 hx hc
      refine ⟨r, h3, h4.same fun i j hi hj => ?_⟩
      rw [← hf' i j hi hj]
  obtain ⟨r, h3, h4⟩ := key
  refine ⟨r, ?_, h4.same fun i j _ _ => hval i j⟩
  unfold coverStep
  rw [h1, ok_bind, h3]

theorem firstDefined_cons (x : Option V) (l : List (Option V)) : firstDefined (x :: l) = x.or (firstDefined l) := by
  unfold firstDefined
  cases x <;> simp

theorem coverLoop_ok (hl : lib.Ok) {t : Ty} (ht : t ∈ lib.types) {s : Nat → Sched V}
    (hs : ∀ m n, IsOrder (g.n0 * g.n1) ((s m).order n)) {rest : List (Obj V Num)}
    {fs : List (Nat → Nat → Option V)} (hr : List.Forall₂ (Stands lib g t) rest fs) :
    ∀ (m : Nat) {x : Obj V Num} {f : Nat → Nat → Option V}, Field lib g t .array x f →
      ∃ r, coverLoop lib s m x rest = .ok r ∧
        Field lib g t .array r fun i j => (f i j).or (firstDefined (fs.map fun h => h i j)) := by
  induction hr with
  | nil => intro m x f hx; exact ⟨x, rfl, hx.same fun i j _ _ => by simp [firstDefined]⟩
  | cons hy _ ih =>
    intro m x f hx
    obtain ⟨r, h1, h2⟩ := coverStep_ok hl ht (hs m) hx hy
    obtain ⟨r', h3, h4⟩ := ih (m + 1) h2
    refine ⟨r', ?_, h4.same fun i j _ _ => ?_⟩
    · unfold coverLoop
      rw [h1, ok_bind, h3]
    · dsimp only
      rw [List.map_cons, firstDefined_cons, Option.or_assoc]

/-- C53: `cover`. The result has the value of the first argument which has a value, and is missing if none of the
arguments has a value. -/
theorem cover_correct (hl : lib.Ok) (hg : cfg.Creates g) {t : Ty} (ht : t ∈ lib.types) (ht' : t ∈ pcrasterTypes)
    {s : Nat → Sched V} (hs : ∀ m n, IsOrder (g.n0 * g.n1) ((s m).order n)) {x y : Obj V Num}
    {f f' : Nat → Nat → Option V} (hx : Stands lib g t x f) (hy : Stands lib g t y f')
    (hn : isValue x = true → isValue y = true → OwnType lib t x) {rest : List (Obj V Num)}
    {fs : List (Nat → Nat → Option V)} (hr : List.Forall₂ (Stands lib g t) rest fs) :
    ∃ r, cover lib cfg s x y rest = .ok r ∧
      Field lib g t .array r fun i j => firstDefined ((f :: f' :: fs).map fun h => h i j) := by
  obtain ⟨k, k', x', y', h1, h2, h3, -, -, -, -⟩ := harmonizeTypes_ok ht' hx hy hn
  have key : ∃ x'', spatialIf lib cfg (isNonSpatial x') x' = .ok x'' ∧ Field lib g t .array x'' f := by
    rw [h2.isNonSpatial ht']
    cases k with
    | array => exact ⟨x', rfl, h2⟩
    | scalar => exact nonSpatialToSpatial_ok hg (.field h2) (field_isOwn h2) (scalar_of_scalar h2)
  obtain ⟨x'', h4, h5⟩ := key
  obtain ⟨r, h6, h7⟩ := coverStep_ok hl ht (hs 0) h5 (.field h3)
  obtain ⟨r', h8, h9⟩ := coverLoop_ok hl ht hs hr 1 h7
  refine ⟨r', ?_, h9.same fun i j _ _ => ?_⟩
  · unfold cover
    rw [h1, ok_bind]
    simp only []
    rw [h4, ok_bind, h5.isSpatial ht']
    simp only [decide_true, Bool.not_true, Bool.false_eq_true, if_false]
    rw [h6, ok_bind, h8]
  · dsimp only
    rw [List.map_cons, List.map_cons, firstDefined_cons, firstDefined_cons, Option.or_assoc]

/-! ### `max` and `min` -/

/-- The extreme of two values. -/
def pickValue (le : V → V → Prop) [∀ x y, Decidable (le x y)] (x y : Option V) : Option V :=
  x.bind fun a => y.bind fun b => if le b a then some a else some b

theorem select_ok (hl : lib.Ok) (hm : lib.toLib.Mirrored) (hg : cfg.Creates g) {t : Ty} (ht : t ∈ lib.types)
    (ht' : t ∈ pcrasterTypes) {s : Sched V} (hs : ∀ n, IsOrder (g.n0 * g.n1) (s.order n)) {op : BinOp}
    (hop : op = .ge ∨ op = .le) {le : V → V → Prop} [∀ x y, Decidable (le x y)]
    (hle : ∀ x y, lib.value .uint8 (lib.meaning t op x y) =
      (lib.value t x).bind fun a => (lib.value t y).map fun b => if le b a then lib.one else lib.zero)
    {x y : Obj V Num} {f f' : Nat → Nat → Option V} (hx : Stands lib g t x f) (hy : Stands lib g t y f')
    (hn : isValue x = true → isValue y = true → OwnType lib t x) :
    ∃ r, select lib cfg s op x y = .ok r ∧ Field lib g t .array r fun i j => pickValue le (f i j) (f' i j) := by
  obtain ⟨k, k', x', y', h1, h2, h3, -, -, -, -⟩ := harmonizeTypes_ok ht' hx hy hn
  obtain ⟨u, hu, hfu⟩ := h2.denotes
  obtain ⟨u', hu', hfu'⟩ := h3.denotes
  have hgen : op.general = true := by rcases hop with rfl | rfl <;> rfl
  have hres : op.result t = .uint8 := by rcases hop with rfl | rfl <;> rfl
  obtain ⟨c, h4, h5⟩ := binary_correct hm s hs op hu hu' (d := .field (k.max k') .uint8 fun i j =>
    lib.meaning t op (u i j) (u' i j)) (by simp [denote2, hgen, hres]) (by rcases hop with rfl | rfl <;> simp)
  have h5' : Field lib g .uint8 (k.max k') c _ := Field.ofDenotes (lib := lib) h5
  have key : ∃ c', spatialIf lib cfg (isNonSpatial c) c = .ok c' ∧ Field lib g .uint8 .array c' fun i j =>
      lib.value .uint8 (lib.meaning t op (u i j) (u' i j)) := by
    rw [h5'.isNonSpatial (by simp [pcrasterTypes])]
    cases hk : k.max k' with
    | array => rw [hk] at h5'; exact ⟨c, rfl, h5'⟩
    | scalar =>
      rw [hk] at h5'
      exact nonSpatialToSpatial_ok hg (.field h5') (field_isOwn h5') (scalar_of_scalar h5')
  obtain ⟨c', h6, h7⟩ := key
  obtain ⟨r, h8, h9⟩ := where3_ok hl ht (hs 2) (s.garbage 2) h7 h2 h3
  refine ⟨r, ?_, h9.same fun i j hi hj => ?_⟩
  · unfold select
    rw [h1, ok_bind]
    simp only []
    rw [h4, ok_bind, h6, ok_bind, h8]
  · dsimp only
    rw [hle]
    have e1 := hfu i j hi hj
    have e2 := hfu' i j hi hj
    dsimp only at e1 e2
    rw [e1, e2]
    unfold pickValue
    cases f i j with
    | none => rfl
    | some a =>
      cases f' i j with
      | none => rfl
      | some b =>
        by_cases h : le b a <;> simp [ifThenElse, h, hl.one.2, hl.zero.2]

theorem pickValue_extreme {le : V → V → Prop} [∀ x y, Decidable (le x y)] {P : V → Prop}
    (total : ∀ x y, P x → P y → le x y ∨ le y x) (trans : ∀ x y z, P x → P y → P z → le x y → le y z → le x z)
    {x r : Option V} {l : List (Option V)} (hl : ∀ v, some v ∈ x :: l → P v) (hr : IsExtreme le l r) :
    IsExtreme le (x :: l) (pickValue le x r) := by
  rcases hr with ⟨h1, rfl⟩ | ⟨h1, m, rfl, h3, h4⟩
  · exact .inl ⟨List.mem_cons_of_mem _ h1, by unfold pickValue; cases x <;> rfl⟩
  · cases x with
    | none => exact .inl ⟨List.mem_cons_self .., rfl⟩
    | some a =>
      have pa := hl a (List.mem_cons_self ..)
      have pm := hl m (List.mem_cons_of_mem _ h3)
      refine .inr ⟨by simpa using h1, ?_⟩
      by_cases h : le m a
      · refine ⟨a, by simp [pickValue, h], List.mem_cons_self .., fun v hv => ?_⟩
        rcases List.mem_cons.1 hv with hv' | hv'
        · cases hv'
          rcases total a a pa pa with h | h <;> exact h
        · exact trans v m a (hl v hv) pm pa (h4 v hv') h
      · refine ⟨m, by simp [pickValue, h], List.mem_cons_of_mem _ h3, fun v hv => ?_⟩
        rcases List.mem_cons.1 hv with hv' | hv'
        · cases hv'
          exact (total a m pa pm).resolve_right h
        · exact h4 v hv'

theorem Field.value_of {t : Ty} {k : Rank} {x : Obj V Num} {f : Nat → Nat → Option V} (h : Field lib g t k x f)
    {i j : Nat} (hi : i < g.a0) (hj : j < g.a1) {v : V} (hv : f i j = some v) : lib.noData t v = false := by
  cases h with
  | array a u f hg hr hf =>
    have := hf i j hi hj
    dsimp only at this
    rw [hv] at this
    obtain ⟨rfl, h⟩ := value_some this
    exact h
  | scalar w f hf =>
    have := hf i j hi hj
    dsimp only at this
    rw [hv] at this
    obtain ⟨rfl, h⟩ := value_some this
    exact h

theorem Stands.value_of {t : Ty} {x : Obj V Num} {f : Nat → Nat → Option V} (h : Stands lib g t x f)
    {i j : Nat} (hi : i < g.a0) (hj : j < g.a1) {v : V} (hv : f i j = some v) : lib.noData t v = false := by
  cases h with
  | field h => exact h.value_of hi hj hv
  | number n w f hc hf => exact (Field.scalar (lib := lib) w f hf).value_of hi hj hv

theorem mem_values {t : Ty} {args : List (Obj V Num)} {fs : List (Nat → Nat → Option V)}
    (h : List.Forall₂ (Stands lib g t) args fs) {i j : Nat} (hi : i < g.a0) (hj : j < g.a1) :
    ∀ v, some v ∈ fs.map (fun f => f i j) → lib.noData t v = false := by
  induction h with
  | nil => intro v hv; cases hv
  | cons hx _ ih =>
    intro v hv
    rcases List.mem_cons.1 hv with hv | hv
    · exact hx.value_of hi hj hv.symm
    · exact ih v hv

/-- `max` and `min` -/
theorem extreme_ok (hl : lib.Ok) (hm : lib.toLib.Mirrored) (hg : cfg.Creates g) {t : Ty} (ht : t ∈ lib.types)
    (ht' : t ∈ pcrasterTypes) {s : Nat → Sched V} (hs : ∀ m n, IsOrder (g.n0 * g.n1) ((s m).order n)) {op : BinOp}
    (hop : op = .ge ∨ op = .le) {le : V → V → Prop} [∀ x y, Decidable (le x y)]
    (hle : ∀ x y, lib.value .uint8 (lib.meaning t op x y) =
      (lib.value t x).bind fun a => (lib.value t y).map fun b => if le b a then lib.one else lib.zero)
    (total : ∀ x y, lib.noData t x = false → lib.noData t y = false → le x y ∨ le y x)
    (trans : ∀ x y z, lib.noData t x = false → lib.noData t y = false → lib.noData t z = false →
      le x y → le y z → le x z) :
    ∀ (args : List (Obj V Num)) (fs : List (Nat → Nat → Option V)) (m : Nat),
      List.Forall₂ (Stands lib g t) args fs → 2 ≤ args.length →
      (∀ pre x y, args = pre ++ [x, y] → isValue x = true → isValue y = true → OwnType lib t x) →
      ∃ r f, extreme lib cfg s op m args = .ok r ∧ Field lib g t .array r f ∧
        ∀ i j, i < g.a0 → j < g.a1 → IsExtreme le (fs.map fun h => h i j) (f i j)
  | [], _, _, _, h, _ => by simp at h
  | [_], _, _, _, h, _ => by simp at h
  | [x, y], fs, m, hst, _, hn => by
    rcases hst with _ | ⟨hx, _ | ⟨hy, hnil⟩⟩
    cases hnil
    rename_i f f'
    obtain ⟨r, h1, h2⟩ := select_ok hl hm hg ht ht' (hs m) hop hle hx hy (hn [] x y rfl)
    refine ⟨r, _, h1, h2, fun i j hi hj => ?_⟩
    have hmem := mem_values (.cons hx (.cons hy .nil)) hi hj
    refine pickValue_extreme total trans hmem ?_
    cases hv : f' i j with
    | none => exact .inl ⟨by simp [hv], rfl⟩
    | some b =>
      refine .inr ⟨by simp [hv], b, rfl, by simp [hv], fun v hv' => ?_⟩
      have : v = b := by simpa [hv] using hv'
      subst this
      have pb := hmem v (by simp [hv])
      rcases total v v pb pb with h | h <;> exact h
  | x :: y :: z :: rest, fs, m, hst, _, hn => by
    rcases hst with _ | ⟨hx, hst⟩
    rename_i f fs
    obtain ⟨r, f', h1, h2, h3⟩ := extreme_ok hl hm hg ht ht' hs hop hle total trans (y :: z :: rest) fs (m + 1) hst
      (by simp) (fun pre a b hp => hn (x :: pre) a b (by rw [hp]; rfl))
    obtain ⟨r', h4, h5⟩ := select_ok hl hm hg ht ht' (hs m) hop hle hx (.field h2)
      (fun _ h => by rw [h2.notValue] at h; cases h)
    refine ⟨r', _, ?_, h5, fun i j hi hj => ?_⟩
    · unfold extreme
      rw [h1, ok_bind, h4]
    · exact pickValue_extreme total trans (mem_values (.cons hx hst) hi hj) (h3 i j hi hj)

/-- C53: `max`. The result is the largest of the values of the arguments, and missing if one of the values is missing. -/
theorem max_correct (hl : lib.Ok) (hm : lib.toLib.Mirrored) (hg : cfg.Creates g) {t : Ty} (ht : t ∈ lib.types)
    (ht' : t ∈ pcrasterTypes) {le : Ty → V → V → Prop} [∀ t x y, Decidable (le t x y)] (hc : lib.Compares le)
    {s : Nat → Sched V} (hs : ∀ m n, IsOrder (g.n0 * g.n1) ((s m).order n)) {args : List (Obj V Num)}
    {fs : List (Nat → Nat → Option V)} (ha : List.Forall₂ (Stands lib g t) args fs) (h2 : 2 ≤ args.length)
    (hn : ∀ pre x y, args = pre ++ [x, y] → isValue x = true → isValue y = true → OwnType lib t x) :
    ∃ r f, max lib cfg s args = .ok r ∧ Field lib g t .array r f ∧
      ∀ i j, i < g.a0 → j < g.a1 → IsExtreme (le t) (fs.map fun h => h i j) (f i j) :=
  extreme_ok hl hm hg ht ht' hs (.inl rfl) (le := le t) (hc.ge t) (hc.total t) (hc.trans t) args fs 0 ha h2 hn

/-- C53: `min`. The result is the smallest of the values of the arguments, and missing if one of the values is missing. -/
theorem min_correct (hl : lib.Ok) (hm : lib.toLib.Mirrored) (hg : cfg.Creates g) {t : Ty} (ht : t ∈ lib.types)
    (ht' : t ∈ pcrasterTypes) {le : Ty → V → V → Prop} [∀ t x y, Decidable (le t x y)] (hc : lib.Compares le)
    {s : Nat → Sched V} (hs : ∀ m n, IsOrder (g.n0 * g.n1) ((s m).order n)) {args : List (Obj V Num)}
    {fs : List (Nat → Nat → Option V)} (ha : List.Forall₂ (Stands lib g t) args fs) (h2 : 2 ≤ args.length)
    (hn : ∀ pre x y, args = pre ++ [x, y] → isValue x = true → isValue y = true → OwnType lib t x) :
    ∃ r f, min lib cfg s args = .ok r ∧ Field lib g t .array r f ∧
      ∀ i j, i < g.a0 → j < g.a1 → IsExtreme (fun x y => le t y x) (fs.map fun h => h i j) (f i j) :=
  extreme_ok hl hm hg ht ht' hs (.inr rfl) (le := fun x y => le t y x) (hc.le t)
    (fun x y hx hy => hc.total t y x hy hx) (fun x y z hx hy hz h h' => hc.trans t z y x hz hy hx h' h) args fs 0 ha h2 hn

/-- C53: a single argument is returned by `max` and `min`. -/
theorem extreme_single (s : Nat → Sched V) (x : Obj V Num) : max lib cfg s [x] = .ok x ∧ min lib cfg s [x] = .ok x :=
  ⟨rfl, rfl⟩

end Lue.Pcraster

import Verif.Pcraster.Spec
import Verif.PyOps.Properties
import Verif.Numpy.Properties
import Verif.CellIndex.Properties
import Verif.UniqueId.Properties

/-!
# PCRaster-compatible operations: LUE's operations, and kinds of arguments
-/
namespace Lue.Pcraster

open Lue.LocalOp Lue.PyOps

variable {V Num : Type} {lib : Lib V Num} {g : Grid} {cfg : Configuration Num}

theorem ok_bind {α β : Type} (x : α) (f : α → Except PyErr β) : ((.ok x : Except PyErr α) >>= f) = f x := rfl

theorem value_mark (hl : lib.Ok) (t : Ty) : lib.value t (lib.mark t) = none := by
  unfold Lib.value; rw [if_pos (hl.mark t)]

theorem value_one (hl : lib.Ok) : lib.value .uint8 lib.one = some lib.one := by
  unfold Lib.value; rw [hl.one.1]; rfl

theorem value_zero (hl : lib.Ok) : lib.value .uint8 lib.zero = some lib.zero := by
  unfold Lib.value; rw [hl.zero.1]; rfl

theorem value_some {t : Ty} {x y : V} (h : lib.value t x = some y) : y = x ∧ lib.noData t x = false := by
  unfold Lib.value at h
  split at h
  · cases h
  · rename_i hn
    exact ⟨(Option.some.inj h).symm, by simpa using hn⟩

theorem value_none {t : Ty} {x : V} : lib.value t x = none ↔ lib.noData t x = true := by
  unfold Lib.value
  split <;> simp_all

theorem Field.same {t : Ty} {k : Rank} {x : Obj V Num} {f f' : Nat → Nat → Option V} (h : Field lib g t k x f)
    (hs : Same g f f') : Field lib g t k x f' := by
  cases h with
  | array a u f hg hr hf => exact .array a u f' hg hr fun i j hi hj => (hf i j hi hj).trans (hs i j hi hj)
  | scalar v f hf => exact .scalar v f' fun i j hi hj => (hf i j hi hj).trans (hs i j hi hj)

/-- An array with given elements. -/
theorem Field.of {t : Ty} {a : PArr V} {u : Nat → Nat → V} (hg : a.grid = g) (hr : Represents a u) :
    Field lib g t .array (.array t a) fun i j => lib.value t (u i j) :=
  .array a u _ hg hr fun _ _ _ _ => rfl

theorem Field.dtype {t : Ty} {k : Rank} {x : Obj V Num} {f : Nat → Nat → Option V} (h : Field lib g t k x f) :
    dtype x = some t := by cases h <;> rfl

theorem Field.notValue {t : Ty} {k : Rank} {x : Obj V Num} {f : Nat → Nat → Option V} (h : Field lib g t k x f) :
    isValue x = false := by cases h <;> rfl

theorem Field.isSpatial {t : Ty} {k : Rank} {x : Obj V Num} {f : Nat → Nat → Option V} (h : Field lib g t k x f)
    (ht : t ∈ pcrasterTypes) : isSpatial x = decide (k = .array) := by
  cases h <;> simp [Pcraster.isSpatial, ht]

theorem Field.isNonSpatial {t : Ty} {k : Rank} {x : Obj V Num} {f : Nat → Nat → Option V} (h : Field lib g t k x f)
    (ht : t ∈ pcrasterTypes) : isNonSpatial x = decide (k = .scalar) := by
  cases h <;> simp [Pcraster.isNonSpatial, ht]

/-- What an array or scalar stands for (C48). -/
theorem Field.denotes {t : Ty} {k : Rank} {x : Obj V Num} {f : Nat → Nat → Option V} (h : Field lib g t k x f) :
    ∃ u, Denotes g x (.field k t u) ∧ Same g (fun i j => lib.value t (u i j)) f := by
  cases h with
  | array a u f hg hr hf => exact ⟨u, .array t a u hg hr, hf⟩
  | scalar v f hf => exact ⟨fun _ _ => v, .scalar t v, hf⟩

theorem Field.ofDenotes {t : Ty} {k : Rank} {x : Obj V Num} {u : Nat → Nat → V} (h : Denotes g x (.field k t u)) :
    Field lib g t k x fun i j => lib.value t (u i j) := by
  cases h with
  | array t a u hg hr => exact .of hg hr
  | scalar t v => exact .scalar v _ fun _ _ _ _ => rfl

/-- The argument passed to a function. -/
theorem Field.arg {t : Ty} {k : Rank} {x : Obj V Num} {f : Nat → Nat → Option V} (h : Field lib g t k x f) :
    ∃ a u, matchArg lib.toLib t x.kind x = some a ∧ ArgMeans g a k u ∧ Same g (fun i j => lib.value t (u i j)) f := by
  cases h with
  | array a u f hg hr hf => exact ⟨.array a, u, by simp [Obj.kind, matchArg], .array a u hg hr, hf⟩
  | scalar v f hf => exact ⟨.value v, fun _ _ => v, by simp [Obj.kind, matchArg], .value v, hf⟩

theorem Field.noMatch {t t' : Ty} {k : Rank} {x : Obj V Num} {f : Nat → Nat → Option V} (h : Field lib g t k x f)
    (hn : t' ≠ t) (κ : Kind) : matchArg lib.toLib t' κ x = none := by
  cases h <;> cases κ <;> simp [matchArg, hn.symm]

/-! ### Selecting overloads -/

theorem findSome_unique {α β : Type} {F : α → Option β} {a : α} {r : β} (hr : F a = some r) :
    ∀ {l : List α}, a ∈ l → (∀ b, b ≠ a → F b = none) → l.findSome? F = some r
  | [], h, _ => by cases h
  | b :: l, h, hn => by
    rw [List.findSome?_cons]
    by_cases hb : b = a
    · rw [hb, hr]
    · rw [hn b hb]
      exact findSome_unique hr ((List.mem_cons.1 h).resolve_left (Ne.symm hb)) hn

theorem matchTwo_none {t : Ty} {x y : Obj V Num} {κ : Kind × Kind} (h : κ.1 ≠ x.kind ∨ κ.2 ≠ y.kind) :
    matchTwo lib t x y κ = none := by
  unfold matchTwo
  rcases h with h | h
  · rw [matchArg_kind lib.toLib t κ.1 x h]
  · rw [matchArg_kind lib.toLib t κ.2 y h]
    cases matchArg lib.toLib t κ.1 x <;> rfl

/-- The overload of `where` for two arguments. -/
theorem where3Kinds_find {t : Ty} {x y : Obj V Num} {a b : Arg V} (hx : matchArg lib.toLib t x.kind x = some a)
    (hy : matchArg lib.toLib t y.kind y = some b) (hk : (x.kind, y.kind) ∈ where3Kinds) :
    where3Kinds.findSome? (matchTwo lib t x y) = some (a, b) := by
  refine findSome_unique (a := (x.kind, y.kind)) ?_ hk ?_
  · unfold matchTwo
    simp only [hx, hy]
  · intro κ hκ
    apply matchTwo_none
    by_contra hc
    push Not at hc
    exact hκ (Prod.ext hc.1 hc.2)

theorem where3Kinds_none {t : Ty} {x y : Obj V Num} (h : (∀ κ, matchArg lib.toLib t κ x = none) ∨
    ∀ κ, matchArg lib.toLib t κ y = none) : where3Kinds.findSome? (matchTwo lib t x y) = none := by
  rw [List.findSome?_eq_none_iff]
  intro κ _
  unfold matchTwo
  rcases h with h | h
  · rw [h]
  · rw [h]
    cases matchArg lib.toLib t κ.1 x <;> rfl

theorem pick3_ok {t : Ty} (ht : t ∈ lib.types) {x y : Obj V Num} {a b : Arg V}
    (hx : matchArg lib.toLib t x.kind x = some a) (hy : matchArg lib.toLib t y.kind y = some b)
    (hk : (x.kind, y.kind) ∈ where3Kinds)
    (hn : ∀ t', t' ≠ t → (∀ κ, matchArg lib.toLib t' κ x = none) ∨ ∀ κ, matchArg lib.toLib t' κ y = none) :
    pick3 lib x y = some (t, a, b) := by
  unfold pick3
  refine findSome_unique (a := t) ?_ ht ?_
  · rw [where3Kinds_find hx hy hk]; rfl
  · intro t' h'
    rw [where3Kinds_none (hn t' h')]; rfl

/-- `where` with two expressions, given the overload. -/
theorem callWhere3_ok (hl : lib.Ok) {t : Ty} {order : List Nat} (ho : IsOrder (g.n0 * g.n1) order) (garbage : Nat → V)
    {c : PArr V} {vc : Nat → Nat → V} (hcg : c.grid = g) (hc : Represents c vc) {a b : Arg V} {k k' : Rank}
    {u u' : Nat → Nat → V} (ha : ArgMeans g a k u) (hb : ArgMeans g b k' u') :
    ∃ r, callWhere3 lib t order garbage c a b = .ok r ∧
      Field lib g t .array (.array t r) fun i j =>
        ifThenElse lib.isTrue (lib.value .uint8 (vc i j)) (lib.value t (u i j)) (lib.value t (u' i j)) := by
  have hdp : ∀ c t' e, (wherePolicies lib t).dp c t' e = true := fun _ _ _ => rfl
  have hval : ∀ p q q', lib.value t ((whereSpec (wherePolicies lib t).indp1 (wherePolicies lib t).indp2
      (wherePolicies lib t).indp3 lib.isTrue p q q').getD (wherePolicies lib t).mark) =
      ifThenElse lib.isTrue (lib.value .uint8 p) (lib.value t q) (lib.value t q') := by
    intro p q q'
    unfold whereSpec LocalOp.valid wherePolicies ifThenElse Lib.value
    by_cases h1 : lib.noData .uint8 p
    · simp [h1, hl.mark t]
    · by_cases h2 : lib.isTrue p
      · by_cases h3 : lib.noData t q <;> simp [h1, h2, h3, hl.mark t]
      · by_cases h3 : lib.noData t q' <;> simp [h1, h2, h3, hl.mark t]
  have fin : ∀ {m : M (PArr V)} {f : Nat → Nat → V},
      (∃ r, m = .ok r ∧ r.grid = c.grid ∧ Represents r f) → ∃ r, m = .ok r ∧
        Field lib g t .array (.array t r) fun i j => lib.value t (f i j) := by
    rintro m f ⟨r, h1, h2, h3⟩
    exact ⟨r, h1, Field.of (h2.trans hcg) h3⟩
  have ho' : IsOrder (c.grid.n0 * c.grid.n1) order := by rw [hcg]; exact ho
  cases ha with
  | value v =>
    cases hb with
    | value w =>
      have := fin (array1_spec (wherePartitionASS_elementWise (wherePolicies lib t) hdp rfl lib.isTrue garbage v w) hc ho')
      simp only [hval] at this; exact this
    | array y u' hg' hr' =>
      have := fin (array2_spec (wherePartitionASA_elementWise (wherePolicies lib t) hdp rfl lib.isTrue garbage v) hc hr'
        (hg'.trans hcg.symm) ho')
      simp only [hval] at this; exact this
  | array x u hg hr =>
    cases hb with
    | value w =>
      have := fin (array2_spec (wherePartitionAAS_elementWise (wherePolicies lib t) hdp lib.isTrue garbage w) hc hr
        (hg.trans hcg.symm) ho')
      simp only [hval] at this; exact this
    | array y u' hg' hr' =>
      have := fin (array3_spec (wherePartition_elementWise (wherePolicies lib t) hdp lib.isTrue garbage) hc hr hr'
        (hg.trans hcg.symm) (hg'.trans hcg.symm) ho')
      simp only [hval] at this; exact this

/-- `where` with two expressions, given the overload. -/
theorem where3_of_pick (hl : lib.Ok) {t : Ty} {order : List Nat} (ho : IsOrder (g.n0 * g.n1) order) (garbage : Nat → V)
    {c x y : Obj V Num} {fc f f' : Nat → Nat → Option V} (hc : Field lib g .uint8 .array c fc) {a b : Arg V}
    {k k' : Rank} {u u' : Nat → Nat → V} (hp : pick3 lib x y = some (t, a, b)) (ha : ArgMeans g a k u)
    (hb : ArgMeans g b k' u') (hf : Same g (fun i j => lib.value t (u i j)) f)
    (hf' : Same g (fun i j => lib.value t (u' i j)) f') :
    ∃ r, where3 lib order garbage c x y = .ok r ∧
      Field lib g t .array r fun i j => ifThenElse lib.isTrue (fc i j) (f i j) (f' i j) := by
  cases hc with
  | array ca vc fc hcg hcr hcf =>
    obtain ⟨r, h1, h2⟩ := callWhere3_ok hl (t := t) ho garbage hcg hcr ha hb
    refine ⟨.array t r, ?_, h2.same fun i j hi hj => ?_⟩
    · simp only [where3, hp, h1, raised]; rfl
    · have e1 := hcf i j hi hj
      have e2 := hf i j hi hj
      have e3 := hf' i j hi hj
      dsimp only at e1 e2 e3 ⊢
      rw [e1, e2, e3]

/-- `where`, for two arrays or scalars. -/
theorem where3_ok (hl : lib.Ok) {t : Ty} (ht : t ∈ lib.types) {order : List Nat} (ho : IsOrder (g.n0 * g.n1) order)
    (garbage : Nat → V) {c x y : Obj V Num} {k k' : Rank} {fc f f' : Nat → Nat → Option V}
    (hc : Field lib g .uint8 .array c fc) (hx : Field lib g t k x f) (hy : Field lib g t k' y f') :
    ∃ r, where3 lib order garbage c x y = .ok r ∧
      Field lib g t .array r fun i j => ifThenElse lib.isTrue (fc i j) (f i j) (f' i j) := by
  obtain ⟨a, u, h1, h2, h3⟩ := hx.arg
  obtain ⟨b, u', h4, h5, h6⟩ := hy.arg
  refine where3_of_pick hl ho garbage hc (pick3_ok ht h1 h4 ?_ fun t' hn => .inl (hx.noMatch hn)) h2 h5 h3 h6
  cases hx <;> cases hy <;> simp [Obj.kind, where3Kinds]

/-- `where`, for an array and a number. -/
theorem where3_number (hl : lib.Ok) {t : Ty} (ht : t ∈ lib.types) {order : List Nat} (ho : IsOrder (g.n0 * g.n1) order)
    (garbage : Nat → V) {c x : Obj V Num} {n : Num} {v : V} {fc f : Nat → Nat → Option V}
    (hc : Field lib g .uint8 .array c fc) (hx : Field lib g t .array x f) (hn : lib.convert t n = some v) :
    ∃ r, where3 lib order garbage c x (.number n) = .ok r ∧
      Field lib g t .array r fun i j => ifThenElse lib.isTrue (fc i j) (f i j) (lib.value t v) := by
  obtain ⟨a, u, h1, h2, h3⟩ := hx.arg
  have hm : matchArg lib.toLib t (Obj.number n : Obj V Num).kind (.number n) = some (.value v) := by
    simp [Obj.kind, matchArg, hn]
  refine where3_of_pick hl ho garbage hc (pick3_ok ht h1 hm ?_ fun t' hn => .inl (hx.noMatch hn)) h2 (.value v) h3
    (fun _ _ _ _ => rfl)
  cases hx; simp [Obj.kind, where3Kinds]

/-- `where` with a single expression. -/
theorem where2_ok (hl : lib.Ok) {t : Ty} (ht : t ∈ lib.types) {order : List Nat} (ho : IsOrder (g.n0 * g.n1) order)
    (garbage : Nat → V) {c x : Obj V Num} {k : Rank} {fc f : Nat → Nat → Option V}
    (hc : Field lib g .uint8 .array c fc) (hx : Field lib g t k x f) :
    ∃ r, where2 lib order garbage c x = .ok r ∧
      Field lib g t .array r fun i j => ifThenElse lib.isTrue (fc i j) (f i j) none := by
  have hval : ∀ p q, lib.value t ((binarySpec (wherePolicies2 lib t) whereFunctor p q).getD (wherePolicies2 lib t).mark) =
      ifThenElse lib.isTrue (lib.value .uint8 p) (lib.value t q) none := by
    intro p q
    show lib.value t ((binarySpec ⟨lib.noData .uint8, lib.noData t, fun c _ => lib.isTrue c, fun _ _ _ => true,
      lib.mark t⟩ whereFunctor p q).getD (lib.mark t)) = _
    rw [where2_spec]
    unfold ifThenElse Lib.value
    by_cases h1 : lib.noData .uint8 p <;> by_cases h2 : lib.isTrue p <;> by_cases h3 : lib.noData t q <;>
      simp [h1, h2, h3, hl.mark t]
  obtain ⟨a, u, h1, h2, h3⟩ := hx.arg
  have hp : pick2 lib x = some (t, a) := by
    unfold pick2
    refine findSome_unique (a := t) ?_ ht ?_
    · rw [findSome_unique (a := x.kind) h1 (by cases x <;> simp [Obj.kind, where2Kinds]) fun κ hκ => matchArg_kind lib.toLib t κ x hκ]
      rfl
    · intro t' hn
      rw [List.findSome?_eq_none_iff.2 fun κ _ => hx.noMatch hn κ]
      rfl
  cases hc with
  | array ca vc fc hcg hcr hcf =>
    have ho' : IsOrder (ca.grid.n0 * ca.grid.n1) order := by rw [hcg]; exact ho
    have key : ∃ r, callWhere2 lib t order garbage ca a = .ok r ∧ r.grid = ca.grid ∧ Represents r fun i j =>
        (binarySpec (wherePolicies2 lib t) whereFunctor (vc i j) (u i j)).getD (wherePolicies2 lib t).mark := by
      cases h2 with
      | value v => exact binaryAS_spec (wherePolicies2 lib t) whereFunctor garbage hcr v ho'
      | array y u hg hr =>
        exact binary_spec (wherePolicies2 lib t) whereFunctor garbage hcr hr (hg.trans hcg.symm) ho'
    obtain ⟨r, e1, e2, e3⟩ := key
    refine ⟨.array t r, ?_, (Field.of (e2.trans hcg) e3).same fun i j hi hj => ?_⟩
    · simp only [where2, hp, e1, raised]; rfl
    · have e1 := hcf i j hi hj
      have e2 := h3 i j hi hj
      dsimp only at e1 e2 ⊢
      rw [hval, e1, e2]

/-- `where` is not available for arrays and scalars of different element types. -/
theorem where3_refused {t t' : Ty} (hn : t ≠ t') (order : List Nat) (garbage : Nat → V) {c x y : Obj V Num}
    {k k' : Rank} {f f' : Nat → Nat → Option V} (hx : Field lib g t k x f) (hy : Field lib g t' k' y f') :
    where3 lib order garbage c x y = .error .typeError := by
  have hp : pick3 lib x y = none := by
    unfold pick3
    rw [List.findSome?_eq_none_iff]
    intro s _
    rw [where3Kinds_none]
    · rfl
    · by_cases h : s = t
      · exact .inr (hy.noMatch (by rw [h]; exact hn))
      · exact .inl (hx.noMatch h)
  unfold where3
  rw [hp]
  split <;> rfl

/-! ### Other operations -/

theorem valid_ok (hl : lib.Ok) {t : Ty} {order : List Nat} (ho : IsOrder (g.n0 * g.n1) order) (garbage : Nat → V)
    {x : Obj V Num} {k : Rank} {f : Nat → Nat → Option V} (hx : Field lib g t k x f) :
    ∃ r, valid lib order garbage x = .ok r ∧
      Field lib g .uint8 k r fun i j => some (if (f i j).isSome then lib.one else lib.zero) := by
  have hval : ∀ p, lib.value .uint8 ((unarySpec ⟨lib.noData t, fun _ => true, fun _ _ => true, lib.zero⟩
      (fun _ => lib.one) p).getD lib.zero) = some (if (lib.value t p).isSome then lib.one else lib.zero) := by
    intro p
    unfold unarySpec LocalOp.valid
    by_cases h : lib.noData t p
    · simp [h, value_none.2 h, value_zero hl]
    · have : lib.value t p = some p := by unfold Lib.value; rw [if_neg h]
      simp [h, this, value_one hl, guard]
  cases hx with
  | array a u f hg hr hf =>
    obtain ⟨r, h1, h2, h3⟩ := unary_spec (⟨lib.noData t, fun _ => true, fun _ _ => true, lib.zero⟩ : Policies1 V V)
      (fun _ => lib.one) garbage hr (by rw [hg]; exact ho)
    refine ⟨.array .uint8 r, ?_, (Field.of (h2.trans hg) h3).same fun i j hi hj => ?_⟩
    · simp only [valid, h1, raised]; rfl
    · dsimp only
      rw [hval, ← hf i j hi hj]
  | scalar v f hf =>
    refine ⟨_, rfl, .scalar _ _ fun i j hi hj => ?_⟩
    dsimp only
    rw [scalar_spec, hval, ← hf i j hi hj]

theorem castElement (hl : lib.Ok) (t t' : Ty) (p : V) :
    lib.value t' ((unarySpec (castPolicies lib t t') (lib.cast t t') p).getD (castPolicies lib t t').mark) =
      castValue lib t t' (lib.value t p) := by
  unfold unarySpec LocalOp.valid castPolicies castValue
  by_cases h : lib.noData t p
  · simp [h, value_none.2 h, value_mark hl]
  · have : lib.value t p = some p := by unfold Lib.value; rw [if_neg h]
    by_cases hr : lib.castInRange t t' p
    · simp [h, this, hr, guard]
    · simp [h, this, hr, guard, failure, value_mark hl]

theorem cast_ok (hl : lib.Ok) {t : Ty} (t' : Ty) {order : List Nat} (ho : IsOrder (g.n0 * g.n1) order)
    (garbage : Nat → V) {x : Obj V Num} {k : Rank} {f : Nat → Nat → Option V} (hx : Field lib g t k x f) :
    ∃ r, cast lib order garbage t' x = .ok r ∧ Field lib g t' k r fun i j => castValue lib t t' (f i j) := by
  cases hx with
  | array a u f hg hr hf =>
    obtain ⟨r, h1, h2, h3⟩ := unary_spec (castPolicies lib t t') (lib.cast t t') garbage hr (by rw [hg]; exact ho)
    refine ⟨.array t' r, ?_, (Field.of (h2.trans hg) h3).same fun i j hi hj => ?_⟩
    · simp only [cast, h1, raised]; rfl
    · dsimp only
      rw [castElement hl, ← hf i j hi hj]
  | scalar v f hf =>
    refine ⟨_, rfl, .scalar _ _ fun i j hi hj => ?_⟩
    dsimp only
    rw [scalar_spec, castElement hl, ← hf i j hi hj]

/-- Arrays created are filled with the value of the scalar. -/
theorem createArray_ok (hg : cfg.Creates g) {t : Ty} {x : Obj V Num} {f : Nat → Nat → Option V}
    (hx : Field lib g t .scalar x f) :
    ∃ r, createArray cfg (cfg.rows, cfg.cols) x = .ok r ∧ Field lib g t .array r f := by
  cases hx with
  | scalar v f hf =>
    let part : Nat → Create.Part V := fun k =>
      ⟨Create.offsetOf g k, Create.shapeOf g k, List.replicate ((Create.shapeOf g k).1 * (Create.shapeOf g k).2) v⟩
    obtain ⟨loc, along, -, -, hce⟩ := Create.createEach_ok hg.ok hg.localities.1 hg.localities.2
      (instantiate := fun _ _ _ _ _ offset pshape =>
        (.ok ⟨offset, pshape, List.replicate (pshape.1 * pshape.2) v⟩ : M (Create.Part V)))
      (f := fun _ _ k => part k) (fun _ _ _ _ _ _ => rfl)
    have hh := Create.holds_of_parts hg.ok (v := fun _ _ => v) (part := part)
      (locs := (List.range (g.n0 * g.n1)).map loc) (fun k hk => ⟨rfl, rfl⟩) (by
        intro k0 k1 hk0 hk1
        simp only [part, Create.shapeOf, idx_div hk1, idx_mod hk1, List.length_replicate]
        refine ⟨trivial, fun l0 l1 hl0 hl1 => ?_⟩
        rw [List.getElem?_replicate, if_pos (idx_lt hl0 hl1)])
    have hrep := hh.represents
    refine ⟨_, ?_, .array _ _ f rfl hrep hf⟩
    unfold createArray
    rw [hg.shape]
    simp only [hg.partition, raised, M.bind_ok]
    change (raised (Create.createEach (g.a0, g.a1) (g.p0, g.p1) cfg.nrLocalities _) >>= _) = _
    rw [hce]
    rfl

theorem Stands.notNumber {t : Ty} {x : Obj V Num} {f : Nat → Nat → Option V} (h : Stands lib g t x f)
    (hn : isValue x = false) : ∃ k, Field lib g t k x f := by
  cases h with
  | field h => exact ⟨_, h⟩
  | number n v f hc hf => cases hn

/-- A number is converted to a scalar. -/
theorem valueToScalar_ok {t : Ty} {x : Obj V Num} {f : Nat → Nat → Option V} (h : Stands lib g t x f)
    (hn : isValue x = true) : ∃ r, valueToScalar lib t x = .ok r ∧ Field lib g t .scalar r f := by
  cases h with
  | field h => rw [h.notValue] at hn; cases hn
  | number n v f hc hf =>
    exact ⟨.scalar t v, by simp only [valueToScalar, createScalar, hc], .scalar v f hf⟩

/-- A number is converted to a scalar of its own type. -/
theorem fixValue_ok {t : Ty} {x : Obj V Num} {f : Nat → Nat → Option V} (h : Stands lib g t x f) (ho : OwnType lib t x) :
    ∃ k r, fixValue lib x = .ok r ∧ Field lib g t k r f ∧ (isValue x = true → k = .scalar) ∧
      (isValue x = false → r = x) := by
  cases hn : isValue x with
  | false =>
    obtain ⟨k, hk⟩ := h.notNumber hn
    exact ⟨k, x, by simp [fixValue, hn], hk, by simp, by simp⟩
  | true =>
    obtain ⟨r, h1, h2⟩ := valueToScalar_ok h hn
    refine ⟨.scalar, r, ?_, h2, by simp, by simp⟩
    have ht : numpyScalarType lib x = .ok t := by
      cases x with
      | number n => simp only [OwnType] at ho; simp only [numpyScalarType, ho]
      | array t' a => cases hn
      | scalar t' v => cases hn
    unfold fixValue
    rw [if_pos hn, ht]
    exact h1

/-- Scalars and numbers are converted to arrays. -/
theorem nonSpatialToSpatial_ok (hg : cfg.Creates g) {t : Ty} {x : Obj V Num} {f : Nat → Nat → Option V}
    (h : Stands lib g t x f) (ho : OwnType lib t x) (hn : ∀ k, Field lib g t k x f → k = .scalar) :
    ∃ r, nonSpatialToSpatial lib cfg x = .ok r ∧ Field lib g t .array r f := by
  obtain ⟨k, r, h1, h2, h3, h4⟩ := fixValue_ok h ho
  have hk : k = .scalar := by
    cases hv : isValue x with
    | true => exact h3 hv
    | false =>
      rw [h4 hv] at h2
      exact hn k h2
  subst hk
  obtain ⟨r', h5, h6⟩ := createArray_ok hg h2
  refine ⟨r', ?_, h6⟩
  unfold nonSpatialToSpatial
  rw [h1]
  exact h5

theorem scalar_of_scalar {t : Ty} {x : Obj V Num} {f : Nat → Nat → Option V} (h : Field lib g t .scalar x f) :
    ∀ k, Field lib g t k x f → k = .scalar := by
  intro k hk
  cases h; cases hk; rfl

theorem field_isOwn {t : Ty} {k : Rank} {x : Obj V Num} {f : Nat → Nat → Option V} (h : Field lib g t k x f) :
    OwnType lib t x := by cases h <;> trivial

theorem numpyScalarType_ok {t : Ty} {k : Rank} {x : Obj V Num} {f : Nat → Nat → Option V} (h : Field lib g t k x f)
    (ht : t ∈ pcrasterTypes) : numpyScalarType lib x = .ok t := by
  cases h <;> simp [numpyScalarType, ht]

/-- `harmonize_types` -/
theorem harmonizeTypes_ok {t : Ty} (ht : t ∈ pcrasterTypes) {x y : Obj V Num} {f f' : Nat → Nat → Option V}
    (hx : Stands lib g t x f) (hy : Stands lib g t y f')
    (hn : isValue x = true → isValue y = true → OwnType lib t x) :
    ∃ k k' x' y', harmonizeTypes lib x y = .ok (x', y') ∧ Field lib g t k x' f ∧ Field lib g t k' y' f' ∧
      (isValue x = false → x' = x) ∧ (isValue y = false → y' = y) ∧ (isValue x = true → k = .scalar) ∧
      (isValue y = true → k' = .scalar) := by
  -- After the first statement, at most one of the two is a value
  have h1 : ∃ x1, fixIf lib (isValue x && isValue y) x = .ok x1 ∧ Stands lib g t x1 f ∧
      (isValue x1 = true → isValue y = false) ∧ (isValue x = false → x1 = x) ∧
      (isValue x = true → ∀ k, Field lib g t k x1 f → k = .scalar) := by
    cases hvx : isValue x with
    | false =>
      exact ⟨x, by simp [fixIf], hx, by rw [hvx]; simp, by simp, by simp⟩
    | true =>
      cases hvy : isValue y with
      | false =>
        refine ⟨x, by simp [fixIf], hx, by simp, by simp, fun _ k hk => ?_⟩
        rw [hk.notValue] at hvx; cases hvx
      | true =>
        obtain ⟨k, r, e1, e2, e3, e4⟩ := fixValue_ok hx (hn hvx hvy)
        refine ⟨r, by simpa [fixIf] using e1, .field e2, by rw [e2.notValue]; simp, by simp, fun _ k' hk' => ?_⟩
        have := e3 hvx
        subst this
        exact scalar_of_scalar e2 k' hk'
  obtain ⟨x1, e1, e2, e3, e4, e5⟩ := h1
  unfold harmonizeTypes
  rw [e1]
  simp only [bind, Except.bind]
  cases hvy : isValue y with
  | true =>
    have hvx1 : isValue x1 = false := by
      by_contra hc
      have := e3 (by simpa using hc)
      rw [hvy] at this; cases this
    obtain ⟨k, hk⟩ := e2.notNumber hvx1
    obtain ⟨y', g1, g2⟩ := valueToScalar_ok hy hvy
    have hor : (isSpatial x1 || isNonSpatial x1) = true := by
      rw [hk.isSpatial ht, hk.isNonSpatial ht]; cases k <;> rfl
    have hy1 : toScalarIf lib ((isSpatial x1 || isNonSpatial x1) && true) y x1 = .ok y' := by
      unfold toScalarIf
      rw [hor, numpyScalarType_ok hk ht]
      exact g1
    refine ⟨k, .scalar, x1, y', ?_, hk, g2, e4, by simp, fun h => e5 h k hk, fun _ => rfl⟩
    rw [hy1]
    simp only [hvx1, Bool.and_false, toScalarIf]
    simp [hvx1, g2.notValue, hk.dtype, g2.dtype]
  | false =>
    obtain ⟨k', hk'⟩ := hy.notNumber hvy
    simp only [Bool.and_false]
    cases hvx1 : isValue x1 with
    | false =>
      obtain ⟨k, hk⟩ := e2.notNumber hvx1
      refine ⟨k, k', x1, y, ?_, hk, hk', e4, fun _ => rfl, fun h => e5 h k hk, by simp⟩
      simp [toScalarIf, hvx1, hvy, hk.dtype, hk'.dtype]
    | true =>
      obtain ⟨x', g1, g2⟩ := valueToScalar_ok e2 hvx1
      have hor : (isSpatial y || isNonSpatial y) = true := by
        rw [hk'.isSpatial ht, hk'.isNonSpatial ht]; cases k' <;> rfl
      have hx1 : toScalarIf lib ((isSpatial y || isNonSpatial y) && true) x1 y = .ok x' := by
        unfold toScalarIf
        rw [hor, numpyScalarType_ok hk' ht]
        exact g1
      refine ⟨.scalar, k', x', y, ?_, g2, hk', fun h => ?_, fun _ => rfl, fun _ => rfl, by simp⟩
      · rw [show ∀ z : Obj V Num, toScalarIf lib false y z = .ok y from fun _ => rfl]
        simp only []
        rw [hx1]
        simp [hvy, g2.notValue, g2.dtype, hk'.dtype]
      · have := e4 h
        subst this
        rw [hvx1] at h; cases h

end Lue.Pcraster

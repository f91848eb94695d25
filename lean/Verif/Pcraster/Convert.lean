import Verif.Pcraster.Properties
import Verif.Accu.Operations

/-!
# C53: conversions, identifiers and coordinates
-/
namespace Lue.Pcraster

open Lue.LocalOp Lue.PyOps

variable {V Num : Type} {lib : Lib V Num} {g : Grid} {cfg : Configuration Num}

/-! ### `boolean` -/

/-- The type selected for two numbers is a type both can be converted to. -/
theorem pick3_numbers {n m : Num} {t : Ty} (ht : t ∈ lib.types) (hn : (lib.convert t n).isSome)
    (hm : (lib.convert t m).isSome) :
    ∃ t' v w, pick3 lib (.number n : Obj V Num) (.number m) = some (t', .value v, .value w) ∧
      lib.convert t' n = some v ∧ lib.convert t' m = some w := by
  have hone : ∀ t', where3Kinds.findSome? (matchTwo lib t' (.number n : Obj V Num) (.number m)) =
      (lib.convert t' n).bind fun v => (lib.convert t' m).map fun w => (.value v, .value w) := by
    intro t'
    cases h1 : lib.convert t' n with
    | none => rw [where3Kinds_none (.inl fun κ => by cases κ <;> simp [matchArg, h1])]; rfl
    | some v =>
      cases h2 : lib.convert t' m with
      | none => rw [where3Kinds_none (.inr fun κ => by cases κ <;> simp [matchArg, h2])]; rfl
      | some w =>
        rw [where3Kinds_find (a := .value v) (b := .value w) (by simp [Obj.kind, matchArg, h1])
          (by simp [Obj.kind, matchArg, h2]) (by simp [Obj.kind, where3Kinds])]
        rfl
  unfold pick3
  simp only [hone]
  cases hp : lib.types.findSome? fun t => ((lib.convert t n).bind fun v =>
      (lib.convert t m).map fun w => ((.value v, .value w) : Arg V × Arg V)).map fun a => (t, a) with
  | none =>
    rw [List.findSome?_eq_none_iff] at hp
    obtain ⟨v, hv⟩ := Option.isSome_iff_exists.1 hn
    obtain ⟨w, hw⟩ := Option.isSome_iff_exists.1 hm
    have := hp t ht
    simp [hv, hw] at this
  | some r =>
    obtain ⟨t', -, h⟩ := List.exists_of_findSome?_eq_some hp
    cases h1 : lib.convert t' n with
    | none => simp [h1] at h
    | some v =>
      cases h2 : lib.convert t' m with
      | none => simp [h1, h2] at h
      | some w =>
        simp only [h1, h2, Option.bind_some, Option.map_some, Option.some.injEq] at h
        exact ⟨t', v, w, by rw [← h], h1, h2⟩

/-- C53: `boolean`. The result is true for values other than 0 and false for 0, missing where the argument is missing.
Booleans are returned as they are. -/
theorem boolean_correct [DecidableEq V] (hl : lib.Ok) (hm : lib.toLib.Mirrored) {t : Ty} (ht' : t ∈ pcrasterTypes)
    {z : V} (hb : lib.Booleans t z) {s : Sched V} (hs : ∀ n, IsOrder (g.n0 * g.n1) (s.order n)) {x : Obj V Num}
    {k : Rank} {f : Nat → Nat → Option V} (hx : Field lib g t k x f) :
    ∃ r, boolean lib s x = .ok r ∧ Field lib g .uint8 k r fun i j =>
      if t = .uint8 then f i j else (f i j).map fun v => if v = z then lib.zero else lib.one := by
  unfold boolean
  rw [hx.dtype]
  by_cases ht : t = .uint8
  · subst ht
    exact ⟨x, by simp, hx.same fun i j _ _ => by simp⟩
  · rw [if_neg (by simp [ht])]
    simp only [ht, if_false]
    obtain ⟨u, hu, hfu⟩ := hx.denotes
    obtain ⟨c, h1, h2⟩ := binary_correct hm s hs .ne hu (.number lib.number0) (d := .field k .uint8 fun i j =>
      lib.meaning t .ne (u i j) z) (by simp [denote2, hb.zero, BinOp.general, BinOp.result]) (by simp)
    have h3 : Field lib g .uint8 k c fun i j => (f i j).map fun v => if v = z then lib.zero else lib.one :=
      (Field.ofDenotes (lib := lib) h2).same fun i j hi hj => by
        dsimp only
        rw [show lib.meaning t .ne (u i j) z = lib.element2 .notEqualTo t (u i j) z from rfl, hb.ne,
          ← hfu i j hi hj]
    rw [hx.isSpatial ht', hx.isNonSpatial ht']
    cases k with
    | scalar => exact ⟨c, h1, h3⟩
    | array =>
      obtain ⟨t0, v, w, h4, h5, h6⟩ := pick3_numbers hb.mem hb.uint8.1 hb.uint8.2
      obtain ⟨r, h7, h8⟩ := where3_of_pick hl (hs 1) (s.garbage 1) h3 h4 (.value v) (.value w)
        (fun _ _ _ _ => rfl) (fun _ _ _ _ => rfl)
      obtain ⟨r', h9, h10⟩ := cast_ok hl .uint8 (hs 2) (s.garbage 2) h8
      refine ⟨r', ?_, h10.same fun i j hi hj => ?_⟩
      · simp only [decide_true, if_true]
        rw [h1, ok_bind, h7, ok_bind, h9]
      · dsimp only
        cases f i j with
        | none => rfl
        | some a =>
          by_cases ha : a = z
          · simp [ifThenElse, ha, hl.zero.2, hb.cast0 t0 w h6]
          · simp [ifThenElse, ha, hl.one.2, hb.cast1 t0 v h5]

/-- C53: `boolean`, for a number. -/
theorem boolean_number {s : Sched V} {n : Num} {b : Bool} {m : Num} {v : V}
    (hn : lib.numeric2 .ne n lib.number0 = .ok m) (hm : lib.convert .uint8 m = some v)
    (hv : v = if b then lib.one else lib.zero) :
    boolean lib s (.number n) = .ok (.scalar .uint8 (if b then lib.one else lib.zero)) := by
  unfold boolean
  simp [dtype, isSpatial, isNonSpatial, isValue, binary, hn, valueToScalar, createScalar, hm, hv, Bind.bind, Except.bind]

/-! ### Other conversions -/

theorem convertTo_ok (hl : lib.Ok) {t t' : Ty} (ht : t ∈ pcrasterTypes) {s : Sched V}
    (hs : ∀ n, IsOrder (g.n0 * g.n1) (s.order n)) {already : Obj V Num → Bool}
    (ha : ∀ x, already x = true → dtype x = some t') (hid : ∀ x, castValue lib t' t' (lib.value t' x) = lib.value t' x)
    {x : Obj V Num} {k : Rank} {f : Nat → Nat → Option V} (hx : Field lib g t k x f) :
    ∃ r, convertTo lib s t' already x = .ok r ∧ Field lib g t' k r fun i j => convertValue lib t t' (f i j) := by
  unfold convertTo
  cases hal : already x with
  | true =>
    have := ha x hal
    rw [hx.dtype] at this
    cases this
    exact ⟨x, by simp, hx.same fun i j _ _ => by simp [convertValue]⟩
  | false =>
    have hor : (isSpatial x || isNonSpatial x) = true := by
      rw [hx.isSpatial ht, hx.isNonSpatial ht]; cases k <;> rfl
    obtain ⟨r, h1, h2⟩ := cast_ok hl t' (hs 0) (s.garbage 0) hx
    refine ⟨r, by simp [hor, h1], h2.same fun i j hi hj => ?_⟩
    unfold convertValue
    split
    · rename_i he
      subst he
      cases hx with
      | array a u f _ _ hf => exact (by rw [← hf i j hi hj] : castValue lib t t (f i j) = castValue lib t t (lib.value t _)).trans ((hid _).trans (hf i j hi hj))
      | scalar v f hf => exact (by rw [← hf i j hi hj] : castValue lib t t (f i j) = castValue lib t t (lib.value t _)).trans ((hid _).trans (hf i j hi hj))
    · rfl

/-- The operations which convert to another value scale, and the type of the elements of the results. -/
def conversions (lib : Lib V Num) (s : Sched V) : List (Ty × (Obj V Num → Except PyErr (Obj V Num))) :=
  [(.float32, directional lib s), (.uint8, ldd lib s), (.int32, nominal lib s), (.int32, ordinal lib s),
    (.float32, scalar lib s)]

/-- C53: `directional`, `ldd`, `nominal`, `ordinal`, `scalar`. The result has the values of the argument, converted. It is
missing where the argument is missing, and where the value is out of range. -/
theorem conversions_correct (hl : lib.Ok) {t : Ty} (ht : t ∈ pcrasterTypes) {s : Sched V}
    (hs : ∀ n, IsOrder (g.n0 * g.n1) (s.order n))
    (hid : ∀ t' x, castValue lib t' t' (lib.value t' x) = lib.value t' x) {x : Obj V Num} {k : Rank}
    {f : Nat → Nat → Option V} (hx : Field lib g t k x f) {t' : Ty} {op : Obj V Num → Except PyErr (Obj V Num)}
    (hop : (t', op) ∈ conversions lib s) :
    ∃ r, op x = .ok r ∧ Field lib g t' k r fun i j => convertValue lib t t' (f i j) := by
  have h1 : ∀ t' (x : Obj V Num), isArrayOf t' x = true → dtype x = some t' := by
    intro t' x h
    cases x <;> simp_all [isArrayOf, dtype]
  have h2 : ∀ t' (x : Obj V Num), isOf t' x = true → dtype x = some t' := by
    intro t' x h
    simpa [isOf] using h
  simp only [conversions, List.mem_cons, Prod.mk.injEq, List.not_mem_nil, or_false] at hop
  rcases hop with ⟨rfl, rfl⟩ | ⟨rfl, rfl⟩ | ⟨rfl, rfl⟩ | ⟨rfl, rfl⟩ | ⟨rfl, rfl⟩
  · exact convertTo_ok hl ht hs (h1 _) (hid _) hx
  · exact convertTo_ok hl ht hs (h1 _) (hid _) hx
  · exact convertTo_ok hl ht hs (h2 _) (hid _) hx
  · exact convertTo_ok hl ht hs (h2 _) (hid _) hx
  · exact convertTo_ok hl ht hs (h2 _) (hid _) hx

/-- C53: the conversions of numbers result in scalars. -/
theorem conversions_number {s : Sched V} {n : Num} {v : V} {t' : Ty} {op : Obj V Num → Except PyErr (Obj V Num)}
    (hop : (t', op) ∈ conversions lib s) (hn : lib.convert t' n = some v) :
    op (.number n) = .ok (.scalar t' v) := by
  simp only [conversions, List.mem_cons, Prod.mk.injEq, List.not_mem_nil, or_false] at hop
  rcases hop with ⟨rfl, rfl⟩ | ⟨rfl, rfl⟩ | ⟨rfl, rfl⟩ | ⟨rfl, rfl⟩ | ⟨rfl, rfl⟩ <;>
    simp [directional, ldd, nominal, ordinal, scalar, convertTo, isArrayOf, isOf, dtype, isSpatial, isNonSpatial, isValue,
      valueToScalar, createScalar, hn]

/-! ### Identifiers -/

theorem integers_represents {r : PArr Nat} {u : Nat → Nat → Nat} (h : Represents r u) :
    Represents (integers lib r) fun i j => lib.integer (u i j) := Accu.Represents.map h lib.integer

/-- C53: `uniqueid`. Cells where the condition is true get identifiers which are positive, at most the number of cells, and
different from each other. Other cells get 0, and cells without a value are missing. -/
theorem uniqueid_correct (hl : lib.Ok) (hg : cfg.Creates g) (ht : .int32 ∈ lib.types) {s : Sched V}
    (hs : ∀ n, IsOrder (g.n0 * g.n1) (s.order n)) {picks : List Nat} (hp : UniqueId.IsPicks (g.n0 * g.n1) picks)
    (garbage : Nat → Nat) {z : V} (hz : lib.convert .int32 lib.number0 = some z) {c : Obj V Num}
    {fc : Nat → Nat → Option V} (hc : Stands lib g .uint8 c fc) :
    ∃ (r : Obj V Num) (ids : Nat → Nat → Nat), uniqueid lib cfg s picks garbage c = .ok r ∧
      Field lib g .int32 .array r (fun i j => ifThenElse lib.isTrue (fc i j)
        (lib.value .int32 (lib.integer (ids i j))) (lib.value .int32 z)) ∧
      (∀ i j, i < g.a0 → j < g.a1 → (∃ b, fc i j = some b ∧ lib.isTrue b = true) →
        0 < ids i j ∧ ids i j ≤ g.a0 * g.a1) ∧
      ∀ i j i' j', i < g.a0 → j < g.a1 → i' < g.a0 → j' < g.a1 → (∃ b, fc i j = some b ∧ lib.isTrue b = true) →
        (∃ b, fc i' j' = some b ∧ lib.isTrue b = true) → ids i j = ids i' j' → i = i' ∧ j = j' := by
  have key : ∃ c', uniqueidCondition lib cfg c = .ok c' ∧ Field lib g .uint8 .array c' fc := by
    obtain ⟨r, h1, h2⟩ := spatialCondition_ok hg hc
    refine ⟨r, ?_, h2⟩
    rw [← h1]
    unfold uniqueidCondition spatialCondition
    cases hc with
    | number n v _ _ _ => rfl
    | field h => cases h <;> simp [isSpatial, isNonSpatial, isValue, pcrasterTypes]
  obtain ⟨c', h1, h2⟩ := key
  have hc' := h2
  cases hc' with
  | array a u _ hag har haf =>
    obtain ⟨r, ids, h3, h4, h5, -, -, h6, h7⟩ := UniqueId.uniqueId_spec (lib.noData .uint8) lib.isTrue lib.integerMark
      garbage har (by rw [hag]; exact hp) (order := s.order 0) (by rw [hag]; exact hs 0)
    have h8 : Field lib g .int32 .array (.array .int32 (integers lib r)) _ :=
      Field.of (lib := lib) (h4.trans hag) (integers_represents h5)
    obtain ⟨r', h9, h10⟩ := where3_number hl ht (hs 1) (s.garbage 1) h2 h8 hz
    have htrue : ∀ i j, i < g.a0 → j < g.a1 → (∃ b, fc i j = some b ∧ lib.isTrue b = true) →
        lib.noData .uint8 (u i j) = false ∧ lib.isTrue (u i j) = true := by
      rintro i j hi hj ⟨b, hb, hb'⟩
      have := haf i j hi hj
      dsimp only at this
      rw [hb] at this
      obtain ⟨rfl, h⟩ := value_some this
      exact ⟨h, hb'⟩
    rw [hag] at h6 h7
    refine ⟨r', ids, ?_, h10, fun i j hi hj h => ?_, fun i j i' j' hi hj hi' hj' h h' => ?_⟩
    · unfold uniqueid
      rw [h1, ok_bind]
      simp only [uniqueId, h3, raised, ok_bind]
      exact h9
    · obtain ⟨e1, e2⟩ := htrue i j hi hj h
      exact h6 i j hi hj e1 e2
    · obtain ⟨e1, e2⟩ := htrue i j hi hj h
      obtain ⟨e3, e4⟩ := htrue i' j' hi' hj' h'
      exact h7 i j i' j' hi hj hi' hj' e1 e2 e3 e4

/-! ### Coordinates -/

theorem cellIndices_ok (hl : lib.Ok) (hg : cfg.Creates g) {t : Ty} (ht : t ∈ pcrasterTypes) {s : Sched V}
    (hs : ∀ n, IsOrder (g.n0 * g.n1) (s.order n)) (garbage : Nat → Nat) {d : Nat} (hd : d = 0 ∨ d = 1)
    (hf : CellIndex.Fits g d) {x : Obj V Num} {f : Nat → Nat → Option V} (hx : Stands lib g t x f)
    (ho : OwnType lib t x) :
    ∃ r, cellIndices lib cfg s garbage d x = .ok r ∧ Field lib g .float32 .array r fun i j =>
      castValue lib lib.indexType .float32 (lib.value lib.indexType (lib.integer
        (if (f i j).isSome then (if d = 0 then i else j) else lib.integerMark))) := by
  have key : ∃ x', spatialIf lib cfg (isNonSpatial x || isValue x) x = .ok x' ∧ Field lib g t .array x' f := by
    obtain ⟨r, h1, h2⟩ := spatial_correct hg ht hx ho
    refine ⟨r, ?_, h2⟩
    rw [← h1]
    unfold spatialIf spatial
    cases hx with
    | number n v _ _ _ => rfl
    | field h => cases h <;> simp [isSpatial, isNonSpatial, isValue, ht]
  obtain ⟨x', h1, h2⟩ := key
  obtain ⟨c, h3, h4⟩ := defined_correct hl hs h2
  have hc := h4
  cases hc with
  | array a u _ hag har haf =>
    obtain ⟨r, h5, h6, h7⟩ := CellIndex.cellIndex_spec (lib.noData .uint8) (fun x => !lib.isTrue x) lib.integerMark
      garbage har (order := s.order 1) (by rw [hag]; exact hs 1) hd (by rw [hag]; exact hf)
    have h8 : Field lib g lib.indexType .array (.array lib.indexType (integers lib r)) _ :=
      Field.of (lib := lib) (h6.trans hag) (integers_represents h7)
    obtain ⟨r', h9, h10⟩ := cast_ok hl .float32 (hs 2) (s.garbage 2) h8
    refine ⟨r', ?_, h10.same fun i j hi hj => ?_⟩
    · unfold cellIndices
      rw [h1, ok_bind, h3, ok_bind]
      simp only [cellIndex, h5, raised, ok_bind]
      exact h9
    · dsimp only
      have := haf i j hi hj
      dsimp only at this
      obtain ⟨e1, e2⟩ := value_some this
      rw [← e1] at e2 ⊢
      rw [e2]
      cases hfv : (f i j).isSome with
      | true => simp [hl.one.2]
      | false => simp [hl.zero.2]

end Lue.Pcraster

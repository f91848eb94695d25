import Verif.Aggregate.Lemmas

/-!
C08: aggregation over a partitioned array equals aggregation over all valid cells, and C09: unique.
-/
namespace Lue.Aggregate

variable {α ω τ : Type}

/-- Functor `F` aggregates values `φ x` with operator `op`, seen through `h`. -/
structure Lawful (F : Functor α ω) (h : ω → τ) (φ : α → τ) (op : τ → τ → τ) : Prop where
  assoc : ∀ a b c, op (op a b) c = op a (op b c)
  comm : ∀ a b, op a b = op b a
  one : ∀ x, h (F.one x) = φ x
  step : ∀ r x, h (F.step r x) = op (h r) (φ x)
  part1 : ∀ r, F.part1 r = r
  part2 : ∀ r s, h (F.part2 r s) = op (h r) (h s)

/-- Marking a value as no-data is recognised. -/
def Marks (P : Policies α ω) : Prop := ∀ r, P.isNoData (P.mark r) = true

/-- No aggregate of a partition is mistaken for no-data. -/
def NoCollision (P : Policies α ω) (F : Functor α ω) (x : PArr α) : Prop :=
  ∀ data ∈ x.parts, ∀ r, fold1 F.one F.step (validCells P data) = some r → P.isNoData r = false

theorem aggregateArray_eq (P : Policies α ω) (F : Functor α ω) {x : PArr α} {v : Arr α} (hx : Represents x v)
    {order : List Nat} (ho : IsOrder (x.grid.n0 * x.grid.n1) order) :
    aggregateArray P F order x = .ok (aggregateResults P F (x.parts.map (aggregatePartition P F))) := by
  unfold aggregateArray
  rw [runTasks_ok ho (r := fun k => aggregatePartition P F ((partIdxs x.grid k).map fun c => v c.1 c.2))]
  · rw [M.bind_ok]
    conv_rhs => rw [hx.parts_eq]
    rw [List.map_map]; rfl
  · intro k hk
    rw [rd_ok (hx.parts_get hk)]; rfl

/-- C08, for all functors: the result is marked as no-data if there are no valid cells, and otherwise it is the
aggregate over the valid cells of the whole array, for all partitionings and orders of completion. -/
theorem aggregateArray_spec (P : Policies α ω) (F : Functor α ω) {h : ω → τ} {φ : α → τ} {op : τ → τ → τ}
    (hF : Lawful F h φ op) (hP : Marks P) {x : PArr α} {v : Arr α} (hx : Represents x v)
    (hc : NoCollision P F x) {order : List Nat} (ho : IsOrder (x.grid.n0 * x.grid.n1) order) :
    ∃ r, aggregateArray P F order x = .ok r ∧
      (validCells P (cells x.grid v) = [] → r = P.mark F.none) ∧
      (validCells P (cells x.grid v) ≠ [] → total op ((validCells P (cells x.grid v)).map φ) = some (h r)) := by
  refine ⟨_, aggregateArray_eq P F hx ho, ?_⟩
  rw [aggregateResults_eq]
  have hp1 : F.part1 = id := funext hF.part1
  rw [hp1, List.map_id]
  -- The results of the partitions which are not no-data
  have hres : (x.parts.map (aggregatePartition P F)).filter (fun r => !P.isNoData r) =
      x.parts.filterMap fun data => fold1 F.one F.step (validCells P data) := by
    have hc' := hc
    unfold NoCollision at hc'
    generalize x.parts = ps at hc'
    induction ps with
    | nil => rfl
    | cons d ps ih =>
      rw [List.map_cons, List.filter_cons, List.filterMap_cons, ih (fun data hd => hc' data (by simp [hd])),
        aggregatePartition_eq]
      cases hd : fold1 F.one F.step (validCells P d) with
      | none => simp [hP F.none]
      | some r => simp [hc' d (by simp) r hd]
  rw [hres]
  -- The total
  have htot : (total F.part2 (x.parts.filterMap fun data => fold1 F.one F.step (validCells P data))).map h =
      total op ((validCells P (cells x.grid v)).map φ) := by
    have e1 : ∀ l : List ω, (total F.part2 l).map h = total op (l.map h) := by
      intro l
      have := fold1_map (id : ω → ω) F.part2 h h op (fun _ => rfl) hF.part2 l
      rw [← this]; cases l <;> rfl
    rw [e1, List.map_filterMap]
    have e2 : (fun data => Option.map h (fold1 F.one F.step (validCells P data))) =
        fun data => total op ((validCells P data).map φ) := by
      funext data; exact fold1_map _ _ h φ op hF.one hF.step _
    rw [e2]
    have e3 : x.parts.filterMap (fun data => total op ((validCells P data).map φ)) =
        (x.parts.map fun data => (validCells P data).map φ).filterMap (total op) := by
      rw [List.filterMap_map]; rfl
    rw [e3, ← total_flatten op hF.assoc]
    apply total_perm op hF.assoc hF.comm
    have e4 : (x.parts.map fun data => (validCells P data).map φ).flatten = (validCells P x.parts.flatten).map φ := by
      unfold validCells
      generalize x.parts = ps
      induction ps with
      | nil => rfl
      | cons d ps ih => simp [ih]
    rw [e4]
    exact (hx.flatten_perm.filter _).map _
  constructor
  · intro hnil
    rw [hnil] at htot
    have hn := Option.map_eq_none_iff.mp htot
    simp only [hn, Option.getD_none]
  · intro hne
    rw [← htot]
    cases ht : total F.part2 (x.parts.filterMap fun data => fold1 F.one F.step (validCells P data)) with
    | none =>
      rw [ht] at htot
      cases hv : validCells P (cells x.grid v) with
      | nil => exact absurd hv hne
      | cons a l => rw [hv] at htot; simp [total] at htot
    | some t => simp

/-! ### Sum -/

theorem total_add [AddCommMonoid α] (l : List α) (hl : l ≠ []) : total (· + ·) l = some l.sum := by
  cases l with
  | nil => exact absurd rfl hl
  | cons x l =>
    simp only [total, List.sum_cons, Option.some.injEq]
    clear hl
    induction l generalizing x with
    | nil => simp
    | cons y l ih => rw [List.foldl_cons, ih]; simp [add_assoc]

theorem sum_lawful [AddCommMonoid α] : Lawful (sum : Functor α α) id id (· + ·) :=
  ⟨add_assoc, add_comm, fun _ => rfl, fun _ _ => rfl, fun _ => rfl, fun _ _ => rfl⟩

theorem fold1_total (F : Functor α ω) {φ : α → ω} {op : ω → ω → ω} (hF : Lawful F id φ op) (l : List α) :
    fold1 F.one F.step l = total op (l.map φ) := by
  have := fold1_map F.one F.step id φ op hF.one hF.step l
  simpa using this

/-- sum: the sum of all valid cells, unless the sum over one of the partitions happens to be a no-data value. The
elements form a commutative monoid: integers, with or without wrap around. -/
theorem sum_spec [AddCommMonoid α] (P : Policies α α) (hP : Marks P) {x : PArr α} {v : Arr α} (hx : Represents x v)
    (hc : ∀ data ∈ x.parts, validCells P data ≠ [] → P.isNoData (validCells P data).sum = false)
    {order : List Nat} (ho : IsOrder (x.grid.n0 * x.grid.n1) order) :
    aggregateArray P sum order x = .ok (if validCells P (cells x.grid v) = [] then P.mark 0
      else (validCells P (cells x.grid v)).sum) := by
  have hcol : NoCollision P sum x := by
    intro data hd r hr
    have hne : validCells P data ≠ [] := by intro hnil; simp [hnil, fold1] at hr
    rw [fold1_total sum sum_lawful, List.map_id, total_add _ hne] at hr
    rw [← Option.some.inj hr]
    exact hc data hd hne
  obtain ⟨r, hr, h0, h1⟩ := aggregateArray_spec P sum sum_lawful hP hx hcol ho
  rw [hr]
  by_cases hnil : validCells P (cells x.grid v) = []
  · rw [if_pos hnil, h0 hnil]; rfl
  · rw [if_neg hnil]
    have := h1 hnil
    rw [List.map_id, total_add _ hnil] at this
    exact congrArg _ (Option.some.inj this).symm

/-- The restriction is needed: -1 is the no-data value, and the sum over the first partition is -1. The result is 5
instead of 4. -/
theorem sum_collision : ∃ (P : Policies Int Int) (x : PArr Int) (v : Arr Int), Marks P ∧ Represents x v ∧
    cells x.grid v = [2, -3, 2, 3] ∧ validCells P (cells x.grid v) = [2, -3, 2, 3] ∧
    aggregateArray P sum [0, 1] x = .ok 5 := by
  refine ⟨⟨fun x => x == -1, fun _ => true, fun _ => -1, fun x => x == -1⟩,
    store ⟨1, 4, 1, 2⟩ (fun _ j => [2, -3, 2, 3].getD j 0), _, fun _ => rfl,
    store_represents ⟨by decide, by decide, by decide, by decide⟩ _, rfl, rfl, ?_⟩
  rw [aggregateArray_eq _ _ (store_represents ⟨by decide, by decide, by decide, by decide⟩ _) (by unfold IsOrder; decide),
    aggregateResults_eq]
  simp only [show (store ⟨1, 4, 1, 2⟩ (fun _ j => ([2, -3, 2, 3] : List Int).getD j 0)).parts = [[2, -3], [2, 3]] from rfl,
    List.map_cons, List.map_nil, aggregatePartition_eq]
  rfl

/-! ### Minimum and maximum -/

theorem total_min [LinearOrder α] (l : List α) (r : α) (h : total min l = some r) : r ∈ l ∧ ∀ y ∈ l, r ≤ y := by
  induction l generalizing r with
  | nil => simp [total] at h
  | cons x l ih =>
    rw [total_cons _ min_assoc] at h
    cases ht : total min l with
    | none =>
      have : l = [] := by cases l <;> simp_all [total]
      subst this
      rw [ht] at h
      simp at h; simp [h]
    | some t =>
      rw [ht] at h
      simp only [Option.merge_some_some, Option.some.injEq] at h
      obtain ⟨h1, h2⟩ := ih t ht
      subst h
      constructor
      · rcases min_choice x t with hm | hm <;> rw [hm] <;> simp [h1]
      · intro y hy
        rcases List.mem_cons.mp hy with rfl | hy
        · exact min_le_left _ _
        · exact le_trans (min_le_right _ _) (h2 y hy)

theorem minimum_lawful [LinearOrder α] (big : α) : Lawful (minimum big) id id min :=
  ⟨min_assoc, min_comm, fun _ => rfl, fun _ _ => rfl, fun _ => rfl, fun _ _ => rfl⟩

theorem mem_validCells {P : Policies α ω} {l : List α} {y : α} :
    y ∈ validCells P l ↔ y ∈ l ∧ P.indp y = false ∧ P.dp y = true := by simp [validCells]

/-- minimum: no-data iff there are no valid cells, otherwise the smallest valid value. The input and output no-data
policies must agree. -/
theorem minimum_spec [LinearOrder α] (big : α) (P : Policies α α) (hP : Marks P)
    (hnd : ∀ y, P.isNoData y = P.indp y) {x : PArr α} {v : Arr α}
    (hx : Represents x v) {order : List Nat} (ho : IsOrder (x.grid.n0 * x.grid.n1) order) :
    ∃ r, aggregateArray P (minimum big) order x = .ok r ∧
      (P.isNoData r = true ↔ validCells P (cells x.grid v) = []) ∧
      (P.isNoData r = false → r ∈ validCells P (cells x.grid v) ∧ ∀ y ∈ validCells P (cells x.grid v), r ≤ y) := by
  have hcol : NoCollision P (minimum big) x := by
    intro data _ r hr
    rw [fold1_total _ (minimum_lawful big), List.map_id] at hr
    rw [hnd]
    exact (mem_validCells.mp (total_min _ r hr).1).2.1
  obtain ⟨r, hr, h0, h1⟩ := aggregateArray_spec P (minimum big) (minimum_lawful big) hP hx hcol ho
  rw [List.map_id] at h1
  refine ⟨r, hr, ⟨?_, fun hnil => by rw [h0 hnil]; exact hP _⟩, ?_⟩
  · intro hn
    by_contra hne
    have := (mem_validCells.mp (total_min _ _ (h1 hne)).1).2.1
    simp only [id] at this
    rw [← hnd, hn] at this
    cases this
  · intro hn
    by_cases hnil : validCells P (cells x.grid v) = []
    · rw [h0 hnil, hP] at hn; cases hn
    · exact total_min _ _ (h1 hnil)

theorem total_max [LinearOrder α] (l : List α) (r : α) (h : total max l = some r) : r ∈ l ∧ ∀ y ∈ l, y ≤ r :=
  total_min (α := αᵒᵈ) l r h

theorem maximum_lawful [LinearOrder α] (small : α) : Lawful (maximum small) id id max :=
  ⟨max_assoc, max_comm, fun _ => rfl, fun _ _ => rfl, fun _ => rfl, fun _ _ => rfl⟩

/-- maximum -/
theorem maximum_spec [LinearOrder α] (small : α) (P : Policies α α) (hP : Marks P)
    (hnd : ∀ y, P.isNoData y = P.indp y) {x : PArr α} {v : Arr α}
    (hx : Represents x v) {order : List Nat} (ho : IsOrder (x.grid.n0 * x.grid.n1) order) :
    ∃ r, aggregateArray P (maximum small) order x = .ok r ∧
      (P.isNoData r = true ↔ validCells P (cells x.grid v) = []) ∧
      (P.isNoData r = false → r ∈ validCells P (cells x.grid v) ∧ ∀ y ∈ validCells P (cells x.grid v), y ≤ r) := by
  have hcol : NoCollision P (maximum small) x := by
    intro data _ r hr
    rw [fold1_total _ (maximum_lawful small), List.map_id] at hr
    rw [hnd]
    exact (mem_validCells.mp (total_max _ r hr).1).2.1
  obtain ⟨r, hr, h0, h1⟩ := aggregateArray_spec P (maximum small) (maximum_lawful small) hP hx hcol ho
  rw [List.map_id] at h1
  refine ⟨r, hr, ⟨?_, fun hnil => by rw [h0 hnil]; exact hP _⟩, ?_⟩
  · intro hn
    by_contra hne
    have := (mem_validCells.mp (total_max _ _ (h1 hne)).1).2.1
    simp only [id] at this
    rw [← hnd, hn] at this
    cases this
  · intro hn
    by_cases hnil : validCells P (cells x.grid v) = []
    · rw [h0 hnil, hP] at hn; cases hn
    · exact total_max _ _ (h1 hnil)

/-! ### all, any, none -/

theorem all_lawful : Lawful all (fun r => decide (r ≠ 0)) (fun x => decide (x ≠ 0)) (· && ·) :=
  ⟨Bool.and_assoc, Bool.and_comm, fun _ => rfl, fun r x => by simp only [all]; by_cases h : r = 0 <;> by_cases h' : x = 0 <;> simp [h, h'],
    fun _ => rfl, fun r x => by simp only [all]; by_cases h : r = 0 <;> by_cases h' : x = 0 <;> simp [h, h']⟩

theorem any_lawful : Lawful any (fun r => decide (r ≠ 0)) (fun x => decide (x ≠ 0)) (· || ·) :=
  ⟨Bool.or_assoc, Bool.or_comm, fun _ => rfl, fun r x => by simp only [any]; by_cases h : r = 0 <;> by_cases h' : x = 0 <;> simp [h, h'],
    fun _ => rfl, fun r x => by simp only [any]; by_cases h : r = 0 <;> by_cases h' : x = 0 <;> simp [h, h']⟩

theorem none_lawful : Lawful none (fun r => decide (r ≠ 0)) (fun x => decide (x = 0)) (· && ·) :=
  ⟨Bool.and_assoc, Bool.and_comm, fun x => by simp only [none]; by_cases h : x = 0 <;> simp [h],
    fun r x => by simp only [none]; by_cases h : r = 0 <;> by_cases h' : x = 0 <;> simp [h, h'],
    fun _ => rfl, fun r x => by simp only [none]; by_cases h : r = 0 <;> by_cases h' : x = 0 <;> simp [h, h']⟩

theorem total_and (l : List Bool) (r : Bool) (h : total (· && ·) l = some r) : r = true ↔ ∀ y ∈ l, y = true := by
  induction l generalizing r with
  | nil => simp [total] at h
  | cons x l ih =>
    rw [total_cons _ Bool.and_assoc] at h
    cases ht : total (· && ·) l with
    | none =>
      have : l = [] := by cases l <;> simp_all [total]
      subst this
      rw [ht] at h; simp at h; simp [h]
    | some t =>
      rw [ht] at h
      simp only [Option.merge_some_some, Option.some.injEq] at h
      subst h
      simp [ih t ht]

theorem total_or (l : List Bool) (r : Bool) (h : total (· || ·) l = some r) : r = true ↔ ∃ y ∈ l, y = true := by
  induction l generalizing r with
  | nil => simp [total] at h
  | cons x l ih =>
    rw [total_cons _ Bool.or_assoc] at h
    cases ht : total (· || ·) l with
    | none =>
      have : l = [] := by cases l <;> simp_all [total]
      subst this
      rw [ht] at h; simp at h; simp [h]
    | some t =>
      rw [ht] at h
      simp only [Option.merge_some_some, Option.some.injEq] at h
      subst h
      simp only [Bool.or_eq_true, ih t ht, List.mem_cons, exists_eq_or_imp]

/-- The aggregate of a list by `all`, `any` and `none` is one of the values, 0 or 1. -/
theorem fold1_truth (F : Functor Int Int) (hone : ∀ x, F.one x = x ∨ F.one x = 0 ∨ F.one x = 1)
    (hs : ∀ r x, F.step r x = 0 ∨ F.step r x = 1) (l : List Int) (r : Int)
    (h : fold1 F.one F.step l = some r) : r ∈ l ∨ r = 0 ∨ r = 1 := by
  cases l with
  | nil => simp [fold1] at h
  | cons x l =>
    simp only [fold1, Option.some.injEq] at h
    rcases List.eq_nil_or_concat l with rfl | ⟨l', y, rfl⟩
    · simp only [List.foldl_nil] at h
      subst h
      rcases hone x with h | h | h
      · left; simp [h]
      · right; left; exact h
      · right; right; exact h
    · rw [List.concat_eq_append, List.foldl_append] at h
      simp only [List.foldl_cons, List.foldl_nil] at h
      right; rw [← h]; exact hs _ _

theorem truth_noCollision (F : Functor Int Int) (hone : ∀ x, F.one x = x ∨ F.one x = 0 ∨ F.one x = 1)
    (hs : ∀ r x, F.step r x = 0 ∨ F.step r x = 1) (P : Policies Int Int)
    (hnd : ∀ y, P.isNoData y = P.indp y) (h0 : P.isNoData 0 = false) (h1 : P.isNoData 1 = false) (x : PArr Int) :
    NoCollision P F x := by
  intro data _ r hr
  rcases fold1_truth F hone hs _ r hr with h | rfl | rfl
  · rw [hnd]; exact (mem_validCells.mp h).2.1
  · exact h0
  · exact h1

/-- all: true iff all valid cells are true. -/
theorem all_spec (P : Policies Int Int) (hP : Marks P) (hnd : ∀ y, P.isNoData y = P.indp y)
    (hz : P.isNoData 0 = false) (hu : P.isNoData 1 = false) {x : PArr Int} {v : Arr Int}
    (hx : Represents x v) {order : List Nat} (ho : IsOrder (x.grid.n0 * x.grid.n1) order) :
    ∃ r, aggregateArray P all order x = .ok r ∧
      (validCells P (cells x.grid v) = [] → P.isNoData r = true) ∧
      (validCells P (cells x.grid v) ≠ [] → (r ≠ 0 ↔ ∀ y ∈ validCells P (cells x.grid v), y ≠ 0)) := by
  have hcol := truth_noCollision all (fun x => .inl rfl)
    (fun r x => by simp only [all]; split <;> simp) P hnd hz hu x
  obtain ⟨r, hr, h0, h1⟩ := aggregateArray_spec P all all_lawful hP hx hcol ho
  refine ⟨r, hr, fun hnil => by rw [h0 hnil]; exact hP _, fun hne => ?_⟩
  have := total_and _ _ (h1 hne)
  simpa using this

/-- any: true iff some valid cell is true. -/
theorem any_spec (P : Policies Int Int) (hP : Marks P) (hnd : ∀ y, P.isNoData y = P.indp y)
    (hz : P.isNoData 0 = false) (hu : P.isNoData 1 = false) {x : PArr Int} {v : Arr Int}
    (hx : Represents x v) {order : List Nat} (ho : IsOrder (x.grid.n0 * x.grid.n1) order) :
    ∃ r, aggregateArray P any order x = .ok r ∧
      (validCells P (cells x.grid v) = [] → P.isNoData r = true) ∧
      (validCells P (cells x.grid v) ≠ [] → (r ≠ 0 ↔ ∃ y ∈ validCells P (cells x.grid v), y ≠ 0)) := by
  have hcol := truth_noCollision any (fun x => .inl rfl)
    (fun r x => by simp only [any]; split <;> simp) P hnd hz hu x
  obtain ⟨r, hr, h0, h1⟩ := aggregateArray_spec P any any_lawful hP hx hcol ho
  refine ⟨r, hr, fun hnil => by rw [h0 hnil]; exact hP _, fun hne => ?_⟩
  have := total_or _ _ (h1 hne)
  simpa using this

/-- none: true iff no valid cell is true. -/
theorem none_spec (P : Policies Int Int) (hP : Marks P) (hnd : ∀ y, P.isNoData y = P.indp y)
    (hz : P.isNoData 0 = false) (hu : P.isNoData 1 = false) {x : PArr Int} {v : Arr Int}
    (hx : Represents x v) {order : List Nat} (ho : IsOrder (x.grid.n0 * x.grid.n1) order) :
    ∃ r, aggregateArray P none order x = .ok r ∧
      (validCells P (cells x.grid v) = [] → P.isNoData r = true) ∧
      (validCells P (cells x.grid v) ≠ [] → (r ≠ 0 ↔ ∀ y ∈ validCells P (cells x.grid v), y = 0)) := by
  have hcol := truth_noCollision none (fun x => by simp only [none]; split <;> simp)
    (fun r x => by simp only [none]; split <;> simp) P hnd hz hu x
  obtain ⟨r, hr, h0, h1⟩ := aggregateArray_spec P none none_lawful hP hx hcol ho
  refine ⟨r, hr, fun hnil => by rw [h0 hnil]; exact hP _, fun hne => ?_⟩
  have := total_and _ _ (h1 hne)
  simpa using this

/-! ### C09: unique -/

theorem uniquePartition_spec [DecidableEq α] (isNoData : α → Bool) (data : List α) :
    ∃ s, uniquePartition isNoData data = .ok s ∧ s.Nodup ∧ ∀ y, y ∈ s ↔ y ∈ data ∧ isNoData y = false := by
  have key : ∀ n ≤ data.length, ∃ s, forLoop n (fun i (set : List α) => do
      let x ← rd data i
      .ok (if !isNoData x then set.insert x else set)) [] = .ok s ∧ s.Nodup ∧
      ∀ y, y ∈ s ↔ y ∈ data.take n ∧ isNoData y = false := by
    intro n
    induction n with
    | zero => intro _; exact ⟨[], rfl, List.nodup_nil, by simp⟩
    | succ n ih =>
      intro hn
      obtain ⟨s, he, hnd, hs⟩ := ih (by omega)
      refine ⟨if !isNoData data[n] then s.insert data[n] else s, ?_, ?_, ?_⟩
      · unfold forLoop at he ⊢
        rw [List.range_succ, List.foldlM_append, he]
        simp only [M.bind_ok, List.foldlM_cons, List.foldlM_nil, rd_ok (List.getElem?_eq_getElem (show n < data.length by omega))]
        rfl
      · split
        · exact List.Nodup.insert hnd
        · exact hnd
      · intro y
        rw [List.take_succ_eq_append_getElem (by omega)]
        by_cases hd : isNoData data[n]
        · simp only [hd, Bool.not_true, Bool.false_eq_true, ↓reduceIte, hs, List.mem_append, List.mem_singleton]
          constructor
          · rintro ⟨h1, h2⟩; exact ⟨.inl h1, h2⟩
          · rintro ⟨h1 | h1, h2⟩
            · exact ⟨h1, h2⟩
            · subst h1; rw [hd] at h2; cases h2
        · simp only [hd, Bool.not_false, ↓reduceIte, List.mem_insert_iff, hs, List.mem_append, List.mem_singleton]
          constructor
          · rintro (rfl | ⟨h1, h2⟩)
            · exact ⟨.inr rfl, by simpa using hd⟩
            · exact ⟨.inl h1, h2⟩
          · rintro ⟨h1 | h1, h2⟩
            · exact .inr ⟨h1, h2⟩
            · exact .inl h1
  obtain ⟨s, h1, h2, h3⟩ := key data.length (Nat.le_refl _)
  exact ⟨s, h1, h2, by simpa using h3⟩

theorem foldl_insert_spec [DecidableEq α] (l s : List α) (hs : s.Nodup) :
    (l.foldl (fun set e => set.insert e) s).Nodup ∧
      ∀ y, y ∈ l.foldl (fun set e => set.insert e) s ↔ y ∈ s ∨ y ∈ l := by
  induction l generalizing s with
  | nil => simp [hs]
  | cons a l ih =>
    obtain ⟨h1, h2⟩ := ih (s.insert a) (List.Nodup.insert hs)
    refine ⟨h1, fun y => ?_⟩
    rw [List.foldl_cons, h2]
    simp only [List.mem_insert_iff, List.mem_cons]
    tauto

theorem foldl_union_spec [DecidableEq α] (ls : List (List α)) (s : List α) (hs : s.Nodup) :
    (ls.foldl (fun set l => l.foldl (fun set e => set.insert e) set) s).Nodup ∧
      ∀ y, y ∈ ls.foldl (fun set l => l.foldl (fun set e => set.insert e) set) s ↔ y ∈ s ∨ ∃ l ∈ ls, y ∈ l := by
  induction ls generalizing s with
  | nil => simp [hs]
  | cons a l ih =>
    obtain ⟨g1, g2⟩ := foldl_insert_spec a s hs
    obtain ⟨h1, h2⟩ := ih _ g1
    refine ⟨h1, fun y => ?_⟩
    rw [List.foldl_cons, h2, g2]
    simp only [List.mem_cons, exists_eq_or_imp]
    tauto

/-- C09: unique returns each valid value of the array once, and no other values. -/
theorem unique_spec [DecidableEq α] (isNoData : α → Bool) {x : PArr α} {v : Arr α} (hx : Represents x v)
    {order : List Nat} (ho : IsOrder (x.grid.n0 * x.grid.n1) order) :
    ∃ s, unique isNoData order x = .ok s ∧ s.Nodup ∧
      ∀ y, y ∈ s ↔ isNoData y = false ∧ ∃ i j, i < x.grid.a0 ∧ j < x.grid.a1 ∧ v i j = y := by
  let res : Nat → List α := fun k =>
    match uniquePartition isNoData ((partIdxs x.grid k).map fun c => v c.1 c.2) with
    | .ok s => s
    | .error _ => []
  have hres : ∀ k, uniquePartition isNoData ((partIdxs x.grid k).map fun c => v c.1 c.2) = .ok (res k) := by
    intro k
    obtain ⟨s, h, _⟩ := uniquePartition_spec isNoData ((partIdxs x.grid k).map fun c => v c.1 c.2)
    simp [res, h]
  have hrun := runTasks_ok (task := fun k => do uniquePartition isNoData (← rd x.parts k)) ho (r := res) (by
    intro k hk
    rw [rd_ok (hx.parts_get hk), M.bind_ok]
    exact hres k)
  obtain ⟨h1, h2⟩ := foldl_union_spec ((List.range (x.grid.n0 * x.grid.n1)).map res) [] List.nodup_nil
  refine ⟨_, by simp only [unique, hrun, M.bind_ok], h1, ?_⟩
  intro y
  rw [h2, ← mem_cells (v := v) (g := x.grid), ← hx.flatten_perm.mem_iff, hx.parts_eq]
  simp only [List.not_mem_nil, false_or, List.mem_map, List.mem_range, exists_exists_and_eq_and, List.mem_flatten]
  constructor
  · rintro ⟨k, hk, hy⟩
    obtain ⟨s, hs, _, hm⟩ := uniquePartition_spec isNoData ((partIdxs x.grid k).map fun c => v c.1 c.2)
    rw [hres k] at hs
    cases hs
    obtain ⟨h3, h4⟩ := (hm y).mp hy
    exact ⟨h4, k, hk, by simpa using h3⟩
  · rintro ⟨h4, k, hk, hy⟩
    obtain ⟨s, hs, _, hm⟩ := uniquePartition_spec isNoData ((partIdxs x.grid k).map fun c => v c.1 c.2)
    rw [hres k] at hs
    cases hs
    exact ⟨k, hk, (hm y).mpr ⟨by simpa using hy, h4⟩⟩

/-! ### Example: the hypotheses are met -/

example : ∃ (P : Policies Int Int) (x : PArr Int) (v : Arr Int), Marks P ∧ (∀ y, P.isNoData y = P.indp y) ∧
    P.isNoData 0 = false ∧ P.isNoData 1 = false ∧ Represents x v ∧ IsOrder (x.grid.n0 * x.grid.n1) [1, 0] ∧
    validCells P (cells x.grid v) = [3, 1, 2] ∧ P.isNoData (3 : Int) = false :=
  ⟨⟨fun x => x == 99, fun _ => true, fun _ => 99, fun x => x == 99⟩,
    store ⟨1, 4, 1, 2⟩ (fun _ j => [99, 3, 1, 2].getD j 0), _, fun _ => rfl, fun _ => rfl, rfl, rfl,
    store_represents ⟨by decide, by decide, by decide, by decide⟩ _, by unfold IsOrder; decide, rfl, rfl⟩

end Lue.Aggregate

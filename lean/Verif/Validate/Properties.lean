import Verif.Validate.Proofs

/-!
C46: validation of datasets.
-/
namespace Lue.Validate

theorem hasErrors_iff (l : List Issue) : hasErrors l = false ↔ ∀ w, Issue.error w ∉ l := by
  unfold hasErrors
  rw [List.any_eq_false]
  constructor
  · intro h w hw
    exact h _ hw rfl
  · intro h i hi
    cases i with
    | error w => exact absurd hi (h w)
    | warning w => simp

/-- Validation ends without exception and without errors, if and only if the dataset is consistent: nothing inconsistent passes, and nothing
consistent is rejected. -/
theorem validate_reports_no_errors_iff (d : Dataset) :
    (∃ issues, validate d = .ok issues ∧ ∀ w, Issue.error w ∉ issues) ↔ DatasetOk d := by
  rw [← validate_iff]
  unfold Accepts
  simp only [hasErrors_iff]

/-- The same for the function that throws. -/
theorem assertIsValid_iff (d : Dataset) : assertIsValid d false = .ok () ↔ DatasetOk d := by
  rw [← validate_iff]
  unfold assertIsValid Accepts
  cases h : validate d with
  | error e => simp
  | ok l =>
    cases h' : hasErrors l <;> simp [h']

/-- If warnings are considered errors, then what passes is consistent as well. -/
theorem assertIsValid_strict (d : Dataset) (h : assertIsValid d true = .ok ()) : DatasetOk d := by
  rw [← validate_iff]
  unfold assertIsValid at h
  unfold Accepts
  cases hv : validate d with
  | error e => rw [hv] at h; simp at h
  | ok l =>
    rw [hv] at h
    cases h' : hasErrors l with
    | true => simp [h'] at h
    | false => exact ⟨l, rfl, h'⟩

/-! ### What follows for a dataset which is valid -/

theorem start_le {ids : List Nat} {t : Tracker} (ht : TrackerOk ids t) {k : Nat} (hk : k < t.nrSets) :
    t.start k ≤ t.start (k + 1) ∧ t.start (k + 1) ≤ t.ids.length := by
  have hp : (t.setIdx ++ [t.ids.length]).Pairwise (· ≤ ·) := pairwise_snoc.mpr ⟨ht.ordered, ht.within⟩
  have h1 := start_getElem? t k (by omega)
  have h2 := start_getElem? t (k + 1) (by omega)
  constructor
  · rw [List.pairwise_iff_getElem] at hp
    obtain ⟨g1, e1⟩ := List.getElem?_eq_some_iff.mp h1
    obtain ⟨g2, e2⟩ := List.getElem?_eq_some_iff.mp h2
    have := hp k (k + 1) g1 g2 (by omega)
    rw [e1, e2] at this; exact this
  · rcases List.mem_append.mp (List.mem_of_getElem? h2) with hm | hm
    · exact ht.within _ hm
    · simp at hm; omega

/-- The active sets, one after the other, are the identifiers stored from the start of the first set on. So, if the first set starts at
zero, then the n-th stored array of a property with one array per active object belongs to exactly one object at one moment. -/
theorem active_sets_partition {ids : List Nat} {t : Tracker} (ht : TrackerOk ids t) :
    (List.range t.nrSets).flatMap t.activeSet = t.ids.drop (t.start 0) := by
  have key : ∀ n, n ≤ t.nrSets → (List.range n).flatMap t.activeSet = (t.ids.drop (t.start 0)).take (t.start n - t.start 0) ∧
      t.start 0 ≤ t.start n := by
    intro n
    induction n with
    | zero => intro _; simp
    | succ n ih =>
      intro hn
      obtain ⟨h1, h2⟩ := ih (by omega)
      have h3 := start_le ht (k := n) (by omega)
      refine ⟨?_, by omega⟩
      rw [List.range_succ, List.flatMap_append, h1]
      simp only [List.flatMap_cons, List.flatMap_nil, List.append_nil, Tracker.activeSet]
      have e1 : t.start (n + 1) - t.start 0 = (t.start n - t.start 0) + (t.start (n + 1) - t.start n) := by omega
      rw [e1, List.take_add, List.drop_drop]
      congr 3
      omega
  obtain ⟨h1, -⟩ := key t.nrSets (le_refl _)
  rw [h1]
  have h4 : t.start t.nrSets = t.ids.length := by
    unfold Tracker.start Tracker.nrSets
    simp
  apply List.take_of_length_le
  rw [List.length_drop, h4]

/-- For values of different shapes: if the stored number of objects is right, then the objects which have a value are exactly the objects. -/
theorem different_objects_eq {ids : List Nat} {p : Different} (hd : ids.Nodup) (h : DifferentOk ids p)
    (hn : p.nrObjects = p.objects.length) (i : Nat) : i ∈ p.objects ↔ i ∈ ids := by
  obtain ⟨h1, h2, -⟩ := h
  have hs : ids.Subperm p.objects := List.subperm_of_subset hd h2
  have hp : ids.Perm p.objects := hs.perm_of_length_le (by omega)
  exact hp.mem_iff.symm

/-- Properties of the collection as a whole which vary: if the first active set starts at zero, then at each moment the collection is active,
and nothing else. -/
theorem collection_sets_singleton {s : PropertySet} (h : CollectionOk s)
    (hv : s.properties.sameConstant ≠ [] ∨ s.properties.sameVariable ≠ [] ∨ s.properties.differentConstant ≠ [])
    (h0 : s.tracker.start 0 = 0) {k : Nat} (hk : k < s.tracker.nrSets) :
    s.tracker.activeSet k = [s.tracker.ids.headD 999] := by
  obtain ⟨hp, hc⟩ := h
  have hn := hc hv
  have ht := hp.tracker
  have hid : ∀ i ∈ s.tracker.ids, i = s.tracker.ids.headD 999 := fun i hi => by simpa using ht.known (by simp) i hi
  have hle : ∀ m, m < s.tracker.nrSets → (s.tracker.activeSet m).length ≤ 1 := by
    intro m hm
    have hnd := ht.once m hm
    match hl : s.tracker.activeSet m with
    | [] => simp
    | [_] => simp
    | a :: b :: l =>
      rw [hl] at hnd
      have hsub : ∀ x ∈ s.tracker.activeSet m, x ∈ s.tracker.ids := fun x hx => List.mem_of_mem_drop (List.mem_of_mem_take hx)
      have ha := hid a (hsub a (by rw [hl]; simp))
      have hb := hid b (hsub b (by rw [hl]; simp))
      simp [ha, hb] at hnd
  have hsum := congrArg List.length (active_sets_partition ht)
  rw [h0, List.drop_zero, List.length_flatMap] at hsum
  have hall : ∀ n, n ≤ s.tracker.nrSets → ((List.range n).map fun a => (s.tracker.activeSet a).length).sum ≤ n ∧
      ((((List.range n).map fun a => (s.tracker.activeSet a).length).sum = n) → ∀ m, m < n → (s.tracker.activeSet m).length = 1) := by
    intro n
    induction n with
    | zero => intro _; simp
    | succ n ih =>
      intro hn'
      obtain ⟨i1, i2⟩ := ih (by omega)
      have := hle n (by omega)
      rw [List.range_succ, List.map_append, List.sum_append]
      simp only [List.map_cons, List.map_nil, List.sum_cons, List.sum_nil, Nat.add_zero]
      refine ⟨by omega, fun e m hm => ?_⟩
      by_cases hmn : m = n
      · subst hmn; omega
      · exact i2 (by omega) m (by omega)
  have h1 := (hall s.tracker.nrSets (le_refl _)).2 (by omega) k hk
  obtain ⟨x, hx⟩ := List.length_eq_one_iff.mp h1
  rw [hx, hid x (List.mem_of_mem_drop (List.mem_of_mem_take (by rw [← Tracker.activeSet, hx]; simp)))]

/-! ### Reading outside collections -/

/-- No element of a vector that does not exist is read. -/
def Safe (r : R) : Prop := r ≠ .error .outOfBounds

theorem safe_ok (l : List Issue) : Safe (.ok l) := by simp [Safe]

theorem safe_andThen {a b : R} (ha : Safe a) (hb : Safe b) : Safe (R.andThen a b) := by
  unfold Safe at *
  cases a with
  | error e => exact ha
  | ok l =>
    cases b with
    | error e => exact hb
    | ok m => simp [R.andThen]

theorem safe_forEach {α : Type} (l : List α) (f : α → R) (h : ∀ x ∈ l, Safe (f x)) : Safe (R.forEach l f) := by
  induction l with
  | nil => simp [R.forEach, Safe]
  | cons x l ih => exact safe_andThen (h x (by simp)) (ih fun y hy => h y (by simp [hy]))

theorem safe_activeSetLoop (t : Tracker) (arrays : List (Nat × Nat)) (k n : Nat) (h1 : k + n ≤ t.ids.length)
    (h2 : t.ids.length ≤ t.objIdx.length) : Safe (activeSetLoop t arrays k n) := by
  induction n generalizing k with
  | zero => simp [activeSetLoop, Safe]
  | succ n ih =>
    rw [activeSetLoop, List.getElem?_eq_getElem (show k < t.ids.length by omega), List.getElem?_eq_getElem (show k < t.objIdx.length by omega)]
    simp only
    split
    · split
      · simp [Safe]
      · exact ih (k + 1) (by omega)
    · simp [Safe]

theorem safe_activeSetsLoop (t : Tracker) (arrays : List (Nat × Nat)) (b : Nat) (es : List Nat) (hb : (b :: es).Pairwise (· ≤ ·))
    (h1 : ∀ e ∈ es, e ≤ t.ids.length) (h2 : t.ids.length ≤ t.objIdx.length) : Safe (activeSetsLoop t arrays b es) := by
  induction es generalizing b with
  | nil => simp [activeSetsLoop, Safe]
  | cons e es ih =>
    have hp := List.pairwise_cons.mp hb
    have := hp.1 e (by simp)
    have := h1 e (by simp)
    exact safe_andThen (safe_activeSetLoop t arrays b (e - b) (by omega) h2) (ih e hp.2 fun x hx => h1 x (by simp [hx]))

theorem safe_variableLoop (arrays : List Nat) (i b : Nat) (es : List Nat) : Safe (variableLoop arrays i b es) := by
  induction es generalizing i b with
  | nil => simp [variableLoop, Safe]
  | cons e es ih =>
    rw [variableLoop]
    split
    · split
      · simp [Safe]
      · exact ih _ _
    · simp [Safe]

theorem safe_propertySet (ids : List Nat) (s : PropertySet)
    (h : s.properties.differentConstant ≠ [] → s.tracker.ids.length ≤ s.tracker.objIdx.length) : Safe (validatePropertySet ids s) := by
  unfold validatePropertySet
  by_cases hv : hasErrors (validateTracker ids s.tracker) = true
  · simp only [hv, if_true]; exact safe_ok _
  · have ht := (validateTracker_iff _ _).mp (by simpa using hv)
    simp only [hv]
    refine safe_andThen (safe_ok _) ?_
    unfold validateProperties
    refine safe_andThen (safe_forEach _ _ fun _ _ => safe_ok _) ?_
    refine safe_andThen (safe_forEach _ _ fun _ _ => safe_ok _) ?_
    refine safe_andThen (safe_forEach _ _ fun _ _ => safe_ok _) ?_
    refine safe_andThen (safe_forEach _ _ fun p hp => ?_) ?_
    · refine safe_andThen ?_ (safe_ok _)
      unfold validateValueDifferentConstant
      simp only
      split
      · exact safe_ok _
      · split
        · exact safe_ok _
        · have hpw : (s.tracker.setIdx ++ [s.tracker.ids.length]).Pairwise (· ≤ ·) := pairwise_snoc.mpr ⟨ht.ordered, ht.within⟩
          have hin : ∀ e ∈ s.tracker.setIdx ++ [s.tracker.ids.length], e ≤ s.tracker.ids.length := by
            intro e he
            rcases List.mem_append.mp he with he | he
            · exact ht.within e he
            · simp at he; omega
          cases hs : s.tracker.setIdx ++ [s.tracker.ids.length] with
          | nil => simp at hs
          | cons b es =>
            rw [hs] at hpw hin
            exact safe_activeSetsLoop _ _ _ _ hpw (fun e he => hin e (by simp [he])) (h (List.ne_nil_of_mem hp))
    · refine safe_andThen (safe_forEach _ _ fun p hp => ?_) (safe_forEach _ _ fun _ _ => safe_ok _)
      refine safe_andThen ?_ (safe_andThen ?_ (safe_ok _))
      · unfold validateValueSameVariable
        split
        · exact safe_ok _
        · split
          · exact safe_variableLoop _ _ _ _
          · rename_i hn; simp at hn
      · split
        · exact safe_ok _
        · unfold validateTimeGrid
          simp only
          split <;> simp [Safe]

/-- A property set for which the number of indices of objects is not less than the number of active objects, if those are needed. -/
def IndicesStored (s : PropertySet) : Prop :=
  s.properties.differentConstant ≠ [] → s.tracker.ids.length ≤ s.tracker.objIdx.length

/-- Validation of any dataset, valid or not, does not read outside collections, if for property sets with properties of different, constant shapes
at least as many object indices as object identifiers are stored. -/
theorem validate_in_bounds (d : Dataset)
    (h : ∀ p, (p ∈ d.phenomena ∨ ∃ u ∈ d.universes, p ∈ u) →
      (∀ s ∈ p.propertySets, IndicesStored s) ∧ ∀ s ∈ p.collectionPropertySets, IndicesStored s) :
    validate d ≠ .error .outOfBounds := by
  have hp : ∀ p, (p ∈ d.phenomena ∨ ∃ u ∈ d.universes, p ∈ u) → Safe (validatePhenomenon p) := by
    intro p hp
    refine safe_andThen (safe_forEach _ _ fun s hs => safe_propertySet _ _ ((h p hp).1 s hs)) (safe_forEach _ _ fun s hs => ?_)
    exact safe_andThen (safe_propertySet _ _ ((h p hp).2 s hs)) (safe_ok _)
  exact safe_andThen (safe_forEach _ _ fun u hu => safe_forEach _ _ fun p hpu => hp p (Or.inr ⟨u, hu, hpu⟩))
    (safe_forEach _ _ fun p hpu => hp p (Or.inl hpu))

/-! ### Examples -/

/-- No properties. -/
def noProperties : Properties := ⟨[], [], [], [], [], []⟩

/-- Three objects, three moments; all kinds of properties; a discretization. -/
def exampleSet : PropertySet :=
  { tracker := ⟨[0, 2, 2], [7, 5, 9], [0, 0, 0]⟩
    time := some ⟨1, .cell [(0, 4), (4, 9)] [2, 1]⟩
    space := some ⟨false, true, 3, some ⟨.sameVariable, some 1⟩⟩
    properties :=
      { same := [⟨3, .none⟩]
        different := [⟨3, [5, 7, 9], ⟨none, some ⟨.same, true, 1, true⟩⟩⟩]
        sameConstant := [⟨3, ⟨none, some ⟨.same, false, 1, true⟩⟩⟩]
        differentConstant := [⟨3, [(5, 1), (7, 1), (9, 2)], .none⟩]
        sameVariable := [⟨[2, 0, 1], ⟨some ⟨.sameConstant, true, 3, true⟩, none⟩⟩]
        differentVariable := [⟨3, .none⟩] } }

/-- A dataset with that property set, and one for the collection as a whole. -/
def exampleDataset : Dataset :=
  { universes := []
    phenomena := [{ ids := [5, 7, 9], propertySets := [exampleSet], collectionPropertySets :=
      [{ tracker := ⟨[0, 1], [3, 3], []⟩, time := some ⟨1, .point [4, 8]⟩, space := none,
         properties := { noProperties with sameConstant := [⟨2, .none⟩] } }] }] }

/-- It is valid; there is one warning, about a property kind that cannot be validated. -/
example : validate exampleDataset = .ok [.warning "validation of different_shape::variable_shape::Value"] := by decide

/-- So it is consistent. -/
example : DatasetOk exampleDataset := (validate_reports_no_errors_iff _).mp ⟨_, (by decide : validate exampleDataset = .ok
  [.warning "validation of different_shape::variable_shape::Value"]), by simp⟩

/-- The hypothesis of `validate_in_bounds` holds. -/
example : ∀ p, (p ∈ exampleDataset.phenomena ∨ ∃ u ∈ exampleDataset.universes, p ∈ u) →
    (∀ s ∈ p.propertySets, IndicesStored s) ∧ ∀ s ∈ p.collectionPropertySets, IndicesStored s := by
  intro p hp
  simp only [exampleDataset, List.mem_cons, List.not_mem_nil, or_false, false_and, exists_false] at hp
  subst hp
  constructor <;> intro s hs <;> simp only [List.mem_cons, List.not_mem_nil, or_false] at hs <;> subst hs <;> intro h
  · decide
  · exact absurd rfl h

/-- Finding: with fewer object indices than active objects, validation reads beyond the end of a vector (or fails an assertion, in debug builds).
The object tracker by itself is found to be valid. -/
def shortIndices : Dataset :=
  { universes := []
    phenomena := [{ ids := [1, 2], collectionPropertySets := [], propertySets :=
      [{ tracker := ⟨[0], [1, 2], [0]⟩, time := none, space := none,
         properties := { noProperties with differentConstant := [⟨2, [(1, 1), (2, 1)], .none⟩] } }] }] }

theorem validate_out_of_bounds : validate shortIndices = .error .outOfBounds ∧ validateTracker [1, 2] ⟨[0], [1, 2], [0]⟩ = [] := by decide

/-- Finding: active objects which do not belong to any active set are accepted. -/
theorem objects_outside_sets_accepted :
    TrackerOk [1, 2, 3] ⟨[2], [1, 2, 3], []⟩ ∧ (List.range 1).flatMap (Tracker.activeSet ⟨[2], [1, 2, 3], []⟩) = [3] := by
  refine ⟨(validateTracker_iff _ _).mp (by decide), by decide⟩

/-- Finding: an object array can be refered to by an object at two moments, although the message of the validation says that the number of object
arrays must equal the number of times the object is active. -/
theorem shared_object_array_accepted :
    Accepts (validateDifferentConstant ⟨[0, 1], [5, 5], [0, 0]⟩ ⟨1, [(5, 1)], .none⟩) := by
  refine ⟨[], by decide, rfl⟩

/-- Finding: the number and type of the counts of a property that discretizes time are not validated. -/
theorem time_grid_values_not_validated (t : Tracker) (arrays : List Nat) (space : Option Target) (k : Kind) (c c' u u' : Bool) (n n' : Nat) :
    validateSameVariable t ⟨arrays, ⟨some ⟨k, c, n, u⟩, space⟩⟩ = validateSameVariable t ⟨arrays, ⟨some ⟨k, c', n', u'⟩, space⟩⟩ := rfl

end Lue.Validate

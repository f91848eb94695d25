import Verif.Validate.Spec
import Mathlib.Tactic.ByContra
import Mathlib.Tactic.Tauto
import Mathlib.Data.List.Sort

/-! Proofs: the validation accepts exactly the consistent datasets. -/
namespace Lue.Validate

/-- The result is a list of issues without errors. -/
def Accepts (r : R) : Prop := ∃ l, r = .ok l ∧ hasErrors l = false

theorem hasErrors_append (l m : List Issue) : hasErrors (l ++ m) = (hasErrors l || hasErrors m) := by
  unfold hasErrors; rw [List.any_append]

theorem noErr_append (l m : List Issue) : hasErrors (l ++ m) = false ↔ hasErrors l = false ∧ hasErrors m = false := by
  rw [hasErrors_append]; simp

theorem noErr_errorIf (c : Bool) (w : String) : hasErrors (errorIf c w) = false ↔ c = false := by
  cases c <;> simp [errorIf, hasErrors]

theorem noErr_notSupportedIf (c : Bool) (w : String) : hasErrors (notSupportedIf c w) = false := by
  cases c <;> simp [notSupportedIf, hasErrors]

theorem noErr_nil : hasErrors [] = false := rfl

theorem noErr_error (w : String) : ¬ hasErrors [.error w] = false := by simp [hasErrors]

theorem noErr_warning (w : String) : hasErrors [.warning w] = false := rfl

theorem accepts_ok (l : List Issue) : Accepts (.ok l) ↔ hasErrors l = false := by
  unfold Accepts; simp

theorem accepts_error (e : Exc) : ¬ Accepts (.error e) := by
  unfold Accepts; simp

theorem accepts_andThen (a b : R) : Accepts (R.andThen a b) ↔ Accepts a ∧ Accepts b := by
  cases a with
  | error e => simp [R.andThen, accepts_error]
  | ok l =>
    cases b with
    | error e => simp [R.andThen, accepts_error]
    | ok m => simp only [R.andThen, accepts_ok, noErr_append]

theorem accepts_forEach {α : Type} (l : List α) (f : α → R) : Accepts (R.forEach l f) ↔ ∀ x ∈ l, Accepts (f x) := by
  induction l with
  | nil => simp [R.forEach, accepts_ok, noErr_nil]
  | cons x l ih => simp [R.forEach, accepts_andThen, ih]

theorem adjacentFind_false_iff (p : Nat → Nat → Bool) (l : List Nat) :
    adjacentFind p l = false ↔ l.IsChain fun a b => p a b = false := by
  induction l with
  | nil => simp [adjacentFind]
  | cons a l ih =>
    cases l with
    | nil => simp [adjacentFind]
    | cons b l => simp [adjacentFind, ih]

theorem idsAreUnique_iff (ids : List Nat) : idsAreUnique ids = true ↔ ids.Nodup := by
  unfold idsAreUnique
  have hs : (ids.insertionSort (· ≤ ·)).Pairwise (fun a b => decide (a ≤ b) = true) :=
    (List.pairwise_insertionSort (· ≤ ·) ids).imp (fun h => by simpa using h)
  have hp := List.perm_insertionSort (· ≤ ·) ids
  generalize ids.insertionSort (· ≤ ·) = m at *
  rw [← hp.nodup_iff]
  simp only [Bool.not_eq_true', adjacentFind_false_iff]
  constructor
  · intro h
    have h2 : m.IsChain (· < ·) := by
      have h1 := hs.isChain
      clear hs hp
      induction m with
      | nil => exact .nil
      | cons a m ih =>
        cases m with
        | nil => exact .singleton _
        | cons b m =>
          rw [List.isChain_cons_cons] at h h1 ⊢
          refine ⟨?_, ih h.2 h1.2⟩
          have h3 := h.1; have h4 := h1.1
          simp at h3 h4; omega
    have h3 := List.isChain_iff_pairwise.mp h2
    exact h3.imp fun h => by omega
  · intro h
    exact (h.imp fun h => by simpa using h).isChain

theorem increasing_iff (l : List Nat) : hasErrors (assertIncreasing l) = false ↔ l.Pairwise (· ≤ ·) := by
  unfold assertIncreasing
  rw [noErr_errorIf, adjacentFind_false_iff, ← List.isChain_iff_pairwise]
  constructor <;> intro h <;> exact h.imp fun a b h => by simpa using h

theorem flat_pairwise (boxes : List (Nat × Nat)) : (flat boxes).Pairwise (· ≤ ·) ↔ BoxesOk boxes := by
  induction boxes with
  | nil => simp [flat, BoxesOk]
  | cons b boxes ih =>
    have hm : ∀ x, x ∈ flat boxes ↔ ∃ c ∈ boxes, x = c.1 ∨ x = c.2 := by
      intro x; simp [flat, List.mem_flatMap]
    have : flat (b :: boxes) = b.1 :: b.2 :: flat boxes := by simp [flat]
    rw [this, List.pairwise_cons, List.pairwise_cons, ih]
    unfold BoxesOk
    rw [List.pairwise_cons]
    constructor
    · rintro ⟨h1, h2, h3, h4⟩
      refine ⟨?_, ?_, h4⟩
      · intro c hc
        rcases List.mem_cons.mp hc with rfl | hc
        · exact h1 _ (by simp)
        · exact h3 c hc
      · intro c hc
        exact h2 _ ((hm _).mpr ⟨c, hc, Or.inl rfl⟩)
    · rintro ⟨h1, h2, h3⟩
      have hb := h1 b (by simp)
      refine ⟨?_, ?_, fun c hc => h1 c (by simp [hc]), h3⟩
      · intro x hx
        rcases List.mem_cons.mp hx with rfl | hx
        · exact hb
        · obtain ⟨c, hc, hx⟩ := (hm x).mp hx
          have := h2 c hc; have := h1 c (by simp [hc])
          rcases hx with rfl | rfl <;> omega
      · intro x hx
        obtain ⟨c, hc, hx⟩ := (hm x).mp hx
        have := h2 c hc; have := h1 c (by simp [hc])
        rcases hx with rfl | rfl <;> omega

/-! ### The object tracker -/

/-- The loop accepts, if consecutive indices are ordered, within the collection, and what is in between is distinct. -/
theorem activeIdsLoop_iff (ids : List Nat) (b : Nat) (es : List Nat) :
    hasErrors (activeIdsLoop ids b es) = false ↔
      (b :: es).Pairwise (· ≤ ·) ∧ (∀ e ∈ es, e ≤ ids.length) ∧
        ∀ k x y, (b :: es)[k]? = some x → (b :: es)[k + 1]? = some y → ((ids.drop x).take (y - x)).Nodup := by
  induction es generalizing b with
  | nil => simp [activeIdsLoop, noErr_nil]
  | cons e es ih =>
    unfold activeIdsLoop
    by_cases h1 : e < b
    · rw [if_pos h1]
      refine iff_of_false (noErr_error _) ?_
      rintro ⟨h, -, -⟩
      have := (List.pairwise_cons.mp h).1 e (by simp)
      omega
    · rw [if_neg h1]
      by_cases h2 : e > ids.length
      · rw [if_pos h2]
        refine iff_of_false (noErr_error _) ?_
        rintro ⟨-, h, -⟩
        have := h e (by simp)
        omega
      · rw [if_neg h2]
        by_cases h3 : ((ids.drop b).take (e - b)).Nodup
        · have h3' := (idsAreUnique_iff _).mpr h3
          rw [h3']
          simp only [Bool.not_true, Bool.false_eq_true, if_false]
          rw [ih e]
          constructor
          · rintro ⟨g1, g2, g3⟩
            refine ⟨?_, ?_, ?_⟩
            · refine List.pairwise_cons.mpr ⟨?_, g1⟩
              intro x hx
              rcases List.mem_cons.mp hx with rfl | hx
              · omega
              · have := (List.pairwise_cons.mp g1).1 x hx; omega
            · intro x hx
              rcases List.mem_cons.mp hx with rfl | hx
              · omega
              · exact g2 x hx
            · intro k x y hx hy
              cases k with
              | zero => simp at hx hy; subst hx; subst hy; exact h3
              | succ k => exact g3 k x y (by simpa using hx) (by simpa using hy)
          · rintro ⟨g1, g2, g3⟩
            refine ⟨(List.pairwise_cons.mp g1).2, fun x hx => g2 x (by simp [hx]), ?_⟩
            intro k x y hx hy
            exact g3 (k + 1) x y (by simpa using hx) (by simpa using hy)
        · have h3' : idsAreUnique ((ids.drop b).take (e - b)) = false := by
            rw [← Bool.not_eq_true, idsAreUnique_iff]; exact h3
          rw [h3']
          simp only [Bool.not_false, if_true]
          refine iff_of_false (noErr_error _) ?_
          rintro ⟨-, -, h⟩
          exact h3 (h 0 b e rfl rfl)

theorem activeObjectIdxsLoop_iff (n b : Nat) (es : List Nat) :
    hasErrors (activeObjectIdxsLoop n b es) = false ↔ (b :: es).Pairwise (· ≤ ·) ∧ ∀ e ∈ es, e ≤ n := by
  induction es generalizing b with
  | nil => simp [activeObjectIdxsLoop, noErr_nil]
  | cons e es ih =>
    unfold activeObjectIdxsLoop
    by_cases h1 : e < b
    · rw [if_pos h1]
      refine iff_of_false (noErr_error _) ?_
      rintro ⟨h, -⟩
      have := (List.pairwise_cons.mp h).1 e (by simp)
      omega
    · rw [if_neg h1]
      by_cases h2 : e > n
      · rw [if_pos h2]
        refine iff_of_false (noErr_error _) ?_
        rintro ⟨-, h⟩
        have := h e (by simp)
        omega
      · rw [if_neg h2, ih e]
        constructor
        · rintro ⟨g1, g2⟩
          refine ⟨List.pairwise_cons.mpr ⟨?_, g1⟩, ?_⟩
          · intro x hx
            rcases List.mem_cons.mp hx with rfl | hx
            · omega
            · have := (List.pairwise_cons.mp g1).1 x hx; omega
          · intro x hx
            rcases List.mem_cons.mp hx with rfl | hx
            · omega
            · exact g2 x hx
        · rintro ⟨g1, g2⟩
          exact ⟨(List.pairwise_cons.mp g1).2, fun x hx => g2 x (by simp [hx])⟩

/-- Starts of sets, followed by the end of the collection. -/
theorem start_getElem? (t : Tracker) (k : Nat) (hk : k ≤ t.nrSets) :
    (t.setIdx ++ [t.ids.length])[k]? = some (t.start k) := by
  unfold Tracker.start Tracker.nrSets at *
  rw [List.getD_eq_getElem?_getD]
  by_cases h : k < t.setIdx.length
  · rw [List.getElem?_append_left h]; simp [h]
  · have : k = t.setIdx.length := by omega
    subst this
    simp

theorem pairwise_snoc {l : List Nat} {n : Nat} : (l ++ [n]).Pairwise (· ≤ ·) ↔ l.Pairwise (· ≤ ·) ∧ ∀ i ∈ l, i ≤ n := by
  rw [List.pairwise_append]; simp

theorem validateTracker_iff (ids : List Nat) (t : Tracker) : hasErrors (validateTracker ids t) = false ↔ TrackerOk ids t := by
  unfold validateTracker
  rw [noErr_append, noErr_append, noErr_append]
  have h1 : hasErrors (validateId ids) = false ↔ ids.Nodup := by
    unfold validateId
    rw [noErr_errorIf, ← idsAreUnique_iff]; cases idsAreUnique ids <;> simp
  have h2 : hasErrors (validateActiveIds t.setIdx t.ids) = false ↔
      (t.setIdx = [] → t.ids = []) ∧ t.setIdx.Pairwise (· ≤ ·) ∧ (∀ i ∈ t.setIdx, i ≤ t.ids.length) ∧
        ∀ k, k < t.nrSets → (t.activeSet k).Nodup := by
    unfold validateActiveIds
    cases hs : t.setIdx with
    | nil => simp [noErr_errorIf, Tracker.nrSets, hs]
    | cons b rest =>
      have hl : b :: (rest ++ [t.ids.length]) = t.setIdx ++ [t.ids.length] := by rw [hs]; rfl
      simp only [reduceCtorEq, false_implies, true_and]
      rw [activeIdsLoop_iff, hl, ← hs, pairwise_snoc]
      constructor
      · rintro ⟨⟨g1, g2⟩, g3, g4⟩
        refine ⟨g1, g2, fun k hk => g4 k _ _ (start_getElem? t k (by omega)) (start_getElem? t (k + 1) (by omega))⟩
      · rintro ⟨g1, g2, g3⟩
        refine ⟨⟨g1, g2⟩, ?_, ?_⟩
        · intro e he
          rcases List.mem_append.mp he with he | he
          · exact g2 e (by rw [hs]; simp [he])
          · simp at he; omega
        · intro k x y hx hy
          have hk : k < t.nrSets := by
            obtain ⟨h, -⟩ := List.getElem?_eq_some_iff.mp hy
            rw [List.length_append] at h; unfold Tracker.nrSets; simp at h; omega
          rw [start_getElem? t k (by omega)] at hx
          rw [start_getElem? t (k + 1) (by omega)] at hy
          cases hx; cases hy
          exact g3 k hk
  have h3 : hasErrors (validateActiveObjectIdxs t.setIdx t.objIdx) = false ↔
      (t.setIdx = [] → t.objIdx = []) ∧
        (t.objIdx ≠ [] → t.setIdx.Pairwise (· ≤ ·) ∧ ∀ i ∈ t.setIdx, i ≤ t.objIdx.length) := by
    unfold validateActiveObjectIdxs
    cases hs : t.setIdx with
    | nil => simp [noErr_errorIf]
    | cons b rest =>
      by_cases ho : t.objIdx = []
      · simp [ho, noErr_nil]
      · have : (!t.objIdx.isEmpty) = true := by simp [ho]
        simp only [this, if_true]
        rw [activeObjectIdxsLoop_iff]
        have hl : b :: (rest ++ [t.objIdx.length]) = (b :: rest) ++ [t.objIdx.length] := rfl
        rw [hl, pairwise_snoc]
        simp only [reduceCtorEq, false_implies, true_and, ne_eq, ho, not_false_eq_true, forall_true_left]
        constructor
        · rintro ⟨g, -⟩; exact g
        · rintro ⟨g1, g2⟩
          refine ⟨⟨g1, g2⟩, ?_⟩
          intro e he
          rcases List.mem_append.mp he with he | he
          · exact g2 e (by simp [he])
          · simp at he; omega
  have h4 : hasErrors (if (!ids.isEmpty) = true then
      errorIf (t.ids.any fun i => !ids.contains i) "active object IDs must be object IDs" else []) = false ↔
      (ids ≠ [] → ∀ i ∈ t.ids, i ∈ ids) := by
    by_cases hi : ids = []
    · simp [hi, noErr_nil]
    · have : (!ids.isEmpty) = true := by simp [hi]
      rw [this, if_pos rfl, noErr_errorIf]
      simp [hi]
  rw [h1, h2, h3, h4]
  constructor
  · rintro ⟨⟨⟨g1, g2, g3, g4, g5⟩, g6, g7⟩, g8⟩
    exact ⟨g1, g3, g4, g5, fun h => ⟨g2 h, g6 h⟩, fun h => (g7 h).2, g8⟩
  · intro g
    exact ⟨⟨⟨g.distinct, fun h => (g.empty h).1, g.ordered, g.within, g.once⟩, fun h => (g.empty h).2,
      fun h => ⟨g.ordered, g.indices h⟩⟩, g.known⟩

/-! ### Time, space -/

theorem bne_false_iff (a b : Nat) : (a != b) = false ↔ a = b := by simp

theorem validateTime_iff (t : Tracker) (d : TimeItems) : hasErrors (validateTime t d) = false ↔ TimeOk t d := by
  cases d with
  | box boxes =>
    simp only [validateTime, validateTimeBox, noErr_append, increasing_iff, flat_pairwise, noErr_errorIf, bne_false_iff, TimeOk, Tracker.nrSets]
  | cell boxes counts =>
    simp only [validateTime, validateTimeCell, noErr_append, increasing_iff, flat_pairwise, TimeOk, Tracker.nrSets]
    by_cases h : counts.length = boxes.length
    · simp [h, noErr_errorIf]
    · simp [h, hasErrors]
  | point points =>
    simp only [validateTime, validateTimePoint, noErr_append, increasing_iff, noErr_errorIf, bne_false_iff, TimeOk, Tracker.nrSets]

theorem validateSpace_iff (ids : List Nat) (t : Tracker) (s : SpaceDomain) : hasErrors (validateSpace ids t s) = false ↔ SpaceOk ids t s := by
  unfold validateSpace SpaceOk
  cases s.mobile <;> simp [validateValueSame, validateValueSameConstant, noErr_errorIf]

theorem validatePresence_iff (s : SpaceDomain) (time : Option TimeDomain) :
    hasErrors (validatePresence s time) = false ↔ PresenceOk s time := by
  unfold validatePresence PresenceOk
  cases hp : s.presence with
  | none => simp [noErr_nil]
  | some p =>
    simp only [Option.some.injEq, forall_eq']
    cases hb : s.isBox with
    | false => simp [hasErrors]
    | true =>
      cases hm : s.mobile with
      | true => simp [noErr_warning]
      | false =>
        simp only [Bool.not_true, Bool.false_eq_true, if_false, true_and, forall_true_left]
        cases hk : p.kind <;> simp only [Kind.isConstant, if_true, Bool.false_eq_true, if_false, noErr_warning, ne_eq, reduceCtorEq,
          not_true_eq_false, not_false_eq_true, false_implies, forall_true_left, true_iff, implies_true]
        all_goals
          cases p.timeDomain <;> cases time <;> simp [noErr_nil, noErr_errorIf]

/-! ### Properties -/

theorem validateRegularGrid_iff (target : Target) (n : Nat) (hc : target.kind.isConstant = true) :
    hasErrors (validateRegularGrid target n) = false ↔ GridOk target n := by
  unfold validateRegularGrid GridOk
  cases hk : target.kind <;> rw [hk] at hc <;> simp [Kind.isConstant] at hc
  · cases hcol : target.collection <;> simp [Kind.isSame, noErr_append, noErr_errorIf] <;> tauto
  · simp [Kind.isSame, hasErrors]

theorem validateSame_iff (ids : List Nat) (p : Same) : Accepts (validateSame ids p) ↔ SameOk ids p := by
  simp [validateSame, accepts_ok, noErr_append, noErr_notSupportedIf, validateValueSame, noErr_errorIf, SameOk]

theorem noErr_flatMap {α : Type} (l : List α) (f : α → List Issue) :
    hasErrors (l.flatMap f) = false ↔ ∀ x ∈ l, hasErrors (f x) = false := by
  induction l with
  | nil => simp [noErr_nil]
  | cons x l ih => simp [noErr_append, ih]

theorem validateValueDifferent_iff (ids : List Nat) (n : Nat) (objects : List Nat) :
    hasErrors (validateValueDifferent ids n objects) = false ↔ n = ids.length ∧ ∀ i ∈ ids, i ∈ objects := by
  unfold validateValueDifferent
  by_cases h : n = ids.length
  · simp only [h, bne_self_eq_false, Bool.false_eq_true, if_false, noErr_flatMap, noErr_errorIf, true_and]
    simp
  · simp [h, hasErrors]

theorem validateDifferent_iff (ids : List Nat) (p : Different) : Accepts (validateDifferent ids p) ↔ DifferentOk ids p := by
  unfold validateDifferent DifferentOk
  rw [accepts_ok, noErr_append, noErr_append, validateValueDifferent_iff]
  simp only [noErr_notSupportedIf, and_true, and_assoc]
  refine and_congr_right fun _ => and_congr_right fun _ => ?_
  cases hs : p.discr.space with
  | none => simp [noErr_nil]
  | some target =>
    simp only [Option.some.injEq, forall_eq']
    cases hc : target.kind.isConstant with
    | true => simpa [hc] using validateRegularGrid_iff target p.nrObjects hc
    | false =>
      simp only [Bool.not_false, if_true]
      refine iff_of_false (noErr_error _) fun h => ?_
      rw [h.1] at hc; exact absurd hc (by decide)

theorem validateSameConstant_iff (t : Tracker) (p : SameConstant) : Accepts (validateSameConstant t p) ↔ SameConstantOk t p := by
  unfold validateSameConstant SameConstantOk
  rw [accepts_ok, noErr_append, noErr_append]
  simp only [noErr_notSupportedIf, and_true, validateValueSameConstant, noErr_errorIf, bne_false_iff]
  refine and_congr_right fun _ => ?_
  cases hs : p.discr.space with
  | none => simp [noErr_nil]
  | some target =>
    simp only [Option.some.injEq, forall_eq']
    cases hc : target.kind.isConstant with
    | true =>
      rw [if_pos rfl, validateRegularGrid_iff target 1 hc]
      constructor
      · intro h _; exact h
      · intro h
        apply h
        cases hk : target.kind <;> rw [hk] at hc <;> simp [Kind.isConstant] at hc ⊢
    | false =>
      simp only [Bool.false_eq_true, if_false, noErr_warning, true_iff]
      intro h
      rcases h with h | h <;> rw [h] at hc <;> exact absurd hc (by decide)

theorem distinct_eq (l : List Nat) : distinct l = l.dedup := by
  induction l with
  | nil => rfl
  | cons x l ih =>
    unfold distinct
    by_cases h : x ∈ l
    · rw [List.dedup_cons_of_mem h, ← ih]; simp [h]
    · rw [List.dedup_cons_of_notMem h, ← ih]; simp [h]

/-- What must hold for the j-th active object. -/
def EntryOk (t : Tracker) (arrays : List (Nat × Nat)) (j : Nat) : Prop :=
  ∃ id idx nr, t.ids[j]? = some id ∧ t.objIdx[j]? = some idx ∧ arrays.lookup id = some nr ∧ idx < nr

theorem activeSetLoop_iff (t : Tracker) (arrays : List (Nat × Nat)) (k n : Nat) :
    Accepts (activeSetLoop t arrays k n) ↔ ∀ j, k ≤ j → j < k + n → EntryOk t arrays j := by
  induction n generalizing k with
  | zero =>
    simp only [activeSetLoop, accepts_ok, noErr_nil, true_iff]
    intro j h1 h2; omega
  | succ n ih =>
    have hsplit : (∀ j, k ≤ j → j < k + (n + 1) → EntryOk t arrays j) ↔
        EntryOk t arrays k ∧ ∀ j, k + 1 ≤ j → j < k + 1 + n → EntryOk t arrays j := by
      constructor
      · intro h; exact ⟨h k (by omega) (by omega), fun j h1 h2 => h j (by omega) (by omega)⟩
      · rintro ⟨h1, h2⟩ j h3 h4
        by_cases e : j = k
        · subst e; exact h1
        · exact h2 j (by omega) (by omega)
    rw [hsplit, ← ih (k + 1)]
    rw [activeSetLoop]
    unfold EntryOk
    cases h1 : t.ids[k]? with
    | none => simp [accepts_error]
    | some id =>
      cases h2 : t.objIdx[k]? with
      | none => simp [accepts_error]
      | some idx =>
        cases h3 : arrays.lookup id with
        | none => simp [accepts_error, h3]
        | some nr =>
          simp only [h3]
          by_cases h4 : idx ≥ nr
          · simp only [h4, if_true]
            refine iff_of_false (by rw [accepts_ok]; exact noErr_error _) ?_
            rintro ⟨⟨a, b, c, e1, e2, e3, e4⟩, -⟩
            cases e1; cases e2
            rw [h3] at e3; cases e3; omega
          · simp only [h4, if_false]
            constructor
            · intro h
              exact ⟨⟨id, idx, nr, rfl, rfl, h3, by omega⟩, h⟩
            · exact fun h => h.2

theorem activeSetsLoop_iff (t : Tracker) (arrays : List (Nat × Nat)) (b : Nat) (es : List Nat)
    (ho : (b :: es).Pairwise (· ≤ ·)) :
    Accepts (activeSetsLoop t arrays b es) ↔ ∀ j, b ≤ j → j < es.getLast?.getD b → EntryOk t arrays j := by
  induction es generalizing b with
  | nil =>
    simp only [activeSetsLoop, accepts_ok, noErr_nil, true_iff]
    intro j h1 h2; simp at h2; omega
  | cons e es ih =>
    unfold activeSetsLoop
    have ho' := List.pairwise_cons.mp ho
    have hbe : b ≤ e := ho'.1 e (by simp)
    rw [accepts_andThen, activeSetLoop_iff, ih e ho'.2]
    have hlast : (e :: es).getLast?.getD b = es.getLast?.getD e := by
      cases es with
      | nil => simp
      | cons x es => simp [List.getLast?_cons]
    rw [hlast]
    have hle : e ≤ es.getLast?.getD e := by
      cases hl : es.getLast? with
      | none => simp
      | some x => simpa using (List.pairwise_cons.mp ho'.2).1 x (List.mem_of_getLast? hl)
    constructor
    · rintro ⟨h1, h2⟩ j h3 h4
      by_cases h : j < e
      · exact h1 j h3 (by omega)
      · exact h2 j (by omega) h4
    · intro h
      exact ⟨fun j h1 h2 => h j h1 (by omega), fun j h1 h2 => h j (by omega) h2⟩

theorem validateValueDifferentConstant_iff {ids : List Nat} {t : Tracker} (ht : TrackerOk ids t) (n : Nat) (arrays : List (Nat × Nat)) :
    Accepts (validateValueDifferentConstant t n arrays) ↔
      n = t.ids.dedup.length ∧ (∀ i ∈ t.ids, ∃ nr, arrays.lookup i = some nr) ∧
        ∀ j, t.start 0 ≤ j → j < t.ids.length → EntryOk t arrays j := by
  unfold validateValueDifferentConstant
  simp only [distinct_eq]
  by_cases h1 : n = t.ids.dedup.length
  · simp only [h1, bne_self_eq_false, Bool.false_eq_true, if_false, true_and]
    have hany : (t.ids.dedup.any fun id => (arrays.lookup id).isNone) = false ↔ ∀ i ∈ t.ids, ∃ nr, arrays.lookup i = some nr := by
      rw [List.any_eq_false]
      constructor
      · intro h i hi
        have := h i (List.mem_dedup.mpr hi)
        cases hl : arrays.lookup i with
        | none => simp [hl] at this
        | some nr => exact ⟨nr, rfl⟩
      · intro h i hi
        obtain ⟨nr, e⟩ := h i (List.mem_dedup.mp hi)
        simp [e]
    by_cases h2 : (t.ids.dedup.any fun id => (arrays.lookup id).isNone) = true
    · rw [if_pos h2]
      refine iff_of_false (by rw [accepts_ok]; exact noErr_error _) ?_
      rintro ⟨h, -⟩
      rw [← hany] at h; rw [h] at h2; cases h2
    · rw [if_neg h2]
      have h2' := hany.mp (by simpa using h2)
      rw [and_iff_right h2']
      cases hs : t.setIdx ++ [t.ids.length] with
      | nil => simp at hs
      | cons b es =>
        have hp : (b :: es).Pairwise (· ≤ ·) := by
          rw [← hs]; exact pairwise_snoc.mpr ⟨ht.ordered, ht.within⟩
        have hb : t.start 0 = b := by
          have := start_getElem? t 0 (by omega)
          rw [hs] at this; simpa using this.symm
        have hl : (b :: es).getLast? = some t.ids.length := by rw [← hs]; simp
        rw [activeSetsLoop_iff t arrays b es hp, hb]
        have hl' : es.getLast?.getD b = t.ids.length := by
          rw [List.getLast?_cons] at hl; simpa using hl
        rw [hl']
  · have : (n != t.ids.dedup.length) = true := by simp [h1]
    rw [this, if_pos rfl]
    refine iff_of_false (by rw [accepts_ok]; exact noErr_error _) fun h => h1 h.1

theorem validateDifferentConstant_iff {ids : List Nat} {t : Tracker} (ht : TrackerOk ids t) (p : DifferentConstant) :
    Accepts (validateDifferentConstant t p) ↔ DifferentConstantOk t p := by
  unfold validateDifferentConstant DifferentConstantOk
  rw [accepts_andThen, validateValueDifferentConstant_iff ht, accepts_ok, noErr_append]
  simp only [noErr_notSupportedIf, true_and, and_assoc]
  refine and_congr_right fun _ => and_congr_right fun _ => and_congr_right fun _ => ?_
  cases hs : p.discr.space with
  | none => simp [noErr_nil]
  | some target =>
    simp only [Option.some.injEq, forall_eq']
    cases hc : target.kind.isConstant with
    | true => simpa [hc] using validateRegularGrid_iff target p.nrObjects hc
    | false =>
      simp only [Bool.not_false, if_true]
      refine iff_of_false (noErr_error _) fun h => ?_
      rw [h.1] at hc; exact absurd hc (by decide)

theorem variableLoop_iff (arrays : List Nat) (i b : Nat) (es : List Nat) :
    Accepts (variableLoop arrays i b es) ↔
      ∀ k x y, (b :: es)[k]? = some x → (b :: es)[k + 1]? = some y → arrays[i + k]? = some (y - x) := by
  induction es generalizing i b with
  | nil => simp [variableLoop, accepts_ok, noErr_nil]
  | cons e es ih =>
    unfold variableLoop
    have hsplit : (∀ k x y, (b :: e :: es)[k]? = some x → (b :: e :: es)[k + 1]? = some y → arrays[i + k]? = some (y - x)) ↔
        arrays[i]? = some (e - b) ∧
          ∀ k x y, (e :: es)[k]? = some x → (e :: es)[k + 1]? = some y → arrays[i + 1 + k]? = some (y - x) := by
      constructor
      · intro h
        refine ⟨h 0 b e rfl rfl, fun k x y hx hy => ?_⟩
        have := h (k + 1) x y (by simpa using hx) (by simpa using hy)
        rw [← this]; congr 1; omega
      · rintro ⟨h1, h2⟩ k x y hx hy
        cases k with
        | zero => simp at hx hy; subst hx; subst hy; exact h1
        | succ k =>
          have := h2 k x y (by simpa using hx) (by simpa using hy)
          rw [← this]; congr 1; omega
    rw [hsplit, ← ih (i + 1) e]
    cases h1 : arrays[i]? with
    | none => simp [accepts_error]
    | some nr =>
      by_cases h2 : nr = e - b
      · simp [h2]
      · have : (nr != e - b) = true := by simp [h2]
        simp only [this, if_true]
        refine iff_of_false (by rw [accepts_ok]; exact noErr_error _) ?_
        rintro ⟨h, -⟩
        exact h2 (by simpa using h)

theorem activeSet_length {ids : List Nat} {t : Tracker} (ht : TrackerOk ids t) {k : Nat} (hk : k < t.nrSets) :
    (t.activeSet k).length = t.start (k + 1) - t.start k := by
  unfold Tracker.activeSet
  rw [List.length_take, List.length_drop]
  have h1 := start_getElem? t (k + 1) (by omega)
  have : t.start (k + 1) ≤ t.ids.length := by
    have hm := List.mem_of_getElem? h1
    rcases List.mem_append.mp hm with hm | hm
    · exact ht.within _ hm
    · simp at hm; omega
  omega

theorem validateValueSameVariable_iff {ids : List Nat} {t : Tracker} (ht : TrackerOk ids t) (arrays : List Nat) :
    Accepts (validateValueSameVariable t arrays) ↔
      arrays.length = t.nrSets ∧ ∀ k, k < t.nrSets → arrays[k]? = some (t.activeSet k).length := by
  unfold validateValueSameVariable
  by_cases h1 : arrays.length = t.setIdx.length
  · simp only [h1, bne_self_eq_false, Bool.false_eq_true, if_false]
    rw [show t.nrSets = t.setIdx.length from rfl]
    simp only [true_and]
    cases hs : t.setIdx ++ [t.ids.length] with
    | nil => simp at hs
    | cons b es =>
      simp only
      rw [variableLoop_iff, ← hs]
      constructor
      · intro h k hk
        have := h k _ _ (start_getElem? t k (by unfold Tracker.nrSets; omega)) (start_getElem? t (k + 1) (by unfold Tracker.nrSets; omega))
        rw [activeSet_length ht hk, ← this]; congr 1; omega
      · intro h k x y hx hy
        have hk : k < t.nrSets := by
          obtain ⟨h, -⟩ := List.getElem?_eq_some_iff.mp hy
          rw [List.length_append] at h; unfold Tracker.nrSets; simp at h; omega
        rw [start_getElem? t k (by omega)] at hx
        rw [start_getElem? t (k + 1) (by omega)] at hy
        cases hx; cases hy
        rw [← activeSet_length ht hk, ← h k hk]; congr 1; omega
  · have : (arrays.length != t.setIdx.length) = true := by simp [h1]
    rw [this, if_pos rfl]
    refine iff_of_false (by rw [accepts_ok]; exact noErr_error _) fun h => h1 h.1

theorem validateTimeGrid_iff (target : Target) : Accepts (validateTimeGrid target) ↔ target.kind = .sameConstant := by
  unfold validateTimeGrid
  cases hk : target.kind <;> simp [accepts_error, accepts_ok, Kind.isConstant, Kind.isSame, errorIf, hasErrors]

theorem validateSameVariable_iff {ids : List Nat} {t : Tracker} (ht : TrackerOk ids t) (p : SameVariable) :
    Accepts (validateSameVariable t p) ↔ SameVariableOk t p := by
  unfold validateSameVariable SameVariableOk
  rw [accepts_andThen, accepts_andThen, validateValueSameVariable_iff ht, accepts_ok]
  simp only [noErr_notSupportedIf, and_true, and_assoc]
  refine and_congr_right fun _ => and_congr_right fun _ => ?_
  cases p.discr.time with
  | none => simp [accepts_ok, noErr_nil]
  | some target => simp [validateTimeGrid_iff]

theorem validateDifferentVariable_iff (t : Tracker) (p : DifferentVariable) :
    Accepts (validateDifferentVariable t p) ↔ DifferentVariableOk t p := by
  unfold validateDifferentVariable DifferentVariableOk Tracker.nrSets
  rw [accepts_ok, noErr_append, noErr_append]
  simp only [noErr_notSupportedIf, and_true, validateValueDifferentVariable]
  by_cases h : p.nrTimes = t.setIdx.length
  · simp [h, noErr_warning]
  · simp [h, hasErrors]

theorem validateProperties_iff {ids : List Nat} {t : Tracker} (ht : TrackerOk ids t) (p : Properties) :
    Accepts (validateProperties ids t p) ↔ PropertiesOk ids t p := by
  unfold validateProperties
  simp only [accepts_andThen, accepts_forEach, validateSame_iff, validateDifferent_iff, validateSameConstant_iff,
    validateDifferentConstant_iff ht, validateSameVariable_iff ht, validateDifferentVariable_iff]
  constructor
  · rintro ⟨h1, h2, h3, h4, h5, h6⟩; exact ⟨h1, h2, h3, h4, h5, h6⟩
  · intro h; exact ⟨h.same, h.different, h.sameConstant, h.differentConstant, h.sameVariable, h.differentVariable⟩

theorem validatePropertySet_iff (ids : List Nat) (s : PropertySet) : Accepts (validatePropertySet ids s) ↔ PropertySetOk ids s := by
  unfold validatePropertySet
  by_cases h : hasErrors (validateTracker ids s.tracker) = false
  · have ht := (validateTracker_iff _ _).mp h
    simp only [h, Bool.false_eq_true, if_false]
    rw [accepts_andThen, accepts_ok, noErr_append, noErr_append, validateProperties_iff ht]
    constructor
    · rintro ⟨⟨⟨-, h1⟩, h2⟩, h3⟩
      refine ⟨ht, ?_, ?_, h3⟩
      · intro d hd
        rw [hd] at h1
        exact (validateTime_iff _ _).mp h1
      · intro d hd
        rw [hd] at h2
        simp only [noErr_append] at h2
        exact ⟨(validateSpace_iff _ _ _).mp h2.1, (validatePresence_iff _ _).mp h2.2⟩
    · intro g
      refine ⟨⟨⟨h, ?_⟩, ?_⟩, g.properties⟩
      · cases hd : s.time with
        | none => rfl
        | some d => exact (validateTime_iff _ _).mpr (g.time d hd)
      · cases hd : s.space with
        | none => rfl
        | some d =>
          simp only [noErr_append]
          exact ⟨(validateSpace_iff _ _ _).mpr (g.space d hd).1, (validatePresence_iff _ _).mpr (g.space d hd).2⟩
  · have h' : hasErrors (validateTracker ids s.tracker) = true := by simpa using h
    simp only [h', if_true]
    refine iff_of_false (by rw [accepts_ok]; exact h) fun g => h ((validateTracker_iff _ _).mpr g.tracker)

theorem validateCollectionPropertySet_iff (s : PropertySet) : Accepts (validateCollectionPropertySet s) ↔ CollectionOk s := by
  unfold validateCollectionPropertySet CollectionOk collectionId
  rw [accepts_andThen, validatePropertySet_iff, accepts_ok]
  refine and_congr_right fun _ => ?_
  simp only [Bool.or_eq_true, Bool.not_eq_true', List.isEmpty_eq_false_iff]
  by_cases h : s.properties.sameConstant ≠ [] ∨ s.properties.sameVariable ≠ [] ∨ s.properties.differentConstant ≠ []
  · rw [if_pos (by tauto), noErr_append, noErr_errorIf, bne_false_iff]
    simp only [h, forall_true_left]
    rw [show s.tracker.nrSets = s.tracker.setIdx.length from rfl]
    constructor
    · exact fun g => g.1
    · intro g
      refine ⟨g, ?_⟩
      split
      · rw [noErr_errorIf, bne_false_iff]; exact g
      · rfl
  · rw [if_neg (by tauto)]
    simp [noErr_nil, h]

theorem validatePhenomenon_iff (p : Phenomenon) : Accepts (validatePhenomenon p) ↔ PhenomenonOk p := by
  unfold validatePhenomenon PhenomenonOk
  simp only [accepts_andThen, accepts_forEach, validatePropertySet_iff, validateCollectionPropertySet_iff]

theorem validate_iff (d : Dataset) : Accepts (validate d) ↔ DatasetOk d := by
  unfold validate DatasetOk
  simp only [accepts_andThen, accepts_forEach, validatePhenomenon_iff]

end Lue.Validate

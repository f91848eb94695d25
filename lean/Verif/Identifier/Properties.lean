import Verif.Identifier.Proofs

/-!
C45: handles to HDF5 objects.

Whatever a program does with instances of the class (constructing, copying, moving, assigning, also to themselves, destructing,
in any order and number), the instances behave like variables naming objects, and an object is open exactly as long as there is an
instance naming it.
-/
namespace Lue.Identifier

/-- No step fails, and afterwards an identifier is in use by HDF5 if and only if it is named by some instance (and HDF5 has not closed
it itself). Its reference count is the number of instances naming it. -/
theorem identifier_open_iff_named {base : Nat} {l : List Op} {a : Vars} (h : History base l a) :
    ∃ s, run (initial base) l = .ok s ∧
      (∀ i, 0 < s.h5.count i ↔ a.Open i) ∧
      (∀ i, i ∉ a.killed → s.h5.count i = a.vars.count (some (some i))) := by
  obtain ⟨s, e, hi⟩ := run_inv h
  refine ⟨s, e, ?_, ?_⟩
  · intro i
    rw [hi.counts.count i, Vars.Open, ← names_pos_iff]
    split <;> simp_all
  · intro i hk
    rw [hi.counts.count i, if_neg hk]
    unfold names List.count
    congr 1
    funext v
    exact (beq_eq_decide v _).symm

/-- Every instance that exists holds the identifier of the object it names, and says it is valid if and only if it names one that is open. -/
theorem identifier_is_valid {base : Nat} {l : List Op} {a : Vars} (h : History base l a) {j : Nat} (ha : a.Alive j) :
    ∃ s hd, run (initial base) l = .ok s ∧ s.handle j = .ok hd ∧
      (∀ i, a.get j = some i → hd.id = i) ∧
      (isValid s.h5 hd = true ↔ ∃ i, a.get j = some i ∧ a.Open i) := by
  obtain ⟨s, e, hi⟩ := run_inv h
  obtain ⟨hd, e1, e2, hr, e3⟩ := hi.alive ha
  refine ⟨s, hd, e, e2, ?_, ?_⟩
  · intro i hg
    rw [hg] at hr
    obtain ⟨h1, -⟩ : hd = ⟨i, .h5⟩ ∧ _ := hr
    rw [h1]
  · rw [isValid_iff hi.counts hr]
    constructor
    · rintro ⟨i, h1, h2, h3⟩; exact ⟨i, h1, (names_pos_iff _ _).mp h3, h2⟩
    · rintro ⟨i, h1, h2, h3⟩; exact ⟨i, h1, h3, (names_pos_iff _ _).mpr h2⟩

/-- Objects are closed at most once, and those closed are the ones which have been opened and are not named anymore. -/
theorem identifier_closed_once {base : Nat} {l : List Op} {a : Vars} (h : History base l a) :
    ∃ s, run (initial base) l = .ok s ∧ s.h5.closed.Nodup ∧
      ∀ i, i ∈ s.h5.closed ↔ (base : Int) ≤ i ∧ i < a.next ∧ i ∉ a.killed ∧ some (some i) ∉ a.vars := by
  obtain ⟨s, e, hi⟩ := run_inv h
  have hb : a.base = base := by
    clear hi e
    induction h with
    | nil => rfl
    | snoc h hl ih => rename_i a op; cases op <;> exact ih
  refine ⟨s, e, hi.counts.once, fun i => ?_⟩
  rw [hi.counts.closed i, hb, ← names_pos_iff]
  simp

/-- When the last instance is gone, nothing is left open. -/
theorem identifier_no_leak {base : Nat} {l : List Op} {a : Vars} (h : History base l a) (hnone : ∀ v ∈ a.vars, v = none) :
    ∃ s, run (initial base) l = .ok s ∧ ∀ i, s.h5.count i = 0 := by
  obtain ⟨s, e, h1, -⟩ := identifier_open_iff_named h
  refine ⟨s, e, fun i => ?_⟩
  by_contra hc
  have := (h1 i).mp (by omega)
  exact absurd (hnone _ this.1) (by simp)

/-- The steps themselves: an object that was open before a step, and is not named after it, is closed by that step; all other objects
stay as they are. -/
theorem identifier_closed_when_last_name_disappears {base : Nat} {l : List Op} {a : Vars} (h : History base l a) {op : Op}
    (hl : a.Legal op) {i : Int} (ho : a.Open i) (hk : i ∉ (a.step op).killed) :
    ∃ s s', run (initial base) l = .ok s ∧ run (initial base) (l ++ [op]) = .ok s' ∧
      i ∉ s.h5.closed ∧ (i ∈ s'.h5.closed ↔ some (some i) ∉ (a.step op).vars) := by
  obtain ⟨s, e, h1, h2⟩ := identifier_closed_once h
  obtain ⟨s', e', h1', h2'⟩ := identifier_closed_once (.snoc h hl)
  obtain ⟨s0, e0, hi⟩ := run_inv h
  obtain ⟨s1, e1, hi1⟩ := run_inv (.snoc h hl)
  refine ⟨s, s', e, e', ?_, ?_⟩
  · intro hc
    exact ((h2 i).mp hc).2.2.2 ho.1
  · rw [h2' i]
    have hr := hi.counts.names i ((names_pos_iff _ _).mpr ho.1)
    have hn : a.next ≤ (a.step op).next := by cases op <;> simp only [Vars.step] <;> omega
    have hb : a.base = base := by
      clear * - h
      induction h with
      | nil => rfl
      | snoc h hl ih => rename_i a op; cases op <;> exact ih
    constructor
    · exact fun hc => hc.2.2.2
    · exact fun hc => ⟨by omega, by omega, hk, hc⟩

/-- A history: open a file and a group, copy, assign over, move onto itself, fail to open, use a predefined type, destruct everything. -/
def exampleOps : List Op :=
  [.open_, .open_, .copy 0, .copyAssign 1 2, .moveAssign 2 2, .openFails, .predefined 3, .copy 4, .move 0, .reopen 7, .destruct 0,
   .destruct 1, .destruct 2, .destruct 3, .destruct 4, .destruct 5, .destruct 6]

/-- What the instances name in the end: the file is still named by the last one. -/
def exampleVars : Vars :=
  { vars := [none, none, none, none, none, none, none, some (some 7)], base := 7, next := 9, killed := [] }

/-- The history is one to which the theorems apply. -/
example : History 7 exampleOps exampleVars := by
  have h := History.nil (base := 7)
  have h := h.snoc (op := .open_) trivial
  have h := h.snoc (op := .open_) trivial
  have h := h.snoc (op := .copy 0) ⟨_, rfl⟩
  have h := h.snoc (op := .copyAssign 1 2) ⟨⟨_, rfl⟩, ⟨_, rfl⟩⟩
  have h := h.snoc (op := .moveAssign 2 2) ⟨⟨_, rfl⟩, ⟨_, rfl⟩⟩
  have h := h.snoc (op := .openFails) trivial
  have h := h.snoc (op := .predefined 3) (show (3 : Int) < 7 by decide)
  have h := h.snoc (op := .copy 4) ⟨_, rfl⟩
  have h := h.snoc (op := .move 0) ⟨_, rfl⟩
  have h := h.snoc (op := .reopen 7) ⟨by decide, by decide⟩
  have h := h.snoc (op := .destruct 0) ⟨_, rfl⟩
  have h := h.snoc (op := .destruct 1) ⟨_, rfl⟩
  have h := h.snoc (op := .destruct 2) ⟨_, rfl⟩
  have h := h.snoc (op := .destruct 3) ⟨_, rfl⟩
  have h := h.snoc (op := .destruct 4) ⟨_, rfl⟩
  have h := h.snoc (op := .destruct 5) ⟨_, rfl⟩
  have h := h.snoc (op := .destruct 6) ⟨_, rfl⟩
  exact h

/-- In it, the group is closed by the assignment, and the file stays open. -/
example : (run (initial 7) exampleOps).toOption.map (fun s => (s.h5.closed, s.h5.count 7, s.h5.count 8)) = some ([8], 1, 0) := by
  decide

end Lue.Identifier

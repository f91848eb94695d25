import Verif.Clump.Fill

/-!
C23: the clumps in an array stored in a single partition.
-/
namespace Lue.Clump

open Relation

variable {Z : Type} [DecidableEq Z] {nr nc : Nat} {zones : List (Option Z)}

theorem Adjacent.symm {diagonal : Bool} {c c' : Nat × Nat} (h : Adjacent diagonal c c') : Adjacent diagonal c' c := by
  rcases h with ⟨h1, h2⟩ | ⟨h1, h2⟩
  · exact .inl ⟨h1.symm, h2.symm⟩
  · refine .inr ⟨h1.symm, ?_⟩
    rcases h2 with h2 | ⟨h2, h3⟩
    · exact .inl h2.symm
    · exact .inr ⟨h2, h3.symm⟩

theorem Linked.symm {Z : Type} {diagonal : Bool} {zone : Nat × Nat → Option Z} {c c' : Nat × Nat}
    (h : Linked diagonal zone c c') : Linked diagonal zone c' c :=
  ⟨h.1.symm, by rw [← h.2.2]; exact h.2.1, h.2.2.symm⟩

instance linked_symmetric {Z : Type} {diagonal : Bool} {zone : Nat × Nat → Option Z} : Std.Symm (Linked diagonal zone) :=
  ⟨fun _ _ h => h.symm⟩

theorem path_symm {Z : Type} {diagonal : Bool} {zone : Nat × Nat → Option Z} {c c' : Nat × Nat}
    (h : ReflTransGen (Linked diagonal zone) c c') : ReflTransGen (Linked diagonal zone) c' c :=
  ReflTransGen.symmetric.symm _ _ h

theorem path_zone {Z : Type} {diagonal : Bool} {zone : Nat × Nat → Option Z} {c c' : Nat × Nat}
    (h : ReflTransGen (Linked diagonal zone) c c') : zone c = zone c' := by
  induction h with
  | refl => rfl
  | tail _ h ih => exact ih.trans h.2.2

/-- The clumps found so far are complete, and all clumps with cells in the set of visited cells have been found. -/
structure VisitInv (nr nc : Nat) (diagonal : Bool) (zones : List (Option Z)) (visited : Nat × Nat → Prop)
    (s : List (Option Nat) × Nat) : Prop where
  len : s.1.length = nr * nc
  zone : ∀ c, at2 nc s.1 c ≠ none → at2 nc zones c ≠ none
  done : ∀ c, visited c → at2 nc zones c ≠ none → at2 nc s.1 c ≠ none
  linked : ∀ c c', Linked diagonal (at2 nc zones) c c' → at2 nc s.1 c = at2 nc s.1 c'
  same : ∀ c c' id, at2 nc s.1 c = some id → at2 nc s.1 c' = some id → ReflTransGen (Linked diagonal (at2 nc zones)) c c'
  ids : ∀ id, (∃ c, at2 nc s.1 c = some id) ↔ id < s.2
  origin : ∀ c, at2 nc s.1 c ≠ none → ∃ c', visited c' ∧ ReflTransGen (Linked diagonal (at2 nc zones)) c' c

theorem visit_ok (hz : zones.length = nr * nc) {diagonal : Bool} {row col fuel : Nat} (hr : row < nr) (hc : col < nc)
    (hfuel : 4 * (nr * nc) + 2 < fuel) {visited : Nat × Nat → Prop} {s : List (Option Nat) × Nat}
    (hs : VisitInv nr nc diagonal zones visited s) (hwest : ∀ c, c + 1 = col → visited (row, c)) :
    ∃ s', visit fuel nr nc diagonal zones row col s = .ok s' ∧
      VisitInv nr nc diagonal zones (fun c => visited c ∨ c = (row, col)) s' := by
  unfold visit
  rw [get_ok hz hr hc, M.bind_ok, get_ok hs.len hr hc]
  have hskip : (at2 nc zones (row, col) ≠ none → at2 nc s.1 (row, col) ≠ none) →
      VisitInv nr nc diagonal zones (fun c => visited c ∨ c = (row, col)) s := fun h =>
    { len := hs.len, zone := hs.zone, linked := hs.linked, same := hs.same, ids := hs.ids
      done := fun c hv hz => by
        rcases hv with hv | rfl
        · exact hs.done c hv hz
        · exact h hz
      origin := fun c hn => by
        obtain ⟨c', h1, h2⟩ := hs.origin c hn
        exact ⟨c', .inl h1, h2⟩ }
  cases hzc : cell nc zones row col with
  | none =>
    refine ⟨s, ?_, hskip fun h => absurd hzc h⟩
    rfl
  | some z =>
    cases hcc : cell nc s.1 row col with
    | some v =>
      refine ⟨s, ?_, hskip fun _ => by unfold at2; rw [hcc]; simp⟩
      rfl
    | none =>
      have hcl : Closed nc diagonal zones s.1 := fun c c' h => by rw [hs.linked c c' h]
      have hpre : ∀ c, c + 1 = col → cell nc zones row c ≠ cell nc zones row col := by
        intro c h1 h2
        have hzn : at2 nc zones (row, c) ≠ none := by unfold at2; rw [h2, hzc]; simp
        have hm := hs.done (row, c) (hwest c h1) hzn
        have := hs.linked (row, c) (row, col) ⟨.inl ⟨rfl, .inl h1⟩, hzn, h2⟩
        exact hm (this.trans hcc)
      obtain ⟨cl, h1, h2, h3⟩ := floodFill_ok (clumpId := s.2) hz hs.len hcl (by rw [hzc]; simp) hcc hpre hfuel
      refine ⟨(cl, s.2 + 1), ?_, h2, ?_, ?_, ?_, ?_, ?_, ?_⟩
      · simp only [andThen, Option.isSome, if_true, M.bind_ok, Option.isNone, h1]
        rfl
      · intro c hm
        by_cases hp : ReflTransGen (Linked diagonal (at2 nc zones)) (row, col) c
        · rw [← path_zone hp]; unfold at2; rw [hzc]; simp
        · simp only [(h3 c).2 hp] at hm; exact hs.zone c hm
      · intro c hv hzn
        simp only
        by_cases hp : ReflTransGen (Linked diagonal (at2 nc zones)) (row, col) c
        · rw [((h3 c).1 hp).2]; simp
        · rw [(h3 c).2 hp]
          rcases hv with hv | rfl
          · exact hs.done c hv hzn
          · exact absurd .refl hp
      · intro c c' hl
        simp only
        by_cases hp : ReflTransGen (Linked diagonal (at2 nc zones)) (row, col) c
        · rw [((h3 c).1 hp).2, ((h3 c').1 (hp.tail hl)).2]
        · have hp' : ¬ ReflTransGen (Linked diagonal (at2 nc zones)) (row, col) c' := fun h => hp (h.tail hl.symm)
          rw [(h3 c).2 hp, (h3 c').2 hp', hs.linked c c' hl]
      · intro c c' id e1 e2
        simp only at e1 e2
        by_cases hp : ReflTransGen (Linked diagonal (at2 nc zones)) (row, col) c
        · rw [((h3 c).1 hp).2] at e1
          by_cases hp' : ReflTransGen (Linked diagonal (at2 nc zones)) (row, col) c'
          · exact (path_symm hp).trans hp'
          · rw [(h3 c').2 hp', ← e1] at e2
            have := (hs.ids s.2).1 ⟨c', e2⟩
            omega
        · rw [(h3 c).2 hp] at e1
          by_cases hp' : ReflTransGen (Linked diagonal (at2 nc zones)) (row, col) c'
          · rw [((h3 c').1 hp').2, ← e1] at e2
            have := (hs.ids s.2).1 ⟨c, e2.symm⟩
            omega
          · rw [(h3 c').2 hp'] at e2
            exact hs.same c c' id e1 e2
      · intro id
        simp only
        constructor
        · rintro ⟨c, e⟩
          by_cases hp : ReflTransGen (Linked diagonal (at2 nc zones)) (row, col) c
          · rw [((h3 c).1 hp).2] at e
            cases e; omega
          · rw [(h3 c).2 hp] at e
            have := (hs.ids id).1 ⟨c, e⟩
            omega
        · intro hid
          by_cases he : id = s.2
          · exact ⟨(row, col), by rw [((h3 _).1 .refl).2, he]⟩
          · obtain ⟨c, e⟩ := (hs.ids id).2 (by omega)
            refine ⟨c, ?_⟩
            have hp : ¬ ReflTransGen (Linked diagonal (at2 nc zones)) (row, col) c := fun hp => by
              have := ((h3 c).1 hp).1; rw [e] at this; cases this
            rw [(h3 c).2 hp, e]
      · intro c hm
        by_cases hp : ReflTransGen (Linked diagonal (at2 nc zones)) (row, col) c
        · exact ⟨(row, col), .inr rfl, hp⟩
        · simp only [(h3 c).2 hp] at hm
          obtain ⟨c', g1, g2⟩ := hs.origin c hm
          exact ⟨c', .inl g1, g2⟩

theorem VisitInv.congr {diagonal : Bool} {v v' : Nat × Nat → Prop} {s : List (Option Nat) × Nat}
    (h : VisitInv nr nc diagonal zones v s) (hv : ∀ c, v c ↔ v' c) : VisitInv nr nc diagonal zones v' s := by
  have : v = v' := funext fun c => propext (hv c)
  exact this ▸ h

/-- Visiting the cells in the first `m` rows. -/
def visitRows (fuel nr nc m : Nat) (diagonal : Bool) (zones : List (Option Z)) : M (List (Option Nat) × Nat) :=
  forLoop m (fun row s => forLoop nc (fun col s => visit fuel nr nc diagonal zones row col s) s)
    (List.replicate (nr * nc) none, 0)

theorem at2_replicate {α : Type} (n : Nat) (c : Nat × Nat) : at2 nc (List.replicate n (none : Option α)) c = none := by
  unfold at2 cell
  split
  · rw [List.getElem?_replicate]; split <;> rfl
  · rfl

theorem visitRows_ok (hz : zones.length = nr * nc) (diagonal : Bool) {fuel m : Nat} (hm : m ≤ nr)
    (hfuel : 4 * (nr * nc) + 2 < fuel) :
    ∃ s, visitRows fuel nr nc m diagonal zones = .ok s ∧
      VisitInv nr nc diagonal zones (fun c => c.1 < m ∧ c.2 < nc) s := by
  apply forLoop_inv (fun i => VisitInv nr nc diagonal zones (fun c => c.1 < i ∧ c.2 < nc))
  · intro i hi s hs
    obtain ⟨s', h1, h2⟩ := forLoop_inv
      (fun j => VisitInv nr nc diagonal zones (fun c => (c.1 < i ∧ c.2 < nc) ∨ (c.1 = i ∧ c.2 < j ∧ c.2 < nc)))
      (n := nc) (body := fun col s => visit fuel nr nc diagonal zones i col s)
      (fun j hj s hs => by
        obtain ⟨s', h1, h2⟩ := visit_ok hz (by omega) hj hfuel hs (fun c hc => .inr ⟨rfl, by simp only; omega, by simp only; omega⟩)
        refine ⟨s', h1, h2.congr fun c => ?_⟩
        have : c = (i, j) ↔ c.1 = i ∧ c.2 = j := by
          constructor
          · rintro rfl; exact ⟨rfl, rfl⟩
          · rintro ⟨e1, e2⟩; exact Prod.ext e1 e2
        rw [this]; omega) s (hs.congr fun c => by omega)
    exact ⟨s', h1, h2.congr fun c => by omega⟩
  · refine ⟨List.length_replicate, ?_, fun c h => by omega, ?_, ?_, ?_, ?_⟩
    · intro c h; exact absurd (at2_replicate _ c) h
    · intro c c' _; rw [at2_replicate, at2_replicate]
    · intro c c' id h; rw [at2_replicate] at h; cases h
    · intro id
      constructor
      · rintro ⟨c, h⟩; rw [at2_replicate] at h; cases h
      · intro h; omega
    · intro c h; exact absurd (at2_replicate _ c) h

theorem clumpCells_ok (hz : zones.length = nr * nc) (diagonal : Bool) {fuel : Nat} (hfuel : 4 * (nr * nc) + 2 < fuel) :
    ∃ clumps n, clumpCells fuel nr nc diagonal zones = .ok (clumps, n) ∧ clumps.length = nr * nc ∧
      IsClumps diagonal (at2 nc zones) (at2 nc clumps) n := by
  obtain ⟨s, h1, h2⟩ := visitRows_ok hz diagonal (Nat.le_refl nr) hfuel
  have hdone : ∀ c, at2 nc zones c ≠ none → at2 nc s.1 c ≠ none := fun c h => by
    obtain ⟨z, hzz⟩ := Option.ne_none_iff_exists'.1 h
    exact h2.done c (lt_of_cell hz hzz) h
  refine ⟨s.1, s.2, h1, h2.len, ⟨?_, ?_, h2.ids⟩⟩
  · intro c
    constructor
    · intro h; by_contra hn; exact hdone c hn h
    · intro h; by_contra hn; exact h2.zone c hn h
  · intro c c' hc hc'
    constructor
    · intro he
      obtain ⟨id, hid⟩ := Option.ne_none_iff_exists'.1 (hdone c hc)
      exact h2.same c c' id hid (he ▸ hid)
    · intro hp
      induction hp with
      | refl => rfl
      | tail hp' hl ih => exact (ih hl.2.1).trans (h2.linked _ _ hl)

end Lue.Clump

import Verif.DataModel.Proofs
import Mathlib.Logic.Function.Basic

namespace Lue.DataModel

open Lue.Index Lue.LueIO

theorem holds_none {χ σ : Type} {R : χ → σ → Prop} {g : Group χ} {m : Nat → Option σ} (h : GroupHolds R g m) {id : Nat} :
    m id = none ↔ g.child (name id) = none := by
  have := h id
  cases h1 : g.child (name id) <;> cases h2 : m id <;> simp_all

theorem holds_some {χ σ : Type} {R : χ → σ → Prop} {g : Group χ} {m : Nat → Option σ} (h : GroupHolds R g m) {id : Nat} {s : σ}
    (hs : m id = some s) : ∃ c, g.child (name id) = some c ∧ R c s := by
  have := h id
  rw [hs] at this
  cases h1 : g.child (name id) with
  | none => simp [h1] at this
  | some c => exact ⟨c, rfl, by simpa [h1] using this⟩

theorem holds_set {χ σ : Type} {R : χ → σ → Prop} {g : Group χ} {m : Nat → Option σ} (h : GroupHolds R g m) {id : Nat} {c : χ}
    {s : σ} (hr : R c s) : GroupHolds R (setChild g id c) (Function.update m id (some s)) := by
  intro id'
  by_cases he : id' = id
  · subst he; simpa [setChild] using hr
  · have hn : name id' ≠ name id := fun hc => he (name_inj hc)
    have := h id'
    simpa [setChild, he, hn] using this

theorem addItems_le {σ : Type} (items : List (Nat × σ)) : ∀ m : Nat → Option σ, (addItems m items).2 ≤ items.length := by
  induction items with
  | nil => intro m; simp [addItems]
  | cons e items ih =>
    intro m
    obtain ⟨id, s⟩ := e
    simp only [addItems]
    split
    · simp
    · simpa using ih _

/-- All items are added if and only if their ids are different and not in use. -/
theorem addItems_all_iff {σ : Type} (items : List (Nat × σ)) : ∀ m : Nat → Option σ,
    (addItems m items).2 = items.length ↔ (items.map (·.1)).Nodup ∧ ∀ e ∈ items, m e.1 = none := by
  induction items with
  | nil => intro m; simp [addItems]
  | cons e items ih =>
    intro m
    obtain ⟨id, s⟩ := e
    simp only [addItems]
    split
    · next h =>
      simp only [List.length_cons, List.map_cons, List.nodup_cons, List.mem_cons]
      constructor
      · intro h'; omega
      · intro h'
        have := h'.2 (id, s) (.inl rfl)
        simp [this] at h
    · next h =>
      simp only [List.length_cons, Nat.add_right_cancel_iff]
      rw [ih]
      have hn : m id = none := by simpa using h
      simp only [List.map_cons, List.nodup_cons, List.mem_map, not_exists, not_and]
      constructor
      · rintro ⟨h1, h2⟩
        refine ⟨⟨fun e he hid => ?_, h1⟩, fun e he => ?_⟩
        · have := h2 e he
          rw [hid] at this; simp at this
        · rcases List.mem_cons.mp he with rfl | he
          · exact hn
          · have := h2 e he
            by_cases hid : e.1 = id
            · rw [hid, hn]
            · simpa [hid] using this
      · rintro ⟨⟨h1, h2⟩, h3⟩
        refine ⟨h2, fun e he => ?_⟩
        have hid : e.1 ≠ id := h1 e he
        simpa [hid] using h3 e (by simp [he])

/-- The items in the map afterwards: those which were there, and those which have been added. -/
theorem addItems_count {σ : Type} (items : List (Nat × σ)) : ∀ (m : Nat → Option σ) (n : Nat), CountOk n m →
    CountOk (n + (addItems m items).2) (addItems m items).1 := by
  induction items with
  | nil => intro m n h; simpa [addItems] using h
  | cons e items ih =>
    intro m n h
    obtain ⟨id, s⟩ := e
    simp only [addItems]
    split
    · simpa using h
    · next hs =>
      have hn : m id = none := by simpa using hs
      have : CountOk (n + 1) (Function.update m id (some s)) := by
        obtain ⟨ids, h1, h2, h3⟩ := h
        refine ⟨id :: ids, ?_, by simp [h2], fun id' => ?_⟩
        · rw [List.nodup_cons]
          exact ⟨fun hm => by have := (h3 id).mp hm; simp [hn] at this, h1⟩
        · by_cases he : id' = id
          · subst he; simp
          · simp [he, h3]
      have := ih _ _ this
      simpa only [Nat.add_assoc, Nat.add_comm 1] using this

theorem createChildren_spec {χ σ : Type} {R : χ → σ → Prop} (cs : List (Nat × χ)) : ∀ (items : List (Nat × σ)) (g : Group χ)
    (m : Nat → Option σ), GroupHolds R g m → List.Forall₂ (fun c e => c.1 = e.1 ∧ R c.2 e.2) cs items →
    GroupHolds R (createChildren g cs).2 (addItems m items).1 ∧
    (createChildren g cs).2.nrAttr = g.nrAttr ∧
    (createChildren g cs).1 = (if (addItems m items).2 = items.length then .ok () else .error .thrown) := by
  induction cs with
  | nil =>
    intro items g m h hf
    cases hf
    exact ⟨h, rfl, by simp [createChildren, addItems]⟩
  | cons c cs ih =>
    intro items g m h hf
    cases hf with
    | @cons _ e _ items hce hf =>
      obtain ⟨id, c⟩ := c
      obtain ⟨id', s⟩ := e
      simp only at hce
      obtain ⟨rfl, hr⟩ := hce
      cases hm : m id with
      | some x =>
        obtain ⟨c', hc', _⟩ := holds_some h hm
        simp only [createChildren, createChild, hc', addItems, hm, Option.isSome_some, if_true]
        exact ⟨h, trivial, by simp⟩
      | none =>
        have hn := (holds_none h).mp hm
        have hg := holds_set h (id := id) hr
        obtain ⟨h1, h2, h3⟩ := ih items _ _ hg hf
        simp only [createChildren, createChild, hn, addItems, hm, Option.isSome_none, Bool.false_eq_true, if_false,
          List.length_cons, Nat.add_right_cancel_iff]
        exact ⟨h1, h2, h3⟩

/-- Adding items with the code does what is expected. -/
theorem expandGroup_spec {χ σ : Type} {R : χ → σ → Prop} {h : Handle} {g : Group χ} {st : GState σ}
    (hr : Represents R h g st) {cs : List (Nat × χ)} {items : List (Nat × σ)}
    (hf : List.Forall₂ (fun c e => c.1 = e.1 ∧ R c.2 e.2) cs items) :
    Represents R (expandGroup h g cs).2.1 (expandGroup h g cs).2.2 (st.add items) ∧
    ((expandGroup h g cs).1 = .ok () ↔ (items.map (·.1)).Nodup ∧ ∀ e ∈ items, st.items e.1 = none) ∧
    ((expandGroup h g cs).1 = .ok () ∨ (expandGroup h g cs).1 = .error .thrown) := by
  obtain ⟨h1, h2, h3⟩ := createChildren_spec (R := R) cs items g st.items hr.holds hf
  rw [← addItems_all_iff]
  have hc := addItems_count items _ _ hr.count
  have hlen : cs.length = items.length := hf.length_eq
  unfold expandGroup
  rcases hcc : createChildren g cs with ⟨r, g'⟩
  rw [hcc] at h1 h2 h3
  simp only at h1 h2 h3
  by_cases hall : (addItems st.items items).2 = items.length
  · rw [if_pos hall] at h3
    subst h3
    refine ⟨?_, by simp [hall], .inl rfl⟩
    simp only [GState.add, hall, if_true]
    refine ⟨fun id => h1 id, ?_, ?_, ?_⟩
    · simp only; rw [hr.handle, hlen]
    · simp only; rw [hr.handle, hlen]
    · simp only
      rw [hall] at hc
      rw [show st.nr + items.length + st.lost = st.nr + st.lost + items.length by omega]; exact hc
  · rw [if_neg hall] at h3
    subst h3
    refine ⟨?_, by simp [hall], .inr rfl⟩
    simp only [GState.add, hall, if_false]
    exact ⟨h1, hr.handle, by rw [h2, hr.attr], by simpa only [Nat.add_assoc] using hc⟩

theorem represents_set {χ σ : Type} {R : χ → σ → Prop} {h : Handle} {g : Group χ} {st : GState σ}
    (hr : Represents R h g st) {id : Nat} {s s' : σ} (hs : st.items id = some s) {c : χ} (hc : R c s') :
    Represents R h (setChild g id c) (st.set id s') := by
  refine ⟨holds_set hr.holds hc, hr.handle, hr.attr, ?_⟩
  obtain ⟨ids, h1, h2, h3⟩ := hr.count
  refine ⟨ids, h1, h2, fun id' => ?_⟩
  rw [h3 id', GState.set]
  by_cases he : id' = id
  · subst he; simp [hs]
  · simp [he]

theorem represents_create {χ σ : Type} {R : χ → σ → Prop} :
    Represents R (openGroup (createGroup (χ := χ))) createGroup (GState.empty (σ := σ)) := by
  refine ⟨fun id => by simp [createGroup, GState.empty], rfl, rfl, [], by simp, rfl, by simp [GState.empty]⟩

end Lue.DataModel

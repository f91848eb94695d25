import Verif.Identifier.Spec
import Mathlib.Tactic.SplitIfs
import Mathlib.Tactic.ByContra
import Mathlib.Data.List.Forall2

/-! Proofs: the counts kept by HDF5 are the numbers of variables naming the objects. -/
namespace Lue.Identifier

/-- The number of variables which name object `i`. -/
def names (vars : List (Option (Option Int))) (i : Int) : Nat := vars.countP fun v => decide (v = some (some i))

/-- One if the value names the object. -/
def one (v : Option (Option Int)) (i : Int) : Nat := if v = some (some i) then 1 else 0

theorem names_append (vars : List (Option (Option Int))) (v : Option (Option Int)) (i : Int) :
    names (vars ++ [v]) i = names vars i + one v i := by
  unfold names one
  rw [List.countP_append, List.countP_singleton]
  simp

theorem names_set {vars : List (Option (Option Int))} {k : Nat} {v w : Option (Option Int)} (h : vars[k]? = some v) (i : Int) :
    names (vars.set k w) i = names vars i - one v i + one w i := by
  obtain ⟨hk, e⟩ := List.getElem?_eq_some_iff.mp h
  unfold names one
  rw [List.countP_set hk, e]
  simp

theorem one_le_names {vars : List (Option (Option Int))} {k : Nat} {v : Option (Option Int)} (h : vars[k]? = some v) (i : Int) :
    one v i ≤ names vars i := by
  unfold one
  split
  · rename_i e
    subst e
    exact List.countP_pos_iff.mpr ⟨_, List.mem_of_getElem? h, by simp⟩
  · exact Nat.zero_le _

theorem names_pos_iff (vars : List (Option (Option Int))) (i : Int) : 0 < names vars i ↔ some (some i) ∈ vars := by
  unfold names
  rw [List.countP_pos_iff]
  simp

/-- How a variable is represented. -/
def Rel (base next : Int) : Option (Option Int) → Option Handle → Prop
  | none, none => True
  | some none, some h => h.id < 0 ∨ h.id < base
  | some (some i), some h => h = ⟨i, .h5⟩ ∧ base ≤ i ∧ i < next
  | _, _ => False

/-- The administration of HDF5, given the number of names of each object. -/
structure Counts (n : Int → Nat) (k : List Int) (b x : Int) (s : H5) : Prop where
  base : s.base = b
  next : s.next = x
  range : 0 ≤ b ∧ b ≤ x
  count : ∀ i, s.count i = if i ∈ k then 0 else n i
  names : ∀ i, 0 < n i → b ≤ i ∧ i < x
  killed : ∀ i ∈ k, b ≤ i ∧ i < x
  closed : ∀ i, i ∈ s.closed ↔ b ≤ i ∧ i < x ∧ i ∉ k ∧ n i = 0
  once : s.closed.Nodup

/-- The invariant. -/
structure Inv (a : Vars) (s : State) : Prop where
  counts : Counts (names a.vars) a.killed a.base a.next s.h5
  rel : List.Forall₂ (Rel a.base a.next) a.vars s.handles

theorem Counts.congr {n n' : Int → Nat} {k b x s} (h : Counts n k b x s) (e : ∀ i, n' i = n i) : Counts n' k b x s := by
  have : n' = n := funext e
  rw [this]; exact h

theorem isValid_iff {n : Int → Nat} {k b x s} (h : Counts n k b x s) {v : Option Int} {hd : Handle}
    (hr : Rel b x (some v) (some hd)) : isValid s hd = true ↔ ∃ i, v = some i ∧ i ∉ k ∧ 0 < n i := by
  have h1 := h.range
  match v with
  | none =>
    have hr' : hd.id < 0 ∨ hd.id < b := hr
    simp only [isValid, H5.isValid, h.count, reduceCtorEq, false_and, exists_false, iff_false]
    intro hc
    split at hc
    · have hc := of_decide_eq_true hc
      have h4 := h.names hd.id
      split at hc <;> omega
    · exact absurd hc (by simp)
  | some i =>
    obtain ⟨e, h2, h3⟩ : hd = ⟨i, .h5⟩ ∧ b ≤ i ∧ i < x := hr
    subst e
    have : (0 : Int) ≤ i := by omega
    simp only [isValid, this, if_true, H5.isValid, h.count, decide_eq_true_eq, Option.some.injEq, exists_eq_left']
    split <;> simp_all

/-- Giving up a name. -/
theorem release {n : Int → Nat} {k b x s} (h : Counts n k b x s) {v : Option Int} {hd : Handle}
    (hr : Rel b x (some v) (some hd)) (hn : ∀ i, one (some v) i ≤ n i) :
    ∃ s', closeIfValid s hd = .ok s' ∧ Counts (fun i => n i - one (some v) i) k b x s' := by
  unfold closeIfValid
  by_cases hv : isValid s hd = true
  · obtain ⟨i, e, hk, hp⟩ := (isValid_iff h hr).mp hv
    subst e
    obtain ⟨e, h2, h3⟩ : hd = ⟨i, .h5⟩ ∧ b ≤ i ∧ i < x := hr
    subst e
    rw [if_pos hv]
    have hc := h.count i
    rw [if_neg hk] at hc
    simp only [Close.call, H5.close, hc, hp, if_true]
    refine ⟨_, rfl, ?_⟩
    have ho : ∀ j, one (some (some i)) j = if j = i then 1 else 0 := by
      intro j; unfold one; simp only [Option.some.injEq]; simp only [eq_comm]
    refine ⟨h.base, h.next, h.range, ?_, ?_, h.killed, ?_, ?_⟩
    · intro j
      have hj := h.count j
      simp only [ho]
      by_cases e : j = i
      · subst e; simp [hk, hc]
      · simp [e, hj]
    · intro j hj
      exact h.names j (by omega)
    · intro j
      simp only [ho]
      have hj := h.closed j
      by_cases e : j = i
      · subst e
        split
        · rename_i h1; simp [h1, hk, h2, h3]
        · rename_i h1
          rw [hj]; simp only [if_true]
          constructor
          · rintro ⟨_, _, _, h5⟩; omega
          · rintro ⟨_, _, _, h5⟩; omega
      · simp only [e, if_false, Nat.sub_zero]
        split
        · simp [e, hj]
        · exact hj
    · show (if n i = 1 then s.closed ++ [i] else s.closed).Nodup
      split
      · refine List.nodup_append.mpr ⟨h.once, by simp, ?_⟩
        intro a ha c hc' e
        subst e
        have hc' : a = i := by simpa using hc'
        subst hc'
        have := (h.closed a).mp ha
        omega
      · exact h.once
  · rw [if_neg hv]
    refine ⟨s, rfl, ?_⟩
    have hd' : ∀ i, i ∉ k → one (some v) i = 0 := by
      intro i hi
      by_contra hc
      have : v = some i := by
        unfold one at hc
        by_contra h'; apply hc; rw [if_neg]; simpa using h'
      exact hv ((isValid_iff h hr).mpr ⟨i, this, hi, by have := hn i; omega⟩)
    refine ⟨h.base, h.next, h.range, ?_, ?_, h.killed, ?_, h.once⟩
    · intro j
      rw [h.count j]
      split
      · rfl
      · rename_i hj; have := hd' j hj; omega
    · intro j hj; exact h.names j (by omega)
    · intro j
      rw [h.closed j]
      constructor
      · rintro ⟨h1, h2, h3, h4⟩; exact ⟨h1, h2, h3, by omega⟩
      · rintro ⟨h1, h2, h3, h4⟩; have := hd' j h3; exact ⟨h1, h2, h3, by omega⟩

/-- Counting an additional name of an object which is named already. -/
theorem acquire {n : Int → Nat} {k b x s} (h : Counts n k b x s) {i : Int} (hk : i ∉ k) (hp : 0 < n i) :
    ∃ s', s.incRef i = .ok s' ∧ Counts (fun j => n j + one (some (some i)) j) k b x s' := by
  have hc := h.count i
  rw [if_neg hk] at hc
  unfold H5.incRef
  rw [hc, if_pos hp]
  refine ⟨_, rfl, ?_⟩
  have ho : ∀ j, one (some (some i)) j = if j = i then 1 else 0 := by
    intro j; unfold one; simp only [Option.some.injEq]; simp only [eq_comm]
  refine ⟨h.base, h.next, h.range, ?_, ?_, h.killed, ?_, h.once⟩
  · intro j
    simp only [ho]
    have hj := h.count j
    by_cases e : j = i
    · subst e; simp [hk, hc]
    · simp [e, hj]
  · intro j hj
    simp only [ho] at hj
    by_cases e : j = i
    · subst e; exact h.names j hp
    · simp only [e, if_false, Nat.add_zero] at hj; exact h.names j hj
  · intro j
    simp only [ho]
    show j ∈ s.closed ↔ _
    rw [h.closed j]
    by_cases e : j = i
    · subst e; simp; omega
    · simp [e]

/-- The same, for a variable: nothing is counted if it names nothing, or an object which HDF5 has closed. -/
theorem acquireVar {n : Int → Nat} {k b x s} (h : Counts n k b x s) {v : Option Int} {hd : Handle}
    (hr : Rel b x (some v) (some hd)) (hn : ∀ i, one (some v) i ≤ n i) :
    ∃ s', (if isValid s hd = true then incrementReferenceCount s hd else .ok s) = .ok s' ∧
      Counts (fun j => n j + one (some v) j) k b x s' := by
  by_cases hv : isValid s hd = true
  · obtain ⟨i, e, hk, hp⟩ := (isValid_iff h hr).mp hv
    subst e
    obtain ⟨e, h2, h3⟩ : hd = ⟨i, .h5⟩ ∧ b ≤ i ∧ i < x := hr
    subst e
    rw [if_pos hv]
    exact acquire h hk hp
  · rw [if_neg hv]
    refine ⟨s, rfl, ?_⟩
    have hd' : ∀ i, i ∉ k → one (some v) i = 0 := by
      intro i hi
      by_contra hc
      have : v = some i := by
        unfold one at hc
        by_contra h'; apply hc; rw [if_neg]; simpa using h'
      exact hv ((isValid_iff h hr).mpr ⟨i, this, hi, by have := hn i; omega⟩)
    refine ⟨h.base, h.next, h.range, ?_, ?_, h.killed, ?_, h.once⟩
    · intro j
      rw [h.count j]
      split
      · rfl
      · rename_i hj; have := hd' j hj; omega
    · intro j hj
      refine h.names j ?_
      have := hn j; omega
    · intro j
      rw [h.closed j]
      have := hn j
      constructor
      · rintro ⟨h1, h2, h3, h4⟩; exact ⟨h1, h2, h3, by omega⟩
      · rintro ⟨h1, h2, h3, h4⟩; exact ⟨h1, h2, h3, by omega⟩

theorem forall₂_get {α β : Type} {R : α → β → Prop} {l : List α} {m : List β} (h : List.Forall₂ R l m) {k : Nat} {x : α}
    (hx : l[k]? = some x) : ∃ y, m[k]? = some y ∧ R x y := by
  induction h generalizing k with
  | nil => simp at hx
  | cons h1 h2 ih =>
    cases k with
    | zero => simp at hx; subst hx; exact ⟨_, rfl, h1⟩
    | succ k => simpa using ih (by simpa using hx)

theorem forall₂_set {α β : Type} {R : α → β → Prop} {l : List α} {m : List β} (h : List.Forall₂ R l m) (k : Nat) {x : α} {y : β}
    (hr : R x y) : List.Forall₂ R (l.set k x) (m.set k y) := by
  induction h generalizing k with
  | nil => exact .nil
  | cons h1 h2 ih =>
    cases k with
    | zero => exact .cons hr h2
    | succ k => exact .cons h1 (ih k)

theorem forall₂_snoc {α β : Type} {R : α → β → Prop} {l : List α} {m : List β} (h : List.Forall₂ R l m) {x : α} {y : β}
    (hr : R x y) : List.Forall₂ R (l ++ [x]) (m ++ [y]) := by
  induction h with
  | nil => exact .cons hr .nil
  | cons h1 h2 ih => exact .cons h1 ih

theorem forall₂_imp {α β : Type} {R S : α → β → Prop} (hi : ∀ a b, R a b → S a b) {l : List α} {m : List β}
    (h : List.Forall₂ R l m) : List.Forall₂ S l m := by
  induction h with
  | nil => exact .nil
  | cons h1 h2 ih => exact .cons (hi _ _ h1) ih

/-- A variable that exists is represented by an instance. -/
theorem Inv.alive {a : Vars} {s : State} (h : Inv a s) {j : Nat} (ha : a.Alive j) :
    ∃ hd, s.handles[j]? = some (some hd) ∧ s.handle j = .ok hd ∧ Rel a.base a.next (some (a.get j)) (some hd) ∧
      a.vars[j]? = some (some (a.get j)) := by
  obtain ⟨v, hv⟩ := ha
  obtain ⟨y, hy, hr⟩ := forall₂_get h.rel hv
  have hg : a.get j = v := by simp [Vars.get, hv]
  match y, hr with
  | some hd, hr => exact ⟨hd, hy, by simp [State.handle, hy], by rw [hg]; exact hr, by rw [hg]; exact hv⟩
  | none, hr => exact absurd hr (by cases v <;> simp [Rel])

theorem rel_none {b x : Int} {hd : Handle} (h : hd.id < 0 ∨ hd.id < b) : Rel b x (some none) (some hd) := h

theorem step_inv {a : Vars} {s : State} (h : Inv a s) (op : Op) (hl : a.Legal op) :
    ∃ s', step s op = .ok s' ∧ Inv (a.step op) s' := by
  have hc := h.counts
  match op with
  | .default_ =>
    refine ⟨_, rfl, ⟨hc.congr fun i => ?_, forall₂_snoc h.rel (rel_none (by simp [default_]))⟩⟩
    simp [Vars.step, names_append, one]
  | .openFails =>
    refine ⟨_, rfl, ⟨hc.congr fun i => ?_, forall₂_snoc h.rel (rel_none (by simp [construct]))⟩⟩
    simp [Vars.step, names_append, one]
  | .predefined i =>
    refine ⟨_, rfl, ⟨hc.congr fun i => ?_, forall₂_snoc h.rel (rel_none (Or.inr hl))⟩⟩
    simp [Vars.step, names_append, one]
  | .open_ =>
    refine ⟨_, rfl, ⟨?_, ?_⟩⟩
    · have hz : names a.vars a.next = 0 := by
        by_contra hc'
        have := hc.names a.next (by omega)
        omega
      have hk : a.next ∉ a.killed := fun hm => by have := hc.killed _ hm; omega
      have ho : ∀ j, names (a.step .open_).vars j = names a.vars j + if j = a.next then 1 else 0 := by
        intro j
        simp only [Vars.step, names_append, one, Option.some.injEq]
        simp only [eq_comm]
      have hrange := hc.range
      refine ⟨hc.base, ?_, ⟨hrange.1, ?_⟩, ?_, ?_, ?_, ?_, hc.once⟩
      · simp [State.new, H5.open_, Vars.step, hc.next]
      · simp only [Vars.step]; omega
      · intro j
        rw [ho]
        simp only [State.new, H5.open_, Vars.step, hc.next, hc.count]
        by_cases e : j = a.next
        · subst e; simp [hk, hz]
        · simp [e]
      · intro j hj
        rw [ho] at hj
        simp only [Vars.step]
        by_cases e : j = a.next
        · subst e; omega
        · simp only [e, if_false, Nat.add_zero] at hj
          have := hc.names j hj; omega
      · intro j hj
        simp only [Vars.step]
        have := hc.killed j hj
        omega
      · intro j
        rw [ho]
        simp only [State.new, H5.open_, Vars.step, hc.closed]
        by_cases e : j = a.next
        · subst e; simp
        · simp only [e, if_false, Nat.add_zero]
          have : a.base ≤ j ∧ j < a.next ↔ a.base ≤ j ∧ j < a.next + 1 := by omega
          tauto
    · have hrange := hc.range
      refine forall₂_snoc (forall₂_imp ?_ h.rel) ?_
      · intro v y hr
        match v, y, hr with
        | none, none, hr => trivial
        | some none, some hd, hr => exact hr
        | some (some i), some hd, hr => exact ⟨hr.1, hr.2.1, by have := hr.2.2; simp only [Vars.step]; omega⟩
      · refine ⟨by simp [construct, H5.open_, hc.next], ?_, ?_⟩ <;> simp only [Vars.step] <;> omega
  | .reopen i =>
    obtain ⟨h1, h2⟩ : some (some i) ∈ a.vars ∧ i ∉ a.killed := hl
    have hp := (names_pos_iff a.vars i).mpr h1
    obtain ⟨s', e, hc'⟩ := acquire hc h2 hp
    refine ⟨State.new { s with h5 := s' } (construct i .h5), by simp only [step, e]; rfl,
      Inv.mk (hc'.congr fun j => ?_) (forall₂_snoc h.rel (x := some (some i)) ?_)⟩
    · simp only [Vars.step, names_append]
    · exact ⟨rfl, hc.names i hp⟩
  | .copy j =>
    obtain ⟨hd, e1, e2, hr, e3⟩ := h.alive hl
    obtain ⟨s', e, hc'⟩ := acquireVar hc hr (one_le_names e3)
    have hcopy : copyConstruct s.h5 hd = .ok (s', hd) := by
      simp only [copyConstruct]
      by_cases hv : isValid s.h5 hd = true
      · rw [if_pos hv] at e ⊢
        rw [e]; rfl
      · rw [if_neg hv] at e ⊢
        cases e; rfl
    refine ⟨State.new { s with h5 := s' } hd, ?_, Inv.mk (hc'.congr fun i => ?_) (forall₂_snoc h.rel hr)⟩
    · simp only [step, e2]
      show Except.bind (copyConstruct s.h5 hd) _ = _
      rw [hcopy]; rfl
    · simp only [Vars.step, names_append]
  | .move j =>
    obtain ⟨hd, e1, e2, hr, e3⟩ := h.alive hl
    refine ⟨((s.store j ⟨-1, .null⟩).new hd), ?_, ⟨hc.congr fun i => ?_, ?_⟩⟩
    · simp only [step, moveConstruct, e2]; rfl
    · simp only [Vars.step, names_append, names_set e3]
      have := one_le_names e3 i
      have : one (some none) i = 0 := by simp [one]
      omega
    · exact forall₂_snoc (forall₂_set h.rel j (rel_none (by simp))) hr
  | .copyAssign i j =>
    obtain ⟨hi, e1, e2, hri, e3⟩ := h.alive hl.1
    obtain ⟨hj, f1, f2, hrj, f3⟩ := h.alive hl.2
    by_cases e : j = i
    · subst e
      refine ⟨s, by simp [step, copyAssign, e2]; rfl, ?_⟩
      have : (a.step (.copyAssign j j)) = a := by
        simp only [Vars.step]
        have : a.vars.set j (some (a.get j)) = a.vars := by
          apply List.ext_getElem?
          intro m
          rw [List.getElem?_set]
          split
          · rename_i h; subst h; split
            · exact f3.symm
            · rename_i h; rw [List.getElem?_eq_none_iff.mpr (by omega)]
          · rfl
        rw [this]
      rw [this]; exact h
    · obtain ⟨s1, g1, hc1⟩ := release hc hri (one_le_names e3)
      have hone : ∀ m, one (some (a.get j)) m ≤ names a.vars m - one (some (a.get i)) m := by
        intro m
        have h1 := names_set (w := none) e3 m
        have h2 : (a.vars.set i none)[j]? = some (some (a.get j)) := by
          rw [List.getElem?_set_ne (Ne.symm e)]; exact f3
        have h3 := one_le_names h2 m
        have h4 : one none m = 0 := by simp [one]
        omega
      obtain ⟨s2, g2, hc2⟩ := acquireVar hc1 hrj hone
      have g2' : (if isValid s1 { hi with id := hj.id } = true then incrementReferenceCount s1 { hi with id := hj.id } else .ok s1) = .ok s2 := g2
      refine ⟨State.store { s with h5 := s2 } i hj, ?_, Inv.mk (hc2.congr fun m => ?_) (forall₂_set h.rel i hrj)⟩
      · simp only [step, copyAssign, e2, f2]
        show (if j ≠ i then _ else _) = _
        rw [if_pos e]
        show Except.bind (closeIfValid s.h5 hi) _ = _
        rw [g1]
        show (if isValid s1 { hi with id := hj.id } = true then _ else _) = _
        by_cases hv : isValid s1 { hi with id := hj.id } = true
        · rw [if_pos hv] at g2' ⊢
          show Except.bind (incrementReferenceCount s1 { hi with id := hj.id }) _ = _
          rw [g2']; rfl
        · rw [if_neg hv] at g2' ⊢
          cases g2'; rfl
      · simp only [Vars.step, names_set e3]
  | .moveAssign i j =>
    obtain ⟨hi, e1, e2, hri, e3⟩ := h.alive hl.1
    obtain ⟨hj, f1, f2, hrj, f3⟩ := h.alive hl.2
    obtain ⟨s1, g1, hc1⟩ := release hc hri (one_le_names e3)
    obtain ⟨hli, _⟩ := List.getElem?_eq_some_iff.mp e1
    obtain ⟨hlj, _⟩ := List.getElem?_eq_some_iff.mp f1
    have hout : step s (.moveAssign i j) = .ok { h5 := s1, handles := (s.handles.set i (some hj)).set j (some ⟨-1, .null⟩) } := by
      simp only [step, moveAssign, e2]
      show Except.bind (closeIfValid s.h5 hi) _ = _
      rw [g1]
      show Except.bind (State.handle { s with h5 := s1 } j) _ = _
      have : State.handle { s with h5 := s1 } j = .ok hj := f2
      rw [this]
      by_cases e : j = i
      · subst e
        have : hi = hj := by rw [f2] at e2; cases e2; rfl
        subst this
        simp [Except.bind, bind, State.handle, State.store, hlj, pure, Except.pure]
      · have f1' : s.handles[j] = some hj := by
          have := f1; rw [List.getElem?_eq_getElem hlj] at this; exact Option.some.inj this
        simp [Except.bind, bind, State.handle, State.store, hlj, hli, pure, Except.pure, e, Ne.symm e, f1']
        rw [List.set_comm _ _ e, List.set_set, List.set_set]
    refine ⟨_, hout, ⟨hc1.congr fun m => ?_, forall₂_set (forall₂_set h.rel i hrj) j (rel_none (by simp))⟩⟩
    simp only [Vars.step]
    have hz : one (some none) m = 0 := by simp [one]
    have ho := one_le_names e3 m
    by_cases e : j = i
    · subst e
      rw [List.set_set, names_set e3, hz]; omega
    · have h2 : (a.vars.set i (some (a.get j)))[j]? = some (some (a.get j)) := by
        rw [List.getElem?_set_ne (Ne.symm e)]; exact f3
      rw [names_set h2, names_set e3, hz]; omega
  | .destruct i =>
    obtain ⟨hi, e1, e2, hri, e3⟩ := h.alive hl
    obtain ⟨s1, g1, hc1⟩ := release hc hri (one_le_names e3)
    refine ⟨{ h5 := s1, handles := s.handles.set i none }, ?_, ⟨hc1.congr fun m => ?_, forall₂_set h.rel i trivial⟩⟩
    · simp only [step, destruct, e2]
      show Except.bind (closeIfValid s.h5 hi) _ = _
      rw [g1]; rfl
    · simp only [Vars.step]
      rw [names_set e3]
      simp [one]
  | .invalidate i =>
    obtain ⟨h1, h2⟩ : some (some i) ∈ a.vars ∧ i ∉ a.killed := hl
    have hp := (names_pos_iff a.vars i).mpr h1
    refine ⟨_, rfl, ⟨⟨hc.base, hc.next, hc.range, ?_, hc.names, ?_, ?_, hc.once⟩, h.rel⟩⟩
    · intro j
      simp only [Vars.step, List.mem_cons, hc.count]
      by_cases e : j = i
      · simp [e]
      · simp [e]
    · intro j hj
      simp only [Vars.step, List.mem_cons] at hj
      rcases hj with rfl | hj
      · exact hc.names j hp
      · exact hc.killed j hj
    · intro j
      simp only [Vars.step, List.mem_cons, hc.closed]
      by_cases e : j = i
      · subst e
        simp; omega
      · simp [e]

theorem initial_inv (base : Nat) : Inv { vars := [], base := base, next := base, killed := [] } (initial base) := by
  refine ⟨⟨rfl, rfl, ?_, ?_, ?_, ?_, ?_, ?_⟩, .nil⟩
  · constructor <;> simp
  · intro i; simp [initial, names]
  · intro i hi; simp [names] at hi
  · intro i hi; simp at hi
  · intro i; simp only [initial, List.not_mem_nil, false_iff]; intro hc; have h1 := hc.1; have h2 := hc.2.1; omega
  · simp [initial]

theorem run_inv {base : Nat} {l : List Op} {a : Vars} (h : History base l a) : ∃ s, run (initial base) l = .ok s ∧ Inv a s := by
  induction h with
  | nil => exact ⟨_, rfl, initial_inv base⟩
  | snoc h hl ih =>
    obtain ⟨s, e, hi⟩ := ih
    obtain ⟨s', e', hi'⟩ := step_inv hi _ hl
    refine ⟨s', ?_, hi'⟩
    unfold run at e ⊢
    rw [List.foldlM_append, e]
    show List.foldlM step s [_] = _
    simp [List.foldlM, e', bind, Except.bind, pure, Except.pure]

end Lue.Identifier

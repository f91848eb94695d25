import Verif.Memory.ArrayStep

/-!
# C32: arrays own exactly as many elements as their shape says, copies do not alias

`Spec.run` tells what the variables are worth after a history of operations, if the operations are used properly: it has
no pointers and no memory. The theorems are about every history for which it is defined, starting without any object.
-/
namespace Lue.Memory

open Lue.Index Spec

variable {E : Type}

/-- What is observed of array `a`: its value is `v`. -/
structure Sees (m : Mem E) (a : Nat) (v : Val E) (o : Obj) : Prop where
  obj : m.objs a = some o
  shape : o.shape = v.shape
  nr : o.nrElements = v.nr
  /-- iterating over the elements -/
  elements : ∀ i < v.nr, ∃ e, v.elems[i]? = some e ∧ m.load o.elements i = .ok e
  /-- indexing by means of an index per dimension -/
  indexed : ∀ idxs, InShape idxs v.shape → ∃ e, v.buf[idxsToLinearIdx idxs v.shape]? = some e ∧ m.readAt a idxs = .ok e

theorem rep_empty (rank : Nat) : Rep rank ({} : Mem E) (fun _ => none) where
  hnone := fun _ _ => rfl
  hsome := fun a v h => by cases h
  unique := fun a b o o' p h => by cases h
  bound := fun p buf h => by cases h
  owned := fun p buf h => by cases h

theorem run_rep {rank : Nat} (hrank : 0 < rank) (zero : E) (ops : List (Op E)) : ∀ {m : Mem E} {A A' : State E},
    Rep rank m A → Spec.run rank zero ops A = some A' → ∃ m', m.run rank zero ops = .ok m' ∧ Rep rank m' A' := by
  induction ops with
  | nil =>
    intro m A A' h hA
    simp only [Spec.run, List.foldlM_nil] at hA
    injection hA with hA; subst hA
    exact ⟨m, rfl, h⟩
  | cons op ops ih =>
    intro m A A' h hA
    simp only [Spec.run, List.foldlM_cons] at hA
    cases hs : Spec.step rank zero A op with
    | none => rw [hs] at hA; cases hA
    | some A1 =>
      rw [hs] at hA
      obtain ⟨m1, h1, h2⟩ := step_ok hrank zero h op hs
      obtain ⟨m', h3, h4⟩ := ih h2 hA
      refine ⟨m', ?_, h4⟩
      simp only [Mem.run, List.foldlM_cons, h1, M.bind_ok]
      exact h3

theorem Rep.sees {rank : Nat} {m : Mem E} {A : State E} (h : Rep rank m A) {a : Nat} {v : Val E} (hv : A a = some v) :
    ∃ o, Sees m a v o := by
  obtain ⟨o, ho, hr, hf⟩ := h.hsome a v hv
  have hsz := hf.size
  have hnr := hf.nr
  have load : ∀ i < v.buf.length, ∃ e, v.buf[i]? = some e ∧ m.load o.elements i = .ok e := by
    intro i hi
    have hh := hr.holds
    cases he : o.elements with
    | none => rw [he] at hh; simp only [Holds] at hh; rw [hh] at hi; simp at hi
    | some p =>
      rw [he] at hh
      have : v.buf[i]? = some v.buf[i] := List.getElem?_eq_getElem hi
      exact ⟨_, this, load_ok hh.1 this⟩
  refine ⟨o, ho, hr.shape, hr.nr, ?_, ?_⟩
  · intro i hi
    obtain ⟨e, h1, h2⟩ := load i (by omega)
    exact ⟨e, by rw [Val.elems, List.getElem?_take_of_lt hi]; exact h1, h2⟩
  · intro idxs hi
    have := (idxs_roundtrip _ _ hi).1
    obtain ⟨e, h1, h2⟩ := load (idxsToLinearIdx idxs v.shape) (by omega)
    refine ⟨e, h1, ?_⟩
    simp only [Mem.readAt, obj_ok ho, M.bind_ok, hr.span, hr.spanShape]
    exact h2

/-- C32: whatever the history of operations, no memory is used outside of a buffer or after the buffer has been deleted,
no buffer is deleted twice, every array has the value it must have according to the specification (in which arrays do
not influence each other), every buffer belongs to exactly one array (nothing is leaked, nothing is shared). -/
theorem array_history {rank : Nat} (hrank : 0 < rank) (zero : E) (ops : List (Op E)) {A : State E}
    (hA : Spec.run rank zero ops (fun _ => none) = some A) :
    ∃ m : Mem E, Mem.run rank zero ops {} = .ok m ∧
      (∀ a v, A a = some v → ∃ o, Sees m a v o) ∧
      (∀ a, A a = none → m.objs a = none) ∧
      (∀ p buf, m.heap p = some buf → ∃ a o, m.objs a = some o ∧ o.elements = some p ∧
        ∀ b o', m.objs b = some o' → o'.elements = some p → b = a) := by
  obtain ⟨m, h1, h2⟩ := run_rep hrank zero ops (rep_empty rank) hA
  refine ⟨m, h1, fun a v hv => h2.sees hv, h2.hnone, ?_⟩
  intro p buf hp
  obtain ⟨a, o, h3, h4⟩ := h2.owned p buf hp
  exact ⟨a, o, h3, h4, fun b o' h5 h6 => h2.unique b a o' o p h5 h3 h6 h4⟩

/-- C32: once all arrays have been destroyed, no memory is in use. -/
theorem array_noLeak {rank : Nat} (hrank : 0 < rank) (zero : E) (ops : List (Op E)) {A : State E}
    (hA : Spec.run rank zero ops (fun _ => none) = some A) (hend : ∀ a, A a = none) :
    ∃ m : Mem E, Mem.run rank zero ops {} = .ok m ∧ ∀ p, m.heap p = none := by
  obtain ⟨m, h1, _, h2, h3⟩ := array_history hrank zero ops hA
  refine ⟨m, h1, fun p => ?_⟩
  by_contra hc
  obtain ⟨b, hb⟩ := Option.ne_none_iff_exists'.mp hc
  obtain ⟨a, o, h4, _⟩ := h3 p b hb
  rw [h2 a (hend a)] at h4
  cases h4

/-! ### The number of elements -/

/-- The values are well-formed after every history. -/
theorem run_wf {rank : Nat} (hrank : 0 < rank) (zero : E) (ops : List (Op E)) {A : State E}
    (hA : Spec.run rank zero ops (fun _ => none) = some A) {a : Nat} {v : Val E} (hv : A a = some v) : Wf rank v := by
  obtain ⟨m, _, h2⟩ := run_rep hrank zero ops (rep_empty rank) hA
  obtain ⟨_, _, _, h⟩ := h2.hsome a v hv
  exact h

/-- Removal of elements, which changes the number of elements but not the shape -/
def IsRemove : Op E → Prop
  | .remove _ _ _ => True
  | _ => False

theorem step_full {rank : Nat} (hrank : 0 < rank) (zero : E) {A A' : State E} (op : Op E) (hop : ¬IsRemove op)
    (h : ∀ a v, A a = some v → v.nr = v.shape.prod) (hA : Spec.step rank zero A op = some A') :
    ∀ a v, A' a = some v → v.nr = v.shape.prod := by
  have upd : ∀ {B : State E} {a : Nat} {v : Val E}, (∀ b w, B b = some w → w.nr = w.shape.prod) → v.nr = v.shape.prod →
      ∀ b w, Function.update B a (some v) b = some w → w.nr = w.shape.prod := by
    intro B a v hB hv b w hb
    by_cases hba : b = a
    · subst hba; simp at hb; subst hb; exact hv
    · rw [Function.update_of_ne hba] at hb; exact hB b w hb
  have he : (empty rank : Val E).nr = (empty rank : Val E).shape.prod := by simp [empty, prod_replicate_zero hrank]
  have hre : ∀ (w : Val E) shape, w.nr = w.shape.prod → (w.reshape zero shape).nr = (w.reshape zero shape).shape.prod := by
    intro w shape hw
    unfold Val.reshape
    split
    · exact hw
    · split <;> rfl
  cases op with
  | remove a first last => exact absurd trivial hop
  | destroy a =>
    simp only [Spec.step] at hA
    split at hA
    · injection hA with hA; subst hA
      intro b w hb
      by_cases hba : b = a
      · subst hba; simp at hb
      · rw [Function.update_of_ne hba] at hb; exact h b w hb
    · cases hA
  | constructDefault a =>
    simp only [Spec.step] at hA
    split at hA
    · injection hA with hA; subst hA; exact upd h he
    · cases hA
  | construct a shape =>
    simp only [Spec.step] at hA
    split at hA
    · injection hA with hA; subst hA; exact upd h rfl
    · cases hA
  | constructFill a shape value =>
    simp only [Spec.step] at hA
    split at hA
    · injection hA with hA; subst hA; exact upd h rfl
    · cases hA
  | constructList a shape values =>
    simp only [Spec.step] at hA
    split at hA
    · injection hA with hA; subst hA; exact upd h rfl
    · cases hA
  | copyConstruct a other =>
    simp only [Spec.step] at hA
    split at hA
    · injection hA with hA; subst hA; exact upd h rfl
    · cases hA
  | moveConstruct a other =>
    simp only [Spec.step] at hA
    split at hA
    · rename_i v ha hv
      injection hA with hA; subst hA; exact upd (upd h (h _ _ hv)) he
    · cases hA
  | copyAssign a other =>
    simp only [Spec.step] at hA
    split at hA
    · rename_i w v hw hv
      split at hA
      · injection hA with hA; subst hA; exact h
      · injection hA with hA; subst hA; exact upd h (hre w _ (h _ _ hw))
    · cases hA
  | moveAssign a other =>
    simp only [Spec.step] at hA
    split at hA
    · rename_i w v hw hv
      split at hA
      · injection hA with hA; subst hA; exact h
      · injection hA with hA; subst hA; exact upd (upd h (h _ _ hv)) he
    · cases hA
  | reshape a shape =>
    simp only [Spec.step] at hA
    split at hA
    · rename_i w hw
      split at hA
      · injection hA with hA; subst hA; exact upd h (hre w _ (h _ _ hw))
      · cases hA
    · cases hA
  | clear a =>
    simp only [Spec.step] at hA
    split at hA
    · injection hA with hA; subst hA; exact upd h he
    · cases hA
  | write a i e =>
    simp only [Spec.step] at hA
    split at hA
    · rename_i v hv
      split at hA
      · injection hA with hA; subst hA; exact upd h (h a v hv :)
      · cases hA
    · cases hA
  | writeAt a idxs e =>
    simp only [Spec.step] at hA
    split at hA
    · rename_i v hv
      split at hA
      · injection hA with hA; subst hA; exact upd h (h a v hv :)
      · cases hA
    · cases hA

theorem run_full {rank : Nat} (hrank : 0 < rank) (zero : E) (ops : List (Op E)) : ∀ {A A' : State E},
    (∀ op ∈ ops, ¬IsRemove op) → (∀ a v, A a = some v → v.nr = v.shape.prod) → Spec.run rank zero ops A = some A' →
    ∀ a v, A' a = some v → v.nr = v.shape.prod := by
  induction ops with
  | nil =>
    intro A A' _ h hA
    simp only [Spec.run, List.foldlM_nil] at hA
    injection hA with hA; subst hA
    exact h
  | cons op ops ih =>
    intro A A' hops h hA
    simp only [Spec.run, List.foldlM_cons] at hA
    cases hs : Spec.step rank zero A op with
    | none => rw [hs] at hA; cases hA
    | some A1 =>
      rw [hs] at hA
      exact ih (fun o ho => hops o (List.mem_cons_of_mem _ ho)) (step_full hrank zero op (hops op (by simp)) h hs) hA

/-- C32: after any history without `remove`, an array owns exactly as many elements as its shape says. -/
theorem array_nrElements {rank : Nat} (hrank : 0 < rank) (zero : E) (ops : List (Op E)) (hops : ∀ op ∈ ops, ¬IsRemove op)
    {A : State E} (hA : Spec.run rank zero ops (fun _ => none) = some A) :
    ∃ m : Mem E, Mem.run rank zero ops {} = .ok m ∧
      ∀ a o, m.objs a = some o → o.nrElements = o.shape.prod ∧
        ∀ i < o.shape.prod, ∃ e, m.load o.elements i = .ok e := by
  obtain ⟨m, h1, h2⟩ := run_rep hrank zero ops (rep_empty rank) hA
  refine ⟨m, h1, ?_⟩
  intro a o ho
  obtain ⟨v, hv, hr, hf⟩ := h2.of_obj ho
  have hfull := run_full hrank zero ops hops (fun a v h => by cases h) hA a v hv
  obtain ⟨o', hs⟩ := h2.sees hv
  have : o' = o := by have := hs.obj; rw [ho] at this; injection this with this; exact this.symm
  subst this
  refine ⟨by rw [hr.nr, hr.shape, hfull], ?_⟩
  intro i hi
  rw [hr.shape, ← hfull] at hi
  obtain ⟨e, _, he⟩ := hs.elements i hi
  exact ⟨e, he⟩

/-- C32: also after histories with `remove`, an array never has more elements than its shape says, and memory for all
elements of the shape. -/
theorem array_nrElements_le {rank : Nat} (hrank : 0 < rank) (zero : E) (ops : List (Op E))
    {A : State E} (hA : Spec.run rank zero ops (fun _ => none) = some A) :
    ∃ m : Mem E, Mem.run rank zero ops {} = .ok m ∧
      ∀ a o, m.objs a = some o → o.shape.length = rank ∧ o.nrElements ≤ o.shape.prod ∧
        ∀ i < o.shape.prod, ∃ e, m.load o.elements i = .ok e := by
  obtain ⟨m, h1, h2⟩ := run_rep hrank zero ops (rep_empty rank) hA
  refine ⟨m, h1, ?_⟩
  intro a o ho
  obtain ⟨v, hv, hr, hf⟩ := h2.of_obj ho
  refine ⟨by rw [hr.shape]; exact hf.rank, by rw [hr.nr, hr.shape]; exact hf.nr, ?_⟩
  intro i hi
  rw [hr.shape] at hi
  obtain ⟨o', hs⟩ := h2.sees hv
  have : o' = o := by have := hs.obj; rw [ho] at this; injection this with this; exact this.symm
  subst this
  have hl := linear_roundtrip v.shape i hi
  obtain ⟨e, _, he⟩ := hs.indexed _ hl.1
  refine ⟨e, ?_⟩
  simp only [Mem.readAt, obj_ok ho, M.bind_ok, hr.span, hr.spanShape, hl.2] at he
  exact he

/-! ### Copies, moves, reshape and indexing -/

/-- Every operation changes only the arrays it is about. -/
theorem step_others {rank : Nat} (zero : E) {A A' : State E} (op : Op E) (hA : Spec.step rank zero A op = some A') (b : Nat)
    (hb : match op with
      | .constructDefault a | .construct a _ | .constructFill a _ _ | .constructList a _ _ | .copyConstruct a _
      | .copyAssign a _ | .reshape a _ | .clear a | .remove a _ _ | .write a _ _ | .writeAt a _ _ | .destroy a => b ≠ a
      | .moveConstruct a other | .moveAssign a other => b ≠ a ∧ b ≠ other) : A' b = A b := by
  cases op <;> simp only [Spec.step] at hA hb
  all_goals
    repeat' split at hA
  all_goals first | cases hA | skip
  all_goals first | rfl | skip
  all_goals first
    | rw [Function.update_of_ne hb]
    | rw [Function.update_of_ne hb.2, Function.update_of_ne hb.1]

/-- C32: a copy-constructed array has the shape and the elements of the source. -/
theorem copyConstruct_equal {rank : Nat} (zero : E) {A A' : State E} {a other : Nat} {v : Val E} (hv : A other = some v)
    (hwf : Wf rank v) (hfull : v.nr = v.shape.prod) (hA : Spec.step rank zero A (.copyConstruct a other) = some A') :
    ∃ w, A' a = some w ∧ w.shape = v.shape ∧ w.elems = v.elems ∧ A' other = some v := by
  simp only [Spec.step] at hA
  split at hA
  · rename_i v' ha hv'
    rw [hv] at hv'; injection hv' with hv'; subst hv'
    injection hA with hA; subst hA
    have hne : other ≠ a := by rintro rfl; rw [ha] at hv; cases hv
    refine ⟨_, Function.update_self _ _ _, rfl, ?_, ?_⟩
    · simp only [Val.elems, ← hfull, Nat.sub_self, List.replicate_zero, List.append_nil, List.take_take, Nat.min_self]
    · rw [Function.update_of_ne hne]; exact hv
  · cases hA

/-- C32: a copy-assigned array has the shape and the elements of the source, whatever it was before. -/
theorem copyAssign_equal {rank : Nat} (zero : E) {A A' : State E} {a other : Nat} {v u : Val E} (hv : A other = some v)
    (hu : A a = some u) (hwf : Wf rank v) (hfull : v.nr = v.shape.prod) (hfull' : u.nr = u.shape.prod)
    (hA : Spec.step rank zero A (.copyAssign a other) = some A') :
    ∃ w, A' a = some w ∧ w.shape = v.shape ∧ w.elems = v.elems ∧ A' other = some v := by
  simp only [Spec.step, hv, hu] at hA
  split at hA
  · rename_i hae
    subst hae
    injection hA with hA; subst hA
    exact ⟨v, hv, rfl, rfl, hv⟩
  · rename_i hne
    injection hA with hA; subst hA
    have hne' : other ≠ a := fun hc => hne hc.symm
    have hs : (u.reshape zero v.shape).shape = v.shape ∧ (u.reshape zero v.shape).nr = v.shape.prod := by
      unfold Val.reshape
      split
      · rename_i h; exact ⟨h, by rw [hfull', h]⟩
      · split <;> exact ⟨rfl, rfl⟩
    refine ⟨_, Function.update_self _ _ _, hs.1, ?_, by rw [Function.update_of_ne hne']; exact hv⟩
    simp only [Val.elems, hs.2, ← hfull]
    have hlen : (v.buf.take v.nr).length = v.nr := by
      have := hwf.size
      simp; omega
    rw [List.take_append_of_le_length (by omega), List.take_take, Nat.min_self]

/-- C32: a move hands the array over, and leaves an empty array behind. -/
theorem move_equal {rank : Nat} (zero : E) {A A' : State E} {a other : Nat} (hne : a ≠ other) {v : Val E}
    (hv : A other = some v)
    (hA : Spec.step rank zero A (.moveConstruct a other) = some A' ∨ Spec.step rank zero A (.moveAssign a other) = some A') :
    A' a = some v ∧ A' other = some (empty rank) := by
  rcases hA with hA | hA <;> simp only [Spec.step, hv] at hA <;> repeat' split at hA
  all_goals first | cases hA | skip
  all_goals first | contradiction | skip
  all_goals
    refine ⟨?_, Function.update_self _ _ _⟩
    rw [Function.update_of_ne hne, Function.update_self]
    simp_all

/-- C32: reshaping to a shape with the same number of elements keeps the elements. -/
theorem reshape_equal {rank : Nat} (zero : E) {A A' : State E} {a : Nat} {v : Val E} (hv : A a = some v) {shape : List Nat}
    (hn : v.nr = shape.prod) (hA : Spec.step rank zero A (.reshape a shape) = some A') :
    ∃ w, A' a = some w ∧ w.shape = shape ∧ w.elems = v.elems := by
  simp only [Spec.step, hv] at hA
  split at hA
  · injection hA with hA; subst hA
    refine ⟨_, Function.update_self _ _ _, ?_, ?_⟩
    · unfold Val.reshape; split
      · assumption
      · split <;> rfl
    · unfold Val.reshape; split
      · rfl
      · rw [if_neg (by simp [hn])]
        simp [Val.elems, hn]
  · cases hA

/-- C32: elements at different indices are different elements: after assigning to one of them, that one has the new
value and the others have kept their values, in the array itself and in all other arrays. -/
theorem writeAt_distinct {rank : Nat} (hrank : 0 < rank) (zero : E) (ops : List (Op E)) {A : State E}
    (hA : Spec.run rank zero ops (fun _ => none) = some A) {a : Nat} {v : Val E} (hv : A a = some v)
    {idxs : List Nat} (hi : InShape idxs v.shape) (e : E) :
    ∃ m m' : Mem E, Mem.run rank zero ops {} = .ok m ∧ m.writeAt a idxs e = .ok m' ∧
      m'.readAt a idxs = .ok e ∧
      (∀ idxs', InShape idxs' v.shape → idxs' ≠ idxs → m'.readAt a idxs' = m.readAt a idxs') ∧
      (∀ b w idxs', b ≠ a → A b = some w → InShape idxs' w.shape → m'.readAt b idxs' = m.readAt b idxs') := by
  obtain ⟨m, h1, h2⟩ := run_rep hrank zero ops (rep_empty rank) hA
  have hs : Spec.step rank zero A (.writeAt a idxs e) =
      some (Function.update A a (some { v with buf := v.buf.set (idxsToLinearIdx idxs v.shape) e })) := by
    simp only [Spec.step, hv, if_pos hi]
  obtain ⟨m', h3, h4⟩ := step_ok hrank zero h2 _ hs
  obtain ⟨o', hs'⟩ := h4.sees (a := a) (v := { v with buf := v.buf.set (idxsToLinearIdx idxs v.shape) e }) (by simp)
  obtain ⟨o, hs0⟩ := h2.sees hv
  have hwf := run_wf hrank zero ops hA hv
  have hlt := (idxs_roundtrip _ _ hi).1
  have hsz := hwf.size
  refine ⟨m, m', h1, h3, ?_, ?_, ?_⟩
  · obtain ⟨e', h5, h6⟩ := hs'.indexed idxs hi
    simp only [List.getElem?_set_self (show idxsToLinearIdx idxs v.shape < v.buf.length by omega)] at h5
    injection h5 with h5; subst h5; exact h6
  · intro idxs' hi' hne
    obtain ⟨e', h5, h6⟩ := hs'.indexed idxs' hi'
    obtain ⟨e'', h7, h8⟩ := hs0.indexed idxs' hi'
    have hd : idxsToLinearIdx idxs v.shape ≠ idxsToLinearIdx idxs' v.shape := by
      intro hc
      have := (idxs_roundtrip _ _ hi).2
      rw [hc, (idxs_roundtrip _ _ hi').2] at this
      exact hne this
    simp only at h5
    rw [List.getElem?_set_ne hd, h7] at h5
    injection h5 with h5
    rw [h6, h8, h5]
  · intro b w idxs' hb hw hi'
    obtain ⟨_, hsb⟩ := h2.sees hw
    obtain ⟨_, hsb'⟩ := h4.sees (a := b) (v := w) (by rw [Function.update_of_ne hb]; exact hw)
    obtain ⟨e', h5, h6⟩ := hsb'.indexed idxs' hi'
    obtain ⟨e'', h7, h8⟩ := hsb.indexed idxs' hi'
    rw [h5] at h7
    injection h7 with h7
    rw [h6, h8, h7]

/-! ### The invariants asserted by the code -/

/-- C32: the invariants asserted by the code hold after every history without `remove`, unless the array has become
empty while its buffer was kept. -/
theorem assertInvariants_iff {rank : Nat} (hrank : 0 < rank) (zero : E) (ops : List (Op E))
    (hops : ∀ op ∈ ops, ¬IsRemove op) {A : State E} (hA : Spec.run rank zero ops (fun _ => none) = some A) :
    ∃ m : Mem E, Mem.run rank zero ops {} = .ok m ∧
      ∀ a o, m.objs a = some o → (o.assertInvariants = true ↔ ¬(o.nrElements = 0 ∧ o.bufferSize ≠ 0)) := by
  obtain ⟨m, h1, h2⟩ := run_rep hrank zero ops (rep_empty rank) hA
  refine ⟨m, h1, ?_⟩
  intro a o ho
  obtain ⟨v, hv, hr, hf⟩ := h2.of_obj ho
  have hfull := run_full hrank zero ops hops (fun a v h => by cases h) hA a v hv
  have hh := hr.holds
  have hsz := hf.size
  simp only [Obj.assertInvariants, nrElements_prod, hr.shape, hr.spanShape, hr.nr, hr.size, hr.span, hfull,
    decide_true, Bool.true_and, Bool.and_eq_true, Bool.or_eq_true, decide_eq_true_eq]
  cases he : o.elements with
  | none =>
    rw [he] at hh
    simp only [Holds] at hh
    rw [hh] at hsz ⊢
    simp at hsz
    simp [hsz]
  | some p =>
    rw [he] at hh
    have hl : v.buf ≠ [] := hh.2
    simp [hl, hsz, Nat.pos_iff_ne_zero]

/-- The sequence of operations used below as example: construct an array, copy it, write to the copy, move the copy to a
third array, reshape this one, and destroy the first one. -/
def exampleOps : List (Op Int) :=
  [.constructList 0 [2, 3] [1, 2, 3, 4, 5, 6], .copyConstruct 1 0, .write 1 5 7, .moveConstruct 2 1, .reshape 2 [3, 2],
    .destroy 0]

example : (∀ op ∈ exampleOps, ¬IsRemove op) ∧ (Spec.run 2 0 exampleOps (fun _ => none)).isSome := by
  constructor
  · intro op h
    simp only [exampleOps, List.mem_cons, List.not_mem_nil, or_false] at h
    rcases h with rfl | rfl | rfl | rfl | rfl | rfl <;> exact id
  · simp [Spec.run, Spec.step, exampleOps, Function.update]

example : (Mem.run 2 0 exampleOps {}).toOption.map (fun m => ((m.readAt 2 [2, 1]).toOption, (m.readAt 2 [0, 1]).toOption,
    (m.obj 1).toOption.map (·.nrElements), (m.obj 0).toOption.map (·.nrElements), (m.heap 0, m.heap 1))) =
    some (some 7, some 2, some 0, none, (none, some [1, 2, 3, 4, 5, 7])) := by rfl

/-- Finding: reshaping a non-empty array to an empty one violates the invariants asserted by the code. -/
theorem assertInvariants_reshape_empty :
    (Mem.run 1 (0 : Int) [.construct 0 [3], .reshape 0 [0]] {}).toOption.map
      (fun m => (m.obj 0).toOption.map Obj.assertInvariants) = some (some false) := by decide

/-- Finding: after `remove`, an array copied to from an array with the same shape has fewer elements than the array
which is copied. -/
theorem copyAssign_after_remove :
    (Mem.run 1 (0 : Int) [.construct 0 [3], .construct 1 [3], .remove 0 0 1, .copyAssign 0 1] {}).toOption.map
      (fun m => ((m.obj 0).toOption.map (·.nrElements), (m.obj 1).toOption.map (·.nrElements))) =
      some (some 2, some 3) := by decide

end Lue.Memory

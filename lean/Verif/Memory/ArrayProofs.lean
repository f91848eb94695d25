import Verif.Memory.ArraySpec
import Verif.Partitioned.Loops

/-!
C32: the memory implements the values.
-/
namespace Lue.Memory

open Lue.Index Spec

variable {E : Type}

theorem nrElements_prod (shape : List Nat) : nrElements shape = shape.prod := by
  induction shape with
  | nil => rfl
  | cons x xs ih => rw [nrElements_cons, ih]; simp

theorem prod_replicate_zero {rank : Nat} (h : 0 < rank) : (List.replicate rank 0).prod = 0 := by
  cases rank with
  | zero => omega
  | succ n => simp [List.replicate_succ]

/-- The contents of the buffer pointed to. -/
def Holds (m : Mem E) (p : Option Nat) (buf : List E) : Prop :=
  match p with
  | none => buf = []
  | some p => m.heap p = some buf ∧ buf ≠ []

/-- An object implements a value. -/
structure ObjRep (m : Mem E) (o : Obj) (v : Val E) : Prop where
  shape : o.shape = v.shape
  nr : o.nrElements = v.nr
  size : o.bufferSize = v.buf.length
  span : o.spanPtr = o.elements
  spanShape : o.spanShape = v.shape
  holds : Holds m o.elements v.buf

/-- Conditions on values. -/
structure Wf (rank : Nat) (v : Val E) : Prop where
  rank : v.shape.length = rank
  size : v.shape.prod ≤ v.buf.length
  nr : v.nr ≤ v.shape.prod

/-- The memory implements the values. -/
structure Rep (rank : Nat) (m : Mem E) (A : State E) : Prop where
  hnone : ∀ a, A a = none → m.objs a = none
  hsome : ∀ a v, A a = some v → ∃ o, m.objs a = some o ∧ ObjRep m o v ∧ Wf rank v
  unique : ∀ a b o o' p, m.objs a = some o → m.objs b = some o' → o.elements = some p → o'.elements = some p → a = b
  bound : ∀ p buf, m.heap p = some buf → p < m.next
  owned : ∀ p buf, m.heap p = some buf → ∃ a o, m.objs a = some o ∧ o.elements = some p

theorem Rep.of_obj {rank : Nat} {m : Mem E} {A : State E} (h : Rep rank m A) {a : Nat} {o : Obj} (ho : m.objs a = .some o) :
    ∃ v, A a = .some v ∧ ObjRep m o v ∧ Wf rank v := by
  cases hA : A a with
  | none => rw [h.hnone a hA] at ho; cases ho
  | some v =>
    obtain ⟨o', h1, h2, h3⟩ := h.hsome a v hA
    rw [ho] at h1; injection h1 with h1; subst h1
    exact ⟨v, rfl, h2, h3⟩

theorem obj_ok {m : Mem E} {a : Nat} {o : Obj} (h : m.objs a = some o) : m.obj a = .ok o := by simp [Mem.obj, h]

/-- The buffers of other objects are not changed when the heap is changed at the address of the buffer of an object, or
at a new address. -/
theorem ObjRep.frame {m m' : Mem E} {o : Obj} {v : Val E} (h : ObjRep m o v)
    (hh : ∀ p, o.elements = some p → m'.heap p = m.heap p) : ObjRep m' o v := by
  refine ⟨h.shape, h.nr, h.size, h.span, h.spanShape, ?_⟩
  have := h.holds
  unfold Holds at this ⊢
  cases he : o.elements with
  | none => rw [he] at this; exact this
  | some p => rw [he] at this; simp only at this ⊢; rw [hh p he]; exact this

/-- Replace object `a`, whose buffer is replaced as well: `old` is freed or overwritten. -/
theorem Rep.replace {rank : Nat} {m : Mem E} {A : State E} (h : Rep rank m A) {a : Nat} {v : Val E} {o : Obj}
    {m' : Mem E} (hobjs : m'.objs = Function.update m.objs a (some o))
    (hnext : m.next ≤ m'.next)
    (hheap : ∀ p, (∀ b o', b ≠ a → m.objs b = .some o' → o'.elements ≠ .some p) → o.elements ≠ .some p → m'.heap p = none)
    (hframe : ∀ p b o', b ≠ a → m.objs b = .some o' → o'.elements = .some p → m'.heap p = m.heap p)
    (hbound : ∀ p, o.elements = .some p → p < m'.next)
    (hnew : ∀ p b o', o.elements = .some p → b ≠ a → m.objs b = .some o' → o'.elements ≠ .some p)
    (hv : ObjRep m' o v) (hwf : Wf rank v) : Rep rank m' (Function.update A a (.some v)) := by
  constructor
  · intro b hb
    by_cases hba : b = a
    · subst hba; simp at hb
    · rw [hobjs]; rw [Function.update_of_ne hba] at hb ⊢; exact h.hnone b hb
  · intro b w hb
    by_cases hba : b = a
    · subst hba
      simp at hb; subst hb
      exact ⟨o, by rw [hobjs]; simp, hv, hwf⟩
    · rw [Function.update_of_ne hba] at hb
      obtain ⟨o', h1, h2, h3⟩ := h.hsome b w hb
      refine ⟨o', by rw [hobjs, Function.update_of_ne hba]; exact h1, h2.frame ?_, h3⟩
      intro p hp
      exact hframe p b o' hba h1 hp
  · intro b c o1 o2 p h1 h2 h3 h4
    rw [hobjs] at h1 h2
    by_cases hba : b = a
    · by_cases hca : c = a
      · rw [hba, hca]
      · subst hba
        simp at h1; subst h1
        rw [Function.update_of_ne hca] at h2
        exact absurd h4 (hnew p c o2 h3 hca h2)
    · rw [Function.update_of_ne hba] at h1
      by_cases hca : c = a
      · subst hca
        simp at h2; subst h2
        exact absurd h3 (hnew p b o1 h4 hba h1)
      · rw [Function.update_of_ne hca] at h2
        exact h.unique b c o1 o2 p h1 h2 h3 h4
  · intro p buf hp
    by_cases ho : o.elements = .some p
    · exact hbound p ho
    · by_cases he : ∃ b o', b ≠ a ∧ m.objs b = .some o' ∧ o'.elements = .some p
      · obtain ⟨b, o', h1, h2, h3⟩ := he
        rw [hframe p b o' h1 h2 h3] at hp
        have := h.bound p buf hp
        omega
      · rw [hheap p (fun b o' h1 h2 h3 => he ⟨b, o', h1, h2, h3⟩) ho] at hp
        cases hp
  · intro p buf hp
    by_cases ho : o.elements = .some p
    · exact ⟨a, o, by rw [hobjs]; simp, ho⟩
    · by_cases he : ∃ b o', b ≠ a ∧ m.objs b = .some o' ∧ o'.elements = .some p
      · obtain ⟨b, o', h1, h2, h3⟩ := he
        exact ⟨b, o', by rw [hobjs, Function.update_of_ne h1]; exact h2, h3⟩
      · rw [hheap p (fun b o' h1 h2 h3 => he ⟨b, o', h1, h2, h3⟩) ho] at hp
        cases hp


/-- The buffer of object `a` goes away: it is destroyed. -/
theorem Rep.remove {rank : Nat} {m : Mem E} {A : State E} (h : Rep rank m A) {a : Nat} {o : Obj} (ho : m.objs a = some o)
    {m' : Mem E} (hobjs : m'.objs = Function.update m.objs a none) (hnext : m.next ≤ m'.next)
    (hheap : ∀ p, m'.heap p = if o.elements = some p then none else m.heap p) :
    Rep rank m' (Function.update A a none) := by
  constructor
  · intro b hb
    by_cases hba : b = a
    · subst hba; rw [hobjs]; simp
    · rw [hobjs]; rw [Function.update_of_ne hba] at hb ⊢; exact h.hnone b hb
  · intro b w hb
    by_cases hba : b = a
    · subst hba; simp at hb
    · rw [Function.update_of_ne hba] at hb
      obtain ⟨o', h1, h2, h3⟩ := h.hsome b w hb
      refine ⟨o', by rw [hobjs, Function.update_of_ne hba]; exact h1, h2.frame ?_, h3⟩
      intro p hp
      rw [hheap p, if_neg]
      intro hop
      exact hba (h.unique b a o' o p h1 ho hp hop)
  · intro b c o1 o2 p h1 h2 h3 h4
    rw [hobjs] at h1 h2
    by_cases hba : b = a
    · subst hba; simp at h1
    · by_cases hca : c = a
      · subst hca; simp at h2
      · rw [Function.update_of_ne hba] at h1
        rw [Function.update_of_ne hca] at h2
        exact h.unique b c o1 o2 p h1 h2 h3 h4
  · intro p buf hp
    rw [hheap] at hp
    split at hp
    · cases hp
    · have := h.bound p buf hp
      omega
  · intro p buf hp
    rw [hheap] at hp
    split at hp
    · cases hp
    · rename_i hne
      obtain ⟨b, o', h1, h2⟩ := h.owned p buf hp
      refine ⟨b, o', ?_, h2⟩
      rw [hobjs, Function.update_of_ne]
      · exact h1
      · rintro rfl
        rw [ho] at h1; injection h1 with h1; subst h1
        exact hne h2

/-- The buffer of object `other` is handed over to object `a`. -/
theorem Rep.move {rank : Nat} (hrank : 0 < rank) {m : Mem E} {A : State E} (h : Rep rank m A) {a other : Nat} (hne : a ≠ other)
    {v : Val E} (hv : A other = some v) {o o1 o2 : Obj} (ho : m.objs other = some o)
    (h1 : o1 = ⟨o.shape, o.nrElements, o.bufferSize, o.elements, o.elements, o.shape⟩)
    (h2 : o2 = ⟨List.replicate rank 0, 0, 0, none, none, List.replicate rank 0⟩)
    {m' : Mem E} (hobjs : m'.objs = Function.update (Function.update m.objs a (some o1)) other (some o2))
    (hnext : m.next ≤ m'.next)
    (hheap : ∀ p, m'.heap p = if ∃ w, m.objs a = some w ∧ w.elements = some p then none else m.heap p) :
    Rep rank m' (Function.update (Function.update A a (some v)) other (some (empty rank))) := by
  obtain ⟨v', hv', hrep, hwf⟩ := h.of_obj ho
  rw [hv] at hv'; injection hv' with hv'; subst hv'
  have hkeep : ∀ p b o', b ≠ a → m.objs b = some o' → o'.elements = some p → m'.heap p = m.heap p := by
    intro p b o' hb hob hp
    rw [hheap, if_neg]
    rintro ⟨w, hw, hwp⟩
    exact hb (h.unique b a o' w p hob hw hp hwp)
  have ha : m'.objs a = some o1 := by rw [hobjs, Function.update_of_ne hne]; simp
  have hoth : m'.objs other = some o2 := by rw [hobjs]; simp
  have hb' : ∀ b, b ≠ a → b ≠ other → m'.objs b = m.objs b := by
    intro b hba hbo
    rw [hobjs, Function.update_of_ne hbo, Function.update_of_ne hba]
  constructor
  · intro b hb
    by_cases hbo : b = other
    · subst hbo; simp at hb
    · rw [Function.update_of_ne hbo] at hb
      by_cases hba : b = a
      · subst hba; simp at hb
      · rw [Function.update_of_ne hba] at hb
        rw [hb' b hba hbo]; exact h.hnone b hb
  · intro b w hb
    by_cases hbo : b = other
    · subst hbo; simp at hb; subst hb
      refine ⟨o2, hoth, ?_, ?_⟩
      · subst h2
        exact ⟨rfl, rfl, rfl, rfl, rfl, rfl⟩
      · exact ⟨by simp [empty], by simp [empty, prod_replicate_zero hrank], by simp [empty]⟩
    · rw [Function.update_of_ne hbo] at hb
      by_cases hba : b = a
      · subst hba; simp at hb; subst hb
        refine ⟨o1, ha, ?_, hwf⟩
        subst h1
        refine ⟨hrep.shape, hrep.nr, hrep.size, rfl, hrep.shape, ?_⟩
        exact (hrep.frame (m' := m') fun p hp => hkeep p other o (Ne.symm hne) ho hp).holds
      · rw [Function.update_of_ne hba] at hb
        obtain ⟨o', h3, h4, h5⟩ := h.hsome b w hb
        exact ⟨o', by rw [hb' b hba hbo]; exact h3, h4.frame fun p hp => hkeep p b o' hba h3 hp, h5⟩
  · -- the owner of a buffer before
    have own : ∀ b o' p, m'.objs b = some o' → o'.elements = some p →
        b ≠ other ∧ ∃ w, m.objs (if b = a then other else b) = some w ∧ w.elements = some p := by
      intro b o' p hob hp
      by_cases hbo : b = other
      · subst hbo; rw [hoth] at hob; injection hob with hob; subst hob; subst h2; cases hp
      · refine ⟨hbo, ?_⟩
        by_cases hba : b = a
        · rw [if_pos hba]; subst hba
          rw [ha] at hob; injection hob with hob; subst hob; subst h1
          exact ⟨o, ho, hp⟩
        · rw [if_neg hba]; rw [hb' b hba hbo] at hob; exact ⟨o', hob, hp⟩
    intro b c p1 p2 p hb hc hp1 hp2
    obtain ⟨hbo, w1, hw1, hwp1⟩ := own b p1 p hb hp1
    obtain ⟨hco, w2, hw2, hwp2⟩ := own c p2 p hc hp2
    have := h.unique _ _ w1 w2 p hw1 hw2 hwp1 hwp2
    by_cases hba : b = a <;> by_cases hca : c = a <;> simp [hba, hca] at this ⊢
    · exact absurd this.symm hco
    · exact absurd this hbo
    · exact this
  · intro p buf hp
    rw [hheap] at hp
    split at hp
    · cases hp
    · have := h.bound p buf hp
      omega
  · intro p buf hp
    rw [hheap] at hp
    split at hp
    · cases hp
    · rename_i hna
      obtain ⟨b, o', h3, h4⟩ := h.owned p buf hp
      by_cases hbo : b = other
      · subst hbo
        rw [ho] at h3; injection h3 with h3; subst h3
        exact ⟨a, o1, ha, by rw [h1]; exact h4⟩
      · by_cases hba : b = a
        · subst hba; exact absurd ⟨o', h3, h4⟩ hna
        · exact ⟨b, o', by rw [hb' b hba hbo]; exact h3, h4⟩


/-! ### Writing to buffers -/

/-- Memory with another buffer at an address -/
def Mem.put (m : Mem E) (p : Nat) (buf : List E) : Mem E := { m with heap := Function.update m.heap p (some buf) }

theorem Mem.put_put (m : Mem E) (p : Nat) (b b' : List E) : (m.put p b).put p b' = m.put p b' := by
  simp [Mem.put]

theorem Mem.put_self {m : Mem E} {p : Nat} {buf : List E} (h : m.heap p = some buf) : m.put p buf = m := by
  simp [Mem.put, ← h]

theorem Mem.put_heap (m : Mem E) (p : Nat) (b : List E) : (m.put p b).heap p = some b := by simp [Mem.put]

theorem Mem.put_heap_ne (m : Mem E) {p q : Nat} (h : q ≠ p) (b : List E) : (m.put p b).heap q = m.heap q := by
  simp [Mem.put, Function.update_of_ne h]

theorem store_ok {m : Mem E} {p : Nat} {buf : List E} (h : m.heap p = some buf) {i : Nat} (hi : i < buf.length) (e : E) :
    m.store (some p) i e = .ok (m.put p (buf.set i e)) := by
  simp only [Mem.store, h, wr_ok e hi]; rfl

theorem load_ok {m : Mem E} {p : Nat} {buf : List E} (h : m.heap p = some buf) {i : Nat} {e : E} (hi : buf[i]? = some e) :
    m.load (some p) i = .ok e := by
  simp only [Mem.load, h, rd_ok hi]

theorem loop_buf {m : Mem E} {p : Nat} {buf : List E} (hp : m.heap p = some buf) (n : Nat)
    (body : Nat → Mem E → M (Mem E)) (I : Nat → List E → Prop) (h0 : I 0 buf)
    (hstep : ∀ i < n, ∀ b, I i b → ∃ b', body i (m.put p b) = .ok (m.put p b') ∧ I (i + 1) b') :
    ∃ b, forLoop n body m = .ok (m.put p b) ∧ I n b := by
  obtain ⟨s, h1, b, h2, h3⟩ := forLoop_inv (body := body) (n := n) (fun i s => ∃ b, s = m.put p b ∧ I i b)
    (by
      rintro i hi s ⟨b, rfl, hb⟩
      obtain ⟨b', h1, h2⟩ := hstep i hi b hb
      exact ⟨_, h1, b', rfl, h2⟩) m ⟨buf, (Mem.put_self hp).symm, h0⟩
  exact ⟨b, by rw [h1, h2], h3⟩

theorem set_splice {xs buf : List E} {i : Nat} {e : E} (hx : xs[i]? = some e) (hi : i < buf.length) :
    (xs.take i ++ buf.drop i).set i e = xs.take (i + 1) ++ buf.drop (i + 1) := by
  have hl : i < xs.length := by
    by_contra hc
    rw [List.getElem?_eq_none (by omega)] at hx; cases hx
  have ht : (xs.take i).length = i := by simp; omega
  apply List.ext_getElem?
  intro j
  rw [List.getElem?_set]
  rcases Nat.lt_trichotomy j i with h | h | h
  · rw [if_neg (by omega), List.getElem?_append_left (by simp; omega), List.getElem?_append_left (by simp; omega)]
    rw [List.getElem?_take_of_lt h, List.getElem?_take_of_lt (by omega)]
  · subst h
    rw [if_pos rfl, if_pos (by simp; omega), List.getElem?_append_left (by simp; omega),
      List.getElem?_take_of_lt (by omega), hx]
  · rw [if_neg (by omega), List.getElem?_append_right (by simp; omega), List.getElem?_append_right (by simp; omega)]
    rw [List.getElem?_drop, List.getElem?_drop]
    congr 1
    simp
    omega

theorem splice_length {xs buf : List E} {i : Nat} (h1 : i ≤ xs.length) (h2 : i ≤ buf.length) :
    (xs.take i ++ buf.drop i).length = buf.length := by
  simp; omega

/-- Copying the first elements of a buffer into another one. -/
theorem copyElements_ok {m : Mem E} {p q : Nat} (hpq : p ≠ q) {bs bd : List E} (hs : m.heap p = some bs)
    (hd : m.heap q = some bd) {n : Nat} (h1 : n ≤ bs.length) (h2 : n ≤ bd.length) :
    m.copyElements n (some p) (some q) = .ok (m.put q (bs.take n ++ bd.drop n)) := by
  obtain ⟨b, hb, hI⟩ := loop_buf hd n (fun i m => do m.store (some q) i (← m.load (some p) i))
    (fun i b => b = bs.take i ++ bd.drop i) (by simp) (by
      rintro i hi b rfl
      have hx : bs[i]? = some bs[i] := List.getElem?_eq_getElem (by omega)
      refine ⟨bs.take (i + 1) ++ bd.drop (i + 1), ?_, rfl⟩
      rw [load_ok (by rw [Mem.put_heap_ne _ hpq]; exact hs) hx]
      simp only [M.bind_ok]
      rw [store_ok (Mem.put_heap _ _ _) (by rw [splice_length (by omega) (by omega)]; omega), Mem.put_put,
        set_splice hx (by omega)])
  rw [Mem.copyElements, hb, hI]

theorem copyElements_zero {m : Mem E} {p q : Option Nat} : m.copyElements 0 p q = .ok m := rfl

/-- Writing values to the start of a buffer. -/
theorem fill_ok {m : Mem E} {q : Nat} {bd : List E} (hd : m.heap q = some bd) (xs : List E) (h : xs.length ≤ bd.length)
    (body : Nat → Mem E → M (Mem E))
    (hbody : ∀ i e m', xs[i]? = some e → body i m' = m'.store (some q) i e) :
    forLoop xs.length body m = .ok (m.put q (xs ++ bd.drop xs.length)) := by
  obtain ⟨b, hb, hI⟩ := loop_buf hd xs.length body (fun i b => b = xs.take i ++ bd.drop i) (by simp) (by
      rintro i hi b rfl
      have hx : xs[i]? = some xs[i] := List.getElem?_eq_getElem (by omega)
      refine ⟨xs.take (i + 1) ++ bd.drop (i + 1), ?_, rfl⟩
      rw [hbody i _ _ hx]
      rw [store_ok (Mem.put_heap _ _ _) (by rw [splice_length (by omega) (by omega)]; omega), Mem.put_put,
        set_splice hx (by omega)])
  rw [hb, hI, List.take_length]

/-- Moving the elements from `last` on to `first`, within a buffer. -/
theorem shift_ok {m : Mem E} {q : Nat} {bd : List E} (hd : m.heap q = some bd) {first last n : Nat} (h1 : first ≤ last)
    (h2 : last ≤ n) (h3 : n ≤ bd.length) :
    forLoop (n - last) (fun i m => do m.store (some q) (first + i) (← m.load (some q) (last + i))) m =
      .ok (m.put q (bd.take first ++ (bd.take n).drop last ++ bd.drop (n - (last - first)))) := by
  obtain ⟨b, hb, hI⟩ := loop_buf hd (n - last) (fun i m => do m.store (some q) (first + i) (← m.load (some q) (last + i)))
    (fun i b => b.length = bd.length ∧ ∀ j, b[j]? = if first ≤ j ∧ j < first + i then bd[last + (j - first)]? else bd[j]?)
    (by
      refine ⟨rfl, fun j => ?_⟩
      rw [if_neg (by omega)])
    (by
      rintro i hi b ⟨hl, hb⟩
      have hx : b[last + i]? = some (bd[last + i]'(by omega)) := by
        rw [hb, if_neg (by omega)]
        exact List.getElem?_eq_getElem (by omega)
      refine ⟨b.set (first + i) (bd[last + i]'(by omega)), ?_, by simp [hl], ?_⟩
      · rw [load_ok (Mem.put_heap _ _ _) hx]
        simp only [M.bind_ok]
        rw [store_ok (Mem.put_heap _ _ _) (by omega), Mem.put_put]
      · intro j
        rw [List.getElem?_set]
        by_cases hj : first + i = j
        · rw [if_pos hj, if_pos (by omega), if_pos (by omega)]
          rw [List.getElem?_eq_getElem (by omega)]
          congr 2
          omega
        · rw [if_neg hj, hb]
          by_cases hc : first ≤ j ∧ j < first + i
          · rw [if_pos hc, if_pos (by omega)]
          · rw [if_neg hc, if_neg (by omega)])
  rw [hb]
  congr 2
  apply List.ext_getElem?
  intro j
  rw [hI.2 j]
  rcases Nat.lt_or_ge j first with hj | hj
  · rw [if_neg (by omega), List.append_assoc, List.getElem?_append_left (by simp; omega), List.getElem?_take_of_lt hj]
  · rcases Nat.lt_or_ge j (n - (last - first)) with hj' | hj'
    · rw [if_pos (by omega), List.append_assoc, List.getElem?_append_right (by simp; omega),
        List.getElem?_append_left (by simp; omega), List.getElem?_drop, List.getElem?_take_of_lt (by simp; omega)]
      congr 1
      simp; omega
    · rw [if_neg (by omega), List.getElem?_append_right (by simp; omega), List.getElem?_drop]
      congr 1
      simp; omega

/-- Writing to the buffer of an object. -/
theorem Rep.put {rank : Nat} {m : Mem E} {A : State E} (h : Rep rank m A) {a : Nat} {o : Obj} (ho : m.objs a = some o)
    {v : Val E} (hv : A a = some v) {p : Nat} (hp : o.elements = some p) {buf : List E} (hl : buf.length = v.buf.length)
    {nr : Nat} (hnr : nr ≤ v.shape.prod) :
    Rep rank ((m.put p buf).setObj a (some { o with nrElements := nr }))
      (Function.update A a (some ⟨v.shape, nr, buf⟩)) := by
  obtain ⟨v', hv', hrep, hwf⟩ := h.of_obj ho
  rw [hv] at hv'; injection hv' with hv'; subst hv'
  have hh := hrep.holds
  rw [hp] at hh
  simp only [Holds] at hh
  refine h.replace (o := { o with nrElements := nr }) rfl (Nat.le_refl _) ?_ ?_ ?_ ?_ ?_ ⟨hwf.rank, ?_, hnr⟩
  · intro q h1 h2
    have hq : q ≠ p := by rintro rfl; exact h2 hp
    show (m.put p buf).heap q = none
    rw [Mem.put_heap_ne _ hq]
    by_contra hc
    obtain ⟨b, hb⟩ := Option.ne_none_iff_exists'.mp hc
    obtain ⟨c, o', h3, h4⟩ := h.owned q b hb
    by_cases hca : c = a
    · subst hca; rw [ho] at h3; injection h3 with h3; subst h3; exact h2 h4
    · exact h1 c o' hca h3 h4
  · intro q b o' hb hob hq
    show (m.put p buf).heap q = m.heap q
    apply Mem.put_heap_ne
    rintro rfl
    exact hb (h.unique b a o' o q hob ho hq hp)
  · intro q hq
    have : q = p := by
      have : o.elements = some q := hq
      rw [hp] at this; injection this with this; exact this.symm
    subst this
    exact h.bound q _ hh.1
  · intro q b o' hq hb hob hqo
    exact hb (h.unique b a o' o q hob ho hqo hq)
  · refine ⟨hrep.shape, rfl, by rw [hl]; exact hrep.size, hrep.span, hrep.spanShape, ?_⟩
    show Holds _ o.elements buf
    rw [hp]
    refine ⟨Mem.put_heap _ _ _, ?_⟩
    rintro rfl
    simp at hl
    exact hh.2 (List.length_eq_zero_iff.mp hl.symm)
  · rw [hl]; exact hwf.size


/-! ### Operations -/

theorem Rep.get {rank : Nat} {m : Mem E} {A : State E} (h : Rep rank m A) {a : Nat} {v : Val E} (hv : A a = some v)
    {o : Obj} (ho : m.objs a = some o) : ObjRep m o v ∧ Wf rank v := by
  obtain ⟨v', hv', hrep, hwf⟩ := h.of_obj ho
  rw [hv] at hv'; injection hv' with hv'; subst hv'
  exact ⟨hrep, hwf⟩

theorem Rep.fresh {rank : Nat} {m : Mem E} {A : State E} (h : Rep rank m A) {b : Nat} {o : Obj} (ho : m.objs b = some o) :
    o.elements ≠ some m.next := by
  intro hp
  obtain ⟨v, hv, hrep, _⟩ := h.of_obj ho
  have := hrep.holds
  rw [hp] at this
  have := h.bound _ _ this.1
  omega

theorem Rep.heap_next {rank : Nat} {m : Mem E} {A : State E} (h : Rep rank m A) : m.heap m.next = none := by
  by_contra hc
  obtain ⟨b, hb⟩ := Option.ne_none_iff_exists'.mp hc
  have := h.bound _ _ hb
  omega

theorem Rep.unowned {rank : Nat} {m : Mem E} {A : State E} (h : Rep rank m A) {p : Nat}
    (hp : ∀ b o, m.objs b = some o → o.elements ≠ some p) : m.heap p = none := by
  by_contra hc
  obtain ⟨b, hb⟩ := Option.ne_none_iff_exists'.mp hc
  obtain ⟨c, o, h1, h2⟩ := h.owned _ _ hb
  exact hp c o h1 h2

theorem reset_ok {rank : Nat} {m : Mem E} {A : State E} (h : Rep rank m A) {a : Nat} {o : Obj} (ho : m.objs a = some o)
    {m1 : Mem E} (h1 : ∀ p, o.elements = some p → m1.heap p = m.heap p) :
    ∃ m', m1.reset o.elements = .ok m' ∧ m'.objs = m1.objs ∧ m'.next = m1.next ∧
      ∀ p, m'.heap p = if o.elements = some p then none else m1.heap p := by
  cases he : o.elements with
  | none => exact ⟨m1, rfl, rfl, rfl, fun p => by simp⟩
  | some q =>
    obtain ⟨v, hv, hrep, _⟩ := h.of_obj ho
    have := hrep.holds
    rw [he] at this
    refine ⟨{ m1 with heap := Function.update m1.heap q none }, ?_, rfl, rfl, ?_⟩
    · simp only [Mem.reset, h1 q he, this.1]
    · intro p
      by_cases hpq : q = p
      · subst hpq; simp
      · rw [if_neg (by simpa using hpq)]
        exact Function.update_of_ne (Ne.symm hpq) _ _

theorem construct_ok {rank : Nat} {m : Mem E} {A : State E} (h : Rep rank m A) (zero : E) {a : Nat} (ha : A a = none)
    {shape : List Nat} (hs : shape.length = rank) :
    ∃ m', m.construct zero a shape = .ok m' ∧
      Rep rank m' (Function.update A a (some ⟨shape, shape.prod, List.replicate shape.prod zero⟩)) ∧
      ∀ b, b ≠ a → m'.objs b = m.objs b := by
  simp only [Mem.construct, h.hnone a ha, nrElements_prod]
  by_cases hn : shape.prod = 0
  · rw [if_pos hn]
    refine ⟨_, rfl, ?_, fun b hb => Function.update_of_ne hb _ _⟩
    refine h.replace (o := ⟨shape, shape.prod, shape.prod, none, none, shape⟩) rfl (Nat.le_refl _) ?_ ?_ ?_ ?_ ?_ ?_
    · intro p h1 _
      apply h.unowned
      intro b o hb
      by_cases hba : b = a
      · subst hba; rw [h.hnone b ha] at hb; cases hb
      · exact h1 b o hba hb
    · intros; rfl
    · intro p hp; cases hp
    · intro p b o' hp; cases hp
    · exact ⟨rfl, rfl, by simp, rfl, rfl, by simp [Holds, hn]⟩
    · exact ⟨hs, by simp, Nat.le_refl _⟩
  · rw [if_neg hn]
    refine ⟨_, rfl, ?_, fun b hb => Function.update_of_ne hb _ _⟩
    refine h.replace (o := ⟨shape, shape.prod, shape.prod, some m.next, some m.next, shape⟩) rfl (Nat.le_succ _)
      ?_ ?_ ?_ ?_ ?_ ?_
    · intro p h1 h2
      have hp : p ≠ m.next := by rintro rfl; exact h2 rfl
      show Function.update m.heap m.next _ p = none
      rw [Function.update_of_ne hp]
      apply h.unowned
      intro b o hb
      by_cases hba : b = a
      · subst hba; rw [h.hnone b ha] at hb; cases hb
      · exact h1 b o hba hb
    · intro p b o' hb hob hp
      have hp : p ≠ m.next := by rintro rfl; exact h.fresh hob hp
      exact Function.update_of_ne hp _ _
    · intro p hp; injection hp with hp; subst hp; exact Nat.lt_succ_self _
    · intro p b o' hp hb hob
      injection hp with hp; subst hp; exact h.fresh hob
    · refine ⟨rfl, rfl, by simp, rfl, rfl, ?_, ?_⟩
      · exact Function.update_self _ _ _
      · intro hc
        have := congrArg List.length hc
        simp at this
        exact hn this
    · exact ⟨hs, by simp, Nat.le_refl _⟩

/-- Copy the elements of an object into the buffer of another one. -/
theorem copyInto_ok {rank : Nat} {m : Mem E} {A : State E} (h : Rep rank m A) {a other : Nat} (hne : a ≠ other)
    {v w : Val E} (hw : A a = some w) (hv : A other = some v) {o oa : Obj} (ho : m.objs other = some o)
    (hoa : m.objs a = some oa) (hn : v.nr ≤ w.buf.length) :
    ∃ m', m.copyElements o.nrElements o.elements oa.elements = .ok m' ∧
      Rep rank m' (Function.update A a (some ⟨w.shape, w.nr, v.elems ++ w.buf.drop v.nr⟩)) := by
  obtain ⟨hr, hf⟩ := h.get hv ho
  obtain ⟨hra, hfa⟩ := h.get hw hoa
  rw [hr.nr]
  by_cases h0 : v.nr = 0
  · refine ⟨m, by rw [h0]; rfl, ?_⟩
    have : (⟨w.shape, w.nr, v.elems ++ w.buf.drop v.nr⟩ : Val E) = w := by simp [Val.elems, h0]
    rw [this, ← hw, Function.update_eq_self]
    exact h
  · have hsz := hf.size
    have hnr := hf.nr
    have hh := hr.holds
    have hha := hra.holds
    cases he : o.elements with
    | none => rw [he] at hh; simp only [Holds] at hh; rw [hh] at hsz; simp at hsz; omega
    | some p =>
      cases hea : oa.elements with
      | none => rw [hea] at hha; simp only [Holds] at hha; rw [hha] at hn; simp at hn; omega
      | some q =>
        rw [he] at hh
        rw [hea] at hha
        have hpq : p ≠ q := by
          rintro rfl
          exact hne (h.unique a other oa o p hoa ho hea he)
        refine ⟨_, copyElements_ok hpq hh.1 hha.1 (by omega) (by omega), ?_⟩
        have := h.put hoa hw hea (buf := v.buf.take v.nr ++ w.buf.drop v.nr)
          (splice_length (by omega) (by omega)) (nr := w.nr) hfa.nr
        have hobj : (m.put q (v.buf.take v.nr ++ w.buf.drop v.nr)).setObj a (some { oa with nrElements := w.nr }) =
            m.put q (v.buf.take v.nr ++ w.buf.drop v.nr) := by
          have : { oa with nrElements := w.nr } = oa := by rw [← hra.nr]
          rw [this]
          simp only [Mem.setObj, Mem.put]
          rw [← hoa, Function.update_eq_self]
        rw [hobj] at this
        exact this

theorem reshape_ok {rank : Nat} {m : Mem E} {A : State E} (h : Rep rank m A) (zero : E) {a : Nat}
    {w : Val E} (hw : A a = some w) {shape : List Nat} (hs : shape.length = rank) :
    ∃ m', m.reshape zero a shape = .ok m' ∧
      Rep rank m' (Function.update A a (some (w.reshape zero shape))) ∧
      ∀ b, b ≠ a → m'.objs b = m.objs b := by
  obtain ⟨o, ho, hr, hf⟩ := h.hsome a w hw
  simp only [Mem.reshape, obj_ok ho, M.bind_ok, nrElements_prod, hr.shape, Val.reshape, hr.nr]
  by_cases hsh : w.shape = shape
  · rw [if_neg (by simpa using hsh), if_pos hsh]
    refine ⟨m, rfl, ?_, fun _ _ => rfl⟩
    rw [← hw, Function.update_eq_self]; exact h
  · rw [if_pos hsh, if_neg hsh, hr.size]
    -- the buffer is kept
    have keep : shape.prod ≤ w.buf.length →
        Rep rank (m.setObj a (some ⟨shape, shape.prod, w.buf.length, o.elements, o.elements, shape⟩))
          (Function.update A a (some ⟨shape, shape.prod, w.buf⟩)) := by
      intro hle
      refine h.replace (o := ⟨shape, shape.prod, w.buf.length, o.elements, o.elements, shape⟩) rfl (Nat.le_refl _) ?_ ?_ ?_ ?_ ?_ ?_
      · intro p h1 h2
        apply h.unowned
        intro b o' hb
        by_cases hba : b = a
        · subst hba; rw [ho] at hb; injection hb with hb; subst hb; exact h2
        · exact h1 b o' hba hb
      · intros; rfl
      · intro p hp
        have hp : o.elements = some p := hp
        have := hr.holds
        rw [hp] at this
        exact h.bound p _ this.1
      · intro p b o' hp hb hob hpo
        exact hb (h.unique b a o' o p hob ho hpo hp)
      · exact ⟨rfl, rfl, rfl, rfl, rfl, hr.holds⟩
      · exact ⟨hs, hle, Nat.le_refl _⟩
    by_cases hnr : w.nr = shape.prod
    · rw [if_neg (by simpa using hnr), if_neg (by simp [hnr])]
      refine ⟨_, rfl, ?_, fun b hb => Function.update_of_ne hb _ _⟩
      rw [hnr]
      apply keep
      have := hf.size; have := hf.nr; omega
    · rw [if_pos hnr]
      by_cases hsz : w.buf.length < shape.prod
      · rw [if_pos hsz, if_neg (by omega : ¬shape.prod = 0), if_pos ⟨hnr, hsz⟩]
        obtain ⟨m', h1, h2, h3, h4⟩ := reset_ok h ho (m1 := (m.makeUnique zero shape.prod).2) (by
          intro p hp
          have : p ≠ m.next := by rintro rfl; exact h.fresh ho hp
          exact Function.update_of_ne this _ _)
        simp only [h1, M.bind_ok]
        refine ⟨_, rfl, ?_, fun b hb => by
          show Function.update m'.objs a _ b = _
          rw [Function.update_of_ne hb, h2]; rfl⟩
        refine h.replace (o := ⟨shape, shape.prod, shape.prod, some m.next, some m.next, shape⟩) ?_ ?_ ?_ ?_ ?_ ?_ ?_ ?_
        · show Function.update m'.objs a _ = _
          rw [h2]; rfl
        · show m.next ≤ m'.next
          rw [h3]; exact Nat.le_succ _
        · intro p h5 h6
          have hp : p ≠ m.next := by rintro rfl; exact h6 rfl
          show m'.heap p = none
          rw [h4]
          split
          · rfl
          · rename_i h7
            show Function.update m.heap m.next _ p = none
            rw [Function.update_of_ne hp]
            apply h.unowned
            intro b o' hb
            by_cases hba : b = a
            · subst hba; rw [ho] at hb; injection hb with hb; subst hb; exact h7
            · exact h5 b o' hba hb
        · intro p b o' hb hob hp
          show m'.heap p = _
          rw [h4, if_neg]
          · have hp : p ≠ m.next := by rintro rfl; exact h.fresh hob hp
            exact Function.update_of_ne hp _ _
          · intro hc
            exact hb (h.unique b a o' o p hob ho hp hc)
        · intro p hp
          injection hp with hp; subst hp
          show m.next < m'.next
          rw [h3]; exact Nat.lt_succ_self _
        · intro p b o' hp hb hob
          injection hp with hp; subst hp; exact h.fresh hob
        · refine ⟨rfl, rfl, by simp, rfl, rfl, ?_, ?_⟩
          · show m'.heap m.next = _
            rw [h4, if_neg (h.fresh ho)]
            exact Function.update_self _ _ _
          · intro hc
            have := congrArg List.length hc
            simp at this
            omega
        · exact ⟨hs, by simp, Nat.le_refl _⟩
      · rw [if_neg hsz, if_neg (by simp [hsz])]
        refine ⟨_, rfl, ?_, fun b hb => Function.update_of_ne hb _ _⟩
        apply keep
        omega

end Lue.Memory

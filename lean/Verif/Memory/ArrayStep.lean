import Verif.Memory.ArrayProofs

/-!
C32: every operation on the memory implements the operation on values.
-/
namespace Lue.Memory

open Lue.Index Spec

variable {E : Type}

theorem Rep.obj_none {rank : Nat} {m : Mem E} {A : State E} (h : Rep rank m A) {a : Nat} (ha : A a = none) :
    m.objs a = none := h.hnone a ha

theorem Rep.clear {rank : Nat} (hrank : 0 < rank) {m : Mem E} {A : State E} (h : Rep rank m A) {a : Nat} {v : Val E}
    (hv : A a = some v) : ∃ m', m.clear a = .ok m' ∧ Rep rank m' (Function.update A a (some (empty rank))) := by
  obtain ⟨o, ho, hr, hf⟩ := h.hsome a v hv
  obtain ⟨m', h1, h2, h3, h4⟩ := reset_ok h ho (m1 := m) (fun _ _ => rfl)
  simp only [Mem.clear, obj_ok ho, M.bind_ok, h1, hr.shape, hf.rank]
  refine ⟨_, rfl, ?_⟩
  refine h.replace (o := ⟨List.replicate rank 0, 0, 0, none, none, List.replicate rank 0⟩) ?_ ?_ ?_ ?_ ?_ ?_ ?_ ?_
  · show Function.update m'.objs a _ = _
    rw [h2]
  · show m.next ≤ m'.next
    omega
  · intro p h5 _
    show m'.heap p = none
    rw [h4]
    split
    · rfl
    · rename_i h7
      apply h.unowned
      intro b o' hb
      by_cases hba : b = a
      · subst hba; rw [ho] at hb; injection hb with hb; subst hb; exact h7
      · exact h5 b o' hba hb
  · intro p b o' hb hob hp
    show m'.heap p = _
    rw [h4, if_neg]
    intro hc
    exact hb (h.unique b a o' o p hob ho hp hc)
  · intro p hp; cases hp
  · intro p b o' hp; cases hp
  · exact ⟨rfl, rfl, rfl, rfl, rfl, rfl⟩
  · exact ⟨by simp [empty], by simp [empty, prod_replicate_zero hrank], by simp [empty]⟩

/-- The object of a new variable -/
theorem Rep.constructed {rank : Nat} {m : Mem E} {A : State E} {a : Nat} {v : Val E}
    (h : Rep rank m (Function.update A a (some v))) : ∃ o, m.objs a = some o ∧ ObjRep m o v ∧ Wf rank v :=
  h.hsome a v (by simp)

/-- Fill the buffer of a new object. -/
theorem Rep.filled {rank : Nat} {m : Mem E} {A : State E} {a : Nat} {v : Val E} (h : Rep rank m A) (hv : A a = some v)
    {o : Obj} (ho : m.objs a = some o) (xs : List E) (hx : xs.length = v.buf.length)
    (body : Nat → Mem E → M (Mem E))
    (hbody : ∀ i e m', xs[i]? = some e → body i m' = m'.store o.elements i e) :
    ∃ m', forLoop xs.length body m = .ok m' ∧ Rep rank m' (Function.update A a (some ⟨v.shape, v.nr, xs⟩)) := by
  obtain ⟨hr, hf⟩ := h.get hv ho
  cases he : o.elements with
  | none =>
    have := hr.holds
    rw [he] at this
    simp only [Holds] at this
    have hx0 : xs = [] := List.length_eq_zero_iff.mp (by rw [hx, this]; rfl)
    refine ⟨m, by rw [hx0]; rfl, ?_⟩
    rw [hx0, ← this, ← hv, Function.update_eq_self]
    exact h
  | some p =>
    have hh := hr.holds
    rw [he] at hh
    refine ⟨_, fill_ok hh.1 xs (by omega) body (by intro i e m' hi; rw [hbody i e m' hi, he]), ?_⟩
    have hd : v.buf.drop xs.length = [] := List.drop_eq_nil_of_le (by omega)
    rw [hd, List.append_nil]
    have := h.put ho hv he (buf := xs) hx (nr := v.nr) hf.nr
    have hobj : (m.put p xs).setObj a (some { o with nrElements := v.nr }) = m.put p xs := by
      have : { o with nrElements := v.nr } = o := by rw [← hr.nr]
      rw [this]
      simp only [Mem.setObj, Mem.put]
      rw [← ho, Function.update_eq_self]
    rw [hobj] at this
    exact this

/-- Assign to an element. -/
theorem Rep.write {rank : Nat} {m : Mem E} {A : State E} {a : Nat} {v : Val E} (h : Rep rank m A) (hv : A a = some v)
    {o : Obj} (ho : m.objs a = some o) {i : Nat} (hi : i < v.buf.length) (e : E) :
    ∃ m', m.store o.elements i e = .ok m' ∧ Rep rank m' (Function.update A a (some { v with buf := v.buf.set i e })) := by
  obtain ⟨hr, hf⟩ := h.get hv ho
  have hh := hr.holds
  cases he : o.elements with
  | none => rw [he] at hh; simp only [Holds] at hh; rw [hh] at hi; simp at hi
  | some p =>
    rw [he] at hh
    refine ⟨_, store_ok hh.1 hi e, ?_⟩
    have := h.put ho hv he (buf := v.buf.set i e) (by simp) (nr := v.nr) hf.nr
    have hobj : (m.put p (v.buf.set i e)).setObj a (some { o with nrElements := v.nr }) = m.put p (v.buf.set i e) := by
      have : { o with nrElements := v.nr } = o := by rw [← hr.nr]
      rw [this]
      simp only [Mem.setObj, Mem.put]
      rw [← ho, Function.update_eq_self]
    rw [hobj] at this
    exact this

theorem step_ok {rank : Nat} (hrank : 0 < rank) (zero : E) {m : Mem E} {A A' : State E} (h : Rep rank m A) (op : Op E)
    (hA : Spec.step rank zero A op = some A') : ∃ m', m.step rank zero op = .ok m' ∧ Rep rank m' A' := by
  cases op with
  | constructDefault a =>
    simp only [Spec.step] at hA
    split at hA
    · rename_i ha
      injection hA with hA; subst hA
      simp only [Mem.step, Mem.constructDefault, h.hnone a ha]
      refine ⟨_, rfl, ?_⟩
      refine h.replace (o := ⟨List.replicate rank 0, 0, 0, none, none, List.replicate rank 0⟩) rfl (Nat.le_refl _)
        ?_ ?_ ?_ ?_ ?_ ?_
      · intro p h1 _
        apply h.unowned
        intro b o hb
        by_cases hba : b = a
        · subst hba; rw [h.hnone b ha] at hb; cases hb
        · exact h1 b o hba hb
      · intros; rfl
      · intro p hp; cases hp
      · intro p b o' hp; cases hp
      · exact ⟨rfl, rfl, rfl, rfl, rfl, rfl⟩
      · exact ⟨by simp [empty], by simp [empty, prod_replicate_zero hrank], by simp [empty]⟩
    · cases hA
  | construct a shape =>
    simp only [Spec.step] at hA
    split at hA
    · rename_i ha
      injection hA with hA; subst hA
      obtain ⟨m', h1, h2, _⟩ := construct_ok h zero ha.1 ha.2
      exact ⟨m', h1, h2⟩
    · cases hA
  | constructFill a shape value =>
    simp only [Spec.step] at hA
    split at hA
    · rename_i ha
      injection hA with hA; subst hA
      obtain ⟨m', h1, h2, _⟩ := construct_ok h zero ha.1 ha.2
      obtain ⟨o, ho, hr, hf⟩ := h2.constructed
      simp only [Mem.step, Mem.constructFill, h1, M.bind_ok, obj_ok ho, hr.nr]
      have := h2.filled (a := a) (v := ⟨shape, shape.prod, List.replicate shape.prod zero⟩) (by simp) ho (List.replicate shape.prod value) (by simp)
        (fun i m => m.store o.elements i value) (by
          intro i e m' hi
          rw [List.getElem?_replicate] at hi
          split at hi
          · injection hi with hi; rw [hi]
          · cases hi)
      simpa using this
    · cases hA
  | constructList a shape values =>
    simp only [Spec.step] at hA
    split at hA
    · rename_i ha
      injection hA with hA; subst hA
      obtain ⟨m', h1, h2, _⟩ := construct_ok h zero ha.1 ha.2.1
      obtain ⟨o, ho, hr, hf⟩ := h2.constructed
      simp only [Mem.step, Mem.constructList, h1, M.bind_ok, obj_ok ho, hr.nr]
      rw [if_neg (by simpa using ha.2.2)]
      have := h2.filled (a := a) (v := ⟨shape, shape.prod, List.replicate shape.prod zero⟩) (by simp) ho values (by simpa using ha.2.2)
        (fun i m => do m.store o.elements i (← rd values i)) (by
          intro i e m' hi
          rw [rd_ok hi]; rfl)
      simpa using this
    · cases hA
  | copyConstruct a other =>
    simp only [Spec.step] at hA
    split at hA
    · rename_i v ha hv
      injection hA with hA; subst hA
      have hne : a ≠ other := by rintro rfl; rw [ha] at hv; cases hv
      obtain ⟨o, ho, hr, hf⟩ := h.hsome other v hv
      obtain ⟨m', h1, h2, h3⟩ := construct_ok h zero ha (shape := v.shape) hf.rank
      obtain ⟨oa, hoa, _, _⟩ := h2.constructed
      simp only [Mem.step, Mem.copyConstruct, obj_ok ho, M.bind_ok, hr.shape, h1, obj_ok hoa]
      have ho' : m'.objs other = some o := by rw [h3 other (Ne.symm hne)]; exact ho
      obtain ⟨m'', h4, h5⟩ := copyInto_ok h2 hne (w := ⟨v.shape, v.shape.prod, List.replicate v.shape.prod zero⟩)
        (v := v) (by simp) (by rw [Function.update_of_ne (Ne.symm hne)]; exact hv) ho' hoa (by simpa using hf.nr)
      refine ⟨m'', h4, ?_⟩
      simpa using h5
    · cases hA
  | moveConstruct a other =>
    simp only [Spec.step] at hA
    split at hA
    · rename_i v ha hv
      injection hA with hA; subst hA
      have hne : a ≠ other := by rintro rfl; rw [ha] at hv; cases hv
      obtain ⟨o, ho, hr, hf⟩ := h.hsome other v hv
      simp only [Mem.step, Mem.moveConstruct, obj_ok ho, M.bind_ok, h.hnone a ha]
      simp only [Mem.clear, Mem.obj, Mem.setObj, M.bind_ok, Function.update_self, Mem.reset, Function.update_idem]
      refine ⟨_, rfl, ?_⟩
      refine h.move hrank hne hv ho rfl rfl ?_ (Nat.le_refl _) ?_
      · rw [hr.shape, hf.rank]
      · intro p
        rw [if_neg]
        rintro ⟨w, hw, _⟩
        rw [h.hnone a ha] at hw; cases hw
    · cases hA
  | copyAssign a other =>
    simp only [Spec.step] at hA
    split at hA
    · rename_i w v hw hv
      obtain ⟨o, ho, hr, hf⟩ := h.hsome other v hv
      obtain ⟨oa, hoa, hra, hfa⟩ := h.hsome a w hw
      simp only [Mem.step, Mem.copyAssign, obj_ok ho, obj_ok hoa, M.bind_ok]
      split at hA
      · rename_i hae
        injection hA with hA; subst hA
        rw [if_pos hae]
        exact ⟨m, rfl, h⟩
      · rename_i hne
        injection hA with hA; subst hA
        rw [if_neg hne, hr.shape]
        obtain ⟨m', h1, h2, h3⟩ := reshape_ok h zero hw (shape := v.shape) hf.rank
        obtain ⟨oa', hoa', hra', hfa'⟩ := h2.constructed
        have hne' : other ≠ a := fun hc => hne hc.symm
        have ho' : m'.objs other = some o := by rw [h3 other hne']; exact ho
        simp only [h1, M.bind_ok, obj_ok hoa']
        have hshape : (w.reshape zero v.shape).shape = v.shape := by
          unfold Val.reshape; split
          · assumption
          · split <;> rfl
        obtain ⟨m'', h4, h5⟩ := copyInto_ok h2 hne (w := w.reshape zero v.shape) (v := v) (by simp)
          (by rw [Function.update_of_ne hne']; exact hv) ho' hoa' (by
            have := hfa'.size; rw [hshape] at this; have := hf.nr; omega)
        refine ⟨m'', h4, ?_⟩
        simpa using h5
    · cases hA
  | moveAssign a other =>
    simp only [Spec.step] at hA
    split at hA
    · rename_i w v hw hv
      obtain ⟨o, ho, hr, hf⟩ := h.hsome other v hv
      obtain ⟨oa, hoa, hra, hfa⟩ := h.hsome a w hw
      simp only [Mem.step, Mem.moveAssign, obj_ok ho, obj_ok hoa, M.bind_ok]
      split at hA
      · rename_i hae
        injection hA with hA; subst hA
        rw [if_pos hae]
        exact ⟨m, rfl, h⟩
      · rename_i hne
        injection hA with hA; subst hA
        rw [if_neg hne]
        obtain ⟨m', h1, h2, h3, h4⟩ := reset_ok h hoa (m1 := m) (fun _ _ => rfl)
        simp only [h1, M.bind_ok]
        simp only [Mem.clear, Mem.obj, Mem.setObj, M.bind_ok, Function.update_self, Mem.reset, Function.update_idem]
        refine ⟨_, rfl, ?_⟩
        refine h.move hrank hne hv ho rfl rfl ?_ (by show m.next ≤ m'.next; omega) ?_
        · rw [hr.shape, hf.rank, h2]
        · intro p
          show m'.heap p = _
          rw [h4]
          by_cases hp : oa.elements = some p
          · rw [if_pos hp, if_pos ⟨oa, hoa, hp⟩]
          · rw [if_neg hp, if_neg]
            rintro ⟨w', hw', hp'⟩
            rw [hoa] at hw'; injection hw' with hw'; subst hw'; exact hp hp'
    · cases hA
  | reshape a shape =>
    simp only [Spec.step] at hA
    split at hA
    · rename_i w hw
      split at hA
      · rename_i hs
        injection hA with hA; subst hA
        obtain ⟨m', h1, h2, _⟩ := reshape_ok h zero hw hs
        exact ⟨m', h1, h2⟩
      · cases hA
    · cases hA
  | clear a =>
    simp only [Spec.step] at hA
    split at hA
    · rename_i v hv
      injection hA with hA; subst hA
      exact h.clear hrank hv
    · cases hA
  | remove a first last =>
    simp only [Spec.step] at hA
    split at hA
    · rename_i v hv
      split at hA
      · rename_i hfl
        injection hA with hA; subst hA
        obtain ⟨o, ho, hr, hf⟩ := h.hsome a v hv
        simp only [Mem.step, Mem.remove, obj_ok ho, M.bind_ok, hr.nr]
        have hsz := hf.size
        have hnr := hf.nr
        have hh := hr.holds
        cases he : o.elements with
        | none =>
          rw [he] at hh
          simp only [Holds] at hh
          have h0 : v.buf.length = 0 := by rw [hh]; rfl
          have e0 : v.nr - last = 0 := by omega
          rw [e0]
          simp only [forLoop, List.range_zero, List.foldlM_nil]
          refine ⟨_, rfl, ?_⟩
          have : (⟨v.shape, v.nr - (last - first),
              v.buf.take first ++ v.elems.drop last ++ v.buf.drop (v.nr - (last - first))⟩ : Val E) = v := by
            obtain ⟨s, n, b⟩ := v
            simp only at hh h0 hsz hnr hfl
            have : n = 0 := by omega
            subst this; subst hh
            simp [Val.elems]
          rw [this, ← hv, Function.update_eq_self]
          have hobj : { o with nrElements := v.nr - (last - first) } = o := by
            have : v.nr - (last - first) = o.nrElements := by rw [hr.nr]; omega
            rw [this]
          have hset : m.setObj a (some { o with nrElements := v.nr - (last - first) }) = m := by
            rw [hobj]
            simp only [Mem.setObj]
            rw [← ho, Function.update_eq_self]
          have hset' : m.setObj a (some { o with elements := none, nrElements := v.nr - (last - first) }) = m := by
            rw [← he]; exact hset
          first
            | rw [hset]; exact h
            | rw [hset']; exact h
        | some p =>
          rw [he] at hh
          rw [shift_ok hh.1 hfl.1 hfl.2 (by omega)]
          refine ⟨_, rfl, ?_⟩
          have := h.put ho hv he
            (buf := v.buf.take first ++ (v.buf.take v.nr).drop last ++ v.buf.drop (v.nr - (last - first)))
            (by simp; omega) (nr := v.nr - (last - first)) (by omega)
          simpa [Val.elems, he] using this
      · cases hA
    · cases hA
  | write a i e =>
    simp only [Spec.step] at hA
    split at hA
    · rename_i v hv
      split at hA
      · rename_i hi
        injection hA with hA; subst hA
        obtain ⟨o, ho, hr, hf⟩ := h.hsome a v hv
        simp only [Mem.step, Mem.write, obj_ok ho, M.bind_ok]
        exact h.write hv ho (by have := hf.size; have := hf.nr; omega) e
      · cases hA
    · cases hA
  | writeAt a idxs e =>
    simp only [Spec.step] at hA
    split at hA
    · rename_i v hv
      split at hA
      · rename_i hi
        injection hA with hA; subst hA
        obtain ⟨o, ho, hr, hf⟩ := h.hsome a v hv
        simp only [Mem.step, Mem.writeAt, obj_ok ho, M.bind_ok, hr.span, hr.spanShape]
        exact h.write hv ho (by have := (idxs_roundtrip _ _ hi).1; have := hf.size; omega) e
      · cases hA
    · cases hA
  | destroy a =>
    simp only [Spec.step] at hA
    split at hA
    · rename_i v hv
      injection hA with hA; subst hA
      obtain ⟨o, ho, hr, hf⟩ := h.hsome a v hv
      obtain ⟨m', h1, h2, h3, h4⟩ := reset_ok h ho (m1 := m) (fun _ _ => rfl)
      simp only [Mem.step, Mem.destroy, obj_ok ho, M.bind_ok, h1]
      refine ⟨_, rfl, ?_⟩
      exact h.remove ho (by show Function.update m'.objs a none = _; rw [h2]) (by show m.next ≤ m'.next; omega) h4
    · cases hA

end Lue.Memory

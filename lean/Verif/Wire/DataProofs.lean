import Verif.Wire.Data
import Verif.Wire.CodecProofs

namespace Lue.Wire
open Lue.Memory Lue.Memory.Spec

variable {E : Type}

theorem elementsOf_ok {s : Shared E} {h : Nat} (n : Nat) : ∀ (i : Nat) (es : List E), es.length = n →
    (∀ j < n, ∃ e, es[j]? = some e ∧ s.read h (i + j) = .ok e) → elementsOf s h i n = .ok es := by
  induction n with
  | zero => intro i es hl _; rw [List.length_eq_zero_iff.1 hl]; rfl
  | succ n ih =>
    intro i es hl hr
    match es, hl with
    | e :: es, hl =>
      obtain ⟨e', h1, h2⟩ := hr 0 (by omega)
      simp only [List.getElem?_cons_zero, Option.some.injEq] at h1
      subst h1
      rw [Nat.add_zero] at h2
      simp only [elementsOf, h2, M.bind_ok]
      rw [ih (i + 1) es (by simpa using hl) ?_]
      · rfl
      · intro j hj
        obtain ⟨e'', h3, h4⟩ := hr (j + 1) (by omega)
        rw [List.getElem?_cons_succ] at h3
        exact ⟨e'', h3, by rw [← h4]; congr 1; omega⟩

/-- Elements of a buffer are assigned to one after the other. -/
def setAll (buf : List E) : Nat → List E → List E
  | _, [] => buf
  | i, e :: es => setAll (buf.set i e) (i + 1) es

theorem setAll_length (es : List E) : ∀ (buf : List E) (i : Nat), (setAll buf i es).length = buf.length := by
  induction es with
  | nil => intro buf i; rfl
  | cons e es ih => intro buf i; simp only [setAll]; rw [ih, List.length_set]

theorem setAll_get (es : List E) : ∀ (buf : List E) (i j : Nat), i + es.length ≤ buf.length →
    (setAll buf i es)[j]? = if j < i then buf[j]? else if j < i + es.length then es[j - i]? else buf[j]? := by
  induction es with
  | nil => intro buf i j _; simp only [setAll, List.length_nil, Nat.add_zero]; split <;> rfl
  | cons e es ih =>
    intro buf i j h
    simp only [List.length_cons] at h
    simp only [setAll, List.length_cons]
    rw [ih _ _ _ (by rw [List.length_set]; omega)]
    by_cases h1 : j < i
    · rw [if_pos (by omega), if_pos h1, List.getElem?_set_ne (by omega)]
    · rw [if_neg h1]
      by_cases h2 : j = i
      · subst h2
        rw [if_pos (by omega), if_pos (by omega), Nat.sub_self, List.getElem?_cons_zero, List.getElem?_set_self (by omega)]
      · rw [if_neg (by omega)]
        by_cases h3 : j < i + 1 + es.length
        · rw [if_pos h3, if_pos (by omega), show j - i = (j - (i + 1)) + 1 by omega, List.getElem?_cons_succ]
        · rw [if_neg h3, if_neg (by omega), List.getElem?_set_ne (by omega)]

theorem setAll_take {es buf : List E} {n : Nat} (h : es.length = n) (hb : n ≤ buf.length) : (setAll buf 0 es).take n = es := by
  apply List.ext_getElem?
  intro j
  rw [List.getElem?_take]
  by_cases hj : j < n
  · rw [if_pos hj, setAll_get _ _ _ _ (by omega), if_neg (by omega), if_pos (by omega)]; rfl
  · rw [if_neg hj, List.getElem?_eq_none (by omega)]

theorem storeAll_ok {rank : Nat} (hrank : 0 < rank) (zero : E) (es : List E) : ∀ {s : Shared E} {S : SState E} {g c i : Nat} {sh : List Nat},
    PRep rank s S → S.handle g = some (sh, c) → i + es.length ≤ sh.prod →
    ∃ m', storeAll s.mem c i es = .ok m' ∧ m'.objs = s.mem.objs ∧
      PRep rank { s with mem := m' } { S with content := Function.update S.content c ⟨(S.content c).shape, (S.content c).nr, setAll (S.content c).buf i es⟩ } := by
  induction es with
  | nil =>
    intro s S g c i sh h hg _
    refine ⟨s.mem, rfl, rfl, ?_⟩
    have : Function.update S.content c ⟨(S.content c).shape, (S.content c).nr, setAll (S.content c).buf i []⟩ = S.content := by
      simp [setAll]
    rw [this]
    exact h
  | cons e es ih =>
    intro s S g c i sh h hg hi
    simp only [List.length_cons] at hi
    obtain ⟨x, o, hx, hr⟩ := h.hsome g sh c hg
    have hstep : S.step rank zero (.write g i e) = some { S with content := Function.update S.content c ⟨(S.content c).shape, (S.content c).nr, (S.content c).buf.set i e⟩ } := by
      simp only [SState.step, hg]
      rw [if_pos (by omega)]
    obtain ⟨s1, h1, h2⟩ := hstep_ok hrank zero h (.write g i e) hstep
    simp only [Shared.step, Shared.write, handle_ok hx, M.bind_ok, hr.ptr] at h1
    cases hw : s.mem.write c i e with
    | error y => rw [hw] at h1; cases h1
    | ok m1 =>
      rw [hw] at h1
      have h1 : Except.ok { s with mem := m1 } = (Except.ok s1 : M (Shared E)) := h1
      injection h1 with h1
      have ho : m1.objs = s.mem.objs := by
        simp only [Mem.write, obj_ok hr.obj, M.bind_ok] at hw
        exact store_objs hw
      rw [← h1] at h2
      obtain ⟨m', e1, e2, e3⟩ := ih (s := { s with mem := m1 }) (i := i + 1) h2 hg (by omega)
      refine ⟨m', ?_, e2.trans ho, ?_⟩
      · simp only [storeAll, hw, M.bind_ok]; exact e1
      · convert e3 using 2
        simp only [Function.update_idem, Function.update_self, setAll]

theorem save_ok (c : Codec E) {rank : Nat} {s : Shared E} {S : SState E} (h : PRep rank s S) {g a : Nat} {sh : List Nat}
    (hg : S.handle g = some (sh, a)) :
    save c s g = .ok ((fixed count).put sh ++ (count.put sh.prod ++ (S.content a).elems.flatMap c.put)) ∧
      (S.content a).elems.length = sh.prod := by
  have hs := h.sees hg
  obtain ⟨x, hx, hsh⟩ := hs.shape
  obtain ⟨x', o, _, hr⟩ := h.hsome g sh a hg
  have hlen : (S.content a).elems.length = sh.prod := by
    obtain ⟨o', _, _, hf⟩ := h.rep.hsome a _ (arrays_live (live_of hg))
    unfold Val.elems
    have h1 := hf.size
    have h2 := hf.nr
    rw [List.length_take, hs.nr]
    rw [hs.nr] at h2
    omega
  refine ⟨?_, hlen⟩
  unfold save
  rw [handle_ok hx, M.bind_ok, hs.size, M.bind_ok, elementsOf_ok sh.prod 0 (S.content a).elems hlen
    (fun j hj => by rw [Nat.zero_add]; exact hs.read j hj), M.bind_ok, hsh]
  rfl

theorem get_shape {rank : Nat} {sh : List Nat} (hl : sh.length = rank) (hf : ∀ n ∈ sh, Fits n) (rest : Bytes) :
    (fixed count).get (List.replicate rank 0) ((fixed count).put sh ++ rest) = some (sh, rest) := by
  apply exact_fixed exact_count sh _ hf
  subst hl
  clear hf
  induction sh with
  | nil => exact .nil
  | cons n sh ih => exact .cons trivial ih

/-- Partition data that is read is similar to what is written. -/
theorem load_ok {c : Codec E} {V : E → Prop} (hc : Exact c V) (zero : E) {rank : Nat} (hrank : 0 < rank) {r : Shared E} {R : SState E}
    (h : PRep rank r R) {g : Nat} (hg : R.handle g = none) {sh : List Nat} {es : List E} (hl : sh.length = rank) (hf : ∀ n ∈ sh, Fits n)
    (hp : Fits sh.prod) (hes : es.length = sh.prod) (hv : ∀ e ∈ es, V e) (rest : Bytes) :
    ∃ r' v, load c zero rank r g (((fixed count).put sh ++ (count.put sh.prod ++ es.flatMap c.put)) ++ rest) = .ok (r', rest) ∧
      v.elems = es ∧ v.nr = sh.prod ∧
      PRep rank r' { handle := Function.update R.handle g (some (sh, R.next)), content := Function.update R.content R.next v,
                     next := R.next + 1 } := by
  have hz : (List.replicate rank 0).prod = 0 := prod_replicate_zero hrank
  -- Construct
  obtain ⟨r1, h1, h2⟩ := hstep_ok hrank zero h (.construct g (List.replicate rank 0)) (S' :=
    { handle := Function.update R.handle g (some (List.replicate rank 0, R.next))
      content := Function.update R.content R.next ⟨[0], 0, []⟩
      next := R.next + 1 })
    (by simp only [SState.step]; rw [if_pos ⟨hg, by simp⟩, hz]; rfl)
  obtain ⟨x, o, hx, hr⟩ := h2.hsome g (List.replicate rank 0) R.next (Function.update_self _ _ _)
  -- Reshape
  have hstep : SState.step rank zero { handle := Function.update R.handle g (some (List.replicate rank 0, R.next))
                                       content := Function.update R.content R.next ⟨[0], 0, []⟩
                                       next := R.next + 1 } (.reshape g sh) =
      some { handle := Function.update R.handle g (some (sh, R.next))
             content := Function.update R.content R.next ((⟨[0], 0, []⟩ : Val E).reshape zero [sh.prod])
             next := R.next + 1 } := by
    simp only [SState.step, Function.update_self]
    rw [if_pos]
    · simp only [Function.update_idem]
    · refine ⟨hl, ?_⟩
      intro g' sh' c' hne hg' hcc
      simp only [Function.update_of_ne hne] at hg'
      obtain ⟨_, _, _, hb⟩ := h.hsome g' sh' c' hg'
      have := hb.bound
      omega
  obtain ⟨r2, h3, h4⟩ := hstep_ok hrank zero h2 (.reshape g sh) hstep
  simp only [Shared.step] at h1 h3
  have hbuf : sh.prod ≤ ((⟨[0], 0, []⟩ : Val E).reshape zero [sh.prod]).buf.length := by
    unfold Val.reshape
    simp only [List.prod_cons, List.prod_nil, Nat.mul_one, List.length_nil]
    split
    · rename_i h; simp at h; simp [← h]
    · split
      · simp
      · rename_i h; simp at h ⊢; omega
  -- Memory
  obtain ⟨m, hm, hr2⟩ : ∃ m, r1.mem.reshape zero R.next [sh.prod] = .ok m ∧
      ∃ o2, m.objs R.next = some o2 ∧ r2 = ({ r1 with mem := m }).setHandle g (some ⟨sh, R.next, o2.elements, sh⟩) := by
    simp only [Shared.reshape, handle_ok hx, M.bind_ok] at h3
    by_cases hsh : x.shape = sh
    · rw [if_neg (not_not.2 hsh)] at h3
      have h3 : Except.ok r1 = (Except.ok r2 : M (Shared E)) := h3
      injection h3 with h3
      have hsh' : sh = List.replicate rank 0 := by rw [← hsh, hr.shape]
      obtain ⟨o', e1, e2, e3⟩ := h2.rep.hsome R.next _ (arrays_live ⟨g, _, Function.update_self _ _ _⟩)
      have e4 : o' = o := by rw [hr.obj] at e1; injection e1 with e1; exact e1.symm
      subst e4
      refine ⟨r1.mem, ?_, o', hr.obj, ?_⟩
      · simp only [Mem.reshape, obj_ok hr.obj, M.bind_ok]
        rw [if_neg]
        · rfl
        · rw [e2.shape]; simp [hsh', hz]
      · rw [← h3]
        have hx' : x = ⟨sh, R.next, o'.elements, sh⟩ := by
          obtain ⟨a, b, c, d⟩ := x
          have q1 := hr.shape
          have q2 := hr.ptr
          have q3 := hr.span
          have q4 := hr.spanShape
          simp only at q1 q2 q3 q4
          rw [q1, q2, q3, q4, hsh']
        rw [← hx']
        unfold Shared.setHandle
        have : Function.update r1.handles g (some x) = r1.handles := by
          rw [← hx]; simp
        simp only [this]
    · rw [if_pos hsh] at h3
      rw [hr.ptr, Lue.Memory.nrElements_prod] at h3
      cases hq : r1.mem.reshape zero R.next [sh.prod] with
      | error y => rw [hq] at h3; cases h3
      | ok m =>
        rw [hq, M.bind_ok] at h3
        refine ⟨m, rfl, ?_⟩
        cases hd : Shared.data { r1 with mem := m } R.next with
        | error y => rw [hd] at h3; cases h3
        | ok q =>
          rw [hd, M.bind_ok] at h3
          have h3 := Except.ok.inj h3
          simp only [Shared.data, Mem.obj] at hd
          cases hob : m.objs R.next with
          | none => rw [hob] at hd; cases hd
          | some o2 =>
            rw [hob] at hd
            have hd := Except.ok.inj hd
            refine ⟨o2, rfl, ?_⟩
            rw [← h3, ← hd]
  obtain ⟨o2, ho2, hr2⟩ := hr2
  -- Elements
  obtain ⟨m', e1, e2, e3⟩ := storeAll_ok hrank zero es (i := 0) h4 (Function.update_self _ _ _) (by omega)
  have hmem : r2.mem = m := by rw [hr2]; rfl
  rw [hmem] at e1 e2
  simp only [Function.update_idem, Function.update_self] at e3
  refine ⟨{ r2 with mem := m' }, _, ?_, ?_, ?_, e3⟩
  · have hdata : Shared.data { r1 with mem := m' } R.next = .ok o2.elements := data_ok (by rw [e2]; exact ho2)
    unfold load
    rw [h1, M.bind_ok, handle_ok hx, M.bind_ok, hr.shape, List.append_assoc, get_shape hl hf]
    simp only [orEnd, M.bind_ok]
    rw [List.append_assoc, exact_count _ _ hp trivial]
    simp only [M.bind_ok]
    rw [hr.ptr, hm, M.bind_ok, ← hes, getMany_exact hc zero es rest hv (fun _ _ => trivial)]
    simp only [M.bind_ok]
    rw [e1, M.bind_ok, hdata, M.bind_ok, hr2]
    rfl
  · unfold Val.elems
    simp only []
    have hnr : ((⟨[0], 0, []⟩ : Val E).reshape zero [sh.prod]).nr = sh.prod := by
      unfold Val.reshape
      simp only [List.prod_cons, List.prod_nil, Nat.mul_one]
      split
      · rename_i h; simp at h; simp [← h]
      · split <;> rfl
    rw [hnr]
    exact setAll_take hes hbuf
  · unfold Val.reshape
    simp only [List.prod_cons, List.prod_nil, Nat.mul_one]
    split
    · rename_i h; simp at h; simp [← h]
    · split <;> rfl

end Lue.Wire

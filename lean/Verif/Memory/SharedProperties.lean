import Verif.Memory.SharedProofs
import Verif.Memory.ArrayProperties

/-!
# C30: copies of partition data share elements; assignment keeps other handles intact

`SState.run` tells what the handles refer to after a history of operations. It is undefined for histories in which data
is move-assigned to a handle whose elements are shared with another handle. The last theorems are about those.
-/
namespace Lue.Memory

open Lue.Index Spec

variable {E : Type}

theorem prep_empty (rank : Nat) : PRep rank ({} : Shared E) ({} : SState E) where
  rep := by
    have : (({} : SState E)).arrays = fun _ => none := by
      funext c
      apply arrays_dead
      rintro ⟨h, sh, hh⟩
      cases hh
    rw [this]; exact rep_empty 1
  hnone := fun _ _ => rfl
  hsome := fun h sh c hh => by cases hh
  next := rfl

theorem hrun_prep {rank : Nat} (hrank : 0 < rank) (zero : E) (ops : List (HOp E)) : ∀ {s : Shared E} {S S' : SState E},
    PRep rank s S → S.run rank zero ops = some S' → ∃ s', s.run zero ops = .ok s' ∧ PRep rank s' S' := by
  induction ops with
  | nil =>
    intro s S S' h hS
    simp only [SState.run, List.foldlM_nil] at hS
    injection hS with hS; subst hS
    exact ⟨s, rfl, h⟩
  | cons op ops ih =>
    intro s S S' h hS
    simp only [SState.run, List.foldlM_cons] at hS
    cases hs : S.step rank zero op with
    | none => rw [hs] at hS; cases hS
    | some S1 =>
      rw [hs] at hS
      obtain ⟨s1, h1, h2⟩ := hstep_ok hrank zero h op hs
      obtain ⟨s', h3, h4⟩ := ih h2 hS
      refine ⟨s', ?_, h4⟩
      simp only [Shared.run, List.foldlM_cons, h1, M.bind_ok]
      exact h3

/-- What is observed of partition data `h`: its shape is `sh` and its elements are those of `v`. -/
structure HSees (s : Shared E) (h : Nat) (sh : List Nat) (v : Val E) : Prop where
  shape : ∃ x, s.handles h = some x ∧ x.shape = sh
  size : s.size h = .ok sh.prod
  nr : v.nr = sh.prod
  read : ∀ i < sh.prod, ∃ e, v.elems[i]? = some e ∧ s.read h i = .ok e
  readAt : ∀ idxs, InShape idxs sh → ∃ e, v.elems[idxsToLinearIdx idxs sh]? = some e ∧ s.readAt h idxs = .ok e

theorem PRep.sees {rank : Nat} {s : Shared E} {S : SState E} (h : PRep rank s S) {g c : Nat} {sh : List Nat}
    (hg : S.handle g = some (sh, c)) : HSees s g sh (S.content c) := by
  obtain ⟨x, o, hx, hr⟩ := h.hsome g sh c hg
  obtain ⟨o', hs⟩ := h.rep.sees (arrays_live (live_of hg))
  have : o' = o := by have := hs.obj; rw [hr.obj] at this; injection this with this; exact this.symm
  subst this
  refine ⟨⟨x, hx, hr.shape⟩, ?_, hr.nr, ?_, ?_⟩
  · simp only [Shared.size, handle_ok hx, M.bind_ok, hr.ptr, obj_ok hr.obj, hs.nr, hr.nr]; rfl
  · intro i hi
    obtain ⟨e, h1, h2⟩ := hs.elements i (by rw [hr.nr]; exact hi)
    refine ⟨e, h1, ?_⟩
    simp only [Shared.read, handle_ok hx, M.bind_ok, hr.ptr, obj_ok hr.obj]
    exact h2
  · intro idxs hi
    have hlt := (idxs_roundtrip _ _ hi).1
    obtain ⟨e, h1, h2⟩ := hs.elements _ (by rw [hr.nr]; exact hlt)
    refine ⟨e, h1, ?_⟩
    simp only [Shared.readAt, handle_ok hx, M.bind_ok, hr.span, hr.spanShape]
    exact h2

/-- C30: whatever the history of operations, memory is used correctly, every handle shows the elements of the collection
it refers to, and collections exist as long as handles refer to them, not longer. -/
theorem shared_history {rank : Nat} (hrank : 0 < rank) (zero : E) (ops : List (HOp E)) {S : SState E}
    (hS : SState.run rank zero ops {} = some S) :
    ∃ s : Shared E, Shared.run zero ops {} = .ok s ∧
      (∀ h sh c, S.handle h = some (sh, c) → HSees s h sh (S.content c)) ∧
      (∀ h, S.handle h = none → s.handles h = none) ∧
      (∀ c o, s.mem.objs c = some o → ∃ h sh, S.handle h = some (sh, c)) := by
  obtain ⟨s, h1, h2⟩ := hrun_prep hrank zero ops (prep_empty rank) hS
  refine ⟨s, h1, fun h sh c hh => h2.sees hh, h2.hnone, ?_⟩
  intro c o ho
  by_contra hc
  have : ¬S.Live c := hc
  rw [h2.rep.hnone c (arrays_dead this)] at ho
  cases ho

/-- C30: once all handles are gone, no memory is in use. -/
theorem shared_noLeak {rank : Nat} (hrank : 0 < rank) (zero : E) (ops : List (HOp E)) {S : SState E}
    (hS : SState.run rank zero ops {} = some S) (hend : ∀ h, S.handle h = none) :
    ∃ s : Shared E, Shared.run zero ops {} = .ok s ∧ ∀ p, s.mem.heap p = none := by
  obtain ⟨s, h1, h2⟩ := hrun_prep hrank zero ops (prep_empty rank) hS
  refine ⟨s, h1, fun p => ?_⟩
  by_contra hc
  obtain ⟨b, hb⟩ := Option.ne_none_iff_exists'.mp hc
  obtain ⟨a, o, h4, _⟩ := h2.rep.owned p b hb
  have : ¬S.Live a := by rintro ⟨h, sh, hh⟩; rw [hend h] at hh; cases hh
  rw [h2.rep.hnone a (arrays_dead this)] at h4
  cases h4

/-- C30: a copy refers to the same elements, and has the same shape. -/
theorem copy_refers {rank : Nat} (zero : E) {S S' : SState E} {h other : Nat}
    (hS : S.step rank zero (.copyConstruct h other) = some S' ∨ S.step rank zero (.copyAssign h other) = some S') :
    S'.handle h = S.handle other ∧ S'.handle other = S.handle other ∧ S'.content = S.content ∧
      ∀ g, g ≠ h → S'.handle g = S.handle g := by
  rcases hS with hS | hS <;> simp only [SState.step] at hS <;> split at hS
  all_goals first | cases hS | skip
  · rename_i x h1 h2
    refine ⟨by rw [h2]; simp, ?_, rfl, fun g hg => Function.update_of_ne hg _ _⟩
    show Function.update S.handle h _ other = _
    rw [Function.update_of_ne]
    rintro rfl; rw [h1] at h2; cases h2
  · rename_i w x h1 h2
    refine ⟨by rw [h2]; simp, ?_, rfl, fun g hg => Function.update_of_ne hg _ _⟩
    show Function.update S.handle h _ other = _
    by_cases ho : other = h
    · subst ho; rw [h2]; simp
    · rw [Function.update_of_ne ho]

/-- C30: handles referring to the same collection share elements: an assignment by means of one handle is visible by means
of the other one, at the same position. Handles referring to another collection do not notice it. -/
theorem write_visible {rank : Nat} (hrank : 0 < rank) (zero : E) (ops : List (HOp E)) {S : SState E}
    (hS : SState.run rank zero ops {} = some S) {h c : Nat} {sh : List Nat} (hh : S.handle h = some (sh, c))
    {i : Nat} (hi : i < sh.prod) (e : E) :
    ∃ s s' : Shared E, Shared.run zero ops {} = .ok s ∧ s.write h i e = .ok s' ∧
      ∀ g sh' c', S.handle g = some (sh', c') →
        (c' = c → s'.read g i = .ok e) ∧ ∀ j < sh'.prod, (c' ≠ c ∨ j ≠ i) → s'.read g j = s.read g j := by
  obtain ⟨s, h1, h2⟩ := hrun_prep hrank zero ops (prep_empty rank) hS
  have hst : S.step rank zero (.write h i e) = some { S with content := (Function.update S.content c
        ⟨(S.content c).shape, (S.content c).nr, (S.content c).buf.set i e⟩) } := by
    simp only [SState.step, hh, if_pos hi]
  obtain ⟨s', h3, h4⟩ := hstep_ok hrank zero h2 _ hst
  refine ⟨s, s', h1, h3, ?_⟩
  intro g sh' c' hg
  have hb := h2.sees hg
  have ha := h4.sees (g := g) (sh := sh') (c := c') hg
  have hnr := (h2.sees hh).nr
  obtain ⟨_, _, _, hrx⟩ := h2.hsome h sh c hh
  obtain ⟨_, hf⟩ := h2.rep.get (arrays_live (live_of hh)) hrx.obj
  have hl : i < (S.content c).buf.length := by have := hf.size; have := hf.nr; omega
  refine ⟨?_, ?_⟩
  · rintro rfl
    have hp : sh'.prod = sh.prod := by rw [← hb.nr, ← hnr]
    obtain ⟨e', h5, h6⟩ := ha.read i (by rw [hp]; exact hi)
    simp only [Function.update_self, Val.elems] at h5
    rw [List.getElem?_take_of_lt (by rw [hnr]; exact hi), List.getElem?_set_self hl] at h5
    injection h5 with h5; subst h5; exact h6
  · intro j hj hne
    obtain ⟨e', h5, h6⟩ := ha.read j hj
    obtain ⟨e'', h7, h8⟩ := hb.read j hj
    by_cases hc : c' = c
    · subst hc
      have hji : j ≠ i := by rcases hne with h | h; exact absurd rfl h; exact h
      simp only [Function.update_self, Val.elems] at h5
      rw [List.getElem?_take_of_lt (by rw [hb.nr]; exact hj), List.getElem?_set_ne (Ne.symm hji)] at h5
      simp only [Val.elems] at h7
      rw [List.getElem?_take_of_lt (by rw [hb.nr]; exact hj), h5] at h7
      injection h7 with h7
      rw [h6, h8, h7]
    · simp only [Function.update_of_ne hc] at h5
      rw [h5] at h7
      injection h7 with h7
      rw [h6, h8, h7]

/-- C30: move-construction and move-assignment hand the elements over, leave an empty handle behind, and leave the handles
not involved untouched, if the elements of the handle which is assigned to are not shared. -/
theorem move_refers {rank : Nat} (zero : E) {S S' : SState E} {h other : Nat} (hne : h ≠ other)
    (hbound : ∀ g sh c, S.handle g = some (sh, c) → c < S.next)
    (hS : S.step rank zero (.moveConstruct h other) = some S' ∨ S.step rank zero (.moveAssign h other) = some S') :
    ∃ sh c c', S.handle other = some (sh, c) ∧ S'.handle h = some (sh, c) ∧ S'.content c = S.content c ∧
      S'.handle other = some (List.replicate rank 0, c') ∧ (S'.content c').elems = [] ∧ S'.OnlyRef other c' ∧
      ∀ g sh' d, g ≠ h → g ≠ other → S.handle g = some (sh', d) → S'.handle g = some (sh', d) ∧ S'.content d = S.content d := by
  have hne' : other ≠ h := fun e => hne e.symm
  rcases hS with hS | hS <;> simp only [SState.step] at hS <;> split at hS
  all_goals first | cases hS | skip
  · rename_i x h1 h2
    obtain ⟨sh, c⟩ := x
    refine ⟨sh, c, S.next, h2, ?_, ?_, by simp, by simp [Val.elems], ?_, ?_⟩
    · simp only; rw [Function.update_of_ne hne]; simp
    · exact Function.update_of_ne (Nat.ne_of_lt (hbound _ _ _ h2)) _ _
    · intro g sh' c' hg hgc
      simp only at hgc
      rw [Function.update_of_ne hg] at hgc
      by_cases hgh : g = h
      · subst hgh; simp at hgc; obtain ⟨rfl, rfl⟩ := hgc; exact Nat.ne_of_lt (hbound _ _ _ h2)
      · rw [Function.update_of_ne hgh] at hgc; exact Nat.ne_of_lt (hbound _ _ _ hgc)
    · intro g sh' d hgh hgo hg
      refine ⟨?_, Function.update_of_ne (Nat.ne_of_lt (hbound _ _ _ hg)) _ _⟩
      simp only
      rw [Function.update_of_ne hgo, Function.update_of_ne hgh]; exact hg
  · rename_i w x h1 h2
    obtain ⟨sh, c⟩ := x
    obtain ⟨shw, cw⟩ := w
    rw [if_neg hne] at hS
    split at hS
    · rename_i honly
      injection hS with hS; subst hS
      have hcc : c ≠ cw := honly other sh c hne' h2
      refine ⟨sh, c, cw, h2, ?_, ?_, by simp, by simp [Val.elems], ?_, ?_⟩
      · simp only; rw [Function.update_of_ne hne]; simp
      · exact Function.update_of_ne hcc _ _
      · intro g sh' c' hg hgc
        simp only at hgc
        rw [Function.update_of_ne hg] at hgc
        by_cases hgh : g = h
        · subst hgh; simp at hgc; obtain ⟨rfl, rfl⟩ := hgc; exact hcc
        · rw [Function.update_of_ne hgh] at hgc; exact honly g sh' c' hgh hgc
      · intro g sh' d hgh hgo hg
        refine ⟨?_, Function.update_of_ne (honly g sh' d hgh hg) _ _⟩
        simp only
        rw [Function.update_of_ne hgo, Function.update_of_ne hgh]; exact hg
    · cases hS

/-! ### Shared handles and move-assignment -/

/-- Finding (C30): if data is move-assigned to handle `h`, then every other handle `g` which shares the elements of `h` loses
its elements: its buffer is empty although its shape still is the same, and using an element by means of its indices uses
memory which has been deleted. -/
theorem moveAssign_shared {rank : Nat} (hrank : 0 < rank) (zero : E) (ops : List (HOp E)) {S : SState E}
    (hS : SState.run rank zero ops {} = some S) {h other g c c' : Nat} {sh sh' shg : List Nat}
    (hh : S.handle h = some (sh, c)) (ho : S.handle other = some (sh', c')) (hg : S.handle g = some (shg, c))
    (hne : h ≠ other) (hgh : g ≠ h) (hgo : g ≠ other) :
    ∃ s s' : Shared E, Shared.run zero ops {} = .ok s ∧ s.moveAssign h other = .ok s' ∧
      (∃ x, s'.handles g = some x ∧ x.shape = shg) ∧ s'.size g = .ok 0 ∧
      ∀ idxs, InShape idxs shg → s'.readAt g idxs = .error .outOfBounds := by
  obtain ⟨s, h1, h2⟩ := hrun_prep hrank zero ops (prep_empty rank) hS
  obtain ⟨x, o, hx, hr⟩ := h2.hsome h sh c hh
  obtain ⟨x', o', hx', hr'⟩ := h2.hsome other sh' c' ho
  obtain ⟨xg, og, hxg, hrg⟩ := h2.hsome g shg c hg
  have : og = o := by have := hrg.obj; rw [hr.obj] at this; injection this with this; exact this.symm
  subst this
  obtain ⟨hrep, hf⟩ := h2.rep.get (arrays_live (live_of hh)) hr.obj
  -- clear
  obtain ⟨m1, e1, e2, e3, e4⟩ := reset_ok h2.rep hr.obj (m1 := s.mem) (fun _ _ => rfl)
  have hclear : s.mem.clear c = .ok (m1.setObj c (some ⟨[0], 0, 0, none, none, [0]⟩)) := by
    simp only [Mem.clear, obj_ok hr.obj, M.bind_ok, e1, hrep.shape, hf.rank, List.replicate_one]; rfl
  have hobj : ∃ d, (m1.setObj c (some ⟨[0], 0, 0, none, none, [0]⟩)).objs c' = some d := by
    by_cases hcc : c' = c
    · subst hcc; exact ⟨_, Function.update_self _ _ _⟩
    · exact ⟨o', by show Function.update m1.objs c _ c' = _; rw [Function.update_of_ne hcc, e2]; exact hr'.obj⟩
  obtain ⟨d, hd⟩ := hobj
  refine ⟨s, ?_⟩
  simp only [Shared.moveAssign, handle_ok hx, handle_ok hx', M.bind_ok, if_neg hne, hr.ptr, hr'.ptr, hclear]
  rw [data_ok (s := { s with mem := m1.setObj c (some ⟨[0], 0, 0, none, none, [0]⟩) }) (c := c') hd]
  simp only [M.bind_ok]
  rw [data_ok (c := c) (o := ⟨[0], 0, 0, none, none, [0]⟩) (Function.update_self _ _ _)]
  refine ⟨_, h1, rfl, ?_, ?_, ?_⟩
  · refine ⟨xg, ?_, hrg.shape⟩
    show Function.update (Function.update s.handles h _) other _ g = _
    rw [Function.update_of_ne hgo, Function.update_of_ne hgh]; exact hxg
  · have hxg' : (Function.update (Function.update s.handles h (some ⟨x'.shape, c', d.elements, x'.shape⟩)) other
        (some ⟨List.replicate x'.shape.length 0, c, none, List.replicate x'.shape.length 0⟩)) g = some xg := by
      rw [Function.update_of_ne hgo, Function.update_of_ne hgh]; exact hxg
    simp only [Shared.size, Shared.handle, Shared.setHandle, hxg', M.bind_ok, hrg.ptr, Mem.obj, Mem.setObj,
      Function.update_self]
    rfl
  · intro idxs hi
    have hxg' : (Function.update (Function.update s.handles h (some ⟨x'.shape, c', d.elements, x'.shape⟩)) other
        (some ⟨List.replicate x'.shape.length 0, c, none, List.replicate x'.shape.length 0⟩)) g = some xg := by
      rw [Function.update_of_ne hgo, Function.update_of_ne hgh]; exact hxg
    simp only [Shared.readAt, Shared.handle, Shared.setHandle, hxg', M.bind_ok, hrg.span, Mem.load, Mem.setObj]
    cases he : og.elements with
    | none => rfl
    | some p =>
      simp only
      rw [e4 p, if_pos he]

/-- Finding (C30): move-assigning a handle to a handle sharing its elements empties both. -/
theorem moveAssign_alias {rank : Nat} (hrank : 0 < rank) (zero : E) (ops : List (HOp E)) {S : SState E}
    (hS : SState.run rank zero ops {} = some S) {h other c : Nat} {sh sh' : List Nat}
    (hh : S.handle h = some (sh, c)) (ho : S.handle other = some (sh', c)) (hne : h ≠ other) :
    ∃ s s' : Shared E, Shared.run zero ops {} = .ok s ∧ s.moveAssign h other = .ok s' ∧
      (∃ x, s'.handles h = some x ∧ x.shape = sh') ∧ s'.size h = .ok 0 ∧ s'.size other = .ok 0 := by
  obtain ⟨s, h1, h2⟩ := hrun_prep hrank zero ops (prep_empty rank) hS
  obtain ⟨x, o, hx, hr⟩ := h2.hsome h sh c hh
  obtain ⟨x', o', hx', hr'⟩ := h2.hsome other sh' c ho
  obtain ⟨hrep, hf⟩ := h2.rep.get (arrays_live (live_of hh)) hr.obj
  obtain ⟨m1, e1, e2, e3, e4⟩ := reset_ok h2.rep hr.obj (m1 := s.mem) (fun _ _ => rfl)
  have hclear : s.mem.clear c = .ok (m1.setObj c (some ⟨[0], 0, 0, none, none, [0]⟩)) := by
    simp only [Mem.clear, obj_ok hr.obj, M.bind_ok, e1, hrep.shape, hf.rank, List.replicate_one]; rfl
  refine ⟨s, ?_⟩
  simp only [Shared.moveAssign, handle_ok hx, handle_ok hx', M.bind_ok, if_neg hne, hr.ptr, hr'.ptr, hclear]
  rw [data_ok (s := { s with mem := m1.setObj c (some ⟨[0], 0, 0, none, none, [0]⟩) })
    (c := c) (o := ⟨[0], 0, 0, none, none, [0]⟩) (Function.update_self _ _ _)]
  simp only [M.bind_ok]
  rw [data_ok (c := c) (o := ⟨[0], 0, 0, none, none, [0]⟩) (Function.update_self _ _ _)]
  refine ⟨_, h1, rfl, ?_, ?_, ?_⟩
  · refine ⟨⟨x'.shape, c, none, x'.shape⟩, ?_, hr'.shape⟩
    show Function.update (Function.update s.handles h _) other _ h = _
    rw [Function.update_of_ne hne]; exact Function.update_self _ _ _
  · simp only [Shared.size, Shared.handle, Shared.setHandle, Function.update_of_ne hne, Function.update_self, M.bind_ok,
      Mem.obj, Mem.setObj]
    rfl
  · simp only [Shared.size, Shared.handle, Shared.setHandle, Function.update_self, M.bind_ok, Mem.obj, Mem.setObj]
    rfl

/-- A history after which handles 0 and 1 share elements, and handle 2 does not share elements -/
def exampleHOps : List (HOp Int) :=
  [.construct 0 [2, 3], .copyConstruct 1 0, .construct 2 [3, 1], .write 1 5 7, .copyAssign 1 0, .moveConstruct 3 2,
    .destroy 2, .copyConstruct 2 3, .destroy 3]

/-- The histories the theorems are about exist, and so do handles sharing elements. -/
theorem exampleHOps_run : ∃ S, SState.run 2 0 exampleHOps {} = some S ∧ S.handle 0 = some ([2, 3], 0) ∧
    S.handle 1 = some ([2, 3], 0) ∧ S.handle 2 = some ([3, 1], 1) ∧ (∀ g, 2 < g → S.handle g = none) ∧
    (S.content 0).elems = [0, 0, 0, 0, 0, 7] := by
  let S : SState Int := (SState.run 2 0 exampleHOps {}).getD {}
  have h : SState.run 2 0 exampleHOps {} = some S := by
    simp [S, SState.run, SState.step, exampleHOps, Function.update]
  refine ⟨S, h, ?_⟩
  simp only [S, SState.run, SState.step, exampleHOps, List.foldlM_cons, List.foldlM_nil]
  simp [Function.update, Val.elems, List.replicate]
  intro g hg
  intro h3
  rw [if_neg (by omega), if_neg h3, if_neg (by omega), if_neg (by omega), if_neg (by omega), if_neg (by omega)]

/-- In the example, handle 2 can be move-assigned to: its elements are not shared. -/
example : ∃ S, SState.run 2 (0 : Int) exampleHOps {} = some S ∧ (S.step 2 0 (.moveAssign 2 0)).isSome := by
  obtain ⟨S, h, h0, h1, h2, h3, _⟩ := exampleHOps_run
  refine ⟨S, h, ?_⟩
  simp only [SState.step, h0, h2]
  rw [if_neg (by omega), if_pos]
  · rfl
  intro g sh c hg hgc
  match g, hg with
  | 0, _ => rw [h0] at hgc; injection hgc with hgc; injection hgc with _ e; omega
  | 1, _ => rw [h1] at hgc; injection hgc with hgc; injection hgc with _ e; omega
  | 2, h => exact absurd rfl h
  | n + 3, _ => rw [h3 (n + 3) (by omega)] at hgc; cases hgc

/-- In the example, after move-assigning handle 2 to handle 0, handle 1 has lost its elements. -/
example : ∃ s s' : Shared Int, Shared.run 0 exampleHOps {} = .ok s ∧ s.moveAssign 0 2 = .ok s' ∧ s'.size 1 = .ok 0 ∧
    s'.readAt 1 [1, 2] = .error .outOfBounds := by
  obtain ⟨S, h, h0, h1, h2, _⟩ := exampleHOps_run
  obtain ⟨s, s', e1, e2, _, e3, e4⟩ := moveAssign_shared (by omega) 0 exampleHOps h h0 h2 h1 (by omega) (by omega) (by omega)
  exact ⟨s, s', e1, e2, e3, e4 [1, 2] (.cons (by decide) (.cons (by decide) .nil))⟩

end Lue.Memory

import Verif.Memory.Shared

/-!
C30: the handles to shared buffers implement the specification.
-/
namespace Lue.Memory

open Lue.Index Spec

variable {E : Type}

/-! ### Operations on arrays leave other objects alone -/

theorem reset_objs {m m' : Mem E} {p : Option Nat} (h : m.reset p = .ok m') : m'.objs = m.objs := by
  unfold Mem.reset at h
  split at h
  · injection h with h; rw [h]
  · split at h
    · cases h
    · injection h with h; rw [← h]

theorem store_objs {m m' : Mem E} {p : Option Nat} {i : Nat} {e : E} (h : m.store p i e = .ok m') : m'.objs = m.objs := by
  unfold Mem.store at h
  split at h
  · cases h
  · split at h
    · cases h
    · rename_i buf _
      cases hw : wr buf i e with
      | error x => rw [hw] at h; cases h
      | ok b => rw [hw] at h; injection h with h; rw [← h]

theorem clear_objs {m m' : Mem E} {a b : Nat} (h : m.clear a = .ok m') (hb : b ≠ a) : m'.objs b = m.objs b := by
  unfold Mem.clear at h
  cases ho : m.obj a with
  | error x => rw [ho] at h; cases h
  | ok o =>
    rw [ho, M.bind_ok] at h
    cases hr : m.reset o.elements with
    | error x => rw [hr] at h; cases h
    | ok m1 =>
      rw [hr, M.bind_ok] at h
      injection h with h
      rw [← h]
      show Function.update m1.objs a _ b = _
      rw [Function.update_of_ne hb, reset_objs hr]

theorem destroy_objs {m m' : Mem E} {a b : Nat} (h : m.destroy a = .ok m') (hb : b ≠ a) : m'.objs b = m.objs b := by
  unfold Mem.destroy at h
  cases ho : m.obj a with
  | error x => rw [ho] at h; cases h
  | ok o =>
    rw [ho, M.bind_ok] at h
    cases hr : m.reset o.elements with
    | error x => rw [hr] at h; cases h
    | ok m1 =>
      rw [hr, M.bind_ok] at h
      injection h with h
      rw [← h]
      show Function.update m1.objs a _ b = _
      rw [Function.update_of_ne hb, reset_objs hr]

/-! ### The relation -/

/-- Some handle refers to collection `c`. -/
def SState.Live (S : SState E) (c : Nat) : Prop := ∃ h sh, S.handle h = some (sh, c)

/-- The collections which are in use -/
noncomputable def SState.arrays (S : SState E) : State E :=
  open Classical in fun c => if S.Live c then some (S.content c) else none

/-- A handle implements a handle of the specification. -/
structure HandleRep (rank : Nat) (s : Shared E) (S : SState E) (sh : List Nat) (c : Nat) (x : Handle) (o : Obj) : Prop where
  shape : x.shape = sh
  ptr : x.ptr = c
  spanShape : x.spanShape = sh
  obj : s.mem.objs c = some o
  span : x.spanPtr = o.elements
  rank : sh.length = rank
  cshape : (S.content c).shape = [sh.prod]
  nr : (S.content c).nr = sh.prod
  bound : c < S.next

/-- The implementation implements the specification. -/
structure PRep (rank : Nat) (s : Shared E) (S : SState E) : Prop where
  rep : Rep 1 s.mem S.arrays
  hnone : ∀ h, S.handle h = none → s.handles h = none
  hsome : ∀ h sh c, S.handle h = some (sh, c) → ∃ x o, s.handles h = some x ∧ HandleRep rank s S sh c x o
  next : s.nextObj = S.next

theorem arrays_live {S : SState E} {c : Nat} (h : S.Live c) : S.arrays c = some (S.content c) := if_pos h

theorem arrays_dead {S : SState E} {c : Nat} (h : ¬S.Live c) : S.arrays c = none := if_neg h

theorem live_of {S : SState E} {h c : Nat} {sh : List Nat} (hh : S.handle h = some (sh, c)) : S.Live c := ⟨h, sh, hh⟩

theorem PRep.next_dead {rank : Nat} {s : Shared E} {S : SState E} (h : PRep rank s S) : ¬S.Live S.next := by
  rintro ⟨g, sh, hg⟩
  obtain ⟨x, o, _, hr⟩ := h.hsome g sh _ hg
  exact absurd hr.bound (Nat.lt_irrefl _)

theorem PRep.of_handle {rank : Nat} {s : Shared E} {S : SState E} (h : PRep rank s S) {g : Nat} {x : Handle}
    (hx : s.handles g = some x) : ∃ sh c o, S.handle g = some (sh, c) ∧ HandleRep rank s S sh c x o := by
  cases hg : S.handle g with
  | none => rw [h.hnone g hg] at hx; cases hx
  | some y =>
    obtain ⟨sh, c⟩ := y
    obtain ⟨x', o, h1, h2⟩ := h.hsome g sh c hg
    rw [hx] at h1; injection h1 with h1; subst h1
    exact ⟨sh, c, o, rfl, h2⟩

theorem handle_ok {s : Shared E} {h : Nat} {x : Handle} (hx : s.handles h = some x) : s.handle h = .ok x := by
  simp [Shared.handle, hx]

theorem data_ok {s : Shared E} {c : Nat} {o : Obj} (ho : s.mem.objs c = some o) : s.data c = .ok o.elements := by
  simp only [Shared.data, obj_ok ho, M.bind_ok]; rfl

/-- The relation between a handle and its specification is kept if the collection is not touched. -/
theorem HandleRep.frame {rank : Nat} {s s' : Shared E} {S S' : SState E} {sh : List Nat} {c : Nat} {x : Handle} {o : Obj}
    (h : HandleRep rank s S sh c x o) (ho : s'.mem.objs c = s.mem.objs c) (hc : S'.content c = S.content c)
    (hn : S.next ≤ S'.next) : HandleRep rank s' S' sh c x o :=
  ⟨h.shape, h.ptr, h.spanShape, by rw [ho]; exact h.obj, h.span, h.rank, by rw [hc]; exact h.cshape,
    by rw [hc]; exact h.nr, Nat.lt_of_lt_of_le h.bound hn⟩

/-- A pointer to a collection is given up. -/
theorem release_ok (zero : E) {rank : Nat} {s : Shared E} {S : SState E} {A : State E} (hrep : Rep 1 s.mem A)
    (hA : ∀ p, S.Live p → A p = some (S.content p)) {c : Nat} (hA' : ∀ p, ¬S.Live p → p ≠ c → A p = none)
    (hc : ∃ v, A c = some v)
    (hnone : ∀ h, S.handle h = none → s.handles h = none)
    (hsome : ∀ h sh c, S.handle h = some (sh, c) → ∃ x o, s.handles h = some x ∧ HandleRep rank s S sh c x o)
    (hnext : s.nextObj = S.next) : ∃ s', s.release c = .ok s' ∧ PRep rank s' S := by
  by_cases hl : S.Live c
  · refine ⟨s, ?_, ?_, hnone, hsome, hnext⟩
    · unfold Shared.release
      rw [if_pos]
      obtain ⟨g, sh, hg⟩ := hl
      obtain ⟨x, o, h1, h2⟩ := hsome g sh c hg
      exact ⟨g, x, h1, h2.ptr⟩
    · have : S.arrays = A := by
        funext p
        by_cases hp : S.Live p
        · rw [arrays_live hp, hA p hp]
        · rw [arrays_dead hp, hA' p hp (by rintro rfl; exact hp hl)]
      rw [this]; exact hrep
  · obtain ⟨v, hv⟩ := hc
    obtain ⟨m', h1, h2⟩ := step_ok (by omega : 0 < 1) zero (A' := Function.update A c none) hrep (.destroy c)
      (by simp only [Spec.step, hv])
    · refine ⟨{ s with mem := m' }, ?_, ?_, hnone, ?_, hnext⟩
      · unfold Shared.release
        rw [if_neg]
        · simp only [Mem.step] at h1
          rw [h1]; rfl
        · rintro ⟨g, x, h3, h4⟩
          cases hg : S.handle g with
          | none => rw [hnone g hg] at h3; cases h3
          | some y =>
            obtain ⟨sh, c'⟩ := y
            obtain ⟨x', o, h5, h6⟩ := hsome g sh c' hg
            rw [h3] at h5; injection h5 with h5; subst h5
            rw [h6.ptr] at h4
            subst h4
            exact hl (live_of hg)
      · have : S.arrays = Function.update A c none := by
          funext p
          by_cases hpc : p = c
          · subst hpc; rw [arrays_dead hl]; simp
          · rw [Function.update_of_ne hpc]
            by_cases hp : S.Live p
            · rw [arrays_live hp, hA p hp]
            · rw [arrays_dead hp, hA' p hp hpc]
        rw [this]; exact h2
      · intro g sh c' hg
        obtain ⟨x, o, h3, h4⟩ := hsome g sh c' hg
        refine ⟨x, o, h3, h4.frame ?_ rfl (Nat.le_refl _)⟩
        apply destroy_objs h1
        rintro rfl
        exact hl (live_of hg)

/-- A collection is allocated. -/
theorem allocate_ok (zero : E) {rank : Nat} {s : Shared E} {S : SState E} (h : PRep rank s S) (n : Nat) :
    ∃ m' o, s.allocate zero n = .ok (S.next, { s with mem := m', nextObj := S.next + 1 }) ∧
      Rep 1 m' (Function.update S.arrays S.next (some ⟨[n], n, List.replicate n zero⟩)) ∧
      m'.objs S.next = some o ∧ ∀ b, b ≠ S.next → m'.objs b = s.mem.objs b := by
  obtain ⟨m', h1, h2, h3⟩ := construct_ok h.rep zero (a := S.next) (arrays_dead h.next_dead) (shape := [n]) rfl
  simp only [List.prod_cons, List.prod_nil, Nat.mul_one] at h2
  obtain ⟨o, h4, _⟩ := h2.constructed
  refine ⟨m', o, ?_, h2, h4, h3⟩
  unfold Shared.allocate
  rw [h.next, h1]; rfl

/-- An element of a collection is assigned to. -/
theorem write_prep {rank : Nat} {s : Shared E} {S : SState E} (h : PRep rank s S) {g c : Nat} {sh : List Nat}
    (hg : S.handle g = some (sh, c)) {m' : Mem E} {v : Val E}
    (hm : Rep 1 m' (Function.update S.arrays c (some v))) (ho : m'.objs = s.mem.objs)
    (h1 : v.shape = (S.content c).shape) (h2 : v.nr = (S.content c).nr) :
    PRep rank { s with mem := m' } { S with content := Function.update S.content c v } := by
  refine ⟨?_, h.hnone, ?_, h.next⟩
  · show Rep 1 m' _
    convert hm using 1
    funext p
    have hlive : ∀ p, SState.Live { S with content := Function.update S.content c v } p ↔ S.Live p := fun _ => Iff.rfl
    by_cases hp : p = c
    · subst hp
      rw [arrays_live ((hlive p).mpr (live_of hg))]; simp
    · rw [Function.update_of_ne hp]
      by_cases hl : S.Live p
      · rw [arrays_live hl, arrays_live ((hlive p).mpr hl)]
        simp [Function.update_of_ne hp]
      · rw [arrays_dead hl, arrays_dead (fun hc => hl ((hlive p).mp hc))]
  · intro g' sh' c' hg'
    obtain ⟨x', o', h5, h6⟩ := h.hsome g' sh' c' hg'
    refine ⟨x', o', h5, h6.shape, h6.ptr, h6.spanShape, ?_, h6.span, h6.rank, ?_, ?_, h6.bound⟩
    · show m'.objs c' = some o'
      rw [ho]; exact h6.obj
    · show (Function.update S.content c v c').shape = _
      by_cases hc : c' = c
      · subst hc; simp only [Function.update_self]; rw [h1]; exact h6.cshape
      · rw [Function.update_of_ne hc]; exact h6.cshape
    · show (Function.update S.content c v c').nr = _
      by_cases hc : c' = c
      · subst hc; simp only [Function.update_self]; rw [h2]; exact h6.nr
      · rw [Function.update_of_ne hc]; exact h6.nr

theorem hstep_ok {rank : Nat} (hrank : 0 < rank) (zero : E) {s : Shared E} {S S' : SState E} (h : PRep rank s S) (op : HOp E)
    (hS : S.step rank zero op = some S') : ∃ s', s.step zero op = .ok s' ∧ PRep rank s' S' := by
  have hz : (List.replicate rank 0).prod = 0 := prod_replicate_zero hrank
  cases op with
  | construct g shape =>
    simp only [SState.step] at hS
    split at hS
    · rename_i hg
      injection hS with hS; subst hS
      obtain ⟨m', o, h1, h2, h3, h4⟩ := allocate_ok zero h shape.prod
      simp only [Shared.step, Shared.construct, h.hnone g hg.1, nrElements_prod, h1, M.bind_ok]
      rw [data_ok (s := { s with mem := m', nextObj := S.next + 1 }) h3]
      refine ⟨_, rfl, ?_, ?_, ?_, rfl⟩
      · show Rep 1 m' _
        convert h2 using 1
        funext p
        by_cases hp : p = S.next
        · subst hp
          rw [arrays_live ⟨g, shape, by simp⟩]; simp
        · rw [Function.update_of_ne hp]
          by_cases hl : S.Live p
          · rw [arrays_live hl, arrays_live]
            · simp [Function.update_of_ne hp]
            · obtain ⟨g', sh, hg'⟩ := hl
              refine ⟨g', sh, ?_⟩
              simp only
              rw [Function.update_of_ne]
              · exact hg'
              · rintro rfl; rw [hg.1] at hg'; cases hg'
          · rw [arrays_dead hl, arrays_dead]
            rintro ⟨g', sh, hg'⟩
            simp only at hg'
            by_cases hgg : g' = g
            · subst hgg; simp at hg'; exact hp hg'.2.symm
            · rw [Function.update_of_ne hgg] at hg'; exact hl ⟨g', sh, hg'⟩
      · intro g' hg'
        simp only at hg'
        by_cases hgg : g' = g
        · subst hgg; simp at hg'
        · rw [Function.update_of_ne hgg] at hg'
          show Function.update s.handles g _ g' = none
          rw [Function.update_of_ne hgg]; exact h.hnone g' hg'
      · intro g' sh c hg'
        simp only at hg'
        by_cases hgg : g' = g
        · subst hgg
          simp at hg'
          obtain ⟨rfl, rfl⟩ := hg'
          exact ⟨_, o, Function.update_self _ _ _, rfl, rfl, rfl, h3, rfl, hg.2, by simp, by simp, Nat.lt_succ_self _⟩
        · rw [Function.update_of_ne hgg] at hg'
          obtain ⟨x, o', h5, h6⟩ := h.hsome g' sh c hg'
          have hc : c ≠ S.next := Nat.ne_of_lt h6.bound
          refine ⟨x, o', ?_, h6.frame (h4 c hc) ?_ (Nat.le_succ _)⟩
          · show Function.update s.handles g _ g' = some x
            rw [Function.update_of_ne hgg]; exact h5
          · exact Function.update_of_ne hc _ _
    · cases hS
  | copyConstruct g other =>
    simp only [SState.step] at hS
    split at hS
    · rename_i y hg hy
      obtain ⟨sh, c⟩ := y
      injection hS with hS; subst hS
      obtain ⟨x, o, hx, hr⟩ := h.hsome other sh c hy
      simp only [Shared.step, Shared.copyConstruct, handle_ok hx, M.bind_ok, h.hnone g hg]
      have hne : other ≠ g := by rintro rfl; rw [hg] at hy; cases hy
      refine ⟨_, rfl, ?_, ?_, ?_, h.next⟩
      · show Rep 1 s.mem _
        convert h.rep using 1
        funext p
        by_cases hl : S.Live p
        · rw [arrays_live hl, arrays_live]
          obtain ⟨g', sh', hg'⟩ := hl
          refine ⟨g', sh', ?_⟩
          simp only
          rw [Function.update_of_ne]
          · exact hg'
          · rintro rfl; rw [hg] at hg'; cases hg'
        · rw [arrays_dead hl, arrays_dead]
          rintro ⟨g', sh', hg'⟩
          simp only at hg'
          by_cases hgg : g' = g
          · subst hgg; simp at hg'; obtain ⟨rfl, rfl⟩ := hg'; exact hl (live_of hy)
          · rw [Function.update_of_ne hgg] at hg'; exact hl ⟨g', sh', hg'⟩
      · intro g' hg'
        simp only at hg'
        by_cases hgg : g' = g
        · subst hgg; simp at hg'
        · rw [Function.update_of_ne hgg] at hg'
          show Function.update s.handles g _ g' = none
          rw [Function.update_of_ne hgg]; exact h.hnone g' hg'
      · intro g' sh' c' hg'
        simp only at hg'
        by_cases hgg : g' = g
        · subst hgg
          simp at hg'
          obtain ⟨rfl, rfl⟩ := hg'
          exact ⟨x, o, Function.update_self _ _ _, hr.frame rfl rfl (Nat.le_refl _)⟩
        · rw [Function.update_of_ne hgg] at hg'
          obtain ⟨x', o', h5, h6⟩ := h.hsome g' sh' c' hg'
          refine ⟨x', o', ?_, h6.frame rfl rfl (Nat.le_refl _)⟩
          show Function.update s.handles g _ g' = some x'
          rw [Function.update_of_ne hgg]; exact h5
    · cases hS
  | moveConstruct g other =>
    simp only [SState.step] at hS
    split at hS
    · rename_i y hg hy
      obtain ⟨sh, c⟩ := y
      injection hS with hS; subst hS
      obtain ⟨x, o, hx, hr⟩ := h.hsome other sh c hy
      obtain ⟨m', o1, h1, h2, h3, h4⟩ := allocate_ok zero h 0
      have hne : other ≠ g := by rintro rfl; rw [hg] at hy; cases hy
      have hc : c ≠ S.next := Nat.ne_of_lt hr.bound
      have ho : m'.objs c = some o := by rw [h4 c hc]; exact hr.obj
      simp only [Shared.step, Shared.moveConstruct, handle_ok hx, M.bind_ok, h.hnone g hg, h1, hr.ptr, hr.shape, hr.rank]
      rw [data_ok (s := { s with mem := m', nextObj := S.next + 1 }) ho]
      simp only [M.bind_ok]
      rw [data_ok (c := S.next) (o := o1) (by exact h3)]
      refine ⟨_, rfl, ?_, ?_, ?_, rfl⟩
      · show Rep 1 m' _
        convert h2 using 1
        funext p
        by_cases hp : p = S.next
        · subst hp
          rw [arrays_live ⟨other, List.replicate rank 0, by simp⟩]; simp
        · rw [Function.update_of_ne hp]
          by_cases hl : S.Live p
          · rw [arrays_live hl, arrays_live]
            · simp [Function.update_of_ne hp]
            · obtain ⟨g', sh', hg'⟩ := hl
              by_cases hgo : g' = other
              · subst hgo
                rw [hy] at hg'; injection hg' with hg'; injection hg' with e1 e2; subst e1; subst e2
                refine ⟨g, sh, ?_⟩
                simp only
                rw [Function.update_of_ne (Ne.symm hne)]; simp
              · refine ⟨g', sh', ?_⟩
                simp only
                rw [Function.update_of_ne hgo, Function.update_of_ne]
                · exact hg'
                · rintro rfl; rw [hg] at hg'; cases hg'
          · rw [arrays_dead hl, arrays_dead]
            rintro ⟨g', sh', hg'⟩
            simp only at hg'
            by_cases hgo : g' = other
            · subst hgo; simp at hg'; exact hp hg'.2.symm
            · rw [Function.update_of_ne hgo] at hg'
              by_cases hgg : g' = g
              · subst hgg; simp at hg'; obtain ⟨rfl, rfl⟩ := hg'; exact hl (live_of hy)
              · rw [Function.update_of_ne hgg] at hg'; exact hl ⟨g', sh', hg'⟩
      · intro g' hg'
        simp only at hg'
        show Function.update (Function.update s.handles g _) other _ g' = none
        by_cases hgo : g' = other
        · subst hgo; simp at hg'
        · rw [Function.update_of_ne hgo] at hg' ⊢
          by_cases hgg : g' = g
          · subst hgg; simp at hg'
          · rw [Function.update_of_ne hgg] at hg' ⊢; exact h.hnone g' hg'
      · intro g' sh' c' hg'
        simp only at hg'
        by_cases hgo : g' = other
        · subst hgo
          simp at hg'
          obtain ⟨rfl, rfl⟩ := hg'
          exact ⟨_, o1, Function.update_self _ _ _, rfl, rfl, rfl, h3, rfl, by simp, by simp [hz], by simp [hz],
            Nat.lt_succ_self _⟩
        · rw [Function.update_of_ne hgo] at hg'
          by_cases hgg : g' = g
          · subst hgg
            simp at hg'
            obtain ⟨rfl, rfl⟩ := hg'
            refine ⟨⟨sh, c, o.elements, sh⟩, o, ?_, rfl, rfl, rfl, ho, rfl, hr.rank, ?_, ?_, Nat.lt_succ_of_lt hr.bound⟩
            · show Function.update (Function.update s.handles g' _) other _ g' = _
              rw [Function.update_of_ne hgo]; exact Function.update_self _ _ _
            · show (Function.update S.content S.next _ c).shape = _
              rw [Function.update_of_ne hc]; exact hr.cshape
            · show (Function.update S.content S.next _ c).nr = _
              rw [Function.update_of_ne hc]; exact hr.nr
          · rw [Function.update_of_ne hgg] at hg'
            obtain ⟨x', o', h5, h6⟩ := h.hsome g' sh' c' hg'
            have hc' : c' ≠ S.next := Nat.ne_of_lt h6.bound
            refine ⟨x', o', ?_, h6.frame (h4 c' hc') (Function.update_of_ne hc' _ _) (Nat.le_succ _)⟩
            show Function.update (Function.update s.handles g _) other _ g' = some x'
            rw [Function.update_of_ne hgo, Function.update_of_ne hgg]; exact h5
    · cases hS
  | copyAssign g other =>
    simp only [SState.step] at hS
    split at hS
    · rename_i w y hw hy
      obtain ⟨sh, c⟩ := y
      obtain ⟨shw, cw⟩ := w
      injection hS with hS; subst hS
      obtain ⟨x, o, hx, hr⟩ := h.hsome other sh c hy
      obtain ⟨xw, ow, hxw, hrw⟩ := h.hsome g shw cw hw
      simp only [Shared.step, Shared.copyAssign, handle_ok hx, handle_ok hxw, M.bind_ok, hrw.ptr]
      refine release_ok zero (s := s.setHandle g (some x)) (S := { S with handle := Function.update S.handle g (some (sh, c)) }) (A := S.arrays) h.rep
        ?_ ?_ ⟨_, arrays_live (live_of hw)⟩ ?_ ?_ h.next
      · rintro p ⟨g', sh', hg'⟩
        simp only at hg'
        apply arrays_live
        by_cases hgg : g' = g
        · subst hgg; simp at hg'; obtain ⟨rfl, rfl⟩ := hg'; exact live_of hy
        · rw [Function.update_of_ne hgg] at hg'; exact ⟨g', sh', hg'⟩
      · intro p hp hpc
        apply arrays_dead
        rintro ⟨g', sh', hg'⟩
        apply hp
        by_cases hgg : g' = g
        · subst hgg; rw [hw] at hg'; injection hg' with hg'; injection hg' with _ e; exact absurd e.symm hpc
        · exact ⟨g', sh', by simp only; rw [Function.update_of_ne hgg]; exact hg'⟩
      · intro g' hg'
        simp only at hg'
        show Function.update s.handles g _ g' = none
        by_cases hgg : g' = g
        · subst hgg; simp at hg'
        · rw [Function.update_of_ne hgg] at hg' ⊢; exact h.hnone g' hg'
      · intro g' sh' c' hg'
        simp only at hg'
        by_cases hgg : g' = g
        · subst hgg
          simp at hg'
          obtain ⟨rfl, rfl⟩ := hg'
          exact ⟨x, o, Function.update_self _ _ _, hr.frame rfl rfl (Nat.le_refl _)⟩
        · rw [Function.update_of_ne hgg] at hg'
          obtain ⟨x', o', h5, h6⟩ := h.hsome g' sh' c' hg'
          refine ⟨x', o', ?_, h6.frame rfl rfl (Nat.le_refl _)⟩
          show Function.update s.handles g _ g' = some x'
          rw [Function.update_of_ne hgg]; exact h5
    · cases hS
  | moveAssign g other =>
    simp only [SState.step] at hS
    split at hS
    · rename_i w y hw hy
      obtain ⟨sh, c⟩ := y
      obtain ⟨shw, cw⟩ := w
      obtain ⟨x, o, hx, hr⟩ := h.hsome other sh c hy
      obtain ⟨xw, ow, hxw, hrw⟩ := h.hsome g shw cw hw
      simp only [Shared.step, Shared.moveAssign, handle_ok hx, handle_ok hxw, M.bind_ok, hrw.ptr]
      split at hS
      · rename_i hgo
        injection hS with hS; subst hS
        rw [if_pos hgo]
        exact ⟨s, rfl, h⟩
      · rename_i hne
        split at hS
        · rename_i honly
          injection hS with hS; subst hS
          rw [if_neg hne]
          have hne' : other ≠ g := fun e => hne e.symm
          have hcc : c ≠ cw := honly other sh c hne' hy
          obtain ⟨m', h1, h2⟩ := h.rep.clear (by omega) (a := cw) (arrays_live (live_of hw))
          obtain ⟨o1, h3, _⟩ := h2.constructed
          have ho : m'.objs c = some o := by rw [clear_objs h1 hcc]; exact hr.obj
          simp only [h1, M.bind_ok, hr.ptr, hr.shape, hr.rank]
          rw [data_ok (s := { s with mem := m' }) ho]
          simp only [M.bind_ok]
          rw [data_ok (c := cw) (o := o1) (by exact h3)]
          refine ⟨_, rfl, ?_, ?_, ?_, h.next⟩
          · show Rep 1 m' _
            convert h2 using 1
            funext p
            by_cases hp : p = cw
            · subst hp
              rw [arrays_live ⟨other, List.replicate rank 0, by simp⟩]
              simp [empty]
            · rw [Function.update_of_ne hp]
              by_cases hl : S.Live p
              · rw [arrays_live hl, arrays_live]
                · simp [Function.update_of_ne hp]
                · obtain ⟨g', sh', hg'⟩ := hl
                  by_cases hgo : g' = other
                  · subst hgo
                    rw [hy] at hg'; injection hg' with hg'; injection hg' with e1 e2; subst e1; subst e2
                    refine ⟨g, sh, ?_⟩
                    simp only
                    rw [Function.update_of_ne hne]; simp
                  · refine ⟨g', sh', ?_⟩
                    simp only
                    rw [Function.update_of_ne hgo, Function.update_of_ne]
                    · exact hg'
                    · rintro rfl; rw [hw] at hg'; injection hg' with hg'; injection hg' with _ e; exact hp e.symm
              · rw [arrays_dead hl, arrays_dead]
                rintro ⟨g', sh', hg'⟩
                simp only at hg'
                by_cases hgo : g' = other
                · subst hgo; simp at hg'; exact hp hg'.2.symm
                · rw [Function.update_of_ne hgo] at hg'
                  by_cases hgg : g' = g
                  · subst hgg; simp at hg'; obtain ⟨rfl, rfl⟩ := hg'; exact hl (live_of hy)
                  · rw [Function.update_of_ne hgg] at hg'; exact hl ⟨g', sh', hg'⟩
          · intro g' hg'
            simp only at hg'
            show Function.update (Function.update s.handles g _) other _ g' = none
            by_cases hgo : g' = other
            · subst hgo; simp at hg'
            · rw [Function.update_of_ne hgo] at hg' ⊢
              by_cases hgg : g' = g
              · subst hgg; simp at hg'
              · rw [Function.update_of_ne hgg] at hg' ⊢; exact h.hnone g' hg'
          · intro g' sh' c' hg'
            simp only at hg'
            by_cases hgo : g' = other
            · subst hgo
              simp at hg'
              obtain ⟨rfl, rfl⟩ := hg'
              exact ⟨_, o1, Function.update_self _ _ _, rfl, rfl, rfl, h3, rfl, by simp, by simp [hz], by simp [hz], hrw.bound⟩
            · rw [Function.update_of_ne hgo] at hg'
              by_cases hgg : g' = g
              · subst hgg
                simp at hg'
                obtain ⟨rfl, rfl⟩ := hg'
                refine ⟨⟨sh, c, o.elements, sh⟩, o, ?_, rfl, rfl, rfl, ho, rfl, hr.rank, ?_, ?_, hr.bound⟩
                · show Function.update (Function.update s.handles g' _) other _ g' = _
                  rw [Function.update_of_ne hgo]; exact Function.update_self _ _ _
                · show (Function.update S.content cw _ c).shape = _
                  rw [Function.update_of_ne hcc]; exact hr.cshape
                · show (Function.update S.content cw _ c).nr = _
                  rw [Function.update_of_ne hcc]; exact hr.nr
              · rw [Function.update_of_ne hgg] at hg'
                obtain ⟨x', o', h5, h6⟩ := h.hsome g' sh' c' hg'
                have hc' : c' ≠ cw := honly g' sh' c' hgg hg'
                refine ⟨x', o', ?_, h6.frame (clear_objs h1 hc') (Function.update_of_ne hc' _ _) (Nat.le_refl _)⟩
                show Function.update (Function.update s.handles g _) other _ g' = some x'
                rw [Function.update_of_ne hgo, Function.update_of_ne hgg]; exact h5
        · cases hS
    · cases hS
  | reshape g shape =>
    simp only [SState.step] at hS
    split at hS
    · rename_i y hy
      obtain ⟨sh, c⟩ := y
      split at hS
      · rename_i hcond
        obtain ⟨hlen, honly⟩ := hcond
        injection hS with hS; subst hS
        obtain ⟨x, o, hx, hr⟩ := h.hsome g sh c hy
        simp only [Shared.step, Shared.reshape, handle_ok hx, M.bind_ok, hr.shape, nrElements_prod, hr.ptr]
        by_cases hsh : sh = shape
        · subst hsh
          simp only [ne_eq, not_true_eq_false, if_false]
          refine ⟨s, rfl, ?_⟩
          have hv : (S.content c).reshape zero [sh.prod] = S.content c := by
            unfold Val.reshape; rw [if_pos hr.cshape]
          simp only [hv]
          rw [← hy, Function.update_eq_self, Function.update_eq_self]
          exact h
        · rw [if_pos hsh]
          obtain ⟨m', h1, h2, h4⟩ := reshape_ok h.rep zero (a := c) (arrays_live (live_of hy)) (shape := [shape.prod]) rfl
          obtain ⟨o1, h3, _⟩ := h2.constructed
          simp only [h1, M.bind_ok]
          rw [data_ok (s := { s with mem := m' }) h3]
          refine ⟨_, rfl, ?_, ?_, ?_, h.next⟩
          · show Rep 1 m' _
            convert h2 using 1
            funext p
            by_cases hp : p = c
            · subst hp
              rw [arrays_live ⟨g, shape, by simp⟩]; simp
            · rw [Function.update_of_ne hp]
              by_cases hl : S.Live p
              · rw [arrays_live hl, arrays_live]
                · simp [Function.update_of_ne hp]
                · obtain ⟨g', sh', hg'⟩ := hl
                  refine ⟨g', sh', ?_⟩
                  simp only
                  rw [Function.update_of_ne]
                  · exact hg'
                  · rintro rfl; rw [hy] at hg'; injection hg' with hg'; injection hg' with _ e; exact hp e.symm
              · rw [arrays_dead hl, arrays_dead]
                rintro ⟨g', sh', hg'⟩
                simp only at hg'
                by_cases hgg : g' = g
                · subst hgg; simp at hg'; exact hp hg'.2.symm
                · rw [Function.update_of_ne hgg] at hg'; exact hl ⟨g', sh', hg'⟩
          · intro g' hg'
            simp only at hg'
            show Function.update s.handles g _ g' = none
            by_cases hgg : g' = g
            · subst hgg; simp at hg'
            · rw [Function.update_of_ne hgg] at hg' ⊢; exact h.hnone g' hg'
          · intro g' sh' c' hg'
            simp only at hg'
            by_cases hgg : g' = g
            · subst hgg
              simp at hg'
              obtain ⟨rfl, rfl⟩ := hg'
              have hv : ((S.content c).reshape zero [shape.prod]).shape = [shape.prod] ∧
                  ((S.content c).reshape zero [shape.prod]).nr = shape.prod := by
                unfold Val.reshape
                split
                · rename_i he; exact ⟨he, by rw [hr.nr]; rw [hr.cshape] at he; injection he⟩
                · split <;> simp
              refine ⟨_, o1, Function.update_self _ _ _, rfl, rfl, rfl, h3, rfl, hlen, ?_, ?_, hr.bound⟩
              · simpa using hv.1
              · simpa using hv.2
            · rw [Function.update_of_ne hgg] at hg'
              obtain ⟨x', o', h5, h6⟩ := h.hsome g' sh' c' hg'
              have hc' : c' ≠ c := honly g' sh' c' hgg hg'
              refine ⟨x', o', ?_, h6.frame (h4 c' hc') (Function.update_of_ne hc' _ _) (Nat.le_refl _)⟩
              show Function.update s.handles g _ g' = some x'
              rw [Function.update_of_ne hgg]; exact h5
      · cases hS
    · cases hS
  | write g i e =>
    simp only [SState.step] at hS
    split at hS
    · rename_i y hy
      obtain ⟨sh, c⟩ := y
      split at hS
      · rename_i hi
        injection hS with hS; subst hS
        obtain ⟨x, o, hx, hr⟩ := h.hsome g sh c hy
        obtain ⟨_, hf⟩ := h.rep.get (arrays_live (live_of hy)) hr.obj
        obtain ⟨m', h1, h2⟩ := h.rep.write (a := c) (arrays_live (live_of hy)) hr.obj (i := i)
          (by have := hf.size; have := hf.nr; rw [hr.nr] at this; simp only at hi; omega) e
        simp only [Shared.step, Shared.write, handle_ok hx, M.bind_ok, hr.ptr, Mem.write, obj_ok hr.obj, h1]
        exact ⟨_, rfl, write_prep h hy h2 (store_objs h1) rfl rfl⟩
      · cases hS
    · cases hS
  | writeAt g idxs e =>
    simp only [SState.step] at hS
    split at hS
    · rename_i y hy
      obtain ⟨sh, c⟩ := y
      split at hS
      · rename_i hi
        injection hS with hS; subst hS
        obtain ⟨x, o, hx, hr⟩ := h.hsome g sh c hy
        obtain ⟨_, hf⟩ := h.rep.get (arrays_live (live_of hy)) hr.obj
        obtain ⟨m', h1, h2⟩ := h.rep.write (a := c) (arrays_live (live_of hy)) hr.obj (i := idxsToLinearIdx idxs sh)
          (by
            have hlt : idxsToLinearIdx idxs sh < sh.prod := (idxs_roundtrip _ _ hi).1
            have := hf.size; have := hf.nr; rw [hr.nr] at this; omega) e
        simp only [Shared.step, Shared.writeAt, handle_ok hx, M.bind_ok, hr.span, hr.spanShape, h1]
        exact ⟨_, rfl, write_prep h hy h2 (store_objs h1) rfl rfl⟩
      · cases hS
    · cases hS
  | destroy g =>
    simp only [SState.step] at hS
    split at hS
    · rename_i w hw
      obtain ⟨shw, cw⟩ := w
      injection hS with hS; subst hS
      obtain ⟨xw, ow, hxw, hrw⟩ := h.hsome g shw cw hw
      simp only [Shared.step, Shared.destroy, handle_ok hxw, M.bind_ok, hrw.ptr]
      refine release_ok zero (s := s.setHandle g none) (S := { S with handle := Function.update S.handle g none }) (A := S.arrays) h.rep
        ?_ ?_ ⟨_, arrays_live (live_of hw)⟩ ?_ ?_ h.next
      · rintro p ⟨g', sh', hg'⟩
        simp only at hg'
        apply arrays_live
        by_cases hgg : g' = g
        · subst hgg; simp at hg'
        · rw [Function.update_of_ne hgg] at hg'; exact ⟨g', sh', hg'⟩
      · intro p hp hpc
        apply arrays_dead
        rintro ⟨g', sh', hg'⟩
        apply hp
        by_cases hgg : g' = g
        · subst hgg; rw [hw] at hg'; injection hg' with hg'; injection hg' with _ e; exact absurd e.symm hpc
        · exact ⟨g', sh', by simp only; rw [Function.update_of_ne hgg]; exact hg'⟩
      · intro g' hg'
        simp only at hg'
        show Function.update s.handles g _ g' = none
        by_cases hgg : g' = g
        · subst hgg; simp
        · rw [Function.update_of_ne hgg] at hg' ⊢; exact h.hnone g' hg'
      · intro g' sh' c' hg'
        simp only at hg'
        by_cases hgg : g' = g
        · subst hgg; simp at hg'
        · rw [Function.update_of_ne hgg] at hg'
          obtain ⟨x', o', h5, h6⟩ := h.hsome g' sh' c' hg'
          refine ⟨x', o', ?_, h6.frame rfl rfl (Nat.le_refl _)⟩
          show Function.update s.handles g _ g' = some x'
          rw [Function.update_of_ne hgg]; exact h5
    · cases hS

end Lue.Memory

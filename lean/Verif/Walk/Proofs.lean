import Verif.Walk.Spec
import Verif.FirstN.Proofs
import Mathlib.Algebra.BigOperators.Group.Finset.Basic

/-! The invariant of walking along routes: `pos r` is the number of pieces of route `r` that have been handled. -/
namespace Lue.Walk

open Lue.FirstN (Piece Fragment RoutePartition Route Err need assert fragmentsIn cnt WellFormed cnt_take_succ cnt_take_le cnt_take_lt
  fragmentsIn_getElem fragmentsIn_eq_nil length_fragmentsIn mem_fragmentsIn_next need_some assert_ok ok_bind)

variable {β δ : Type} {A : Algo β δ} {E : Effect β δ}

/-! ### Writing values -/

theorem length_applyWrites (ws : List (Nat × β)) (out : List β) : (applyWrites ws out).length = out.length := by
  induction ws generalizing out with
  | nil => rfl
  | cons w ws ih => obtain ⟨i, v⟩ := w; rw [applyWrites, ih, List.length_set]

theorem applyWrites_of_not_mem {ws : List (Nat × β)} {i : Nat} (h : ∀ v, (i, v) ∉ ws) (out : List β) :
    (applyWrites ws out)[i]? = out[i]? := by
  induction ws generalizing out with
  | nil => rfl
  | cons w ws ih =>
    obtain ⟨j, v⟩ := w
    rw [applyWrites, ih fun v' hv => h v' (List.mem_cons_of_mem _ hv), List.getElem?_set_ne]
    rintro rfl
    exact h v (by simp)

theorem applyWrites_of_mem {ws : List (Nat × β)} {i : Nat} {v : β} (h : (i, v) ∈ ws) (hf : ∀ v', (i, v') ∈ ws → v' = v)
    (out : List β) (hi : i < out.length) : (applyWrites ws out)[i]? = some v := by
  induction ws generalizing out with
  | nil => simp at h
  | cons w ws ih =>
    obtain ⟨j, v'⟩ := w
    rw [applyWrites]
    by_cases hm : (i, v) ∈ ws
    · exact ih hm (fun v'' h' => hf v'' (List.mem_cons_of_mem _ h')) _ (by rw [List.length_set]; exact hi)
    · rw [applyWrites_of_not_mem]
      · rcases List.mem_cons.1 h with h | h
        · injection h with h1 h2
          subst h1; subst h2
          simp [hi]
        · exact absurd h hm
      · intro v'' hv
        have := hf v'' (List.mem_cons_of_mem _ hv)
        subst this
        exact hm hv

/-! ### The sequential account, piece by piece -/

/-- What is left when a walk ends, or what follows when it does not. -/
def elseNone {γ : Type} (f : δ → γ) (g : γ) : Option δ → γ
  | none => g
  | some d => f d

theorem dataAfter_append (r : Int) (l l' : List Piece) (d : δ) :
    dataAfter A E r (l ++ l') d = elseNone (dataAfter A E r l') none (dataAfter A E r l d) := by
  induction l generalizing d with
  | nil => rfl
  | cons e l ih =>
    obtain ⟨p, cells⟩ := e
    simp only [List.cons_append, dataAfter]
    split
    · exact ih _
    · rfl

theorem writesAlong_append (r : Int) (l l' : List Piece) (d : δ) :
    writesAlong A E r (l ++ l') d = writesAlong A E r l d ++ elseNone (writesAlong A E r l') [] (dataAfter A E r l d) := by
  induction l generalizing d with
  | nil => rfl
  | cons e l ih =>
    obtain ⟨p, cells⟩ := e
    simp only [List.cons_append, writesAlong, dataAfter, List.append_assoc]
    split
    · rw [ih]
    · rfl

theorem dataAfter_take_succ {r : Int} {l : List Piece} {k p : Nat} {cells : List Nat} (h : l[k]? = some (p, cells)) (d : δ) :
    dataAfter A E r (l.take (k + 1)) d = elseNone
      (fun d => if A.keepWalking (E.next p r cells d) then some (E.next p r cells d) else none) none
      (dataAfter A E r (l.take k) d) := by
  rw [List.take_succ, h, dataAfter_append]
  rfl

theorem writesAlong_take_succ {r : Int} {l : List Piece} {k p : Nat} {cells : List Nat} (h : l[k]? = some (p, cells)) (d : δ) :
    writesAlong A E r (l.take (k + 1)) d = writesAlong A E r (l.take k) d ++ elseNone
      (fun d => (E.writes p r cells d).map fun w => (p, w.1, w.2)) [] (dataAfter A E r (l.take k) d) := by
  rw [List.take_succ, h, writesAlong_append]
  congr 1
  cases dataAfter A E r (l.take k) d with
  | none => rfl
  | some d => simp [elseNone, writesAlong]

theorem writesAlong_mem_of_take {r : Int} {l : List Piece} {k : Nat} {d : δ} {w : Nat × Nat × β}
    (h : w ∈ writesAlong A E r (l.take k) d) : w ∈ writesAlong A E r l d := by
  rw [← List.take_append_drop k l, writesAlong_append]
  exact List.mem_append.2 (Or.inl h)

/-- Values are only written in partitions the route visits. -/
theorem writesAlong_part {r : Int} {l : List Piece} {d : δ} {p i : Nat} {v : β} (h : (p, i, v) ∈ writesAlong A E r l d) :
    ∃ e ∈ l, e.1 = p := by
  induction l generalizing d with
  | nil => simp [writesAlong] at h
  | cons e l ih =>
    obtain ⟨q, cells⟩ := e
    simp only [writesAlong, List.mem_append, List.mem_map] at h
    rcases h with ⟨w, _, h⟩ | h
    · injection h with h _
      exact ⟨(q, cells), by simp, h⟩
    · split at h
      · obtain ⟨e, he, h2⟩ := ih h
        exact ⟨e, List.mem_cons_of_mem _ he, h2⟩
      · simp at h

/-! ### The invariant -/

/-- A cell has the value written, if any. -/
def CellOk (A : Algo β δ) (E : Effect β δ) (path : Int → List Piece) (pos : Int → Nat) (p i : Nat) (v : Option β) : Prop :=
  (∀ r w, (p, i, w) ∈ writesAlong A E r ((path r).take (pos r)) A.start → v = some w) ∧
  ((∀ r w, (p, i, w) ∉ writesAlong A E r ((path r).take (pos r)) A.start) → v = some A.noData)

structure CompInv (A : Algo β δ) (E : Effect β δ) (R : Route) (path : Int → List Piece) (pos : Int → Nat) (p : Nat) (configured : Bool)
    (c : Comp β) : Prop where
  ok : c.idxs.Ok
  idxs : ∀ r, c.idxs.get r =
    if cnt p ((path r).take (pos r)) < cnt p (path r) then some (cnt p ((path r).take (pos r))) else none
  len : c.out.length = (R.parts p).nrCells
  out : ∀ i < (R.parts p).nrCells, CellOk A E path pos p i c.out[i]?
  down : configured = true → c.finished = false → c.downstream = (R.parts p).remoteLocations
  fin : c.finished = true ↔ c.idxs = [] ∧ (c.retrieved = true ∨ (R.parts p).frags ≠ [])

/-- What a message tells: where the next piece of its route is located, and the data. -/
def MsgOk (A : Algo β δ) (E : Effect β δ) (Good : Int → δ → Prop) (path : Int → List Piece) (pos : Int → Nat) : Msg δ → Prop
  | .walk p r d => (∃ cells, (path r)[pos r]? = some (p, cells)) ∧ dataAfter A E r ((path r).take (pos r)) A.start = some d ∧
      Good r d
  | .skip p r => (∃ cells, (path r)[pos r]? = some (p, cells)) ∧ dataAfter A E r ((path r).take (pos r)) A.start = none

structure Inv (A : Algo β δ) (E : Effect β δ) (Good : Int → δ → Prop) (R : Route) (path : Int → List Piece) (pos : Int → Nat) (s : Sys β δ) : Prop where
  le : ∀ r, pos r ≤ (path r).length
  unstarted : s.started = false → s.msgs = [] ∧ ∀ r, pos r = 0
  routes : (s.msgs.map Msg.route).Nodup
  msg : ∀ m ∈ s.msgs, MsgOk A E Good path pos m
  sent : s.started = true → ∀ r, pos r < (path r).length → ∃ m ∈ s.msgs, m.route = r
  conf : s.started = true → ∀ p < R.nrParts, s.configured p = true
  comp : ∀ p < R.nrParts, CompInv A E R path pos p (s.configured p) (s.comp p)

variable {R : Route} {path : Int → List Piece} {pos : Int → Nat} {s : Sys β δ} {Good : Int → δ → Prop}

theorem init_inv (hw : WellFormed R path) : Inv A E Good R path (fun _ => 0) (init A R) where
  le := fun _ => Nat.zero_le _
  unstarted := fun _ => ⟨rfl, fun _ => rfl⟩
  routes := List.nodup_nil
  msg := by intro m hm; simp [init] at hm
  sent := by intro h; simp [init] at h
  conf := by intro h; simp [init] at h
  comp := by
    intro p hp
    refine ⟨?_, ?_, ?_, ?_, ?_, ?_⟩
    · have := hw.frags_ok p hp
      unfold AMap.Ok at *
      simpa [init, Comp.new, Function.comp_def] using this
    · intro r
      simp only [init, Comp.new, AMap.get_map_const, hw.frags p hp r, fragmentsIn_eq_nil]
      have h0 : cnt p ((path r).take 0) = 0 := by simp [cnt]
      simp only [h0]
      by_cases h : cnt p (path r) = 0
      · simp [h]
      · have : 0 < cnt p (path r) := by omega
        simp [h, this]
    · simp [init, Comp.new]
    · intro i hi
      refine ⟨?_, ?_⟩
      · intro r w h
        simp [writesAlong] at h
      · intro _
        simp only [init, Comp.new]
        rw [List.getElem?_replicate]
        simp [hi]
    · intro h; simp [init] at h
    · simp only [init, Comp.new]
      simp

/-- Handling a piece in another partition does not matter. -/
theorem CompInv.other {p q : Nat} {b : Bool} {c : Comp β} {r : Int} {cells : List Nat} (h : CompInv A E R path pos q b c)
    (hp : (path r)[pos r]? = some (p, cells)) (hne : q ≠ p) : CompInv A E R path (Function.update pos r (pos r + 1)) q b c := by
  refine ⟨h.ok, ?_, h.len, ?_, h.down, h.fin⟩
  · intro r'
    rw [h.idxs r']
    by_cases hr : r' = r
    · subst hr
      have := cnt_take_succ (p := q) hp
      simp only [Ne.symm hne, if_false, Nat.add_zero] at this
      rw [Function.update_self, this]
    · rw [Function.update_of_ne hr]
  · intro i hi
    have key : ∀ r' w, (q, i, w) ∈ writesAlong A E r' ((path r').take (Function.update pos r (pos r + 1) r')) A.start ↔
        (q, i, w) ∈ writesAlong A E r' ((path r').take (pos r')) A.start := by
      intro r' w
      by_cases hr : r' = r
      · subst hr
        rw [Function.update_self, writesAlong_take_succ hp, List.mem_append]
        refine ⟨?_, Or.inl⟩
        rintro (h | h)
        · exact h
        · cases hd : dataAfter A E r' ((path r').take (pos r')) A.start with
          | none => rw [hd] at h; simp [elseNone] at h
          | some d =>
            rw [hd] at h
            simp only [elseNone, List.mem_map] at h
            obtain ⟨_, _, h⟩ := h
            injection h with h _
            exact absurd h.symm hne
      · rw [Function.update_of_ne hr]
    refine ⟨?_, ?_⟩
    · intro r' w hw
      exact (h.out i hi).1 r' w ((key r' w).1 hw)
    · intro hn
      exact (h.out i hi).2 fun r' w hw => hn r' w ((key r' w).2 hw)

/-- Leaving a fragment: the index is increased, or removed after the last fragment; the partition is finished when none is
left. -/
theorem leaveFragment_ok {c : Comp β} {r : Int} {idx nf : Nat} (hok : c.idxs.Ok) (hget : c.idxs.get r = some idx) (hlt : idx < nf)
    (hf : c.finished = false) : ∃ c', leaveFragment c r (idx + 1) nf = .ok c' ∧ c'.out = c.out ∧ c'.retrieved = c.retrieved ∧
      c'.idxs.Ok ∧ (∀ r', c'.idxs.get r' = if r = r' then (if idx + 1 < nf then some (idx + 1) else none) else c.idxs.get r') ∧
      (c'.finished = true ↔ c'.idxs = []) ∧ (c'.finished = false → c'.downstream = c.downstream) := by
  unfold leaveFragment
  have hok1 : (c.idxs.put r (idx + 1)).Ok := hok.put _ _
  by_cases h : idx + 1 = nf
  · simp only [h, if_true]
    have hg : ∀ r', ((c.idxs.put r nf).erase r).get r' = if r = r' then (if nf < nf then some nf else none) else c.idxs.get r' := by
      intro r'
      rw [AMap.get_erase, AMap.get_put]
      by_cases hr : r = r' <;> simp [hr]
    by_cases he : ((c.idxs.put r nf).erase r).isEmpty = true
    · refine ⟨{ c with idxs := (c.idxs.put r nf).erase r, finished := true, downstream := [] }, ?_, rfl, rfl, (hok.put _ _).erase _, hg,
        ?_, ?_⟩
      · simp only [he, if_true, finishPartition, hf]
        rfl
      · simpa using he
      · intro h; simp at h
    · refine ⟨{ c with idxs := (c.idxs.put r nf).erase r }, ?_, rfl, rfl, (hok.put _ _).erase _, hg, ?_, fun _ => rfl⟩
      · simp only [he, Bool.false_eq_true, if_false]
      · simp only [hf, Bool.false_eq_true, false_iff]
        simpa using he
  · have h2 : idx + 1 < nf := by omega
    simp only [h, if_false]
    refine ⟨_, rfl, rfl, rfl, hok1, ?_, ?_, fun _ => rfl⟩
    · intro r'
      simp only [AMap.get_put, h2, if_true]
    · simp only [hf, Bool.false_eq_true, false_iff]
      intro h3
      have := AMap.get_put c.idxs r r (idx + 1)
      rw [h3] at this
      simp [AMap.get_nil] at this

/-- Some facts about the piece a message is about. -/
theorem piece_facts (hw : WellFormed R path) (hi : Inv A E Good R path pos s) {m : Msg δ} (hm : m ∈ s.msgs) {p : Nat} {r : Int}
    {cells : List Nat} (hp : (path r)[pos r]? = some (p, cells)) :
    p < R.nrParts ∧ (∀ i ∈ cells, i < (R.parts p).nrCells) ∧ s.started = true ∧
    (s.comp p).idxs.get r = some (cnt p ((path r).take (pos r))) ∧ (s.comp p).finished = false ∧
    (R.parts p).frags.get r = some (fragmentsIn p (path r)) ∧
    (fragmentsIn p (path r))[cnt p ((path r).take (pos r))]? = some ⟨cells, (path r)[pos r + 1]?.map Prod.fst⟩ ∧
    (s.comp p).idxs.isEmpty = false ∧ cnt p ((path r).take (pos r)) < (fragmentsIn p (path r)).length := by
  obtain ⟨h1, h2⟩ := hw.parts r _ (List.mem_of_getElem? hp)
  have hst : s.started = true := by
    by_contra h
    have := (hi.unstarted (by simpa using h)).1
    rw [this] at hm
    simp at hm
  have hlt := cnt_take_lt hp
  have hget := (hi.comp p h1).idxs r
  rw [if_pos hlt] at hget
  have hne : (s.comp p).idxs ≠ [] := by
    intro h
    rw [h] at hget
    simp [AMap.get_nil] at hget
  refine ⟨h1, h2, hst, hget, ?_, ?_, fragmentsIn_getElem hp, ?_, by rw [length_fragmentsIn]; exact hlt⟩
  · have := (hi.comp p h1).fin
    by_contra h
    exact hne (this.1 (by simpa using h)).1
  · rw [hw.frags p h1 r, if_neg]
    rw [fragmentsIn_eq_nil]
    omega
  · simpa using hne

/-- The downstream component is known. -/
theorem next_known (hw : WellFormed R path) (hi : Inv A E Good R path pos s) {m : Msg δ} (hm : m ∈ s.msgs) {p q : Nat} {r : Int}
    {cells : List Nat} (hp : (path r)[pos r]? = some (p, cells)) (hq : (path r)[pos r + 1]?.map Prod.fst = some q) :
    q ∈ (s.comp p).downstream := by
  obtain ⟨h1, _, h3, _, h5, h6, _⟩ := piece_facts hw hi hm hp
  rw [(hi.comp p h1).down (hi.conf h3 p h1) h5]
  unfold RoutePartition.remoteLocations
  exact List.mem_flatMap.2 ⟨_, AMap.mem_of_get h6, mem_fragmentsIn_next hp hq⟩

/-- The component of the partition of the piece that is handled, after it has been handled. -/
theorem comp_after (hcons : Consistent A E path) (hi : Inv A E Good R path pos s) {p : Nat} {r : Int} {cells : List Nat}
    (hp : (path r)[pos r]? = some (p, cells)) (h1 : p < R.nrParts) {c' : Comp β} {ws : List (Nat × β)}
    (hws : elseNone (fun d => E.writes p r cells d) [] (dataAfter A E r ((path r).take (pos r)) A.start) = ws)
    (hout : c'.out = applyWrites ws (s.comp p).out)
    (hfrags : (R.parts p).frags ≠ []) (hok : c'.idxs.Ok)
    (hidx : ∀ r', c'.idxs.get r' = if r = r' then
      (if cnt p ((path r).take (pos r)) + 1 < (fragmentsIn p (path r)).length then some (cnt p ((path r).take (pos r)) + 1) else none)
      else (s.comp p).idxs.get r')
    (hfin : c'.finished = true ↔ c'.idxs = []) (hdown : c'.finished = false → c'.downstream = (s.comp p).downstream)
    (hf : (s.comp p).finished = false) :
    CompInv A E R path (Function.update pos r (pos r + 1)) p (s.configured p) c' := by
  have hc := hi.comp p h1
  refine ⟨hok, ?_, ?_, ?_, ?_, ?_⟩
  · intro r'
    rw [hidx r']
    by_cases hr : r = r'
    · subst hr
      have := cnt_take_succ (p := p) hp
      simp only [if_true] at this ⊢
      rw [Function.update_self, this, length_fragmentsIn]
    · rw [if_neg hr, Function.update_of_ne (Ne.symm hr), hc.idxs r']
  · rw [hout, length_applyWrites]; exact hc.len
  · intro i hi'
    have hmem : ∀ w, (p, i, w) ∈ elseNone (fun d => (E.writes p r cells d).map fun w => (p, w.1, w.2)) []
        (dataAfter A E r ((path r).take (pos r)) A.start) ↔ (i, w) ∈ ws := by
      intro w
      rw [← hws]
      cases dataAfter A E r ((path r).take (pos r)) A.start with
      | none => simp [elseNone]
      | some d =>
        simp only [elseNone, List.mem_map, Prod.mk.injEq, true_and]
        constructor
        · rintro ⟨⟨a, b⟩, h, h1, h2⟩
          simp only at h1 h2
          subst h1; subst h2; exact h
        · intro h; exact ⟨_, h, rfl, rfl⟩
    have key : ∀ r' w, (p, i, w) ∈ writesAlong A E r' ((path r').take (Function.update pos r (pos r + 1) r')) A.start ↔
        (r' = r ∧ (i, w) ∈ ws) ∨ (p, i, w) ∈ writesAlong A E r' ((path r').take (pos r')) A.start := by
      intro r' w
      by_cases hr : r' = r
      · subst hr
        rw [Function.update_self, writesAlong_take_succ hp, List.mem_append, hmem]
        simp only [true_and]
        exact or_comm
      · rw [Function.update_of_ne hr]
        simp [hr]
    have hsub : ∀ r' w, (p, i, w) ∈ writesAlong A E r' ((path r').take (Function.update pos r (pos r + 1) r')) A.start →
        Written A E path p i w := fun r' w h => ⟨r', writesAlong_mem_of_take h⟩
    refine ⟨?_, ?_⟩
    · intro r' w h
      by_cases hin : ∃ v, (i, v) ∈ ws
      · obtain ⟨v, hv⟩ := hin
        have hw1 := hsub r v ((key r v).2 (Or.inl ⟨rfl, hv⟩))
        have hvw : w = v := hcons p i w v (hsub r' w h) hw1
        rw [hout, hvw]
        refine applyWrites_of_mem hv ?_ _ (by rw [hc.len]; exact hi')
        intro v' hv'
        exact hcons p i v' v (hsub r v' ((key r v').2 (Or.inl ⟨rfl, hv'⟩))) hw1
      · rw [hout, applyWrites_of_not_mem fun v hv => hin ⟨v, hv⟩]
        rcases (key r' w).1 h with h | h
        · exact absurd ⟨w, h.2⟩ hin
        · exact (hc.out i hi').1 r' w h
    · intro hn
      rw [hout, applyWrites_of_not_mem fun v hv => hn r v ((key r v).2 (Or.inl ⟨rfl, hv⟩))]
      exact (hc.out i hi').2 fun r' w h => hn r' w ((key r' w).2 (Or.inr h))
  · intro h2 h3
    rw [hdown h3]
    exact hc.down h2 hf
  · rw [hfin]
    exact ⟨fun h => ⟨h, Or.inr hfrags⟩, fun h => h.1⟩

section
variable [DecidableEq δ]

/-- The state after a message has been handled. -/
theorem inv_deliver (hi : Inv A E Good R path pos s) {m : Msg δ} (hm : m ∈ s.msgs) {p : Nat} {cells : List Nat}
    (hp : (path m.route)[pos m.route]? = some (p, cells)) (hst : s.started = true) {c' : Comp β}
    (hc : CompInv A E R path (Function.update pos m.route (pos m.route + 1)) p (s.configured p) c') {msgs : List (Msg δ)}
    (hmsgs : ∀ m' ∈ msgs, m'.route = m.route ∧ MsgOk A E Good path (Function.update pos m.route (pos m.route + 1)) m')
    (hone : msgs.length ≤ 1) (hmore : pos m.route + 1 < (path m.route).length → msgs ≠ []) :
    Inv A E Good R path (Function.update pos m.route (pos m.route + 1))
      { s with comp := Function.update s.comp p c', msgs := s.msgs.erase m ++ msgs } := by
  have hlt : pos m.route < (path m.route).length := by
    obtain ⟨h, _⟩ := List.getElem?_eq_some_iff.1 hp
    exact h
  have hnd : s.msgs.Nodup := hi.routes.of_map _
  have hnot : ∀ m' ∈ s.msgs.erase m, m'.route ≠ m.route := by
    intro m' h1 h2
    rw [hnd.mem_erase_iff] at h1
    exact h1.1 (List.inj_on_of_nodup_map hi.routes h1.2 hm h2)
  have hrest : ∀ m' : Msg δ, m'.route ≠ m.route → MsgOk A E Good path pos m' →
      MsgOk A E Good path (Function.update pos m.route (pos m.route + 1)) m' := by
    intro m' h1 h2
    cases m' with
    | walk q r d =>
      simp only [Msg.route] at h1
      have e : Function.update pos m.route (pos m.route + 1) r = pos r := Function.update_of_ne h1 _ _
      simp only [MsgOk, e] at h2 ⊢
      exact h2
    | skip q r =>
      simp only [Msg.route] at h1
      have e : Function.update pos m.route (pos m.route + 1) r = pos r := Function.update_of_ne h1 _ _
      simp only [MsgOk, e] at h2 ⊢
      exact h2
  refine ⟨?_, ?_, ?_, ?_, ?_, hi.conf, ?_⟩
  · intro r
    by_cases h : r = m.route
    · subst h; rw [Function.update_self]; omega
    · rw [Function.update_of_ne h]; exact hi.le r
  · intro h; simp only [hst] at h; cases h
  · rw [List.map_append, List.nodup_append]
    refine ⟨hi.routes.sublist (List.erase_sublist.map _), ?_, ?_⟩
    · match msgs, hone with
      | [], _ => exact List.nodup_nil
      | [_], _ => exact List.nodup_singleton _
    · intro a ha b hb
      obtain ⟨m1, h1, rfl⟩ := List.mem_map.1 ha
      obtain ⟨m2, h2, rfl⟩ := List.mem_map.1 hb
      rw [(hmsgs m2 h2).1]
      exact hnot m1 h1
  · intro m' h
    rcases List.mem_append.1 h with h | h
    · exact hrest m' (hnot m' h) (hi.msg m' (List.mem_of_mem_erase h))
    · exact (hmsgs m' h).2
  · intro _ r hr
    by_cases h : r = m.route
    · subst h
      rw [Function.update_self] at hr
      obtain ⟨m', h'⟩ := List.exists_mem_of_ne_nil _ (hmore hr)
      exact ⟨m', List.mem_append.2 (Or.inr h'), (hmsgs m' h').1⟩
    · rw [Function.update_of_ne h] at hr
      obtain ⟨m', h1, h2⟩ := hi.sent hst r hr
      refine ⟨m', List.mem_append.2 (Or.inl ?_), h2⟩
      rw [hnd.mem_erase_iff]
      refine ⟨?_, h1⟩
      rintro rfl
      exact h h2.symm
  · intro q hq
    by_cases h : q = p
    · subst h
      simp only [Function.update_self]
      exact hc
    · simp only [Function.update_of_ne h]
      exact (hi.comp q hq).other hp h

theorem deliver_walk (hw : WellFormed R path) (hcor : Correct A E R path Good) (hcons : Consistent A E path)
    (hi : Inv A E Good R path pos s) {p : Nat} {r : Int} {d : δ}
    (hm : Msg.walk p r d ∈ s.msgs) : ∃ s', perform A R s (.deliver (.walk p r d)) = .ok s' ∧
      Inv A E Good R path (Function.update pos r (pos r + 1)) s' ∧ s'.configured = s.configured ∧ s'.started = s.started ∧
      (∀ q, (s'.comp q).retrieved = (s.comp q).retrieved) ∧ pos r < (path r).length := by
  obtain ⟨⟨cells, hp⟩, hdata, hgood⟩ := hi.msg _ hm
  obtain ⟨h1, h2, h3, h4, h5, h6, h7, h8, h9⟩ := piece_facts hw hi hm hp
  have hlt : pos r < (path r).length := (List.getElem?_eq_some_iff.1 hp).1
  have hlen : (s.comp p).out.length = (R.parts p).nrCells := (hi.comp p h1).len
  have hv := hcor.visit p h1 r cells (s.comp p).out d hgood hlen h2
  obtain ⟨c', hl1, hl2, hl3, hl4, hl5, hl6, hl7⟩ := leaveFragment_ok
    (c := { s.comp p with out := applyWrites (E.writes p r cells d) (s.comp p).out }) (hi.comp p h1).ok h4 h9 h5
  simp only at hl2 hl3 hl5 hl7
  have hdata' := dataAfter_take_succ (A := A) (E := E) (r := r) hp A.start
  rw [hdata] at hdata'
  simp only [elseNone] at hdata'
  have hwalk : ∃ msgs, walk A p (R.parts p) (s.comp p) r d = .ok (c', msgs) ∧
      (∀ m' ∈ msgs, m'.route = r ∧ MsgOk A E Good path (Function.update pos r (pos r + 1)) m') ∧ msgs.length ≤ 1 ∧
      (pos r + 1 < (path r).length → msgs ≠ []) := by
    unfold walk
    rw [assert_ok (by rw [h8]; rfl), ok_bind, need_some h4, ok_bind, need_some h6, ok_bind, need_some h7, ok_bind]
    simp only
    rw [hv, ok_bind]
    simp only
    cases hnx : (path r)[pos r + 1]?.map Prod.fst with
    | none =>
      have hlast : pos r + 1 = (path r).length := by
        simp only [Option.map_eq_none_iff, List.getElem?_eq_none_iff] at hnx
        omega
      have hcnt : cnt p ((path r).take (pos r)) + 1 = (fragmentsIn p (path r)).length := by
        have := cnt_take_succ (p := p) hp
        rw [hlast, List.take_length] at this
        rw [length_fragmentsIn, this]
        simp
      refine ⟨[], ?_, by simp, by simp, by omega⟩
      simp only [ok_bind]
      rw [assert_ok (by simp [hcnt]), ok_bind, hl1, ok_bind]
    | some q =>
      have hq := next_known hw hi hm hp hnx
      obtain ⟨e, he, rfl⟩ := Option.map_eq_some_iff.1 hnx
      cases hkw : A.keepWalking (E.next p r cells d) with
      | true =>
        refine ⟨[.walk e.1 r (E.next p r cells d)], ?_, ?_, by simp, by simp⟩
        · simp only
          rw [assert_ok (by simpa using hq), ok_bind]
          simp only [if_true, ok_bind]
          rw [assert_ok (by simp), ok_bind, hl1, ok_bind]
        · intro m' hm'
          rw [List.mem_singleton.1 hm']
          refine ⟨rfl, ⟨e.2, ?_⟩, ?_, hcor.next p r cells d hgood⟩
          · rw [Function.update_self]; exact he
          · rw [Function.update_self, hdata', if_pos hkw]
      | false =>
        refine ⟨[.skip e.1 r], ?_, ?_, by simp, by simp⟩
        · simp only
          rw [assert_ok (by simpa using hq), ok_bind]
          simp only [Bool.false_eq_true, if_false, ok_bind]
          rw [assert_ok (by simp), ok_bind, hl1, ok_bind]
        · intro m' hm'
          rw [List.mem_singleton.1 hm']
          refine ⟨rfl, ⟨e.2, ?_⟩, ?_⟩
          · rw [Function.update_self]; exact he
          · rw [Function.update_self, hdata', hkw]; rfl
  obtain ⟨msgs, hw1, hw2, hw3, hw4⟩ := hwalk
  refine ⟨{ s with comp := Function.update s.comp p c', msgs := s.msgs.erase (.walk p r d) ++ msgs }, ?_, ?_, rfl, rfl, ?_, hlt⟩
  · simp only [perform, hw1, ok_bind]
  · refine inv_deliver (m := .walk p r d) hi hm hp h3 ?_ hw2 hw3 hw4
    refine comp_after hcons hi hp h1 (by rw [hdata]; rfl) hl2 ?_ hl4 hl5 hl6 hl7 h5
    intro h
    rw [h] at h6
    simp [AMap.get_nil] at h6
  · intro q
    by_cases h : q = p
    · subst h; simp only [Function.update_self]; exact hl3
    · simp only [Function.update_of_ne h]

theorem deliver_skip (hw : WellFormed R path) (hcons : Consistent A E path)
    (hi : Inv A E Good R path pos s) {p : Nat} {r : Int}
    (hm : Msg.skip p r ∈ s.msgs) : ∃ s', perform A R s (.deliver (.skip p r)) = .ok s' ∧
      Inv A E Good R path (Function.update pos r (pos r + 1)) s' ∧ s'.configured = s.configured ∧ s'.started = s.started ∧
      (∀ q, (s'.comp q).retrieved = (s.comp q).retrieved) ∧ pos r < (path r).length := by
  obtain ⟨⟨cells, hp⟩, hdata⟩ := hi.msg _ hm
  obtain ⟨h1, h2, h3, h4, h5, h6, h7, h8, h9⟩ := piece_facts hw hi hm hp
  have hlt : pos r < (path r).length := (List.getElem?_eq_some_iff.1 hp).1
  obtain ⟨c', hl1, hl2, hl3, hl4, hl5, hl6, hl7⟩ := leaveFragment_ok (c := s.comp p) (hi.comp p h1).ok h4 h9 h5
  have hdata' := dataAfter_take_succ (A := A) (E := E) (r := r) hp A.start
  rw [hdata] at hdata'
  simp only [elseNone] at hdata'
  have hwalk : ∃ msgs : List (Msg δ), skipWalking (R.parts p) (s.comp p) r = .ok (c', msgs) ∧
      (∀ m' ∈ msgs, m'.route = r ∧ MsgOk A E Good path (Function.update pos r (pos r + 1)) m') ∧ msgs.length ≤ 1 ∧
      (pos r + 1 < (path r).length → msgs ≠ []) := by
    unfold skipWalking
    rw [assert_ok (by rw [h8]; rfl), ok_bind, need_some h4, ok_bind, need_some h6, ok_bind, need_some h7, ok_bind]
    simp only
    cases hnx : (path r)[pos r + 1]?.map Prod.fst with
    | none =>
      have hlast : pos r + 1 = (path r).length := by
        simp only [Option.map_eq_none_iff, List.getElem?_eq_none_iff] at hnx
        omega
      refine ⟨[], ?_, by simp, by simp, by omega⟩
      simp only [ok_bind]
      rw [hl1, ok_bind]
    | some q =>
      have hq := next_known hw hi hm hp hnx
      obtain ⟨e, he, rfl⟩ := Option.map_eq_some_iff.1 hnx
      refine ⟨[.skip e.1 r], ?_, ?_, by simp, by simp⟩
      · simp only
        rw [assert_ok (by simpa using hq), ok_bind]
        simp only [ok_bind]
        rw [hl1, ok_bind]
      · intro m' hm'
        rw [List.mem_singleton.1 hm']
        refine ⟨rfl, ⟨e.2, ?_⟩, ?_⟩
        · rw [Function.update_self]; exact he
        · rw [Function.update_self]; exact hdata'
  obtain ⟨msgs, hw1, hw2, hw3, hw4⟩ := hwalk
  refine ⟨{ s with comp := Function.update s.comp p c', msgs := s.msgs.erase (.skip p r) ++ msgs }, ?_, ?_, rfl, rfl, ?_, hlt⟩
  · simp only [perform, hw1, ok_bind]
  · refine inv_deliver (m := .skip p r) hi hm hp h3 ?_ hw2 hw3 hw4
    refine comp_after hcons hi hp h1 (ws := []) (by rw [hdata]; rfl) hl2 ?_ hl4 hl5 hl6 hl7 h5
    intro h
    rw [h] at h6
    simp [AMap.get_nil] at h6
  · intro q
    by_cases h : q = p
    · subst h; simp only [Function.update_self]; exact hl3
    · simp only [Function.update_of_ne h]

end

end Lue.Walk

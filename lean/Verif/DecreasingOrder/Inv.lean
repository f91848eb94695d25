import Verif.DecreasingOrder.Frag

/-! The invariant of recording routes. -/
namespace Lue.DecreasingOrder

open Lue.FirstN (Fragment Piece cellsOf)

variable {V : Type} [LinearOrder V]

/-- What has happened. -/
structure Ghost (V : Type) where
  /-- The pieces of each route -/
  hist : Int → List HPiece
  /-- The values and cells recorded -/
  recd : Int → List (V × Nat × Nat)
  /-- The route is being recorded -/
  active : Int → Bool
  /-- The piece each future is for -/
  own : Nat → Nat → Int × Nat

/-- The recorded values and cells in partition `p`. -/
def inPart (p : Nat) (l : List (V × Nat × Nat)) : List (V × Nat) :=
  (l.filter fun x => decide (x.2.1 = p)).map fun x => (x.1, x.2.2)

/-- The values and cells of zone `r` in partition `p`. -/
def Input.cells (I : Input V) (p : Nat) (r : Int) : List (V × Nat) := localOf r (I.zone p) (I.value p) 0

structure LocalInv (I : Input V) (n : Int) (G : Ghost V) (started : Bool) (p : Nat) (c : Comp V) : Prop where
  unsorted : c.sorted = false → c.localValues = [] ∧ started = false
  ok : c.localValues.Ok
  fin : c.finishing = true ↔ c.sorted = true ∧ c.localValues = []
  res : ∀ F, c.result = some F → build c = .ok F ∧ c.finishing = true ∧ ∀ f ∈ c.ends, f.isSome = true
  values : ∀ r l, c.localValues.get r = some l → l ≠ [] ∧ l.Pairwise fun a b => b.1 ≤ a.1
  perm : c.sorted = true → ∀ r, ∃ rest, (inPart p (G.recd r) ++ rest).Perm (I.cells p r) ∧
    (∀ a ∈ G.recd r, ∀ b ∈ rest, b.1 ≤ a.1) ∧
    ((started = false ∨ G.active r = true) → rest = (c.localValues.get r).getD []) ∧
    (started = true → G.active r = false → (G.recd r).length = n.toNat ∨ rest = [])

/-- A message to record a fragment. -/
structure RecOk (I : Input V) (n : Int) (G : Ghost V) (s : Sys V) (p : Nat) (r : Int) (M : List (V × Nat)) (cur : Int)
    (reply : Option (Nat × Nat)) : Prop where
  part : p < I.nrParts
  active : G.active r = true
  head : ∃ v rest, M = (v, p) :: rest
  sorted : M.Pairwise fun a b => b.1 ≤ a.1
  nodup : (M.map Prod.snd).Nodup
  mem : ∀ v q, (v, q) ∈ M ↔ q < I.nrParts ∧ ∃ i l, (s.comp q).localValues.get r = some ((v, i) :: l)
  count : cur = (G.recd r).length
  more : cur < n ∨ G.hist r = []
  reply : reply = (G.hist r).getLast?.map fun e => (e.1, e.2.2)
  elsewhere : ∀ c e, (G.hist r).getLast? ≠ some (p, c, e)

/-- The route a message to record is about. -/
def recRoute : Msg V → Option Int
  | .record _ r _ _ _ => some r
  | .skip _ _ => none

structure Inv (I : Input V) (n : Int) (G : Ghost V) (s : Sys V) : Prop where
  loc : ∀ p < I.nrParts, LocalInv I n G s.started p (s.comp p)
  frag : ∀ p < I.nrParts, FragInv G.hist G.active G.own p (s.comp p).frags (s.comp p).ends (s.comp p).endsIdxs
  unstarted : s.started = false → s.msgs = [] ∧ s.starts = [] ∧ ∀ r, G.hist r = [] ∧ G.recd r = [] ∧ G.active r = false
  maxima : s.started = false → ∀ p < I.nrParts, (s.comp p).sorted = true → (s.maxima p).Ok ∧
    ∀ r, (s.maxima p).get r = ((s.comp p).localValues.get r).bind fun l => l.head?.map Prod.fst
  cells : ∀ r, cellsOf (pathOf (G.hist r)) = (G.recd r).map Prod.snd
  desc : ∀ r, (G.recd r).Pairwise fun a b => b.1 ≤ a.1
  len : ∀ r, (G.recd r).length ≤ n.toNat
  parts : ∀ r, ∀ e ∈ G.hist r, e.1 < I.nrParts
  starts_ok : s.starts.Ok
  starts : ∀ r, s.starts.get r = (G.hist r).head?.map Prod.fst
  nodup : s.msgs.Nodup
  uniq : (s.msgs.filterMap recRoute).Nodup
  record : ∀ p r M cur reply, Msg.record p r M cur reply ∈ s.msgs → RecOk I n G s p r M cur reply
  skip : ∀ p r, Msg.skip p r ∈ s.msgs → p < I.nrParts ∧ G.active r = false ∧ (s.comp p).localValues.get r ≠ none
  token : ∀ r, G.active r = true → ∃ p M cur reply, Msg.record p r M cur reply ∈ s.msgs
  skips : s.started = true → ∀ r, G.active r = false → ∀ q < I.nrParts, (s.comp q).localValues.get r ≠ none → Msg.skip q r ∈ s.msgs

/-- What `record_route_fragment()` does. `k` is the number of cells recorded, `b` tells whether recording continues. -/
structure Recorded (max : Int) (p : Nat) (c : Comp V) (r : Int) (l : List (V × Nat)) (Mt : List (V × Nat)) (cur : Int) (k : Nat) (b : Bool)
    (c' : Comp V) (msgs : List (Msg V)) : Prop where
  le : k ≤ l.length
  bound : k ≤ (max - cur).toNat
  large : ∀ x ∈ l.take k, ∀ m ∈ Mt, m.1 ≤ x.1
  frags : c'.frags = c.frags.put r ((c.frags.get r).getD [] ++ [(l.take k).map Prod.snd])
  retrieved : c'.retrieved = c.retrieved
  sorted : c'.sorted = c.sorted
  result : c'.result = c.result
  ok : c'.localValues.Ok
  fin : c'.finishing = true ↔ c'.localValues = []
  continues : b = true → c'.ends = c.ends ++ [none] ∧
      c'.endsIdxs = c.endsIdxs.put r ((c.endsIdxs.get r).getD [] ++ [(((c.frags.get r).getD []).length, c.ends.length)]) ∧
      cur + k < max ∧ 0 < k ∧
      (∀ r', c'.localValues.get r' = if r = r' then (if l.drop k = [] then none else some (l.drop k)) else c.localValues.get r') ∧
      load c'.localValues + k ≤ load c.localValues ∧
      ∃ vq q rest M', Mt = (vq, q) :: rest ∧ (∃ rest', M' = (vq, q) :: rest') ∧ M'.Pairwise (fun a b => b.1 ≤ a.1) ∧
        M'.Perm (((l.drop k).head?.map fun x => (x.1, p)).toList ++ Mt) ∧
        msgs = [.record q r M' (cur + k) (some (p, c.ends.length))]
  stops : b = false → c'.ends = c.ends ∧ c'.endsIdxs = c.endsIdxs ∧
      (∀ r', c'.localValues.get r' = if r = r' then none else c.localValues.get r') ∧
      load c'.localValues + (l.length + 1) = load c.localValues ∧
      msgs = Mt.map (fun m => .skip m.2 r) ∧ (max ≤ cur + k ∨ (Mt = [] ∧ k = l.length))

theorem finish_ok {c : Comp V} (h : c.finishing = false) : ∃ c', finishIfDone c = Except.ok c' ∧
    c'.frags = c.frags ∧ c'.ends = c.ends ∧ c'.endsIdxs = c.endsIdxs ∧ c'.localValues = c.localValues ∧ c'.retrieved = c.retrieved ∧
    c'.sorted = c.sorted ∧ c'.result = c.result ∧ (c'.finishing = true ↔ c'.localValues = []) := by
  by_cases h2 : c.localValues.isEmpty = true
  · refine ⟨{ c with finishing := true }, ?_, rfl, rfl, rfl, rfl, rfl, rfl, rfl, ?_⟩
    · simp [h2, finishPartition, finishIfDone, h]
    · simpa using h2
  · refine ⟨c, by simp [h2, finishIfDone], rfl, rfl, rfl, rfl, rfl, rfl, rfl, ?_⟩
    simp only [h, Bool.false_eq_true, false_iff]
    simpa using h2

theorem record_ok {lowest : V} {max : Int} {p : Nat} {c : Comp V} {r : Int} {v0 : V} {i0 : Nat} {l' Mt : List (V × Nat)} {cur : Int}
    (hl : c.localValues.get r = some ((v0, i0) :: l')) (hok : c.localValues.Ok) (hfin : c.finishing = false)
    (hM : ((v0, p) :: Mt).Pairwise fun a b => b.1 ≤ a.1) (hnd : (((v0, p) :: Mt).map Prod.snd).Nodup)
    (hlow : ∀ x ∈ (v0, i0) :: l', lowest ≤ x.1) :
    ∃ k b c' msgs, record lowest max p c r ((v0, p) :: Mt) cur = .ok (c', msgs) ∧
      Recorded max p c r ((v0, i0) :: l') Mt cur k b c' msgs := by
  obtain ⟨hM1, hM2⟩ := List.pairwise_cons.1 hM
  have hp : ∀ m ∈ Mt, m.2 ≠ p := by
    intro m hm h
    have := (List.nodup_cons.1 hnd).1
    exact this (List.mem_map.2 ⟨m, hm, h⟩)
  have hload : load (c.localValues.erase r) + (((v0, i0) :: l').length + 1) = load c.localValues := AMap.weight_erase _ hok hl
  unfold record
  rw [need_some hl, ok_bind]
  simp only [List.getElem?_cons_zero]
  rw [need_some rfl, ok_bind, need_some rfl, ok_bind, assert_ok (by simp), ok_bind]
  generalize hlv : (v0, i0) :: l' = l at *
  cases Mt with
  | nil =>
    simp only [List.getElem?_cons_succ, List.getElem?_nil, ok_bind, List.tail_cons]
    obtain ⟨k, h1, h2, h3, h4, h5⟩ := recordCells_ok lowest max l cur
    rw [h1]
    simp only
    obtain ⟨c', f1, f2, f3, f4, f5, f6, f7, f8, f9⟩ := finish_ok (c := pushFragment { c with localValues := c.localValues.erase r } r
      ((l.take k).map Prod.snd)) hfin
    refine ⟨k, false, c', [], ?_, ?_⟩
    · rw [f1, ok_bind]
    · refine ⟨h2, h3, by simp, by rw [f2]; rfl, by rw [f6]; rfl, by rw [f7]; rfl, by rw [f8]; rfl, ?_, f9, by simp, ?_⟩
      · rw [f5]; exact hok.erase _
      · intro _
        refine ⟨by rw [f3]; rfl, by rw [f4]; rfl, ?_, ?_, rfl, ?_⟩
        · intro r'
          rw [f5]
          simp only [pushFragment]
          rw [AMap.get_erase]
        · rw [f5]
          exact hload
        · by_cases h6 : cur + k < max
          · right
            refine ⟨rfl, ?_⟩
            by_contra hne
            have hk : k < l.length := by omega
            have := h5 h6 l[k] (List.getElem?_eq_getElem hk)
            exact absurd (hlow _ (List.getElem_mem hk)) (not_le.2 this)
          · left; omega
  | cons mq rest =>
    obtain ⟨vq, q⟩ := mq
    have hvq : vq ≤ v0 := hM1 (vq, q) (by simp)
    have hq : q ≠ p := hp (vq, q) (by simp)
    have hrest : ∀ m ∈ (vq, q) :: rest, m.1 ≤ vq := by
      intro m hm
      rcases List.mem_cons.1 hm with rfl | hm
      · exact le_refl _
      · exact (List.pairwise_cons.1 hM2).1 m hm
    simp only [List.getElem?_cons_succ, List.getElem?_cons_zero, List.tail_cons]
    rw [assert_ok (by simp [hvq, hq]), ok_bind, ok_bind]
    obtain ⟨k, h1, h2, h3, h4, h5⟩ := recordCells_ok vq max l cur
    rw [h1]
    simp only
    have hklen : ((l.take k).map Prod.snd).length = k := by simp [h2]
    have hlarge : ∀ x ∈ l.take k, ∀ m ∈ (vq, q) :: rest, m.1 ≤ x.1 := fun x hx m hm => le_trans (hrest m hm) (h4 x hx)
    by_cases h6 : cur + k < max
    · have hk0 : 0 < k := by
        by_contra hk
        have hk : k = 0 := by omega
        subst hk
        have := h5 h6 (v0, i0) (by rw [← hlv]; rfl)
        exact absurd hvq (not_le.2 this)
      simp only [h6, if_true]
      rw [hklen]
      cases hd : l.drop k with
      | nil =>
        simp only [ok_bind]
        obtain ⟨c', f1, f2, f3, f4, f5, f6, f7, f8, f9⟩ := finish_ok (c := pushFragment (pushEnd { c with localValues := c.localValues.erase r } r) r
          ((l.take k).map Prod.snd)) hfin
        refine ⟨k, true, c', _, by rw [f1, ok_bind], ?_⟩
        refine ⟨h2, h3, hlarge, by rw [f2]; rfl, by rw [f6]; rfl, by rw [f7]; rfl, by rw [f8]; rfl, ?_, f9, ?_, by simp⟩
        · rw [f5]; exact hok.erase _
        · intro _
          refine ⟨by rw [f3]; rfl, by rw [f4]; rfl, h6, hk0, ?_, ?_, vq, q, rest, _, rfl, ⟨rest, rfl⟩, hM2, ?_, rfl⟩
          · intro r'
            rw [f5]
            simp only [pushFragment, pushEnd, hd, if_true]
            rw [AMap.get_erase]
          · rw [f5]
            simp only [pushFragment, pushEnd]
            have := h2
            omega
          · rw [hd]; simp
      | cons x ld =>
        obtain ⟨v, i⟩ := x
        have hv : v < vq := by
          have := h5 h6 (v, i) (by
            have h7 := List.getElem?_drop (xs := l) (i := k) (j := 0)
            rw [hd] at h7
            simpa using h7.symm)
          exact this
        simp only
        rw [assert_ok (by simpa using hv), ok_bind]
        simp only [ok_bind]
        obtain ⟨c', f1, f2, f3, f4, f5, f6, f7, f8, f9⟩ := finish_ok (c := pushFragment (pushEnd { c with
          localValues := c.localValues.put r ((v, i) :: ld) } r) r ((l.take k).map Prod.snd)) hfin
        refine ⟨k, true, c', _, by rw [f1, ok_bind], ?_⟩
        refine ⟨h2, h3, hlarge, by rw [f2]; rfl, by rw [f6]; rfl, by rw [f7]; rfl, by rw [f8]; rfl, ?_, f9, ?_, by simp⟩
        · rw [f5]; exact hok.put _ _
        · intro _
          refine ⟨by rw [f3]; rfl, by rw [f4]; rfl, h6, hk0, ?_, ?_, vq, q, rest, _, rfl, insertMaximum_head hv, insertMaximum_sorted v p hM2, ?_, rfl⟩
          · intro r'
            rw [f5]
            simp only [pushFragment, pushEnd, hd]
            rw [AMap.get_put]
            simp
          · rw [f5]
            simp only [pushFragment, pushEnd]
            have h7 : load (c.localValues.put r ((v, i) :: ld)) + (l.length + 1) = load c.localValues + (((v, i) :: ld).length + 1) :=
              AMap.weight_put_old _ hl _
            have h8 : ((v, i) :: ld).length = l.length - k := by rw [← hd, List.length_drop]
            omega
          · rw [hd]
            simpa using insertMaximum_perm v p ((vq, q) :: rest)
    · simp only [h6, if_false]
      rw [assert_ok (by
        rw [List.all_eq_true]
        intro m hm
        simpa using hp m hm), ok_bind]
      obtain ⟨c', f1, f2, f3, f4, f5, f6, f7, f8, f9⟩ := finish_ok (c := pushFragment { c with localValues := c.localValues.erase r } r
        ((l.take k).map Prod.snd)) hfin
      refine ⟨k, false, c', _, by rw [f1, ok_bind], ?_⟩
      refine ⟨h2, h3, hlarge, by rw [f2]; rfl, by rw [f6]; rfl, by rw [f7]; rfl, by rw [f8]; rfl, ?_, f9, by simp, ?_⟩
      · rw [f5]; exact hok.erase _
      · intro _
        refine ⟨by rw [f3]; rfl, by rw [f4]; rfl, ?_, ?_, rfl, Or.inl (by omega)⟩
        · intro r'
          rw [f5]
          simp only [pushFragment]
          rw [AMap.get_erase]
        · rw [f5]
          exact hload

end Lue.DecreasingOrder

import Verif.DecreasingOrder.Deliver
import Verif.FirstN.Properties
import Mathlib.Data.List.Sort

/-!
Properties of `decreasing_order`, for all zones, values, maxima, and executions: all orders in which tasks run and messages
are delivered.
-/
namespace Lue.DecreasingOrder

open Lue.FirstN (Fragment Piece cellsOf WellFormed)

variable {V : Type} [LinearOrder V] {I : Input V} {sort : SortFn V} {lowest : V} {n : Int} {G : Ghost V} {s : Sys V}

/-- What still has to be done, at most. -/
def todo (I : Input V) (s : Sys V) : Nat := ∑ p ∈ Finset.range I.nrParts, work I p (s.comp p) + (if s.started then 0 else 1)

theorem sum_lt {N : Nat} {f f' : Nat → Nat} {a : Nat} (ha : a < N) (h : f' a + 1 ≤ f a) (hne : ∀ b, b ≠ a → f' b = f b) :
    ∑ x ∈ Finset.range N, f' x + 1 ≤ ∑ x ∈ Finset.range N, f x := by
  rw [← Finset.add_sum_erase _ _ (Finset.mem_range.2 ha), ← Finset.add_sum_erase _ f (Finset.mem_range.2 ha)]
  have : ∑ x ∈ (Finset.range N).erase a, f' x = ∑ x ∈ (Finset.range N).erase a, f x :=
    Finset.sum_congr rfl fun x hx => hne x (Finset.mem_erase.1 hx).1
  omega

theorem todo_lt {s' : Sys V} {p : Nat} (hp : p < I.nrParts) (h1 : s'.started = s.started)
    (h2 : ∀ q ≠ p, work I q (s'.comp q) = work I q (s.comp q)) (h3 : work I p (s'.comp p) + 1 ≤ work I p (s.comp p)) :
    todo I s' + 1 ≤ todo I s := by
  unfold todo
  rw [h1]
  have := sum_lt (f := fun q => work I q (s.comp q)) (f' := fun q => work I q (s'.comp q)) hp h3 h2
  omega

/-- Every possible action succeeds, and decreases the amount of work left. -/
theorem perform_ok (hs : Sorts sort) (hlow : ∀ p < I.nrParts, ∀ v, some v ∈ I.value p → lowest ≤ v) (hi : Inv I n G s)
    {a : Action V} (he : Enabled I s a) (ht : Timely s a) :
    ∃ s' G', perform I sort lowest n s a = .ok s' ∧ Inv I n G' s' ∧ todo I s' + 1 ≤ todo I s := by
  cases a with
  | route p =>
    obtain ⟨hp, hr⟩ := he
    obtain ⟨s', h1, h2, h3, h4, h5⟩ := route_ok (sort := sort) (lowest := lowest) hi hp hr ht
    exact ⟨s', G, h1, h2, todo_lt hp h3 (fun q hq => by rw [h4 q hq]) (le_of_eq h5)⟩
  | sort p =>
    obtain ⟨hp, hr⟩ := he
    obtain ⟨s', h1, h2, h3, h4, h5⟩ := sort_ok (lowest := lowest) hs hi hp hr
    exact ⟨s', G, h1, h2, todo_lt hp h3 (fun q hq => by rw [h4 q hq]) h5⟩
  | start =>
    obtain ⟨h1, h2⟩ := he
    obtain ⟨s', G', h3, h4, h5, h6⟩ := start_ok (lowest := lowest) hs hi h1 h2
    refine ⟨s', G', h3, h4, ?_⟩
    unfold todo
    rw [h6, h5, h1]
    simp
  | complete p =>
    obtain ⟨hp, hf, hr, hall⟩ := he
    obtain ⟨s', h1, h2, h3, h4, h5⟩ := complete_ok (sort := sort) (lowest := lowest) hi hp hf hr hall
    exact ⟨s', G, h1, h2, todo_lt hp h3 (fun q hq => by rw [h4 q hq]) (le_of_eq h5)⟩
  | deliver m =>
    cases m with
    | record p r M cur reply =>
      obtain ⟨s', G', h1, h2, h3, h4, h5, h6⟩ := deliver_record (sort := sort) hlow hi he
      exact ⟨s', G', h1, h2, todo_lt h5 h3 h4 h6⟩
    | skip p r =>
      obtain ⟨s', h1, h2, h3, h4, h5⟩ := deliver_skip (sort := sort) (lowest := lowest) hi he
      exact ⟨s', G, h1, h2, todo_lt (hi.skip p r he).1 h3 (fun q hq => by rw [h4 q hq]) h5⟩

theorem reachable_inv (hs : Sorts sort) (hlow : ∀ p < I.nrParts, ∀ v, some v ∈ I.value p → lowest ≤ v)
    (h : Reachable I sort lowest n s) : ∃ G, Inv I n G s := by
  induction h with
  | init => exact init_inv
  | step _ he ht hp ih =>
    obtain ⟨G, hi⟩ := ih
    obtain ⟨s'', G', h1, h2, _⟩ := perform_ok hs hlow hi he ht
    rw [h1] at hp
    injection hp with hp
    subst hp
    exact ⟨G', h2⟩

/-- Whatever has happened before, whatever happens next goes right: no assertion fails, nothing is accessed that does not
exist, no promise is satisfied twice. -/
theorem decreasing_order_safe (hs : Sorts sort) (hlow : ∀ p < I.nrParts, ∀ v, some v ∈ I.value p → lowest ≤ v)
    (h : Reachable I sort lowest n s) {a : Action V} (he : Enabled I s a) (ht : Timely s a) :
    ∃ s', perform I sort lowest n s a = .ok s' := by
  obtain ⟨G, hi⟩ := reachable_inv hs hlow h
  obtain ⟨s', _, h1, _⟩ := perform_ok hs hlow hi he ht
  exact ⟨s', h1⟩

/-- An execution of `k` actions. -/
inductive Steps (I : Input V) (sort : SortFn V) (lowest : V) (n : Int) : Nat → Sys V → Prop
  | init : Steps I sort lowest n 0 init
  | step {k : Nat} {s s' : Sys V} {a : Action V} : Steps I sort lowest n k s → Enabled I s a → Timely s a →
      perform I sort lowest n s a = .ok s' → Steps I sort lowest n (k + 1) s'

/-- All executions end: the number of actions is at most three per partition, two per cell, and one. -/
theorem decreasing_order_terminates (hs : Sorts sort) (hlow : ∀ p < I.nrParts, ∀ v, some v ∈ I.value p → lowest ≤ v) {k : Nat}
    (h : Steps I sort lowest n k s) : k ≤ (∑ p ∈ Finset.range I.nrParts, (2 * (I.value p).length + 3)) + 1 := by
  have : ∃ G, Inv I n G s ∧ k + todo I s ≤ (∑ p ∈ Finset.range I.nrParts, (2 * (I.value p).length + 3)) + 1 := by
    induction h with
    | init =>
      obtain ⟨G, hi⟩ := init_inv (I := I) (n := n)
      refine ⟨G, hi, ?_⟩
      have : ∑ p ∈ Finset.range I.nrParts, work I p ((init : Sys V).comp p) = ∑ p ∈ Finset.range I.nrParts, (2 * (I.value p).length + 3) := by
        apply Finset.sum_congr rfl
        intro p _
        simp [work, init, Comp.new]
        omega
      unfold todo
      rw [this]
      simp [init]
    | step _ he ht hp ih =>
      obtain ⟨G, hi, h0⟩ := ih
      obtain ⟨s'', G', h1, h2, h3⟩ := perform_ok hs hlow hi he ht
      rw [h1] at hp
      injection hp with hp
      subst hp
      exact ⟨_, h2, by omega⟩
  obtain ⟨_, _, h⟩ := this
  omega

theorem inPart_mem {p i : Nat} {v : V} {l : List (V × Nat × Nat)} : (v, i) ∈ inPart p l ↔ (v, p, i) ∈ l := by
  unfold inPart
  simp only [List.mem_map, List.mem_filter, decide_eq_true_eq, Prod.mk.injEq]
  constructor
  · rintro ⟨⟨a, b, c⟩, ⟨h1, h2⟩, h3, h4⟩
    simp only at h2 h3 h4
    subst h2 h3 h4
    exact h1
  · intro h
    exact ⟨_, ⟨h, rfl⟩, rfl, rfl⟩

theorem mem_cells {p i : Nat} {v : V} {r : Int} : (v, i) ∈ I.cells p r ↔ (I.zone p)[i]? = some (some r) ∧ (I.value p)[i]? = some (some v) := by
  unfold Input.cells
  rw [mem_localOf]
  simp

theorem nodup_of_inPart {l : List (V × Nat × Nat)} (h : ∀ p, ((inPart p l).map Prod.snd).Nodup) : (l.map Prod.snd).Nodup := by
  induction l with
  | nil => exact List.nodup_nil
  | cons x l ih =>
    obtain ⟨v, p, i⟩ := x
    rw [List.map_cons, List.nodup_cons]
    constructor
    · intro hm
      obtain ⟨⟨v', p', i'⟩, h1, h2⟩ := List.mem_map.1 hm
      simp only [Prod.mk.injEq] at h2
      obtain ⟨rfl, rfl⟩ := h2
      have h3 := h p'
      have h4 : inPart p' ((v, p', i') :: l) = (v, i') :: inPart p' l := by simp [inPart]
      rw [h4, List.map_cons, List.nodup_cons] at h3
      exact h3.1 (List.mem_map.2 ⟨(v', i'), inPart_mem.2 h1, rfl⟩)
    · apply ih
      intro q
      have h3 := h q
      by_cases hq : p = q
      · subst hq
        have h4 : inPart p ((v, p, i) :: l) = (v, i) :: inPart p l := by simp [inPart]
        rw [h4, List.map_cons, List.nodup_cons] at h3
        exact h3.2
      · have h4 : inPart q ((v, p, i) :: l) = inPart q l := by simp [inPart, hq]
        rw [h4] at h3
        exact h3

/-- When nothing is left to do, all partitions of the result are ready, and they describe, for each zone, the sequence of the
`n` cells with the largest values (all cells when there are less), in order of decreasing value. -/
theorem decreasing_order_result (hs : Sorts sort) (hlow : ∀ p < I.nrParts, ∀ v, some v ∈ I.value p → lowest ≤ v)
    (h : Reachable I sort lowest n s) (hq : ∀ a, ¬ Enabled I s a) :
    (∀ p < I.nrParts, (s.comp p).retrieved = true ∧ (s.comp p).result.isSome = true) ∧
    ∃ path, WellFormed (toRoute I s) path ∧ ∀ r, IsDecreasing I n r (cellsOf (path r)) := by
  obtain ⟨G, hi⟩ := reachable_inv hs hlow h
  have hret : ∀ p < I.nrParts, (s.comp p).retrieved = true := by
    intro p hp
    by_contra h
    exact hq (.route p) ⟨hp, by simpa using h⟩
  have hsorted : ∀ p < I.nrParts, (s.comp p).sorted = true := by
    intro p hp
    by_contra h
    exact hq (.sort p) ⟨hp, by simpa using h⟩
  have hst : s.started = true := by
    by_contra h
    exact hq .start ⟨by simpa using h, hsorted⟩
  have hact : ∀ r, G.active r = false := by
    intro r
    by_contra h
    obtain ⟨p, M, cur, reply, hm⟩ := hi.token r (by simpa using h)
    exact hq (.deliver _) hm
  have hnil : ∀ p < I.nrParts, (s.comp p).localValues = [] := by
    intro p hp
    rw [AMap.eq_nil_iff_get]
    intro r
    by_contra h
    exact hq (.deliver _) (hi.skips hst r (hact r) p hp h)
  have hfin : ∀ p < I.nrParts, (s.comp p).finishing = true := fun p hp => (hi.loc p hp).fin.2 ⟨hsorted p hp, hnil p hp⟩
  have hends : ∀ p < I.nrParts, ∀ f ∈ (s.comp p).ends, f.isSome = true := by
    intro p hp f hf
    obtain ⟨e, he, hfe⟩ := List.mem_iff_getElem.1 hf
    obtain ⟨r, i, cells, h1, h2⟩ := (hi.frag p hp).ends e he
    have h3 : i + 1 < (G.hist r).length := by
      rcases h2 with h2 | h2
      · exact h2
      · rw [hact r] at h2; cases h2
    obtain ⟨_, h4, _⟩ := (hi.frag p hp).piece r i cells e h1 h2
    rw [List.getElem?_eq_getElem he, hfe, List.getElem?_eq_getElem h3] at h4
    injection h4 with h4
    rw [h4]
    rfl
  have hres : ∀ p < I.nrParts, (s.comp p).result.isSome = true := by
    intro p hp
    by_contra h
    exact hq (.complete p) ⟨hp, hfin p hp, by simpa using h, hends p hp⟩
  refine ⟨fun p hp => ⟨hret p hp, hres p hp⟩, fun r => pathOf (G.hist r), ?_, ?_⟩
  · have hF : ∀ p < I.nrParts, (((s.comp p).result).getD []).Ok ∧ ∀ r, AMap.get (((s.comp p).result).getD []) r =
        if FirstN.fragmentsIn p (pathOf (G.hist r)) = [] then none else some (FirstN.fragmentsIn p (pathOf (G.hist r))) := by
      intro p hp
      obtain ⟨F, hF⟩ := Option.isSome_iff_exists.1 (hres p hp)
      obtain ⟨F', h1, h2, h3⟩ := (hi.frag p hp).build (hends p hp)
      have h4 := ((hi.loc p hp).res F hF).1
      rw [h1] at h4
      injection h4 with h4
      subst h4
      rw [hF]
      exact ⟨h2, h3 hact⟩
    refine ⟨hi.starts_ok, fun p hp => (hF p hp).1, ?_, fun p hp => (hF p hp).2, ?_⟩
    · intro r p
      show s.starts.get r = some p ↔ _
      rw [hi.starts r]
      cases G.hist r with
      | nil => simp [pathOf]
      | cons e l => simp [pathOf]
    · intro r e he
      obtain ⟨x, hx, rfl⟩ := List.mem_map.1 he
      refine ⟨hi.parts r x hx, ?_⟩
      intro i hii
      have h1 : (x.1, i) ∈ cellsOf (pathOf (G.hist r)) := by
        unfold cellsOf
        rw [List.mem_flatMap]
        exact ⟨_, he, List.mem_map.2 ⟨i, hii, rfl⟩⟩
      rw [hi.cells r] at h1
      obtain ⟨⟨v, y⟩, hy, hy2⟩ := List.mem_map.1 h1
      simp only at hy2
      subst hy2
      obtain ⟨rest, h2, _⟩ := (hi.loc x.1 (hi.parts r x hx)).perm (hsorted _ (hi.parts r x hx)) r
      have h3 := h2.subset (List.mem_append.2 (Or.inl (inPart_mem.2 hy)))
      exact (List.getElem?_eq_some_iff.1 (mem_cells.1 h3).2).1
  · intro r
    rw [hi.cells r]
    have hp : ∀ v p i, (v, p, i) ∈ G.recd r → p < I.nrParts := by
      intro v p i hm
      have h1 : (p, i) ∈ (G.recd r).map Prod.snd := List.mem_map.2 ⟨_, hm, rfl⟩
      rw [← hi.cells r] at h1
      unfold cellsOf at h1
      rw [List.mem_flatMap] at h1
      obtain ⟨e, he, h2⟩ := h1
      obtain ⟨x, hx, rfl⟩ := List.mem_map.1 he
      obtain ⟨_, _, h3⟩ := List.mem_map.1 h2
      simp only [Prod.mk.injEq] at h3
      rw [← h3.1]
      exact hi.parts r x hx
    have hval : ∀ v p i, (v, p, i) ∈ G.recd r → I.valueAt (p, i) = some v ∧ I.zoneAt (p, i) = some r := by
      intro v p i hm
      obtain ⟨rest, h2, _⟩ := (hi.loc p (hp v p i hm)).perm (hsorted _ (hp v p i hm)) r
      have h3 := mem_cells.1 (h2.subset (List.mem_append.2 (Or.inl (inPart_mem.2 hm))))
      simp [Input.valueAt, Input.zoneAt, hp v p i hm, h3.1, h3.2]
    have hin : ∀ p i, InZone I r (p, i) → p < I.nrParts ∧ ∃ v, (v, i) ∈ I.cells p r := by
      rintro p i ⟨h1, h2⟩
      have hlt : p < I.nrParts := by
        by_contra hlt
        simp [Input.zoneAt, hlt] at h1
      refine ⟨hlt, ?_⟩
      simp only [Input.zoneAt, Input.valueAt, hlt, if_true] at h1 h2
      obtain ⟨v, h2⟩ := Option.isSome_iff_exists.1 h2
      exact ⟨v, mem_cells.2 ⟨Option.join_eq_some_iff.1 h1, Option.join_eq_some_iff.1 h2⟩⟩
    refine ⟨?_, ?_, ?_, ?_, ?_, ?_⟩
    · apply nodup_of_inPart
      intro p
      by_cases hlt : p < I.nrParts
      · obtain ⟨rest, h2, _⟩ := (hi.loc p hlt).perm (hsorted _ hlt) r
        have h3 : ((I.cells p r).map Prod.snd).Nodup := localOf_nodup _ _ _ _
        have h4 := (h2.map Prod.snd).nodup_iff.2 h3
        rw [List.map_append] at h4
        exact (List.nodup_append.1 h4).1
      · have : inPart p (G.recd r) = [] := by
          rw [List.eq_nil_iff_forall_not_mem]
          rintro ⟨v, i⟩ hm
          exact hlt (hp v p i (inPart_mem.1 hm))
        rw [this]
        exact List.nodup_nil
    · rintro ⟨p, i⟩ hc
      obtain ⟨⟨v, y⟩, hy, hy2⟩ := List.mem_map.1 hc
      simp only at hy2
      subst hy2
      obtain ⟨h1, h2⟩ := hval v p i hy
      exact ⟨h2, by rw [h1]; rfl⟩
    · rw [List.pairwise_map]
      refine (hi.desc r).imp_of_mem ?_
      rintro ⟨va, pa, ia⟩ ⟨vb, pb, ib⟩ ha hb hab va' vb' h1 h2
      simp only at h1 h2
      rw [(hval _ _ _ ha).1] at h1
      rw [(hval _ _ _ hb).1] at h2
      injection h1 with h1
      injection h2 with h2
      subst h1 h2
      exact hab
    · rw [List.length_map]
      exact hi.len r
    · rw [List.length_map]
      by_cases hl : (G.recd r).length = n.toNat
      · exact Or.inl hl
      · right
        rintro ⟨p, i⟩ hc
        obtain ⟨hlt, v, hv⟩ := hin p i hc
        obtain ⟨rest, h2, _, _, h4⟩ := (hi.loc p hlt).perm (hsorted _ hlt) r
        have h5 : rest = [] := (h4 hst (hact r)).resolve_left hl
        rw [h5, List.append_nil] at h2
        exact List.mem_map.2 ⟨_, inPart_mem.1 (h2.symm.subset hv), rfl⟩
    · rintro a ha ⟨p, i⟩ hc hnot va vb h1 h2
      obtain ⟨⟨v, y⟩, hy, rfl⟩ := List.mem_map.1 ha
      obtain ⟨hlt, w, hw⟩ := hin p i hc
      obtain ⟨rest, h3, h4, _, _⟩ := (hi.loc p hlt).perm (hsorted _ hlt) r
      rw [(hval v y.1 y.2 hy).1] at h1
      injection h1 with h1
      subst h1
      rcases List.mem_append.1 (h3.symm.subset hw) with h5 | h5
      · exact absurd (List.mem_map.2 ⟨_, inPart_mem.1 h5, rfl⟩) hnot
      · have h6 := h4 _ hy _ h5
        have h7 : I.valueAt (p, i) = some w := by
          simp [Input.valueAt, hlt, (mem_cells.1 hw).2]
        rw [h7] at h2
        injection h2 with h2
        subst h2
        exact h6

/-- The first cells of a decreasing sequence are the ones with the largest values. -/
theorem IsDecreasing.take {r : Int} {cells : List (Nat × Nat)} (h : IsDecreasing I n r cells) {m : Int} (hm : m ≤ n) :
    IsDecreasing I m r (cells.take m.toNat) where
  nodup := h.nodup.sublist (List.take_sublist _ _)
  inZone := fun c hc => h.inZone c (List.mem_of_mem_take hc)
  sorted := h.sorted.sublist (List.take_sublist _ _)
  atMost := List.length_take_le _ _
  all := by
    by_cases hl : m.toNat ≤ cells.length
    · left
      rw [List.length_take, Nat.min_eq_left hl]
    · right
      intro c hc
      rw [List.take_of_length_le (by omega)]
      rcases h.all with h1 | h1
      · omega
      · exact h1 c hc
  largest := by
    intro a ha b hb hnb va vb h1 h2
    by_cases hbc : b ∈ cells
    · have hp := h.sorted
      rw [← List.take_append_drop m.toNat cells, List.pairwise_append] at hp
      rw [← List.take_append_drop m.toNat cells] at hbc
      rcases List.mem_append.1 hbc with h3 | h3
      · exact absurd h3 hnb
      · exact hp.2.2 a ha b h3 va vb h1 h2
    · exact h.largest a (List.mem_of_mem_take ha) b hb hbc va vb h1 h2

/-- `first_n` of the result of `decreasing_order`: as soon as a partition of the result is ready, the cells marked in it are
the ones in a selection of, per zone, the `m` cells with the largest values. The other cells contain no-data. -/
theorem first_n_decreasing_order (hs : Sorts sort) (hlow : ∀ p < I.nrParts, ∀ v, some v ∈ I.value p → lowest ≤ v)
    (h : Reachable I sort lowest n s) (hq : ∀ a, ¬ Enabled I s a) {m : Int} (hm : m ≤ n) :
    ∃ selection : Int → List (Nat × Nat), (∀ r, IsDecreasing I m r (selection r)) ∧
      ∀ t, FirstN.Reachable (toRoute I s) m t → ∀ p < I.nrParts, (t.comp p).finished = true → ∀ i < (I.value p).length,
        ((∃ r, (p, i) ∈ selection r) → (t.comp p).out[i]? = some (some 1)) ∧
        ((∀ r, (p, i) ∉ selection r) → (t.comp p).out[i]? = some none) := by
  obtain ⟨_, path, hw, hd⟩ := decreasing_order_result hs hlow h hq
  refine ⟨fun r => (cellsOf (path r)).take m.toNat, fun r => (hd r).take hm, ?_⟩
  intro t ht p hp hf i hii
  have := (FirstN.first_n_result hw ht hp hf).2 i hii
  refine ⟨fun h1 => this.1 h1, fun h1 => this.2 ?_⟩
  rintro ⟨r, hr⟩
  exact h1 r hr

/-! ### Without zones -/

/-- Without zones, `DecreasingOrderGlobal` (decreasing_order.hpp:718-1060) and its driver (1443-1632) do the same as with a
single zone, which is number 0. Simplification: with no values at all the driver reads the first element of an empty
collection (decreasing_order.hpp:1601), which the model does not do. -/
def Input.global (nrParts : Nat) (value : Nat → List (Option V)) : Input V :=
  { nrParts := nrParts, zone := fun p => (value p).map fun _ => some 0, value := value }

theorem inZone_global {N : Nat} {value : Nat → List (Option V)} {r : Int} {p i : Nat} :
    InZone (Input.global N value) r (p, i) ↔ r = 0 ∧ p < N ∧ ∃ v, (value p)[i]? = some (some v) := by
  unfold InZone Input.zoneAt Input.valueAt Input.global
  by_cases h : p < N
  · simp only [h, if_true, List.getElem?_map, true_and]
    cases hv : (value p)[i]? with
    | none => simp
    | some v => cases v <;> simp [eq_comm]
  · simp [h]

/-- Without zones, the single route visits the `n` cells with the largest values of the whole array. -/
theorem decreasing_order_global {N : Nat} {value : Nat → List (Option V)} (hs : Sorts sort)
    (hlow : ∀ p < N, ∀ v, some v ∈ value p → lowest ≤ v)
    (h : Reachable (Input.global N value) sort lowest n s) (hq : ∀ a, ¬ Enabled (Input.global N value) s a) :
    ∃ path, WellFormed (toRoute (Input.global N value) s) path ∧ (∀ r ≠ 0, cellsOf (path r) = []) ∧
      (cellsOf (path 0)).Nodup ∧ (∀ c ∈ cellsOf (path 0), c.1 < N ∧ ∃ v, (value c.1)[c.2]? = some (some v)) ∧
      (cellsOf (path 0)).Pairwise (fun a b => ∀ va vb, (value a.1)[a.2]? = some (some va) → (value b.1)[b.2]? = some (some vb) → vb ≤ va) ∧
      (cellsOf (path 0)).length ≤ n.toNat ∧
      (∀ p < N, ∀ (i : Nat) (w : V), (value p)[i]? = some (some w) → (p, i) ∉ cellsOf (path 0) →
        (cellsOf (path 0)).length = n.toNat ∧
        ∀ a ∈ cellsOf (path 0), ∀ va, (value a.1)[a.2]? = some (some va) → w ≤ va) := by
  obtain ⟨_, path, hw, hd⟩ := decreasing_order_result hs hlow h hq
  have hv : ∀ (c : Nat × Nat) (v : V), c.1 < N → (value c.1)[c.2]? = some (some v) → (Input.global N value).valueAt c = some v := by
    intro c v hc hv
    simp [Input.valueAt, Input.global, hc, hv]
  have hin : ∀ c ∈ cellsOf (path 0), c.1 < N ∧ ∃ v, (value c.1)[c.2]? = some (some v) := by
    intro c hc
    exact (inZone_global.1 ((hd 0).inZone c hc)).2
  refine ⟨path, hw, ?_, (hd 0).nodup, hin, ?_, (hd 0).atMost, ?_⟩
  · intro r hr
    rw [List.eq_nil_iff_forall_not_mem]
    intro c hc
    exact hr (inZone_global.1 ((hd r).inZone c hc)).1
  · refine (hd 0).sorted.imp_of_mem ?_
    intro a b ha hb hab va vb h1 h2
    exact hab va vb (hv a va (hin a ha).1 h1) (hv b vb (hin b hb).1 h2)
  · intro p hp i w hw hn
    have hz : InZone (Input.global N value) 0 (p, i) := inZone_global.2 ⟨rfl, hp, w, hw⟩
    refine ⟨?_, ?_⟩
    · rcases (hd 0).all with h1 | h1
      · exact h1
      · exact absurd (h1 _ hz) hn
    · intro a ha va h1
      exact (hd 0).largest a ha (p, i) hz hn va w (hv a va (hin a ha).1 h1) (hv (p, i) w hp hw)

/-! ### When `route_partition()` is overtaken -/

/-- When all values of a partition have been recorded before `route_partition()` is called, that call throws. -/
theorem decreasing_order_overtaken {p : Nat} (ht : ¬ Timely s (.route p)) :
    perform I sort lowest n s (.route p) = .error .noState := by
  have : (s.comp p).finishing = true := by
    by_contra h
    exact ht (by simpa [Timely] using h)
  simp [perform, routePartition, this]
  rfl

/-! ### Examples -/

/-- Insertion sort. -/
def insertionSort : SortFn V := fun key l => l.insertionSort fun a b => key b ≤ key a

theorem insertionSort_sorts : Sorts (V := V) (fun {_} => insertionSort) := by
  intro α key l
  refine ⟨List.perm_insertionSort _ _, ?_⟩
  haveI : IsTrans α (fun a b => key b ≤ key a) := ⟨fun a b c h1 h2 => le_trans h2 h1⟩
  haveI : Std.Total (fun a b : α => key b ≤ key a) := ⟨fun a b => le_total _ _⟩
  exact List.pairwise_insertionSort _ _

instance (I : Input V) (s : Sys V) (a : Action V) : Decidable (Enabled I s a) := by
  cases a <;> unfold Enabled <;> infer_instance

instance (s : Sys V) (a : Action V) : Decidable (Timely s a) := by
  cases a <;> unfold Timely <;> infer_instance

/-- Perform actions. -/
def run (I : Input V) (sort : SortFn V) (lowest : V) (n : Int) : List (Action V) → Sys V → Option (Sys V)
  | [], s => some s
  | a :: l, s =>
    if Enabled I s a ∧ Timely s a then
      match perform I sort lowest n s a with
      | .error _ => none
      | .ok s => run I sort lowest n l s
    else none

theorem run_reachable {l : List (Action V)} {s s' : Sys V} (h : Reachable I sort lowest n s) (hr : run I sort lowest n l s = some s') :
    Reachable I sort lowest n s' := by
  induction l generalizing s with
  | nil => injection hr with hr; subst hr; exact h
  | cons a l ih =>
    unfold run at hr
    split at hr
    · rename_i he
      cases hp : perform I sort lowest n s a with
      | error e => rw [hp] at hr; cases hr
      | ok s1 =>
        rw [hp] at hr
        exact ih (h.step he.1 he.2 hp) hr
    · cases hr

/-- Two partitions, two zones: the four cells of zone 7 are ordered (0, 1), (1, 0), (0, 0), (1, 1). Cell 2 of partition 1 has no
value. -/
def exampleInput : Input Int :=
  { nrParts := 2
    zone := fun p => if p = 0 then [some 7, some 7, some 8] else [some 7, some 7, some 7]
    value := fun p => if p = 0 then [some 3, some 9, some 1] else [some 5, some 2, none] }

/-- Everything that happens, with at most 3 cells per zone. -/
def exampleActions : List (Action Int) :=
  [.sort 1, .route 0, .sort 0, .route 1, .start,
    .deliver (.record 0 7 [(9, 0), (5, 1)] 0 none),
    .deliver (.record 0 8 [(1, 0)] 0 none),
    .deliver (.record 1 7 [(5, 1), (3, 0)] 1 (some (0, 0))),
    .deliver (.record 0 7 [(3, 0), (2, 1)] 2 (some (1, 0))),
    .deliver (.skip 1 7), .complete 1, .complete 0]

/-- The result of the example. -/
theorem example_result : (run exampleInput (fun {_} => insertionSort) (-100) 3 exampleActions init).map
    (fun s => (s.starts, (List.range 2).map fun p => (s.comp p).result)) =
    some ([(7, 0), (8, 0)], [some [(7, [⟨[1], some 1⟩, ⟨[0], none⟩]), (8, [⟨[2], none⟩])], some [(7, [⟨[0], some 0⟩])]]) := by
  rfl

/-- The hypotheses of the theorems are met by the example. -/
example : ∀ p < exampleInput.nrParts, ∀ v, some v ∈ exampleInput.value p → -100 ≤ v := by
  intro p hp v hv
  match p, hp with
  | 0, _ => simp [exampleInput] at hv; omega
  | 1, _ => simp [exampleInput] at hv; omega

/-- When `route_partition()` and `sort_values()` are executed in the other order, and a partition has no values, obtaining the
result fails. Nothing in the code prevents this. -/
theorem example_overtaken : ∃ s, Reachable (⟨1, fun _ => [none], fun _ => [some 4]⟩ : Input Int) (fun {_} => insertionSort) (-100) 3 s ∧
    Enabled (⟨1, fun _ => [none], fun _ => [some 4]⟩ : Input Int) s (.route 0) ∧
    perform (⟨1, fun _ => [none], fun _ => [some 4]⟩ : Input Int) (fun {_} => insertionSort) (-100) 3 s (.route 0) = .error .noState := by
  cases h : run (⟨1, fun _ => [none], fun _ => [some 4]⟩ : Input Int) (fun {_} => insertionSort) (-100) 3 [.sort 0] init with
  | none =>
    have : (run (⟨1, fun _ => [none], fun _ => [some 4]⟩ : Input Int) (fun {_} => insertionSort) (-100) 3 [.sort 0] init).isSome = true := by
      decide
    rw [h] at this
    cases this
  | some s =>
    have h2 : (run (⟨1, fun _ => [none], fun _ => [some 4]⟩ : Input Int) (fun {_} => insertionSort) (-100) 3 [.sort 0] init).map
        (fun s => ((s.comp 0).finishing, (s.comp 0).retrieved)) = some (true, false) := by decide
    rw [h] at h2
    simp only [Option.map_some, Option.some.injEq, Prod.mk.injEq] at h2
    refine ⟨s, run_reachable .init h, ⟨by decide, h2.2⟩, ?_⟩
    exact decreasing_order_overtaken (by simp [Timely, h2.1])

/-- The lowest value must not be larger than the values: for floating-point values `std::numeric_limits<Value>::min()` is a
positive number. Here the values 5, 3, 0 are in one partition, and `lowest` is 1: the cell with value 0 is not visited. -/
theorem example_lowest : (run (⟨1, fun _ => [some 7, some 7, some 7], fun _ => [some 5, some 0, some 3]⟩ : Input Int)
      (fun {_} => insertionSort) 1 10
      [.route 0, .sort 0, .start, .deliver (.record 0 7 [(5, 0)] 0 none), .complete 0] init).map
    (fun s => (s.msgs, s.starts, (s.comp 0).result)) =
    some ([], [(7, 0)], some [(7, [⟨[0, 2], none⟩])]) := by
  rfl

end Lue.DecreasingOrder

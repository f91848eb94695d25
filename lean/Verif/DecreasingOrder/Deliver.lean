import Verif.DecreasingOrder.Steps

/-! The invariant is kept when a fragment is recorded. -/
namespace Lue.DecreasingOrder

open Lue.FirstN (Fragment Piece cellsOf)

variable {V : Type} [LinearOrder V] {I : Input V} {sort : SortFn V} {lowest : V} {n : Int} {G : Ghost V} {s : Sys V}

/-- The components, after the location of a fragment is set. -/
theorem setReply_comp {p : Nat} {r : Int} {h : List HPiece} (helse : ∀ c e, h.getLast? ≠ some (p, c, e)) (c' : Comp V) (msgs : List (Msg V)) :
    (setReply { s with comp := Function.update s.comp p c', msgs := msgs } r p (h.getLast?.map fun e => (e.1, e.2.2))).comp p = c' ∧
    ∀ q ≠ p, ∃ E, (setReply { s with comp := Function.update s.comp p c', msgs := msgs } r p (h.getLast?.map fun e => (e.1, e.2.2))).comp q =
        { s.comp q with ends := E } ∧
      (∀ c e, h.getLast? = some (q, c, e) → E = (s.comp q).ends.set e (some p)) ∧
      ((∀ c e, h.getLast? ≠ some (q, c, e)) → E = (s.comp q).ends) := by
  cases hl : h.getLast? with
  | none =>
    simp only [Option.map_none, setReply]
    refine ⟨Function.update_self _ _ _, ?_⟩
    intro q hq
    refine ⟨(s.comp q).ends, by rw [Function.update_of_ne hq], by simp, by simp⟩
  | some x =>
    obtain ⟨x, c0, e0⟩ := x
    have hx : x ≠ p := by
      rintro rfl
      exact helse c0 e0 hl
    simp only [Option.map_some, setReply]
    refine ⟨?_, ?_⟩
    · rw [Function.update_of_ne (Ne.symm hx), Function.update_self]
    · intro q hq
      by_cases h : q = x
      · subst h
        rw [Function.update_self, Function.update_of_ne hq]
        refine ⟨_, rfl, ?_, ?_⟩
        · intro c e h2
          simp only [Option.some.injEq, Prod.mk.injEq] at h2
          rw [h2.2.2]
        · intro h2
          exact absurd rfl (h2 c0 e0)
      · rw [Function.update_of_ne h, Function.update_of_ne hq]
        refine ⟨(s.comp q).ends, rfl, ?_, fun _ => rfl⟩
        intro c e h2
        simp only [Option.some.injEq, Prod.mk.injEq] at h2
        exact absurd h2.1.symm h

/-- A message to record a fragment is delivered. -/
theorem deliver_record (hlow : ∀ p < I.nrParts, ∀ v, some v ∈ I.value p → lowest ≤ v) (hi : Inv I n G s) {p : Nat} {r : Int}
    {M : List (V × Nat)} {cur : Int} {reply : Option (Nat × Nat)} (hm : Msg.record p r M cur reply ∈ s.msgs) :
    ∃ s' G', perform I sort lowest n s (.deliver (.record p r M cur reply)) = .ok s' ∧ Inv I n G' s' ∧
      s'.started = s.started ∧ (∀ q ≠ p, work I q (s'.comp q) = work I q (s.comp q)) ∧ p < I.nrParts ∧
      work I p (s'.comp p) + 1 ≤ work I p (s.comp p) := by
  have hR := hi.record p r M cur reply hm
  have hp := hR.part
  have hact := hR.active
  have hloc := hi.loc p hp
  obtain ⟨v0, Mt, hMeq⟩ := hR.head
  subst hMeq
  obtain ⟨i0, l', hl⟩ := ((hR.mem v0 p).1 (by simp)).2
  have hstarted : s.started = true := by
    cases h : s.started with
    | true => rfl
    | false => rw [(hi.unstarted h).1] at hm; simp at hm
  have hsorted : (s.comp p).sorted = true := by
    cases h : (s.comp p).sorted with
    | true => rfl
    | false => rw [(hloc.unsorted h).1, AMap.get_nil] at hl; cases hl
  have hnf : (s.comp p).finishing = false := by
    cases h : (s.comp p).finishing with
    | false => rfl
    | true => rw [((hloc.fin).1 h).2, AMap.get_nil] at hl; cases hl
  have hres : (s.comp p).result = none := by
    cases h : (s.comp p).result with
    | none => rfl
    | some F =>
      have := (hloc.res F h).2.1
      rw [hnf] at this
      cases this
  -- The values of the route, in each partition
  have hrest : ∀ q < I.nrParts, (inPart q (G.recd r) ++ ((s.comp q).localValues.get r).getD []).Perm (I.cells q r) ∧
      ∀ a ∈ G.recd r, ∀ b ∈ ((s.comp q).localValues.get r).getD [], b.1 ≤ a.1 := by
    intro q hq
    have hsq : (s.comp q).sorted = true := by
      cases h : (s.comp q).sorted with
      | true => rfl
      | false =>
        have := ((hi.loc q hq).unsorted h).2
        rw [hstarted] at this
        cases this
    obtain ⟨rest, h1, h2, h3, _⟩ := (hi.loc q hq).perm hsq r
    rw [← h3 (Or.inr hact)]
    exact ⟨h1, h2⟩
  have hlows : ∀ x ∈ (v0, i0) :: l', lowest ≤ x.1 := by
    intro x hx
    obtain ⟨h1, _⟩ := hrest p hp
    rw [hl] at h1
    have h2 : x ∈ I.cells p r := h1.subset (List.mem_append.2 (Or.inr hx))
    obtain ⟨v, i⟩ := x
    have h3 := (mem_localOf.1 h2).2.2
    exact hlow p hp v (List.mem_of_getElem? h3)
  obtain ⟨k, b, c', msgs, hrec, hd⟩ := record_ok (max := n) (cur := cur) hl hloc.ok hnf hR.sorted hR.nodup hlows
  generalize hlv : (v0, i0) :: l' = l at *
  have hlast := hR.elsewhere
  have hreply := hR.reply
  subst hreply
  obtain ⟨hcp, hcq⟩ := setReply_comp (s := s) (r := r) hlast c'
    (s.msgs.erase (.record p r ((v0, p) :: Mt) cur ((G.hist r).getLast?.map fun e => (e.1, e.2.2))) ++ msgs)
  generalize hs' : (setReply { s with
      comp := Function.update s.comp p c'
      msgs := s.msgs.erase (.record p r ((v0, p) :: Mt) cur ((G.hist r).getLast?.map fun e => (e.1, e.2.2))) ++ msgs }
    r p ((G.hist r).getLast?.map fun e => (e.1, e.2.2))) = s' at hcp hcq
  have hs'started : s'.started = s.started := by rw [← hs']; unfold setReply; split <;> rfl
  have hs'msgs : s'.msgs = s.msgs.erase (.record p r ((v0, p) :: Mt) cur ((G.hist r).getLast?.map fun e => (e.1, e.2.2))) ++ msgs := by
    rw [← hs']; unfold setReply; split <;> rfl
  have hs'starts : s'.starts.Ok ∧ ∀ r', s'.starts.get r' = if r' = r ∧ G.hist r = [] then some p else s.starts.get r' := by
    rw [← hs']
    cases hh : (G.hist r).getLast? with
    | none =>
      have h0 : G.hist r = [] := List.getLast?_eq_none_iff.1 hh
      simp only [Option.map_none, setReply]
      refine ⟨hi.starts_ok.put _ _, ?_⟩
      intro r'
      rw [AMap.get_put, h0]
      by_cases h : r = r'
      · subst h; simp
      · simp [h, Ne.symm h]
    | some x =>
      have h0 : G.hist r ≠ [] := by intro h; rw [h] at hh; simp at hh
      simp only [Option.map_some, setReply]
      refine ⟨hi.starts_ok, ?_⟩
      intro r'
      simp [h0]
  -- Other components keep their values
  have hother : ∀ q ≠ p, (s'.comp q).localValues = (s.comp q).localValues ∧ (s'.comp q).sorted = (s.comp q).sorted ∧
      (s'.comp q).retrieved = (s.comp q).retrieved ∧ (s'.comp q).finishing = (s.comp q).finishing ∧
      (s'.comp q).result = (s.comp q).result := by
    intro q hq
    obtain ⟨E, h1, _⟩ := hcq q hq
    rw [h1]
    exact ⟨rfl, rfl, rfl, rfl, rfl⟩
  have hget' : ∀ q r', r' ≠ r → (s'.comp q).localValues.get r' = (s.comp q).localValues.get r' := by
    intro q r' hr'
    by_cases hq : q = p
    · subst hq
      rw [hcp]
      cases b with
      | true => rw [(hd.continues rfl).2.2.2.2.1, if_neg (Ne.symm hr')]
      | false => rw [(hd.stops rfl).2.2.1, if_neg (Ne.symm hr')]
    · rw [(hother q hq).1]
  have hcur : cur = (G.recd r).length := hR.count
  let new : List (V × Nat × Nat) := (l.take k).map fun x => (x.1, p, x.2)
  have hnewlen : new.length = k := by simp [new, hd.le]
  let G' : Ghost V := {
    hist := Function.update G.hist r (G.hist r ++ [(p, (l.take k).map Prod.snd, (s.comp p).ends.length)])
    recd := Function.update G.recd r (G.recd r ++ new)
    active := Function.update G.active r b
    own := if b then Function.update G.own p (Function.update (G.own p) (s.comp p).ends.length (r, (G.hist r).length)) else G.own }
  have hH : ∀ r', r' ≠ r → G'.hist r' = G.hist r' := fun r' h => Function.update_of_ne h _ _
  have hHr : G'.hist r = G.hist r ++ [(p, (l.take k).map Prod.snd, (s.comp p).ends.length)] := Function.update_self _ _ _
  have hD : ∀ r', r' ≠ r → G'.recd r' = G.recd r' := fun r' h => Function.update_of_ne h _ _
  have hDr : G'.recd r = G.recd r ++ new := Function.update_self _ _ _
  have hA : ∀ r', r' ≠ r → G'.active r' = G.active r' := fun r' h => Function.update_of_ne h _ _
  have hAr : G'.active r = b := Function.update_self _ _ _
  have hnosk : ∀ q, Msg.skip q r ∉ s.msgs := by
    intro q h
    have := (hi.skip q r h).2.1
    rw [hact] at this
    cases this
  -- Values that are left are not larger than the ones recorded
  have hlpw : l.Pairwise fun a b => b.1 ≤ a.1 := (hloc.values r l hl).2
  have hsplit : l = l.take k ++ l.drop k := (List.take_append_drop k l).symm
  have htd : ∀ a ∈ l.take k, ∀ b ∈ l.drop k, b.1 ≤ a.1 := by
    have h := hlpw
    rw [hsplit, List.pairwise_append] at h
    exact h.2.2
  have holdnew : ∀ a ∈ G.recd r, ∀ x ∈ l, x.1 ≤ a.1 := by
    intro a ha x hx
    refine (hrest p hp).2 a ha x ?_
    rw [hl]; exact hx
  have hqle : ∀ q ≠ p, q < I.nrParts → ∀ x ∈ ((s.comp q).localValues.get r).getD [], ∃ m ∈ Mt, x.1 ≤ m.1 := by
    intro q hq hqn x hx
    cases hlq : (s.comp q).localValues.get r with
    | none => rw [hlq] at hx; simp at hx
    | some lq =>
      rw [hlq] at hx
      simp only [Option.getD_some] at hx
      obtain ⟨h1, h2⟩ := (hi.loc q hqn).values r lq hlq
      cases lq with
      | nil => exact absurd rfl h1
      | cons y lq =>
        obtain ⟨vy, iy⟩ := y
        have h3 := (hR.mem vy q).2 ⟨hqn, iy, lq, hlq⟩
        refine ⟨(vy, q), ?_, ?_⟩
        · rcases List.mem_cons.1 h3 with h3 | h3
          · simp only [Prod.mk.injEq] at h3
            exact absurd h3.2 hq
          · exact h3
        · rcases List.mem_cons.1 hx with rfl | hx
          · exact le_refl _
          · exact (List.pairwise_cons.1 h2).1 x hx
  have hqn : ∀ q ≠ p, q < I.nrParts → ∀ a ∈ new, ∀ x ∈ ((s.comp q).localValues.get r).getD [], x.1 ≤ a.1 := by
    intro q hq hqn a ha x hx
    obtain ⟨m, hm1, hm2⟩ := hqle q hq hqn x hx
    obtain ⟨y, hy, rfl⟩ := List.mem_map.1 ha
    exact le_trans hm2 (hd.large y hy m hm1)
  have hknat : ((G.recd r).length + k : Nat) ≤ n.toNat := by
    have h1 := hd.bound
    have h2 := hi.len r
    rcases Nat.eq_zero_or_pos k with h3 | h3 <;> omega
  have hMtempty : Mt = [] → ∀ q ≠ p, q < I.nrParts → (s.comp q).localValues.get r = none := by
    intro h q hq hqn
    cases hlq : (s.comp q).localValues.get r with
    | none => rfl
    | some lq =>
      exfalso
      obtain ⟨h1, _⟩ := (hi.loc q hqn).values r lq hlq
      cases lq with
      | nil => exact h1 rfl
      | cons y lq =>
        have h3 := (hR.mem y.1 q).2 ⟨hqn, y.2, lq, hlq⟩
        rw [h] at h3
        simp only [List.mem_singleton, Prod.mk.injEq] at h3
        exact hq h3.2
  have huniq : ∀ q M' cur' reply', Msg.record q r M' cur' reply' ∈
      s.msgs.erase (.record p r ((v0, p) :: Mt) cur ((G.hist r).getLast?.map fun e => (e.1, e.2.2))) → False := by
    intro q M' cur' reply' h
    obtain ⟨h1, h2⟩ := (hi.nodup.mem_erase_iff).1 h
    have h3 := hi.uniq
    have hperm := (List.perm_cons_erase hm)
    have h4 := (hperm.filterMap recRoute).nodup_iff.1 h3
    rw [List.filterMap_cons] at h4
    simp only [recRoute] at h4
    exact (List.nodup_cons.1 h4).1 (List.mem_filterMap.2 ⟨_, h, rfl⟩)
  refine ⟨s', G', ?_, ?_, hs'started, ?_, hp, ?_⟩
  · simp only [perform]
    rw [hrec, ok_bind]
    simp only
    rw [hs']
  · refine ⟨?_, ?_, ?_, ?_, ?_, ?_, ?_, ?_, hs'starts.1, ?_, ?_, ?_, ?_, ?_, ?_, ?_⟩
    · -- loc
      intro q hq
      by_cases hqp : q = p
      · subst hqp
        rw [hcp, hs'started]
        refine ⟨?_, hd.ok, ?_, ?_, ?_, ?_⟩
        · intro h; rw [hd.sorted, hsorted] at h; cases h
        · rw [hd.fin, hd.sorted]; simp [hsorted]
        · intro F hF; rw [hd.result, hres] at hF; cases hF
        · intro r' lr hlr
          by_cases hr' : r' = r
          · subst hr'
            cases b with
            | true =>
              rw [(hd.continues rfl).2.2.2.2.1, if_pos rfl] at hlr
              split at hlr
              · cases hlr
              · rename_i hne
                injection hlr with hlr
                subst hlr
                exact ⟨hne, hlpw.sublist (List.drop_sublist _ _)⟩
            | false => rw [(hd.stops rfl).2.2.1, if_pos rfl] at hlr; cases hlr
          · have := hget' q r' hr'
            rw [hcp, hlr] at this
            exact hloc.values r' lr this.symm
        · intro _ r'
          by_cases hr' : r' = r
          · subst hr'
            refine ⟨l.drop k, ?_, ?_, ?_, ?_⟩
            · rw [hDr, inPart_append, inPart_self, List.append_assoc, List.take_append_drop]
              have := (hrest q hq).1
              rw [hl] at this
              exact this
            · rw [hDr]
              intro a ha x hx
              rcases List.mem_append.1 ha with ha | ha
              · exact holdnew a ha x (List.mem_of_mem_drop hx)
              · obtain ⟨y, hy, rfl⟩ := List.mem_map.1 ha
                exact htd y hy x hx
            · rw [hAr]
              rintro (h | h)
              · rw [hstarted] at h; cases h
              · subst h
                rw [(hd.continues rfl).2.2.2.2.1, if_pos rfl]
                split
                · rename_i h0; rw [h0]; rfl
                · rfl
            · intro _ hb
              rw [hAr] at hb
              subst hb
              rw [hDr, List.length_append, hnewlen]
              rcases (hd.stops rfl).2.2.2.2.2 with h | ⟨_, h⟩
              · left; omega
              · right; rw [h]; exact List.drop_length
          · obtain ⟨rest, h1, h2, h3, h4⟩ := hloc.perm hsorted r'
            rw [hD r' hr', hA r' hr', ← hcp, hget' q r' hr']
            exact ⟨rest, h1, h2, h3, h4⟩
      · have hlq := hi.loc q hq
        obtain ⟨o1, o2, o3, o4, o5⟩ := hother q hqp
        rw [hs'started]
        refine ⟨?_, ?_, ?_, ?_, ?_, ?_⟩
        · rw [o1, o2]; exact hlq.unsorted
        · rw [o1]; exact hlq.ok
        · rw [o1, o2, o4]; exact hlq.fin
        · intro F hF
          rw [o5] at hF
          obtain ⟨h1, h2, h3⟩ := hlq.res F hF
          obtain ⟨E, e1, e2, e3⟩ := hcq q hqp
          have hE : E = (s.comp q).ends := by
            apply e3
            intro c e h4
            have h5 : (G.hist r)[(G.hist r).length - 1]? = some (q, c, e) := by rw [← List.getLast?_eq_getElem?]; exact h4
            obtain ⟨_, h6, _⟩ := (hi.frag q hq).piece r _ c e h5 (Or.inr hact)
            have hpos : 0 < (G.hist r).length := by
              have := (List.getElem?_eq_some_iff.1 h5).1
              omega
            have h7 : (G.hist r)[(G.hist r).length - 1 + 1]? = none := List.getElem?_eq_none (by omega)
            rw [h7] at h6
            have := h3 _ (List.mem_of_getElem? h6)
            simp at this
          rw [e1, hE]
          exact ⟨h1, h2, h3⟩
        · rw [o1]; exact hlq.values
        · rw [o1, o2]
          intro hsq r'
          obtain ⟨rest, h1, h2, h3, h4⟩ := hlq.perm hsq r'
          by_cases hr' : r' = r
          · subst hr'
            have h5 := h3 (Or.inr hact)
            refine ⟨rest, ?_, ?_, fun _ => h5, ?_⟩
            · rw [hDr, inPart_append, inPart_other (Ne.symm hqp), List.append_nil]
              exact h1
            · rw [hDr]
              intro a ha x hx
              rcases List.mem_append.1 ha with ha | ha
              · exact h2 a ha x hx
              · exact hqn q hqp hq a ha x (by rw [← h5]; exact hx)
            · intro _ hb
              rw [hAr] at hb
              subst hb
              rw [hDr, List.length_append, hnewlen]
              rcases (hd.stops rfl).2.2.2.2.2 with h | ⟨h, _⟩
              · left; omega
              · right
                rw [h5, hMtempty h q hqp hq]
                rfl
          · rw [hD r' hr', hA r' hr']
            exact ⟨rest, h1, h2, h3, h4⟩
    · -- frag
      intro q hq
      by_cases hqp : q = p
      · subst hqp
        rw [hcp, hd.frags]
        refine (hi.frag q hq).append_self hact hlast _ _ _ ?_ ?_
        · intro hb
          subst hb
          obtain ⟨h1, h2, _⟩ := hd.continues rfl
          exact ⟨rfl, h1, h2, by simp [G']⟩
        · intro hb
          subst hb
          obtain ⟨h1, h2, _⟩ := hd.stops rfl
          exact ⟨h1, h2, by simp [G']⟩
      · obtain ⟨E, e1, e2, e3⟩ := hcq q hqp
        rw [e1]
        refine (hi.frag q hq).append_other hact hqp _ _ _ ?_ e2 e3
        cases b with
        | true => simp only [G', if_true]; exact Function.update_of_ne hqp _ _
        | false => simp [G']
    · intro h; rw [hs'started, hstarted] at h; cases h
    · intro h; rw [hs'started, hstarted] at h; cases h
    · -- cells
      intro r'
      by_cases hr' : r' = r
      · subst hr'
        rw [hHr, hDr, pathOf_append, List.map_append]
        have h1 := hi.cells r'
        unfold cellsOf at h1 ⊢
        rw [List.flatMap_append, h1]
        simp [pathOf, new, Function.comp_def]
      · rw [hH r' hr', hD r' hr']
        exact hi.cells r'
    · -- desc
      intro r'
      by_cases hr' : r' = r
      · subst hr'
        rw [hDr, List.pairwise_append]
        refine ⟨hi.desc r', ?_, ?_⟩
        · rw [List.pairwise_map]
          exact hlpw.sublist (List.take_sublist _ _)
        · intro a ha x hx
          obtain ⟨y, hy, rfl⟩ := List.mem_map.1 hx
          exact holdnew a ha y (List.mem_of_mem_take hy)
      · rw [hD r' hr']
        exact hi.desc r'
    · intro r'
      by_cases hr' : r' = r
      · subst hr'
        rw [hDr, List.length_append, hnewlen]
        exact hknat
      · rw [hD r' hr']
        exact hi.len r'
    · intro r' e he
      by_cases hr' : r' = r
      · subst hr'
        rw [hHr] at he
        rcases List.mem_append.1 he with he | he
        · exact hi.parts r' e he
        · rw [List.mem_singleton] at he
          subst he
          exact hp
      · rw [hH r' hr'] at he
        exact hi.parts r' e he
    · intro r'
      rw [hs'starts.2 r', hi.starts r']
      by_cases hr' : r' = r
      · subst hr'
        rw [hHr]
        cases hh : G.hist r' with
        | nil => simp
        | cons x h => simp
      · rw [hH r' hr']
        simp [hr']
    · -- nodup
      rw [hs'msgs, List.nodup_append]
      refine ⟨hi.nodup.erase _, ?_, ?_⟩
      · cases b with
        | true =>
          obtain ⟨_, _, _, _, _, _, vq, q, rest, M', _, _, _, _, h⟩ := hd.continues rfl
          rw [h]; simp
        | false =>
          rw [(hd.stops rfl).2.2.2.2.1]
          have h1 := (List.nodup_cons.1 hR.nodup).2
          have h2 : Mt.map (fun m => (Msg.skip m.2 r : Msg V)) = (Mt.map Prod.snd).map fun q => Msg.skip q r := by simp
          rw [h2]
          exact h1.map fun a b h => by injection h
      · intro a ha x hx hax
        subst hax
        cases b with
        | true =>
          obtain ⟨_, _, _, _, _, _, vq, q, rest, M', _, _, _, _, h⟩ := hd.continues rfl
          rw [h, List.mem_singleton] at hx
          subst hx
          exact huniq _ _ _ _ ha
        | false =>
          rw [(hd.stops rfl).2.2.2.2.1, List.mem_map] at hx
          obtain ⟨m, _, rfl⟩ := hx
          exact hnosk _ (List.mem_of_mem_erase ha)
    · -- uniq
      rw [hs'msgs, List.filterMap_append, List.nodup_append]
      refine ⟨hi.uniq.sublist (List.Sublist.filterMap _ List.erase_sublist), ?_, ?_⟩
      · cases b with
        | true =>
          obtain ⟨_, _, _, _, _, _, vq, q, rest, M', _, _, _, _, h⟩ := hd.continues rfl
          rw [h]; simp [recRoute]
        | false =>
          rw [(hd.stops rfl).2.2.2.2.1, List.filterMap_map]
          have : (recRoute ∘ fun m : V × Nat => (Msg.skip m.2 r : Msg V)) = fun _ => none := rfl
          rw [this]
          simp
      · intro a ha x hx hax
        subst hax
        have : a = r := by
          cases b with
          | true =>
            obtain ⟨_, _, _, _, _, _, vq, q, rest, M', _, _, _, _, h⟩ := hd.continues rfl
            rw [h] at hx
            simpa [recRoute] using hx
          | false =>
            rw [(hd.stops rfl).2.2.2.2.1, List.filterMap_map] at hx
            have h2 : (recRoute ∘ fun m : V × Nat => (Msg.skip m.2 r : Msg V)) = fun _ => none := rfl
            rw [h2] at hx
            simp at hx
        subst this
        obtain ⟨m, hm1, hm2⟩ := List.mem_filterMap.1 ha
        cases m with
        | record q r' M' cur' reply' =>
          simp only [recRoute, Option.some.injEq] at hm2
          subst hm2
          exact huniq _ _ _ _ hm1
        | skip q r' => cases hm2
    · -- record
      intro q r' M' cur' reply' hm'
      rw [hs'msgs] at hm'
      rcases List.mem_append.1 hm' with hm' | hm'
      · have hr' : r' ≠ r := by
          rintro rfl
          exact huniq _ _ _ _ hm'
        have := hi.record q r' M' cur' reply' (List.mem_of_mem_erase hm')
        refine ⟨this.part, ?_, this.head, this.sorted, this.nodup, ?_, ?_, ?_, ?_, ?_⟩
        · rw [hA r' hr']; exact this.active
        · intro v q'
          rw [hget' q' r' hr']
          exact this.mem v q'
        · rw [hD r' hr']; exact this.count
        · rw [hH r' hr']; exact this.more
        · rw [hH r' hr']; exact this.reply
        · rw [hH r' hr']; exact this.elsewhere
      · cases b with
        | false =>
          rw [(hd.stops rfl).2.2.2.2.1, List.mem_map] at hm'
          obtain ⟨m, _, h⟩ := hm'
          cases h
        | true =>
          obtain ⟨_, _, hlt, hk0, hgetr, _, vq, q0, rest, M0, hMt, ⟨rest', hM0⟩, hsort0, hperm0, h⟩ := hd.continues rfl
          rw [h, List.mem_singleton] at hm'
          injection hm' with e1 e2 e3 e4 e5
          subst e1 e2 e3 e4 e5
          have hq0M : (vq, q) ∈ Mt := by rw [hMt]; simp
          have hq0 := (hR.mem vq q).1 (List.mem_cons_of_mem _ hq0M)
          have hqp : q ≠ p := by
            intro h
            exact (List.nodup_cons.1 hR.nodup).1 (List.mem_map.2 ⟨(vq, q), hq0M, h⟩)
          refine ⟨hq0.1, hAr, ⟨vq, rest', hM0⟩, hsort0, ?_, ?_, ?_, Or.inl hlt, ?_, ?_⟩
          · refine ((hperm0.map Prod.snd).nodup_iff).2 ?_
            cases hdr : l.drop k with
            | nil =>
              simp only [List.head?_nil, Option.map_none, Option.toList_none, List.nil_append]
              exact (List.nodup_cons.1 hR.nodup).2
            | cons x ld =>
              simp only [List.head?_cons, Option.map_some, Option.toList_some, List.cons_append, List.nil_append, List.map_cons]
              exact hR.nodup
          · intro v q'
            rw [hperm0.mem_iff, List.mem_append]
            by_cases hq' : q' = p
            · subst hq'
              rw [hcp, hgetr, if_pos rfl]
              have hnotMt : (v, q') ∉ Mt := fun h => (List.nodup_cons.1 hR.nodup).1 (List.mem_map.2 ⟨(v, q'), h, rfl⟩)
              cases hdr : l.drop k with
              | nil => simp [hnotMt]
              | cons x ld =>
                obtain ⟨vx, ix⟩ := x
                simp only [List.head?_cons, Option.map_some, Option.toList_some, List.mem_singleton, Prod.mk.injEq, and_true, hnotMt,
                  or_false, hp, true_and, reduceCtorEq, if_false, Option.some.injEq, List.cons.injEq]
                exact ⟨fun h => ⟨ix, ld, ⟨h.symm, rfl⟩, rfl⟩, fun ⟨_, _, ⟨h, _⟩, _⟩ => h.symm⟩
            · rw [(hother q' hq').1, ← hR.mem v q', List.mem_cons]
              cases hdr : l.drop k with
              | nil => simp [hq']
              | cons x ld => simp [hq']
          · rw [hDr, List.length_append, hnewlen, hcur]
            push_cast
            rfl
          · rw [hHr]; simp
          · rw [hHr]
            intro c e
            simp [Ne.symm hqp]
    · -- skip
      intro q r' hm'
      rw [hs'msgs] at hm'
      rcases List.mem_append.1 hm' with hm' | hm'
      · have hm2 := List.mem_of_mem_erase hm'
        have hr' : r' ≠ r := by
          intro h
          rw [h] at hm2
          exact hnosk _ hm2
        rw [hA r' hr', hget' q r' hr']
        exact hi.skip q r' hm2
      · cases b with
        | true =>
          obtain ⟨_, _, _, _, _, _, vq, q0, rest, M0, _, _, _, _, h⟩ := hd.continues rfl
          rw [h, List.mem_singleton] at hm'
          cases hm'
        | false =>
          rw [(hd.stops rfl).2.2.2.2.1, List.mem_map] at hm'
          obtain ⟨⟨v, q0⟩, h1, h2⟩ := hm'
          injection h2 with e1 e2
          simp only at e1
          subst e1 e2
          obtain ⟨h3, i, lq, h4⟩ := (hR.mem v q0).1 (List.mem_cons_of_mem _ h1)
          have hqp : q0 ≠ p := fun h => (List.nodup_cons.1 hR.nodup).1 (List.mem_map.2 ⟨(v, q0), h1, h⟩)
          refine ⟨h3, hAr, ?_⟩
          rw [(hother q0 hqp).1, h4]
          simp
    · -- token
      intro r' hr'
      rw [hs'msgs]
      by_cases h : r' = r
      · subst h
        rw [hAr] at hr'
        subst hr'
        obtain ⟨_, _, _, _, _, _, vq, q0, rest, M0, _, _, _, _, h⟩ := hd.continues rfl
        exact ⟨q0, M0, _, _, List.mem_append.2 (Or.inr (by rw [h]; exact List.mem_singleton_self _))⟩
      · rw [hA r' h] at hr'
        obtain ⟨q, M', cur', reply', h2⟩ := hi.token r' hr'
        refine ⟨q, M', cur', reply', List.mem_append.2 (Or.inl ((hi.nodup.mem_erase_iff).2 ⟨?_, h2⟩))⟩
        intro h3
        injection h3 with e1 e2
        exact h e2
    · -- skips
      intro _ r' hr' q hq hne
      rw [hs'msgs]
      by_cases h : r' = r
      · subst h
        rw [hAr] at hr'
        subst hr'
        obtain ⟨_, _, hgetr, _, hms, _⟩ := hd.stops rfl
        by_cases hqp : q = p
        · subst hqp
          rw [hcp, hgetr, if_pos rfl] at hne
          exact absurd rfl hne
        · rw [(hother q hqp).1] at hne
          obtain ⟨lq, hlq⟩ := Option.ne_none_iff_exists'.1 hne
          obtain ⟨h1, _⟩ := (hi.loc q hq).values r' lq hlq
          cases lq with
          | nil => exact absurd rfl h1
          | cons y lq =>
            have h3 := (hR.mem y.1 q).2 ⟨hq, y.2, lq, hlq⟩
            rcases List.mem_cons.1 h3 with h3 | h3
            · simp only [Prod.mk.injEq] at h3
              exact absurd h3.2 hqp
            · refine List.mem_append.2 (Or.inr ?_)
              rw [hms]
              exact List.mem_map.2 ⟨_, h3, rfl⟩
      · rw [hA r' h] at hr'
        rw [hget' q r' h] at hne
        exact List.mem_append.2 (Or.inl ((hi.nodup.mem_erase_iff).2 ⟨by simp, hi.skips hstarted r' hr' q hq hne⟩))
  · intro q hq
    obtain ⟨o1, o2, o3, o4, o5⟩ := hother q hq
    unfold work
    rw [o1, o2, o3, o5]
  · rw [hcp]
    unfold work
    rw [hd.retrieved, hd.sorted, hd.result, hsorted]
    simp only [if_true]
    cases b with
    | true =>
      obtain ⟨_, _, _, h1, _, h2, _⟩ := hd.continues rfl
      omega
    | false =>
      have := (hd.stops rfl).2.2.2.1
      omega

end Lue.DecreasingOrder

import Verif.DecreasingOrder.Inv

/-! The invariant is kept by every action. -/
namespace Lue.DecreasingOrder

open Lue.FirstN (Fragment Piece cellsOf)

variable {V : Type} [LinearOrder V] {I : Input V} {sort : SortFn V} {lowest : V} {n : Int} {G : Ghost V} {s : Sys V}

/-- The work of a component. -/
def work (I : Input V) (p : Nat) (c : Comp V) : Nat :=
  (if c.retrieved then 0 else 1) + ((if c.sorted then load c.localValues else 2 * (I.value p).length + 1) +
    (if c.result.isSome then 0 else 1))

theorem inPart_append (p : Nat) (l l' : List (V × Nat × Nat)) : inPart p (l ++ l') = inPart p l ++ inPart p l' := by
  simp [inPart]

theorem inPart_self (p : Nat) (l : List (V × Nat)) : inPart p (l.map fun x => (x.1, p, x.2)) = l := by
  unfold inPart
  rw [List.filter_map, List.map_map]
  have : (fun x : V × Nat => (x.1, x.2)) = id := rfl
  simp [Function.comp_def]

theorem inPart_other {p q : Nat} (h : p ≠ q) (l : List (V × Nat)) : inPart q (l.map fun x => (x.1, p, x.2)) = [] := by
  unfold inPart
  rw [List.filter_map, List.map_map]
  simp [Function.comp_def, h]

theorem init_inv : ∃ G, Inv I n G (init : Sys V) := by
  refine ⟨⟨fun _ => [], fun _ => [], fun _ => false, fun _ _ => (0, 0)⟩, ?_⟩
  refine ⟨?_, ?_, ?_, ?_, ?_, ?_, ?_, ?_, AMap.ok_nil, ?_, ?_, ?_, ?_, ?_, ?_, ?_⟩
  · intro p _
    refine ⟨fun _ => ⟨rfl, rfl⟩, AMap.ok_nil, by simp [init, Comp.new], by simp [init, Comp.new], by simp [init, Comp.new, AMap.get_nil],
      by simp [init, Comp.new]⟩
  · intro p _
    exact FragInv.nil fun _ => rfl
  · intro _; exact ⟨rfl, rfl, fun _ => ⟨rfl, rfl, rfl⟩⟩
  · intro _ p _ h; simp [init, Comp.new] at h
  · intro r; rfl
  · intro r; exact List.Pairwise.nil
  · intro r; simp
  · intro r e he; simp at he
  · intro r; rfl
  · exact List.nodup_nil
  · exact List.nodup_nil
  · intro p r M cur reply h; simp [init] at h
  · intro p r h; simp [init] at h
  · intro r h; simp at h
  · intro h; simp [init] at h

/-- `route_partition()` is called. -/
theorem route_ok (hi : Inv I n G s) {p : Nat} (hp : p < I.nrParts) (hr : (s.comp p).retrieved = false)
    (hf : (s.comp p).finishing = false) : ∃ s', perform I sort lowest n s (.route p) = .ok s' ∧ Inv I n G s' ∧
      s'.started = s.started ∧ (∀ q ≠ p, s'.comp q = s.comp q) ∧ work I p (s'.comp p) + 1 = work I p (s.comp p) := by
  have hc : ∀ q, (Function.update s.comp p { s.comp p with retrieved := true } q).localValues = (s.comp q).localValues ∧
      (Function.update s.comp p { s.comp p with retrieved := true } q).sorted = (s.comp q).sorted := by
    intro q
    by_cases h : q = p
    · subst h; rw [Function.update_self]; exact ⟨rfl, rfl⟩
    · rw [Function.update_of_ne h]; exact ⟨rfl, rfl⟩
  refine ⟨{ s with comp := Function.update s.comp p { s.comp p with retrieved := true } }, ?_, ?_, rfl, ?_, ?_⟩
  · simp [perform, routePartition, hr, hf, ok_bind]
  · refine ⟨?_, ?_, hi.unstarted, ?_, hi.cells, hi.desc, hi.len, hi.parts, hi.starts_ok, hi.starts, hi.nodup, hi.uniq, ?_, ?_,
      hi.token, ?_⟩
    · intro q hq
      by_cases h : q = p
      · subst h
        simp only [Function.update_self]
        have := hi.loc q hq
        exact ⟨this.unsorted, this.ok, this.fin, this.res, this.values, this.perm⟩
      · simp only [Function.update_of_ne h]
        exact hi.loc q hq
    · intro q hq
      by_cases h : q = p
      · subst h
        simp only [Function.update_self]
        exact hi.frag q hq
      · simp only [Function.update_of_ne h]
        exact hi.frag q hq
    · intro h q hq
      simp only [(hc q).1, (hc q).2]
      exact hi.maxima h q hq
    · intro q r M cur reply hm
      have := hi.record q r M cur reply hm
      refine ⟨this.part, this.active, this.head, this.sorted, this.nodup, ?_, this.count, this.more, this.reply, this.elsewhere⟩
      intro v q'
      simp only [(hc q').1]
      exact this.mem v q'
    · intro q r hm
      simp only [(hc q).1]
      exact hi.skip q r hm
    · intro h r hr q hq
      simp only [(hc q).1]
      exact hi.skips h r hr q hq
  · intro q h
    exact Function.update_of_ne h _ _
  · simp [work, hr]
    omega

/-- The continuation in `finish_partition()` runs. -/
theorem complete_ok (hi : Inv I n G s) {p : Nat} (hp : p < I.nrParts) (hf : (s.comp p).finishing = true)
    (hr : (s.comp p).result = none) (he : ∀ f ∈ (s.comp p).ends, f.isSome = true) :
    ∃ s', perform I sort lowest n s (.complete p) = .ok s' ∧ Inv I n G s' ∧
      s'.started = s.started ∧ (∀ q ≠ p, s'.comp q = s.comp q) ∧ work I p (s'.comp p) + 1 = work I p (s.comp p) := by
  obtain ⟨F, hF, _, _⟩ := (hi.frag p hp).build he
  have hc : ∀ q, (Function.update s.comp p { s.comp p with result := some F } q).localValues = (s.comp q).localValues ∧
      (Function.update s.comp p { s.comp p with result := some F } q).sorted = (s.comp q).sorted := by
    intro q
    by_cases h : q = p
    · subst h; rw [Function.update_self]; exact ⟨rfl, rfl⟩
    · rw [Function.update_of_ne h]; exact ⟨rfl, rfl⟩
  refine ⟨{ s with comp := Function.update s.comp p { s.comp p with result := some F } }, ?_, ?_, rfl, ?_, ?_⟩
  · simp [perform, complete, hF, ok_bind]
  · refine ⟨?_, ?_, hi.unstarted, ?_, hi.cells, hi.desc, hi.len, hi.parts, hi.starts_ok, hi.starts, hi.nodup, hi.uniq, ?_, ?_,
      hi.token, ?_⟩
    · intro q hq
      by_cases h : q = p
      · subst h
        simp only [Function.update_self]
        have := hi.loc q hq
        refine ⟨this.unsorted, this.ok, this.fin, ?_, this.values, this.perm⟩
        intro F' hF'
        simp only [Option.some.injEq] at hF'
        subst hF'
        exact ⟨hF, hf, he⟩
      · simp only [Function.update_of_ne h]
        exact hi.loc q hq
    · intro q hq
      by_cases h : q = p
      · subst h
        simp only [Function.update_self]
        exact hi.frag q hq
      · simp only [Function.update_of_ne h]
        exact hi.frag q hq
    · intro h q hq
      simp only [(hc q).1, (hc q).2]
      exact hi.maxima h q hq
    · intro q r M cur reply hm
      have := hi.record q r M cur reply hm
      refine ⟨this.part, this.active, this.head, this.sorted, this.nodup, ?_, this.count, this.more, this.reply, this.elsewhere⟩
      intro v q'
      simp only [(hc q').1]
      exact this.mem v q'
    · intro q r hm
      simp only [(hc q).1]
      exact hi.skip q r hm
    · intro h r hr q hq
      simp only [(hc q).1]
      exact hi.skips h r hr q hq
  · intro q h
    exact Function.update_of_ne h _ _
  · simp [work, hr]
    omega

theorem get_filterMap_head (m : AMap Int (List (V × Nat))) (r : Int) (h : ∀ e ∈ m, e.2 ≠ []) :
    AMap.get (m.filterMap fun e => e.2.head?.map fun x => (e.1, x.1)) r = (m.get r).bind fun l => l.head?.map Prod.fst := by
  induction m with
  | nil => rfl
  | cons e m ih =>
    obtain ⟨z, l⟩ := e
    have ih := ih fun e he => h e (List.mem_cons_of_mem _ he)
    cases l with
    | nil => exact absurd rfl (h (z, []) (by simp))
    | cons x l =>
      simp only [List.filterMap_cons, List.head?_cons, Option.map_some]
      rw [AMap.get_cons, AMap.get_cons, ih]
      split <;> simp

theorem ok_filterMap_head {m : AMap Int (List (V × Nat))} (h : m.Ok) :
    AMap.Ok (m.filterMap fun e => e.2.head?.map fun x => (e.1, x.1)) := by
  unfold AMap.Ok at *
  rw [List.map_filterMap]
  refine List.Nodup.sublist ?_ h
  clear h
  induction m with
  | nil => simp
  | cons e m ih =>
    obtain ⟨z, l⟩ := e
    cases l with
    | nil => simp only [List.filterMap_cons, List.head?_nil, Option.map_none, List.map_cons]; exact ih.cons _
    | cons x l => simp only [List.filterMap_cons, List.head?_cons, Option.map_some, List.map_cons]; exact ih.cons_cons _

/-- `sort_values()` is called. -/
theorem sort_ok (hs : Sorts sort) (hi : Inv I n G s) {p : Nat} (hp : p < I.nrParts) (hr : (s.comp p).sorted = false) :
    ∃ s', perform I sort lowest n s (.sort p) = .ok s' ∧ Inv I n G s' ∧
      s'.started = s.started ∧ (∀ q ≠ p, s'.comp q = s.comp q) ∧ work I p (s'.comp p) + 1 ≤ work I p (s.comp p) := by
  obtain ⟨hlv, hst⟩ := (hi.loc p hp).unsorted hr
  obtain ⟨hm0, hs0, hg⟩ := hi.unstarted hst
  have hnf : (s.comp p).finishing = false := by
    have := (hi.loc p hp).fin
    simpa [hr] using this
  have hres : (s.comp p).result = none := by
    cases h : (s.comp p).result with
    | none => rfl
    | some F =>
      have := ((hi.loc p hp).res F h).2.1
      rw [hnf] at this
      cases this
  let m0 := collect (I.zone p) (I.value p) 0 []
  have hm0ok : m0.Ok := collect_ok _ _ _ AMap.ok_nil
  let m : AMap Int (List (V × Nat)) := m0.map fun e => (e.1, sort Prod.fst e.2)
  have hmok : m.Ok := AMap.ok_map_val hm0ok _
  have hmget : ∀ r, m.get r = if I.cells p r = [] then none else some (sort Prod.fst (I.cells p r)) := by
    intro r
    have h1 : m.get r = (m0.get r).map fun l => sort Prod.fst l := AMap.get_map_val m0 _ r
    rw [h1, collect_get, AMap.get_nil]
    unfold Input.cells
    split
    · rfl
    · simp
  have hmne : ∀ r l, m.get r = some l → l ≠ [] ∧ l.Pairwise (fun a b => b.1 ≤ a.1) ∧ l.Perm (I.cells p r) := by
    intro r l h
    rw [hmget r] at h
    split at h
    · cases h
    · rename_i hne
      injection h with h
      obtain ⟨h1, h2⟩ := hs _ Prod.fst (I.cells p r)
      subst h
      refine ⟨?_, h2, h1⟩
      intro h0
      have h1' : (sort Prod.fst (I.cells p r)).Perm (I.cells p r) := h1
      rw [h0] at h1'
      exact hne h1'.nil_eq.symm
  have hload : load m ≤ 2 * (I.value p).length := by
    have h1 : load m = load m0 := by
      unfold load
      rw [AMap.weight_map_val]
      unfold AMap.weight
      congr 1
      apply List.map_congr_left
      intro e _
      simp only [Function.comp]
      rw [(hs _ Prod.fst e.2).1.length_eq]
    have h2 := collect_load (I.zone p) (I.value p) 0 ([] : AMap Int (List (V × Nat)))
    have h3 : load ([] : AMap Int (List (V × Nat))) = 0 := rfl
    have h4 : load m0 = load (collect (I.zone p) (I.value p) 0 []) := rfl
    omega
  obtain ⟨c', f1, f2, f3, f4, f5, f6, f7, f8, f9⟩ := finish_ok (c := { s.comp p with localValues := m, sorted := true }) hnf
  let M := m.filterMap fun e => e.2.head?.map fun x => (e.1, x.1)
  have hnone : ∀ e ∈ m, e.2 ≠ [] := by
    intro e he
    exact (hmne e.1 e.2 ((AMap.mem_iff_get hmok e.1 e.2).1 he)).1
  refine ⟨{ s with comp := Function.update s.comp p c', maxima := Function.update s.maxima p M }, ?_, ?_, rfl, ?_, ?_⟩
  · simp only [perform, sortValues]
    have f1' : finishIfDone { s.comp p with localValues := (collect (I.zone p) (I.value p) 0 []).map fun e => (e.1, sort Prod.fst e.2), sorted := true } = .ok c' := f1
    rw [f1', ok_bind, ok_bind]
  · refine ⟨?_, ?_, hi.unstarted, ?_, hi.cells, hi.desc, hi.len, hi.parts, hi.starts_ok, hi.starts, hi.nodup, hi.uniq, ?_, ?_,
      hi.token, ?_⟩
    · intro q hq
      by_cases h : q = p
      · subst h
        simp only [Function.update_self]
        refine ⟨?_, ?_, ?_, ?_, ?_, ?_⟩
        · intro h; rw [f7] at h; simp at h
        · rw [f5]; exact hmok
        · rw [f9, f7]; simp
        · intro F hF; rw [f8] at hF; simp [hres] at hF
        · intro r l hl
          rw [f5] at hl
          exact ⟨(hmne r l hl).1, (hmne r l hl).2.1⟩
        · intro _ r
          obtain ⟨g1, g2, g3⟩ := hg r
          refine ⟨(m.get r).getD [], ?_, by simp [g2], ?_, ?_⟩
          · rw [g2]
            simp only [inPart, List.filter_nil, List.map_nil, List.nil_append]
            cases hmr : m.get r with
            | none =>
              rw [hmget r] at hmr
              split at hmr
              · rename_i h0; rw [h0]; exact List.Perm.refl _
              · cases hmr
            | some l => exact (hmne r l hmr).2.2
          · intro _; rw [f5]
          · intro h; rw [hst] at h; cases h
      · simp only [Function.update_of_ne h]
        exact hi.loc q hq
    · intro q hq
      by_cases h : q = p
      · subst h
        simp only [Function.update_self, f2, f3, f4]
        exact hi.frag q hq
      · simp only [Function.update_of_ne h]
        exact hi.frag q hq
    · intro h q hq hsq
      by_cases h : q = p
      · subst h
        simp only [Function.update_self, f5]
        exact ⟨ok_filterMap_head hmok, fun r => get_filterMap_head m r hnone⟩
      · simp only [Function.update_of_ne h] at hsq ⊢
        exact hi.maxima hst q hq hsq
    · intro q r M cur reply hm
      simp only [hm0] at hm
      simp at hm
    · intro q r hm
      simp only [hm0] at hm
      simp at hm
    · intro h
      simp only [hst] at h
      cases h
  · intro q h
    exact Function.update_of_ne h _ _
  · simp only [Function.update_self, work, f6, f7, f8, f5, hres, hr]
    simp
    omega

theorem mem_startMsgs {maxima : Nat → AMap Int V} {N : Nat} (hok : ∀ p < N, (maxima p).Ok) {msg : Msg V} :
    msg ∈ startMsgs sort maxima N ↔ ∃ r v p rest, sort Prod.fst (maximaOf maxima r N) = (v, p) :: rest ∧ maximaOf maxima r N ≠ [] ∧
      msg = .record p r ((v, p) :: rest) 0 none := by
  unfold startMsgs
  simp only [List.mem_filterMap, Option.map_eq_some_iff]
  constructor
  · rintro ⟨⟨r, l⟩, he, ⟨v, p⟩, hh, rfl⟩
    rw [AMap.mem_iff_get (collectMaxima_ok _ _), collectMaxima_get hok] at he
    split at he
    · cases he
    · rename_i hne
      injection he with he
      subst he
      simp only at hh ⊢
      obtain ⟨rest, hrest⟩ : ∃ rest, sort Prod.fst (maximaOf maxima r N) = (v, p) :: rest := by
        cases hl : sort Prod.fst (maximaOf maxima r N) with
        | nil => rw [hl] at hh; simp at hh
        | cons x rest => rw [hl] at hh; simp at hh; exact ⟨rest, by rw [hh]⟩
      exact ⟨r, v, p, rest, hrest, hne, by rw [hrest]⟩
  · rintro ⟨r, v, p, rest, h1, h2, rfl⟩
    refine ⟨(r, maximaOf maxima r N), ?_, (v, p), by simp [h1], by simp [h1]⟩
    rw [AMap.mem_iff_get (collectMaxima_ok _ _), collectMaxima_get hok, if_neg h2]

theorem startMsgs_routes (maxima : Nat → AMap Int V) (N : Nat) : ((startMsgs sort maxima N).filterMap recRoute).Nodup := by
  have h := collectMaxima_ok maxima N
  unfold AMap.Ok at h
  unfold startMsgs
  refine List.Nodup.sublist ?_ h
  clear h
  generalize collectMaxima maxima N = m
  induction m with
  | nil => simp
  | cons e m ih =>
    simp only [List.filterMap_cons, List.map_cons]
    cases (sort Prod.fst e.2).head? with
    | none => exact ih.cons _
    | some x =>
      simp only [Option.map_some, List.filterMap_cons, recRoute]
      exact ih.cons_cons _

theorem nodup_of_routes {l : List (Msg V)} (h : (l.filterMap recRoute).Nodup) (hr : ∀ m ∈ l, (recRoute m).isSome) : l.Nodup := by
  induction l with
  | nil => exact List.nodup_nil
  | cons m l ih =>
    have h1 := hr m (by simp)
    obtain ⟨r, hr1⟩ := Option.isSome_iff_exists.1 h1
    rw [List.filterMap_cons, hr1] at h
    obtain ⟨h2, h3⟩ := List.nodup_cons.1 h
    refine List.nodup_cons.2 ⟨fun hm => h2 (List.mem_filterMap.2 ⟨m, hm, hr1⟩), ih h3 fun m' hm' => hr m' (List.mem_cons_of_mem _ hm')⟩

/-- Recording starts. -/
theorem start_ok (hs : Sorts sort) (hi : Inv I n G s) (hst : s.started = false) (hall : ∀ p < I.nrParts, (s.comp p).sorted = true) :
    ∃ s' G', perform I sort lowest n s .start = .ok s' ∧ Inv I n G' s' ∧ s'.started = true ∧ s'.comp = s.comp := by
  obtain ⟨hm0, hs0, hg⟩ := hi.unstarted hst
  have hok : ∀ p < I.nrParts, (s.maxima p).Ok := fun p hp => (hi.maxima hst p hp (hall p hp)).1
  have hmem : ∀ r v q, (v, q) ∈ maximaOf s.maxima r I.nrParts ↔ q < I.nrParts ∧ ∃ i l, (s.comp q).localValues.get r = some ((v, i) :: l) := by
    intro r v q
    rw [mem_maximaOf]
    refine and_congr_right fun hq => ?_
    rw [(hi.maxima hst q hq (hall q hq)).2 r]
    cases hl : (s.comp q).localValues.get r with
    | none => simp
    | some l =>
      cases l with
      | nil => simp
      | cons x l =>
        obtain ⟨v', i⟩ := x
        simp
  have hempty : ∀ r, maximaOf s.maxima r I.nrParts = [] → ∀ q < I.nrParts, (s.comp q).localValues.get r = none := by
    intro r h q hq
    cases hl : (s.comp q).localValues.get r with
    | none => rfl
    | some l =>
      cases l with
      | nil => exact absurd rfl ((hi.loc q hq).values r [] hl).1
      | cons x l =>
        have := (hmem r x.1 q).2 ⟨hq, x.2, l, hl⟩
        rw [h] at this
        simp at this
  let active : Int → Bool := fun r => !(maximaOf s.maxima r I.nrParts).isEmpty
  have hact : ∀ r, active r = true ↔ maximaOf s.maxima r I.nrParts ≠ [] := by
    intro r; simp [active]
  have hactf : ∀ r, active r = false ↔ maximaOf s.maxima r I.nrParts = [] := by
    intro r; simp [active]
  refine ⟨{ s with started := true, msgs := s.msgs ++ startMsgs sort s.maxima I.nrParts }, { G with active := active }, rfl, ?_, rfl, rfl⟩
  have hroutes := startMsgs_routes (sort := sort) s.maxima I.nrParts
  refine ⟨?_, ?_, ?_, ?_, hi.cells, hi.desc, hi.len, hi.parts, hi.starts_ok, hi.starts, ?_, ?_, ?_, ?_, ?_, ?_⟩
  · intro p hp
    have := hi.loc p hp
    refine ⟨?_, this.ok, this.fin, this.res, this.values, ?_⟩
    · intro h; rw [hall p hp] at h; cases h
    · intro h r
      obtain ⟨rest, h1, h2, h3, h4⟩ := this.perm h r
      refine ⟨rest, h1, h2, fun _ => h3 (Or.inl hst), ?_⟩
      intro _ h5
      right
      rw [h3 (Or.inl hst), hempty r ((hactf r).1 h5) p hp]
      rfl
  · intro p hp
    exact (hi.frag p hp).activate (fun r => (hg r).1) _
  · intro h; simp at h
  · intro h; simp at h
  · simp only [hm0, List.nil_append]
    refine nodup_of_routes hroutes ?_
    intro m hm
    obtain ⟨r, v, p, rest, _, _, rfl⟩ := (mem_startMsgs hok).1 hm
    rfl
  · simp only [hm0, List.nil_append]
    exact hroutes
  · intro p r M cur reply hm
    simp only [hm0, List.nil_append] at hm
    obtain ⟨r', v, p', rest, h1, h2, h3⟩ := (mem_startMsgs hok).1 hm
    injection h3 with e1 e2 e3 e4 e5
    subst e1 e2 e3 e4 e5
    obtain ⟨s1, s2⟩ := hs _ Prod.fst (maximaOf s.maxima r I.nrParts)
    have s1 : (sort Prod.fst (maximaOf s.maxima r I.nrParts)).Perm (maximaOf s.maxima r I.nrParts) := s1
    have s2 : (sort Prod.fst (maximaOf s.maxima r I.nrParts)).Pairwise fun a b => b.1 ≤ a.1 := s2
    rw [h1] at s1 s2
    obtain ⟨g1, g2, g3⟩ := hg r
    have hpm : ∀ v' q, (v', q) ∈ (v, p) :: rest ↔ q < I.nrParts ∧ ∃ i l, (s.comp q).localValues.get r = some ((v', i) :: l) := by
      intro v' q
      rw [s1.mem_iff, hmem]
    refine ⟨((hpm v p).1 (by simp)).1, (hact r).2 h2, ⟨v, rest, rfl⟩, s2, ?_, hpm, by simp [g2], Or.inr g1, by simp [g1], by simp [g1]⟩
    exact (s1.map Prod.snd).nodup_iff.2 (maximaOf_nodup _ _ _)
  · intro p r hm
    simp only [hm0, List.nil_append] at hm
    obtain ⟨r', v, p', rest, h1, h2, h3⟩ := (mem_startMsgs hok).1 hm
    cases h3
  · intro r hr
    have h2 := (hact r).1 hr
    obtain ⟨s1, s2⟩ := hs _ Prod.fst (maximaOf s.maxima r I.nrParts)
    have s1 : (sort Prod.fst (maximaOf s.maxima r I.nrParts)).Perm (maximaOf s.maxima r I.nrParts) := s1
    cases hl : sort Prod.fst (maximaOf s.maxima r I.nrParts) with
    | nil => rw [hl] at s1; exact absurd s1.nil_eq.symm h2
    | cons x rest =>
      obtain ⟨v, p⟩ := x
      refine ⟨p, (v, p) :: rest, 0, none, ?_⟩
      simp only [hm0, List.nil_append]
      exact (mem_startMsgs hok).2 ⟨r, v, p, rest, hl, h2, rfl⟩
  · intro _ r hr q hq hne
    exact absurd (hempty r ((hactf r).1 hr) q hq) hne

/-- A message to skip the remaining values is delivered. -/
theorem deliver_skip (hi : Inv I n G s) {p : Nat} {r : Int} (hm : Msg.skip p r ∈ s.msgs) :
    ∃ s', perform I sort lowest n s (.deliver (.skip p r)) = .ok s' ∧ Inv I n G s' ∧
      s'.started = s.started ∧ (∀ q ≠ p, s'.comp q = s.comp q) ∧ work I p (s'.comp p) + 1 ≤ work I p (s.comp p) := by
  obtain ⟨hp, hact, hne⟩ := hi.skip p r hm
  obtain ⟨l, hl⟩ := Option.ne_none_iff_exists'.1 hne
  have hloc := hi.loc p hp
  have hsorted : (s.comp p).sorted = true := by
    cases h : (s.comp p).sorted with
    | true => rfl
    | false => rw [(hloc.unsorted h).1, AMap.get_nil] at hl; cases hl
  have hnf : (s.comp p).finishing = false := by
    cases h : (s.comp p).finishing with
    | false => rfl
    | true => rw [((hloc.fin).1 h).2, AMap.get_nil] at hl; cases hl
  have hstarted : s.started = true := by
    cases h : s.started with
    | true => rfl
    | false => rw [(hi.unstarted h).1] at hm; simp at hm
  obtain ⟨c', f1, f2, f3, f4, f5, f6, f7, f8, f9⟩ := finish_ok (c := { s.comp p with localValues := (s.comp p).localValues.erase r }) hnf
  have hres : (s.comp p).result = none := by
    cases h : (s.comp p).result with
    | none => rfl
    | some F =>
      have := (hloc.res F h).2.1
      rw [hnf] at this
      cases this
  have hget : ∀ q r', (Function.update s.comp p c' q).localValues.get r' =
      if q = p ∧ r = r' then none else (s.comp q).localValues.get r' := by
    intro q r'
    by_cases h : q = p
    · subst h
      rw [Function.update_self, f5]
      simp only [true_and]
      rw [AMap.get_erase]
    · rw [Function.update_of_ne h]
      simp [h]
  have hload : load ((s.comp p).localValues.erase r) + (l.length + 1) = load (s.comp p).localValues := AMap.weight_erase _ hloc.ok hl
  refine ⟨{ s with comp := Function.update s.comp p c', msgs := s.msgs.erase (.skip p r) }, ?_, ?_, rfl, ?_, ?_⟩
  · simp only [perform, skipRecording]
    rw [need_some hl, ok_bind, f1, ok_bind]
  · refine ⟨?_, ?_, ?_, ?_, hi.cells, hi.desc, hi.len, hi.parts, hi.starts_ok, hi.starts, hi.nodup.erase _, ?_, ?_, ?_, ?_, ?_⟩
    · intro q hq
      by_cases h : q = p
      · subst h
        simp only [Function.update_self]
        refine ⟨?_, ?_, ?_, ?_, ?_, ?_⟩
        · intro h; rw [f7] at h; simp only [hsorted] at h; cases h
        · rw [f5]; exact hloc.ok.erase _
        · rw [f9, f7]; simp [hsorted]
        · intro F hF; rw [f8] at hF; simp [hres] at hF
        · intro r' l' hl'
          rw [f5] at hl'
          simp only [AMap.get_erase] at hl'
          split at hl'
          · cases hl'
          · exact hloc.values r' l' hl'
        · intro _ r'
          obtain ⟨rest, h1, h2, h3, h4⟩ := hloc.perm hsorted r'
          refine ⟨rest, h1, h2, ?_, h4⟩
          intro h5
          rw [h3 h5, f5]
          simp only [AMap.get_erase]
          have : r ≠ r' := by
            rintro rfl
            rw [hact, hstarted] at h5
            simp at h5
          rw [if_neg this]
      · simp only [Function.update_of_ne h]
        exact hi.loc q hq
    · intro q hq
      by_cases h : q = p
      · subst h
        simp only [Function.update_self, f2, f3, f4]
        exact hi.frag q hq
      · simp only [Function.update_of_ne h]
        exact hi.frag q hq
    · intro h; simp only [hstarted] at h; cases h
    · intro h; simp only [hstarted] at h; cases h
    · exact hi.uniq.sublist (List.Sublist.filterMap _ List.erase_sublist)
    · intro q r' M cur reply hm'
      have := hi.record q r' M cur reply (List.mem_of_mem_erase hm')
      refine ⟨this.part, this.active, this.head, this.sorted, this.nodup, ?_, this.count, this.more, this.reply, this.elsewhere⟩
      intro v q'
      have hrr : r ≠ r' := by
        rintro rfl
        rw [this.active] at hact
        cases hact
      simp only [hget q' r', hrr, and_false, if_false]
      exact this.mem v q'
    · intro q r' hm'
      have hm' := (hi.nodup.mem_erase_iff).1 hm'
      obtain ⟨h1, h2, h3⟩ := hi.skip q r' hm'.2
      refine ⟨h1, h2, ?_⟩
      simp only [hget q r']
      rw [if_neg]
      · exact h3
      · rintro ⟨rfl, rfl⟩
        exact hm'.1 rfl
    · intro r' hr'
      obtain ⟨q, M, cur, reply, h⟩ := hi.token r' hr'
      exact ⟨q, M, cur, reply, (hi.nodup.mem_erase_iff).2 ⟨by simp, h⟩⟩
    · intro _ r' hr' q hq hne'
      simp only [hget q r'] at hne'
      split at hne'
      · exact absurd rfl hne'
      · rename_i h
        refine (hi.nodup.mem_erase_iff).2 ⟨?_, hi.skips hstarted r' hr' q hq hne'⟩
        intro h2
        injection h2 with e1 e2
        exact h ⟨e1, e2.symm⟩
  · intro q h
    exact Function.update_of_ne h _ _
  · simp only [Function.update_self, work, f6, f7, f8, f5, hres, hsorted]
    simp only [if_true]
    omega

end Lue.DecreasingOrder

import Verif.Clump.Border

/-!
C24: merging collections, and updating the lookup tables.
-/
namespace Lue.Clump

variable {Z : Type} {gids : Key → Nat → Prop} {same : Nat → Nat → Prop}

/-- Where collection `i` went -/
def target (updates : AMap Nat Nat) (i : Nat) : Nat := (updates.get i).getD i

/-- The state of the pass over the collections. -/
structure UInv (same : Nat → Nat → Prop) (sets0 : List (List Nat)) (idx1 : Nat) (s : List (List Nat) × AMap Nat Nat) : Prop where
  len : s.1.length = sets0.length
  sorted : ∀ t ∈ s.1, Sorted t
  rel : ∀ t ∈ s.1, ∀ a ∈ t, ∀ b ∈ t, same a b
  updated : ∀ i k, s.2.get i = some k → k ≤ idx1 ∧ s.1[i]? = some []
  into : ∀ (i : Nat) (t : List Nat), sets0[i]? = some t → ∃ t' : List Nat, s.1[target s.2 i]? = some t' ∧ ∀ a ∈ t, a ∈ t'

theorem unionStep_ok (hrel : Related gids same) {sets0 : List (List Nat)} {idx1 idx2 : Nat} (h12 : idx1 < idx2)
    (h2 : idx2 < sets0.length) {s : List (List Nat) × AMap Nat Nat} (h : UInv same sets0 idx1 s) :
    ∃ s', unionStep idx1 idx2 s = .ok s' ∧ UInv same sets0 idx1 s' := by
  have l1 : idx1 < s.1.length := by rw [h.len]; omega
  have l2 : idx2 < s.1.length := by rw [h.len]; omega
  have e1 := List.getElem?_eq_getElem l1
  have e2 := List.getElem?_eq_getElem l2
  have so1 := h.sorted _ (List.getElem_mem l1)
  have so2 := h.sorted _ (List.getElem_mem l2)
  unfold unionStep
  rw [rd_ok e1, M.bind_ok, rd_ok e2, M.bind_ok]
  by_cases hs : shareElement s.1[idx1] s.1[idx2] = true
  · obtain ⟨x, x1, x2⟩ := (shareElement_iff so1 so2).1 hs
    rw [if_pos hs, wr_ok _ l1, M.bind_ok, wr_ok _ (by rw [List.length_set]; exact l2), M.bind_ok]
    have hget : ∀ j, ((s.1.set idx1 (setUnion s.1[idx1] s.1[idx2])).set idx2 [])[j]? =
        if j = idx2 then some [] else if j = idx1 then some (setUnion s.1[idx1] s.1[idx2]) else s.1[j]? := by
      intro j
      by_cases j2 : j = idx2
      · rw [j2, List.getElem?_set_self (by rw [List.length_set]; exact l2), if_pos rfl]
      · rw [List.getElem?_set_ne (Ne.symm j2), if_neg j2]
        by_cases j1 : j = idx1
        · rw [j1, List.getElem?_set_self l1, if_pos rfl]
        · rw [List.getElem?_set_ne (Ne.symm j1), if_neg j1]
    have hmem : ∀ t ∈ (s.1.set idx1 (setUnion s.1[idx1] s.1[idx2])).set idx2 [], t ∈ s.1 ∨ t = setUnion s.1[idx1] s.1[idx2] ∨ t = [] := by
      intro t ht
      rcases List.mem_or_eq_of_mem_set ht with ht | ht
      · rcases List.mem_or_eq_of_mem_set ht with ht | ht
        · exact .inl ht
        · exact .inr (.inl ht)
      · exact .inr (.inr ht)
    have hnone : s.2.get idx2 = none := by
      cases hg : s.2.get idx2 with
      | none => rfl
      | some k =>
        have := (h.updated idx2 k hg).2
        rw [e2] at this
        rw [Option.some.inj this] at x2
        simp at x2
    refine ⟨_, rfl, by simp [h.len], ?_, ?_, ?_, ?_⟩
    · intro t ht
      rcases hmem t ht with ht | rfl | rfl
      · exact h.sorted t ht
      · exact sorted_setUnion so1
      · exact sorted_nil
    · intro t ht a ha b hb
      rcases hmem t ht with ht | rfl | rfl
      · exact h.rel t ht a ha b hb
      · have hx : ∀ a ∈ setUnion s.1[idx1] s.1[idx2], same a x := fun a ha => by
          rcases mem_setUnion.1 ha with ha | ha
          · exact h.rel _ (List.getElem_mem l1) a ha x x1
          · exact h.rel _ (List.getElem_mem l2) a ha x x2
        exact hrel.trans a x b (hx a ha) (hrel.symm b x (hx b hb))
      · simp at ha
    · intro i k hik
      simp only [AMap.get_put] at hik
      simp only [hget]
      by_cases hi : idx2 = i
      · rw [if_pos hi] at hik
        cases hik
        exact ⟨Nat.le_refl _, if_pos hi.symm⟩
      · rw [if_neg hi] at hik
        obtain ⟨u1, u2⟩ := h.updated i k hik
        refine ⟨u1, ?_⟩
        rw [if_neg (Ne.symm hi)]
        by_cases hi1 : i = idx1
        · rw [hi1, e1] at u2
          rw [Option.some.inj u2] at x1
          simp at x1
        · rw [if_neg hi1]; exact u2
    · intro i t ht
      obtain ⟨t', f1, f2⟩ := h.into i t ht
      simp only [target, AMap.get_put, hget]
      by_cases hi : idx2 = i
      · simp only [if_pos hi, Option.getD_some]
        rw [if_neg (by omega), if_pos trivial]
        refine ⟨_, rfl, fun a ha => ?_⟩
        simp only [target, ← hi, hnone, Option.getD_none] at f1
        rw [e2] at f1; cases f1
        exact mem_setUnion.2 (.inr (f2 a ha))
      · simp only [if_neg hi]
        have hne : (s.2.get i).getD i ≠ idx2 := by
          cases hg : s.2.get i with
          | none => exact Ne.symm hi
          | some k => have := (h.updated i k hg).1; simp only [Option.getD_some]; omega
        rw [if_neg hne]
        by_cases h1 : (s.2.get i).getD i = idx1
        · rw [if_pos h1]
          refine ⟨_, rfl, fun a ha => ?_⟩
          simp only [target, h1] at f1
          rw [e1] at f1; cases f1
          exact mem_setUnion.2 (.inl (f2 a ha))
        · rw [if_neg h1]; exact ⟨t', f1, f2⟩
  · rw [if_neg hs]; exact ⟨s, rfl, h⟩

theorem foldlM_inv {α σ : Type} (inv : σ → Prop) {f : σ → α → M σ} : ∀ (l : List α) (s : σ), inv s →
    (∀ a ∈ l, ∀ s, inv s → ∃ s', f s a = .ok s' ∧ inv s') → ∃ s', l.foldlM f s = .ok s' ∧ inv s'
  | [], s, h, _ => ⟨s, rfl, h⟩
  | a :: l, s, h, hf => by
    obtain ⟨s1, e1, e2⟩ := hf a (by simp) s h
    obtain ⟨s2, e3, e4⟩ := foldlM_inv inv l s1 e2 (fun b hb => hf b (by simp [hb]))
    exact ⟨s2, by rw [List.foldlM_cons, e1, M.bind_ok, e3], e4⟩

theorem unionPass_ok (hrel : Related gids same) {m : Merges} (h : MInv gids same m) :
    ∃ s, unionPass m.sets = .ok s ∧ UInv same m.sets m.sets.length s := by
  apply forLoop_inv (fun i => UInv same m.sets i)
  · intro i hi s hs
    obtain ⟨s', e1, e2⟩ := foldlM_inv (UInv same m.sets i) (f := fun s idx2 => unionStep i idx2 s)
      (List.range' (i + 1) (m.sets.length - (i + 1))) s hs (fun idx2 hmem s hs => by
        rw [List.mem_range'_1] at hmem
        exact unionStep_ok hrel (by omega) (by omega) hs)
    refine ⟨s', e1, e2.len, e2.sorted, e2.rel, fun j k hjk => ?_, e2.into⟩
    have := e2.updated j k hjk
    exact ⟨by omega, this.2⟩
  · exact ⟨rfl, h.sorted, h.rel, fun i k hik => by (simp only [AMap.get_nil] at hik; cases hik),
      fun i t ht => ⟨t, ht, fun _ h => h⟩⟩

theorem get_updateKeys (keys : AMap Key Nat) (updates : AMap Nat Nat) (k : Key) :
    (updateKeys keys updates).get k = (keys.get k).map (target updates) := by
  induction keys with
  | nil => rfl
  | cons e keys ih =>
    obtain ⟨k', i⟩ := e
    have : updateKeys ((k', i) :: keys) updates = (k', target updates i) :: updateKeys keys updates := by
      unfold updateKeys target
      rw [List.map_cons]
      cases updates.get i <;> rfl
    rw [this, AMap.get_cons, AMap.get_cons, ih]
    split <;> rfl

theorem ok_updateKeys {keys : AMap Key Nat} (h : keys.Ok) (updates : AMap Nat Nat) : (updateKeys keys updates).Ok := by
  unfold AMap.Ok updateKeys at *
  rw [List.map_map]
  exact h

/-- The global id of a local clump, according to the lookup tables -/
def Gid (n1 : Nat) (results : List (Local Z)) (k : Key) (g : Nat) : Prop :=
  k.2.1 < n1 ∧ ∃ p : Local Z, results[k.1 * n1 + k.2.1]? = some p ∧ p.lut.get k.2.2 = some g

/-- Only the lookup tables have changed. -/
structure SameCells (results results' : List (Local Z)) : Prop where
  len : results'.length = results.length
  cells : ∀ (i : Nat) (p : Local Z), results[i]? = some p → ∃ p' : Local Z, results'[i]? = some p' ∧
    p'.nr = p.nr ∧ p'.nc = p.nc ∧ p'.zones = p.zones ∧ p'.clumps = p.clumps

theorem SameCells.refl (results : List (Local Z)) : SameCells results results :=
  ⟨rfl, fun _ p h => ⟨p, h, rfl, rfl, rfl, rfl⟩⟩

theorem SameCells.trans {r1 r2 r3 : List (Local Z)} (h : SameCells r1 r2) (h' : SameCells r2 r3) : SameCells r1 r3 :=
  ⟨h'.len.trans h.len, fun i p hp => by
    obtain ⟨p2, e1, e2, e3, e4, e5⟩ := h.cells i p hp
    obtain ⟨p3, f1, f2, f3, f4, f5⟩ := h'.cells i p2 e1
    exact ⟨p3, f1, by rw [f2, e2], by rw [f3, e3], by rw [f4, e4], by rw [f5, e5]⟩⟩

theorem key_eq {n1 : Nat} {k k' : Key} (h : k.2.1 < n1) (h' : k'.2.1 < n1) (he : k.1 * n1 + k.2.1 = k'.1 * n1 + k'.2.1) :
    k.1 = k'.1 ∧ k.2.1 = k'.2.1 := by
  have e1 := congrArg (· / n1) he
  have e2 := congrArg (· % n1) he
  simp only [idx_div h, idx_div h', idx_mod h, idx_mod h'] at e1 e2
  exact ⟨e1, e2⟩

theorem updateGlobal_ok {n1 : Nat} {results : List (Local Z)} {k : Key} {g0 g : Nat} (h : Gid n1 results k g0) :
    ∃ results', updateGlobal results n1 k g = .ok results' ∧ SameCells results results' ∧ Gid n1 results' k g ∧
      ∀ k' g', k' ≠ k → (Gid n1 results' k' g' ↔ Gid n1 results k' g') := by
  obtain ⟨hc, p, hp, hl⟩ := h
  have hlt := (List.getElem?_eq_some_iff.1 hp).1
  have hget : ∀ j, (results.set (k.1 * n1 + k.2.1) { p with lut := p.lut.put k.2.2 g })[j]? =
      if j = k.1 * n1 + k.2.1 then some { p with lut := p.lut.put k.2.2 g } else results[j]? := by
    intro j
    by_cases hj : j = k.1 * n1 + k.2.1
    · rw [hj, List.getElem?_set_self hlt, if_pos rfl]
    · rw [List.getElem?_set_ne (Ne.symm hj), if_neg hj]
  refine ⟨results.set (k.1 * n1 + k.2.1) { p with lut := p.lut.put k.2.2 g }, ?_, ⟨by simp, ?_⟩, ?_, ?_⟩
  · simp only [updateGlobal, get, if_pos hc, rd_ok hp, M.bind_ok, hl, set, wr_ok _ hlt]
  · intro i q hq
    by_cases hi : i = k.1 * n1 + k.2.1
    · rw [hi, hp] at hq; cases hq
      exact ⟨{ p with lut := p.lut.put k.2.2 g }, by rw [hget, if_pos hi], rfl, rfl, rfl, rfl⟩
    · exact ⟨q, by rw [hget, if_neg hi, hq], rfl, rfl, rfl, rfl⟩
  · exact ⟨hc, _, by rw [hget, if_pos rfl], by simp [AMap.get_put]⟩
  · intro k' g' hne
    unfold Gid
    by_cases hj : k'.1 * n1 + k'.2.1 = k.1 * n1 + k.2.1
    · rw [hget, if_pos hj]
      refine and_congr_right fun hc' => ?_
      obtain ⟨h1, h2⟩ := key_eq hc' hc hj
      have h3 : k.2.2 ≠ k'.2.2 := fun he => hne (Prod.ext h1 (Prod.ext h2 he.symm))
      constructor
      · rintro ⟨q, e1, e2⟩
        cases e1
        simp only [AMap.get_put, if_neg h3] at e2
        exact ⟨p, by rw [hj, hp], e2⟩
      · rintro ⟨q, e1, e2⟩
        rw [hj, hp] at e1; cases e1
        exact ⟨_, rfl, by simp only [AMap.get_put, if_neg h3]; exact e2⟩
    · rw [hget, if_neg hj]

theorem updateResults_ok {n1 : Nat} {sets : List (List Nat)} : ∀ (keys : AMap Key Nat) (results : List (Local Z)), keys.Ok →
    (∀ k i, keys.get k = some i → ∃ (s : List Nat) (g : Nat), sets[i]? = some s ∧ s ≠ [] ∧ Gid n1 results k g) →
    ∃ results', updateResults n1 sets keys results = .ok results' ∧ SameCells results results' ∧
      ∀ k g, Gid n1 results' k g ↔ match keys.get k with
        | some i => ∃ s : List Nat, sets[i]? = some s ∧ s.head? = some g
        | none => Gid n1 results k g
  | [], results, _, _ => ⟨results, rfl, SameCells.refl _, fun k g => by rw [AMap.get_nil]⟩
  | (key, idx) :: keys, results, hok, h => by
    obtain ⟨hk1, hk2⟩ := List.nodup_cons.1 hok
    obtain ⟨s, g0, e1, e2, e3⟩ := h key idx (by rw [AMap.get_cons, if_pos rfl])
    obtain ⟨g, t, rfl⟩ := List.exists_cons_of_ne_nil e2
    obtain ⟨r1, f1, f2, f3, f4⟩ := updateGlobal_ok (g := g) e3
    have hnone : AMap.get keys key = none := by
      cases hg : AMap.get keys key with
      | none => rfl
      | some v => exact absurd (AMap.get_isSome.1 ⟨v, hg⟩) hk1
    obtain ⟨r2, g1, g2, g3⟩ := updateResults_ok (sets := sets) keys r1 hk2 (fun k i hki => by
      have hne : k ≠ key := fun he => by rw [he, hnone] at hki; cases hki
      obtain ⟨s', g', a1, a2, a3⟩ := h k i (by rw [AMap.get_cons, if_neg (Ne.symm hne)]; exact hki)
      exact ⟨s', g', a1, a2, (f4 k g' hne).2 a3⟩)
    refine ⟨r2, ?_, f2.trans g2, fun k g' => ?_⟩
    · unfold updateResults
      rw [rd_ok e1, M.bind_ok]
      simp only [f1, M.bind_ok]
      exact g1
    · rw [g3, AMap.get_cons]
      by_cases hk : key = k
      · subst hk
        simp only [hnone, if_true]
        constructor
        · intro hg
          refine ⟨_, e1, ?_⟩
          obtain ⟨_, p, p1, p2⟩ := hg
          obtain ⟨_, p', p1', p2'⟩ := f3
          rw [p1] at p1'; cases p1'
          rw [p2] at p2'; rw [List.head?_cons, ← p2']
        · rintro ⟨s, s1, s2⟩
          rw [e1] at s1; cases s1
          rw [List.head?_cons] at s2; cases s2
          exact f3
      · simp only [if_neg hk]
        cases AMap.get keys k with
        | none => exact f4 k g' (Ne.symm hk)
        | some i => rfl

end Lue.Clump

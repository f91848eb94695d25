import Verif.DecreasingOrder.Lemmas

/-!
The fragments stored by a component, and the futures to the locations of the next ones, agree with the pieces recorded.
-/
namespace Lue.AMap

theorem get_append {K V : Type} [DecidableEq K] (m m' : AMap K V) (k : K) : get (m ++ m') k = (get m k).or (get m' k) := by
  unfold get
  rw [List.find?_append]
  cases List.find? (fun e => decide (e.1 = k)) m <;> rfl

end Lue.AMap

namespace Lue.DecreasingOrder

open Lue.FirstN (Fragment Piece cnt fragmentsIn fragmentsOf length_fragmentsIn fragmentsIn_eq_nil cnt_take_succ cnt_take_le
  cnt_take_lt fragmentsIn_getElem)

/-- A piece of a route: the partition, the cells, and the index of the future to the location of the next piece. -/
abbrev HPiece := Nat × List Nat × Nat

def pathOf (h : List HPiece) : List Piece := h.map fun e => (e.1, e.2.1)

theorem pathOf_append (h h' : List HPiece) : pathOf (h ++ h') = pathOf h ++ pathOf h' := by simp [pathOf]

theorem length_pathOf (h : List HPiece) : (pathOf h).length = h.length := by simp [pathOf]

theorem pathOf_getElem (h : List HPiece) (i : Nat) : (pathOf h)[i]? = h[i]?.map fun e => (e.1, e.2.1) := by
  simp [pathOf]

/-- The piece needs a next piece. -/
def Ends (hist : Int → List HPiece) (active : Int → Bool) (r : Int) (i : Nat) : Prop :=
  i + 1 < (hist r).length ∨ active r = true

theorem map_cells_fragmentsIn (p : Nat) (l : List Piece) :
    (fragmentsIn p l).map Fragment.cells = (l.filter fun e => decide (e.1 = p)).map Prod.snd := by
  unfold fragmentsIn
  induction l with
  | nil => rfl
  | cons e l ih =>
    obtain ⟨q, c⟩ := e
    simp only [fragmentsOf, List.filter_cons]
    split <;> simp [ih]

theorem exists_index {p : Nat} {l : List Piece} {j : Nat} (h : j < cnt p l) :
    ∃ (i : Nat) (cells : List Nat), l[i]? = some (p, cells) ∧ cnt p (l.take i) = j := by
  induction l generalizing j with
  | nil => simp [cnt] at h
  | cons e l ih =>
    obtain ⟨q, c⟩ := e
    by_cases hq : q = p
    · subst hq
      cases j with
      | zero => exact ⟨0, c, rfl, by simp [cnt]⟩
      | succ j =>
        obtain ⟨i, cells, h1, h2⟩ := ih (j := j) (by simp [cnt] at h ⊢; omega)
        refine ⟨i + 1, cells, by simpa using h1, ?_⟩
        simp [cnt] at h2 ⊢
        omega
    · obtain ⟨i, cells, h1, h2⟩ := ih (j := j) (by simpa [cnt, hq] using h)
      refine ⟨i + 1, cells, by simpa using h1, ?_⟩
      simpa [cnt, hq] using h2

/-- The collections of component `p`. -/
structure FragInv (hist : Int → List HPiece) (active : Int → Bool) (own : Nat → Nat → Int × Nat) (p : Nat)
    (frags : AMap Int (List (List Nat))) (ends : List (Option Nat)) (endsIdxs : AMap Int (List (Nat × Nat))) : Prop where
  frags_ok : frags.Ok
  idxs_ok : endsIdxs.Ok
  frags : ∀ r, frags.get r = if (hist r).filter (fun e => decide (e.1 = p)) = [] then none
    else some (((hist r).filter fun e => decide (e.1 = p)).map fun e => e.2.1)
  idxs : ∀ r l, endsIdxs.get r = some l → l ≠ [] ∧ AMap.Ok l ∧ ∀ k e, (k, e) ∈ l → ∃ i cells, (hist r)[i]? = some (p, cells, e) ∧
    k = cnt p ((pathOf (hist r)).take i) ∧ Ends hist active r i
  piece : ∀ r i cells e, (hist r)[i]? = some (p, cells, e) → Ends hist active r i →
    AMap.get ((endsIdxs.get r).getD []) (cnt p ((pathOf (hist r)).take i)) = some e ∧
    ends[e]? = some ((hist r)[i + 1]?.map Prod.fst) ∧ own p e = (r, i)
  ends : ∀ e < ends.length, ∃ r i cells, (hist r)[i]? = some (p, cells, e) ∧ Ends hist active r i

variable {hist : Int → List HPiece} {active : Int → Bool} {own : Nat → Nat → Int × Nat} {p : Nat}
  {frags : AMap Int (List (List Nat))} {ends : List (Option Nat)} {endsIdxs : AMap Int (List (Nat × Nat))}

theorem FragInv.nil (h : ∀ r, hist r = []) : FragInv hist active own p [] [] [] where
  frags_ok := AMap.ok_nil
  idxs_ok := AMap.ok_nil
  frags := by intro r; simp [h r, AMap.get_nil]
  idxs := by intro r l hl; simp [AMap.get_nil] at hl
  piece := by intro r i cells e he; simp [h r] at he
  ends := by intro e he; simp at he

theorem cnt_append_of_lt {p : Nat} {h : List HPiece} {x : HPiece} {i : Nat} (hi : i ≤ h.length) :
    cnt p ((pathOf (h ++ [x])).take i) = cnt p ((pathOf h).take i) := by
  rw [pathOf_append, List.take_append_of_le_length (by rw [length_pathOf]; exact hi)]

/-- Another component records a piece. -/
theorem FragInv.append_other {x : Nat} (h : FragInv hist active own x frags ends endsIdxs) {r : Int} (hr : active r = true)
    (hne : x ≠ p) (cells : List Nat) (e0 : Nat) (b : Bool) {own' : Nat → Nat → Int × Nat} (hown : own' x = own x)
    {ends' : List (Option Nat)}
    (hset : ∀ c e, (hist r).getLast? = some (x, c, e) → ends' = ends.set e (some p))
    (hkeep : (∀ c e, (hist r).getLast? ≠ some (x, c, e)) → ends' = ends) :
    FragInv (Function.update hist r (hist r ++ [(p, cells, e0)])) (Function.update active r b) own' x frags ends' endsIdxs := by
  have hlen : ends'.length = ends.length := by
    by_cases hl : ∃ c e, (hist r).getLast? = some (x, c, e)
    · obtain ⟨c, e, hl⟩ := hl
      rw [hset c e hl, List.length_set]
    · rw [hkeep fun c e hce => hl ⟨c, e, hce⟩]
  -- The pieces of this component stay the same
  have hget : ∀ (i : Nat) (c : List Nat) (e : Nat), (hist r ++ [(p, cells, e0)])[i]? = some (x, c, e) ↔ (hist r)[i]? = some (x, c, e) := by
    intro i c e
    rw [List.getElem?_append]
    split
    · rfl
    · rename_i hge
      have : (hist r)[i]? = none := List.getElem?_eq_none (by omega)
      rw [this]
      constructor
      · intro h2
        have := List.mem_of_getElem? h2
        simp only [List.mem_singleton, Prod.mk.injEq] at this
        exact absurd this.1 hne
      · intro h2; cases h2
  have hEnds : ∀ r' i, i < (hist r').length → (Ends (Function.update hist r (hist r ++ [(p, cells, e0)])) (Function.update active r b) r' i
      ↔ Ends hist active r' i) := by
    intro r' i hi
    unfold Ends
    by_cases h2 : r' = r
    · subst h2
      simp only [Function.update_self, List.length_append, List.length_cons, List.length_nil, hr, or_true, iff_true]
      omega
    · simp only [Function.update_of_ne h2]
  have hlt : ∀ (r' : Int) (i : Nat) (c : List Nat) (e : Nat), (hist r')[i]? = some (x, c, e) → i < (hist r').length := fun r' i c e h2 => (List.getElem?_eq_some_iff.1 h2).1
  refine ⟨h.frags_ok, h.idxs_ok, ?_, ?_, ?_, ?_⟩
  · intro r'
    rw [h.frags r']
    by_cases h2 : r' = r
    · subst h2
      have : (hist r' ++ [(p, cells, e0)]).filter (fun e => decide (e.1 = x)) = (hist r').filter fun e => decide (e.1 = x) := by
        rw [List.filter_append]
        simp [Ne.symm hne]
      simp only [Function.update_self, this]
    · rw [Function.update_of_ne h2]
  · intro r' l hl
    obtain ⟨h0, h1, h2⟩ := h.idxs r' l hl
    refine ⟨h0, h1, ?_⟩
    intro k e hke
    obtain ⟨i, c, h3, h4, h5⟩ := h2 k e hke
    refine ⟨i, c, ?_, ?_, (hEnds r' i (hlt _ _ _ _ h3)).2 h5⟩
    · by_cases h6 : r' = r
      · subst h6; rw [Function.update_self]; exact (hget i c e).2 h3
      · rw [Function.update_of_ne h6]; exact h3
    · rw [h4]
      by_cases h6 : r' = r
      · subst h6; rw [Function.update_self, cnt_append_of_lt (le_of_lt (hlt _ _ _ _ h3))]
      · rw [Function.update_of_ne h6]
  · intro r' i c e h3 h5
    have h3' : (hist r')[i]? = some (x, c, e) := by
      by_cases h6 : r' = r
      · subst h6; rw [Function.update_self] at h3; exact (hget i c e).1 h3
      · rw [Function.update_of_ne h6] at h3; exact h3
    have hi := hlt _ _ _ _ h3'
    obtain ⟨h7, h8, h9⟩ := h.piece r' i c e h3' ((hEnds r' i hi).1 h5)
    refine ⟨?_, ?_, by rw [hown]; exact h9⟩
    · by_cases h6 : r' = r
      · subst h6; rw [Function.update_self, cnt_append_of_lt (le_of_lt hi)]; exact h7
      · rw [Function.update_of_ne h6]; exact h7
    · have hel : e < ends.length := (List.getElem?_eq_some_iff.1 h8).1
      by_cases hl : ∃ c' e', (hist r).getLast? = some (x, c', e')
      · obtain ⟨c', e', hl⟩ := hl
        have hne0 : hist r ≠ [] := by intro h0; rw [h0] at hl; simp at hl
        have hlast : (hist r)[(hist r).length - 1]? = some (x, c', e') := by rw [← List.getLast?_eq_getElem?]; exact hl
        obtain ⟨_, _, hown9⟩ := h.piece r _ c' e' hlast (Or.inr hr)
        rw [hset c' e' hl]
        by_cases hee : e = e'
        · subst hee
          rw [hown9, Prod.mk.injEq] at h9
          obtain ⟨rfl, rfl⟩ := h9
          rw [Function.update_self, List.getElem?_set_self hel]
          have : (hist r).length - 1 + 1 = (hist r).length := by
            have := List.length_pos_of_ne_nil hne0
            omega
          rw [this, List.getElem?_append_right (le_refl _)]
          simp
        · rw [List.getElem?_set_ne (Ne.symm hee), h8]
          by_cases h6 : r' = r
          · subst h6
            rw [Function.update_self]
            have hnl : i + 1 < (hist r').length := by
              by_contra hcon
              have : i = (hist r').length - 1 := by omega
              rw [this, hlast] at h3'
              injection h3' with h3'
              simp only [Prod.mk.injEq] at h3'
              exact hee h3'.2.2.symm
            rw [List.getElem?_append_left hnl]
          · rw [Function.update_of_ne h6]
      · rw [hkeep fun c e hce => hl ⟨c, e, hce⟩, h8]
        by_cases h6 : r' = r
        · subst h6
          rw [Function.update_self]
          have hnl : i + 1 < (hist r').length := by
            by_contra hcon
            have : i = (hist r').length - 1 := by omega
            rw [this] at h3'
            exact hl ⟨c, e, by rw [List.getLast?_eq_getElem?]; exact h3'⟩
          rw [List.getElem?_append_left hnl]
        · rw [Function.update_of_ne h6]
  · intro e he
    rw [hlen] at he
    obtain ⟨r', i, c, h3, h5⟩ := h.ends e he
    refine ⟨r', i, c, ?_, (hEnds r' i (hlt _ _ _ _ h3)).2 h5⟩
    by_cases h6 : r' = r
    · subst h6; rw [Function.update_self]; exact (hget i c e).2 h3
    · rw [Function.update_of_ne h6]; exact h3

/-- The component records a piece. -/
theorem FragInv.append_self (h : FragInv hist active own p frags ends endsIdxs) {r : Int} (hr : active r = true)
    (hlast : ∀ c e, (hist r).getLast? ≠ some (p, c, e)) (cells : List Nat) (e0 : Nat) (b : Bool)
    {own' : Nat → Nat → Int × Nat} {ends' : List (Option Nat)} {endsIdxs' : AMap Int (List (Nat × Nat))}
    (hb : b = true → e0 = ends.length ∧ ends' = ends ++ [none] ∧
      endsIdxs' = endsIdxs.put r ((endsIdxs.get r).getD [] ++ [(((frags.get r).getD []).length, ends.length)]) ∧
      own' p = Function.update (own p) ends.length (r, (hist r).length))
    (hnb : b = false → ends' = ends ∧ endsIdxs' = endsIdxs ∧ own' p = own p) :
    FragInv (Function.update hist r (hist r ++ [(p, cells, e0)])) (Function.update active r b) own' p
      (frags.put r ((frags.get r).getD [] ++ [cells])) ends' endsIdxs' := by
  have hlen : ∀ r', ((frags.get r').getD []).length = cnt p (pathOf (hist r')) := by
    intro r'
    rw [h.frags r']
    unfold cnt pathOf
    rw [List.filter_map, List.length_map]
    split
    · rename_i h0
      simp only [Option.getD_none, List.length_nil]
      simp only [Function.comp_def, h0, List.length_nil]
    · simp [Function.comp_def]
  have hlt : ∀ {r' : Int} {i : Nat} {c : List Nat} {e : Nat}, (hist r')[i]? = some (p, c, e) → i < (hist r').length := fun h2 => (List.getElem?_eq_some_iff.1 h2).1
  have hnl : ∀ {i : Nat} {c : List Nat} {e : Nat}, (hist r)[i]? = some (p, c, e) → i + 1 < (hist r).length := by
    intro i c e h2
    by_contra hcon
    have := hlt h2
    have h3 : i = (hist r).length - 1 := by omega
    rw [h3, ← List.getLast?_eq_getElem?] at h2
    exact hlast c e h2
  have hEnds : ∀ {r' : Int} {i : Nat} {c : List Nat} {e : Nat}, (hist r')[i]? = some (p, c, e) →
      (Ends (Function.update hist r (hist r ++ [(p, cells, e0)])) (Function.update active r b) r' i ↔ Ends hist active r' i) := by
    intro r' i c e hi
    unfold Ends
    by_cases h2 : r' = r
    · subst h2
      have := hnl hi
      simp only [Function.update_self, List.length_append, List.length_cons, List.length_nil, hr, or_true, iff_true]
      omega
    · simp only [Function.update_of_ne h2]
  -- The pieces: the old ones, and the new one
  have hget : ∀ {r' : Int} {i : Nat} {c : List Nat} {e : Nat}, (Function.update hist r (hist r ++ [(p, cells, e0)]) r')[i]? = some (p, c, e) →
      (hist r')[i]? = some (p, c, e) ∨ (r' = r ∧ i = (hist r).length ∧ c = cells ∧ e = e0) := by
    intro r' i c e h2
    by_cases h3 : r' = r
    · subst h3
      rw [Function.update_self, List.getElem?_append] at h2
      split at h2
      · exact Or.inl h2
      · rename_i hge
        obtain ⟨h4, h5⟩ := List.getElem?_eq_some_iff.1 h2
        simp only [List.length_cons, List.length_nil] at h4
        have h6 : i - (hist r').length = 0 := by omega
        simp only [h6, List.getElem_cons_zero, Prod.mk.injEq] at h5
        exact Or.inr ⟨rfl, by omega, h5.2.1.symm, h5.2.2.symm⟩
    · rw [Function.update_of_ne h3] at h2
      exact Or.inl h2
  have hget' : ∀ {r' : Int} {i : Nat} {c : List Nat} {e : Nat}, (hist r')[i]? = some (p, c, e) →
      (Function.update hist r (hist r ++ [(p, cells, e0)]) r')[i]? = some (p, c, e) := by
    intro r' i c e h2
    by_cases h3 : r' = r
    · subst h3
      rw [Function.update_self, List.getElem?_append_left (hlt h2)]
      exact h2
    · rw [Function.update_of_ne h3]; exact h2
  have hcnt : ∀ {r' : Int} {i : Nat} {c : List Nat} {e : Nat}, (hist r')[i]? = some (p, c, e) →
      cnt p ((pathOf (Function.update hist r (hist r ++ [(p, cells, e0)]) r')).take i) = cnt p ((pathOf (hist r')).take i) := by
    intro r' i c e h2
    by_cases h3 : r' = r
    · subst h3
      rw [Function.update_self, cnt_append_of_lt (le_of_lt (hlt h2))]
    · rw [Function.update_of_ne h3]
  have hcntNew : cnt p ((pathOf (hist r ++ [(p, cells, e0)])).take (hist r).length) = ((frags.get r).getD []).length := by
    rw [hlen, cnt_append_of_lt (le_refl _), ← length_pathOf, List.take_length]
  have hnext : ∀ {r' : Int} {i : Nat} {c : List Nat} {e : Nat}, (hist r')[i]? = some (p, c, e) →
      (Function.update hist r (hist r ++ [(p, cells, e0)]) r')[i + 1]? = (hist r')[i + 1]? := by
    intro r' i c e h2
    by_cases h3 : r' = r
    · subst h3
      rw [Function.update_self, List.getElem?_append_left (hnl h2)]
    · rw [Function.update_of_ne h3]
  refine ⟨h.frags_ok.put _ _, ?_, ?_, ?_, ?_, ?_⟩
  · cases b with
    | true => rw [(hb rfl).2.2.1]; exact h.idxs_ok.put _ _
    | false => rw [(hnb rfl).2.1]; exact h.idxs_ok
  · intro r'
    rw [AMap.get_put]
    by_cases h3 : r' = r
    · subst h3
      rw [if_pos rfl, Function.update_self, List.filter_append, h.frags r']
      by_cases h0 : (hist r').filter (fun e => decide (e.1 = p)) = []
      · simp [h0]
      · simp [h0]
    · rw [if_neg (Ne.symm h3), Function.update_of_ne h3]
      exact h.frags r'
  · intro r' l hl
    have old : ∀ l', endsIdxs.get r' = some l' → l' ≠ [] ∧ AMap.Ok l' ∧ ∀ k e, (k, e) ∈ l' → ∃ i c,
        (Function.update hist r (hist r ++ [(p, cells, e0)]) r')[i]? = some (p, c, e) ∧
        k = cnt p ((pathOf (Function.update hist r (hist r ++ [(p, cells, e0)]) r')).take i) ∧
        Ends (Function.update hist r (hist r ++ [(p, cells, e0)])) (Function.update active r b) r' i := by
      intro l' hl'
      obtain ⟨h0, h1, h2⟩ := h.idxs r' l' hl'
      refine ⟨h0, h1, fun k e hke => ?_⟩
      obtain ⟨i, c, h3, h4, h5⟩ := h2 k e hke
      exact ⟨i, c, hget' h3, by rw [hcnt h3]; exact h4, (hEnds h3).2 h5⟩
    cases b with
    | false =>
      rw [(hnb rfl).2.1] at hl
      exact old l hl
    | true =>
      obtain ⟨he0, _, h2, _⟩ := hb rfl
      rw [h2, AMap.get_put] at hl
      by_cases h3 : r' = r
      · subst h3
        rw [if_pos rfl] at hl
        injection hl with hl
        subst hl
        have hold : AMap.Ok ((endsIdxs.get r').getD []) ∧ ∀ k e, (k, e) ∈ (endsIdxs.get r').getD [] → ∃ i c,
            (hist r')[i]? = some (p, c, e) ∧ k = cnt p ((pathOf (hist r')).take i) := by
          cases hg : endsIdxs.get r' with
          | none => exact ⟨AMap.ok_nil, by simp⟩
          | some l' =>
            obtain ⟨_, h1, h2⟩ := h.idxs r' l' hg
            refine ⟨h1, fun k e hke => ?_⟩
            obtain ⟨i, c, h3, h4, _⟩ := h2 k e hke
            exact ⟨i, c, h3, h4⟩
        refine ⟨by simp, ?_, ?_⟩
        · unfold AMap.Ok
          rw [List.map_append, List.nodup_append]
          refine ⟨hold.1, by simp, ?_⟩
          intro a ha b hb
          simp only [List.map_cons, List.map_nil, List.mem_singleton] at hb
          subst hb
          obtain ⟨⟨k, e⟩, hke, rfl⟩ := List.mem_map.1 ha
          obtain ⟨i, c, h3, h4⟩ := hold.2 k e hke
          simp only
          rw [h4, hlen]
          have : (pathOf (hist r'))[i]? = some (p, c) := by rw [pathOf_getElem, h3]; rfl
          exact ne_of_lt (cnt_take_lt this)
        · intro k e hke
          rw [List.mem_append] at hke
          rcases hke with hke | hke
          · cases hg : endsIdxs.get r' with
            | none => rw [hg] at hke; simp at hke
            | some l' =>
              rw [hg] at hke
              exact (old l' hg).2.2 k e hke
          · simp only [List.mem_singleton, Prod.mk.injEq] at hke
            obtain ⟨rfl, rfl⟩ := hke
            refine ⟨(hist r').length, cells, ?_, ?_, ?_⟩
            · rw [Function.update_self, List.getElem?_append_right (le_refl _), he0]
              simp
            · rw [Function.update_self, hcntNew]
            · right; rw [Function.update_self]
      · rw [if_neg (Ne.symm h3)] at hl
        exact old l hl
  · intro r' i c e h2 h3
    rcases hget h2 with h4 | ⟨rfl, rfl, rfl, rfl⟩
    · obtain ⟨h5, h6, h7⟩ := h.piece r' i c e h4 ((hEnds h4).1 h3)
      have hel : e < ends.length := (List.getElem?_eq_some_iff.1 h6).1
      rw [hcnt h4, hnext h4]
      cases b with
      | false =>
        obtain ⟨e1, e2, e3⟩ := hnb rfl
        rw [e1, e2, e3]
        exact ⟨h5, h6, h7⟩
      | true =>
        obtain ⟨_, e1, e2, e3⟩ := hb rfl
        rw [e1, e2, e3]
        refine ⟨?_, ?_, ?_⟩
        · rw [AMap.get_put]
          by_cases h8 : r' = r
          · subst h8
            rw [if_pos rfl, Option.getD_some]
            rw [AMap.get_append, h5]
            rfl
          · rw [if_neg (Ne.symm h8)]
            exact h5
        · rw [List.getElem?_append_left hel]
          exact h6
        · rw [Function.update_of_ne (Nat.ne_of_lt hel)]
          exact h7
    · have hbt : b = true := by
        rcases h3 with h3 | h3
        · simp at h3
        · rw [Function.update_self] at h3; exact h3
      subst hbt
      obtain ⟨he0, e1, e2, e3⟩ := hb rfl
      subst he0
      rw [Function.update_self, hcntNew, e1, e2, e3]
      refine ⟨?_, ?_, by rw [Function.update_self]⟩
      · rw [AMap.get_put, if_pos rfl, Option.getD_some]
        rw [AMap.get_append]
        have hn : AMap.get ((endsIdxs.get r').getD []) ((frags.get r').getD []).length = none := by
          by_contra hcon
          obtain ⟨e, he'⟩ := Option.ne_none_iff_exists'.1 hcon
          have hx := AMap.mem_of_get he'
          cases hg : endsIdxs.get r' with
          | none => rw [hg] at hx; simp at hx
          | some l' =>
            rw [hg] at hx
            obtain ⟨i, c, h3, h4, _⟩ := (h.idxs r' l' hg).2.2 _ e hx
            have : (pathOf (hist r'))[i]? = some (p, c) := by rw [pathOf_getElem, h3]; rfl
            have := cnt_take_lt this
            rw [hlen] at h4
            omega
        rw [hn, AMap.get_cons]
        simp
      · rw [List.getElem?_append_right (le_refl _)]
        simp
  · intro e he
    have old : ∀ e < ends.length, ∃ r' i c, (Function.update hist r (hist r ++ [(p, cells, e0)]) r')[i]? = some (p, c, e) ∧
        Ends (Function.update hist r (hist r ++ [(p, cells, e0)])) (Function.update active r b) r' i := by
      intro e he
      obtain ⟨r', i, c, h2, h3⟩ := h.ends e he
      exact ⟨r', i, c, hget' h2, (hEnds h2).2 h3⟩
    cases b with
    | false => rw [(hnb rfl).1] at he; exact old e he
    | true =>
      obtain ⟨he0, e1, _⟩ := hb rfl
      rw [e1, List.length_append, List.length_singleton] at he
      by_cases h2 : e < ends.length
      · exact old e h2
      · have : e = ends.length := by omega
        subst this
        refine ⟨r, (hist r).length, cells, ?_, ?_⟩
        · rw [Function.update_self, List.getElem?_append_right (le_refl _), he0]
          simp
        · right; rw [Function.update_self]

/-- Routes that have not been recorded may become active. -/
theorem FragInv.activate (h : FragInv hist active own p frags ends endsIdxs) (h0 : ∀ r, hist r = []) (active' : Int → Bool) :
    FragInv hist active' own p frags ends endsIdxs := by
  refine ⟨h.frags_ok, h.idxs_ok, h.frags, ?_, ?_, ?_⟩
  · intro r l hl
    refine ⟨(h.idxs r l hl).1, (h.idxs r l hl).2.1, fun k e hke => ?_⟩
    obtain ⟨i, c, h1, _⟩ := (h.idxs r l hl).2.2 k e hke
    rw [h0 r] at h1
    simp at h1
  · intro r i c e h1
    rw [h0 r] at h1
    simp at h1
  · intro e he
    obtain ⟨r, i, c, h1, _⟩ := h.ends e he
    rw [h0 r] at h1
    simp at h1

/-- Once all futures are ready, the fragments can be written. When routes have ended, these are the fragments of the routes. -/
theorem FragInv.build {V : Type} {c : Comp V} (h : FragInv hist active own p c.frags c.ends c.endsIdxs)
    (hs : ∀ f ∈ c.ends, f.isSome = true) : ∃ F, build c = .ok F ∧ F.Ok ∧
      ((∀ r, active r = false) → ∀ r, F.get r =
        if fragmentsIn p (pathOf (hist r)) = [] then none else some (fragmentsIn p (pathOf (hist r)))) := by
  have hm : ∀ r, AMap.get (c.frags.map fun e => (e.1, e.2.map fun cells => (⟨cells, none⟩ : Fragment))) r =
      (c.frags.get r).map fun l => l.map fun cells => ⟨cells, none⟩ := fun r => AMap.get_map_val _ _ r
  have hflen : ∀ r, ((c.frags.get r).getD []).length = cnt p (pathOf (hist r)) := by
    intro r'
    rw [h.frags r']
    unfold cnt pathOf
    rw [List.filter_map, List.length_map]
    split
    · rename_i h0
      simp only [Option.getD_none, List.length_nil]
      simp only [Function.comp_def, h0, List.length_nil]
    · simp [Function.comp_def]
  have hend : ∀ r l, c.endsIdxs.get r = some l → ∃ fs, endFragments c.ends l
      (((c.frags.get r).map fun l => l.map fun cells => (⟨cells, none⟩ : Fragment)).getD []) = .ok fs ∧ ∀ j : Nat, fs[j]? =
      (((c.frags.get r).map fun l => l.map fun cells => (⟨cells, none⟩ : Fragment)).getD [])[j]?.map fun f =>
        match AMap.get l j with
        | none => f
        | some e => { f with next := (c.ends[e]?).join } := by
    intro r l hl
    obtain ⟨_, h1, h2⟩ := h.idxs r l hl
    refine endFragments_ok _ _ _ h1 ?_ ?_
    · intro x hx
      obtain ⟨i, cells, h3, h4, h5⟩ := h2 x.1 x.2 hx
      have hpath : (pathOf (hist r))[i]? = some (p, cells) := by rw [pathOf_getElem, h3]; rfl
      have hl2 := hflen r
      have hl3 := cnt_take_lt hpath
      refine ⟨?_, ?_⟩
      · cases hg : c.frags.get r with
        | none => rw [hg] at hl2; simp at hl2; omega
        | some fl => rw [hg] at hl2; simp at hl2 ⊢; omega
      · obtain ⟨_, h7, _⟩ := h.piece r i cells x.2 h3 h5
        have := hs _ (List.mem_of_getElem? h7)
        obtain ⟨loc, hloc⟩ := Option.isSome_iff_exists.1 this
        exact ⟨loc, by rw [h7, hloc]⟩
    · intro x _ f hf
      cases hg : c.frags.get r with
      | none => rw [hg] at hf; simp at hf
      | some fl =>
        rw [hg] at hf
        simp only [Option.map_some, Option.getD_some, List.getElem?_map, Option.map_eq_some_iff] at hf
        obtain ⟨a, _, rfl⟩ := hf
        rfl
  obtain ⟨F, h1, h2, h3⟩ := endRoutes_ok c.ends c.endsIdxs (c.frags.map fun e => (e.1, e.2.map fun cells => (⟨cells, none⟩ : Fragment)))
    h.idxs_ok (AMap.ok_map_val h.frags_ok _) (by
      intro r l hl
      rw [hm r]
      obtain ⟨fs, hfs, _⟩ := hend r l hl
      exact ⟨fs, hfs⟩)
  refine ⟨F, h1, h2, ?_⟩
  intro hact r
  have h3 := h3 r
  by_cases h0 : fragmentsIn p (pathOf (hist r)) = []
  · rw [if_pos h0]
    have hc0 := fragmentsIn_eq_nil.1 h0
    have hfr : c.frags.get r = none := by
      rw [h.frags r, if_pos]
      unfold cnt pathOf at hc0
      rw [List.filter_map, List.length_map, List.length_eq_zero_iff] at hc0
      exact hc0
    cases hg : c.endsIdxs.get r with
    | none =>
      rw [hg] at h3
      simp only at h3
      rw [h3, hm, hfr]
      rfl
    | some l =>
      obtain ⟨h4, _, h5⟩ := h.idxs r l hg
      obtain ⟨x, hx⟩ := List.exists_mem_of_ne_nil _ h4
      obtain ⟨i, cells, h6, _⟩ := h5 x.1 x.2 hx
      have hpath : (pathOf (hist r))[i]? = some (p, cells) := by rw [pathOf_getElem, h6]; rfl
      have := cnt_take_lt hpath
      omega
  · rw [if_neg h0]
    have hfr : c.frags.get r = some ((fragmentsIn p (pathOf (hist r))).map Fragment.cells) := by
      rw [h.frags r, if_neg, map_cells_fragmentsIn]
      · unfold pathOf
        rw [List.filter_map, List.map_map]
        rfl
      · intro h4
        apply h0
        rw [fragmentsIn_eq_nil]
        unfold cnt pathOf
        rw [List.filter_map, List.length_map]
        simp only [Function.comp_def, h4, List.length_nil]
    have key : ∃ fs, F.get r = some fs ∧ ∀ j : Nat, fs[j]? = (fragmentsIn p (pathOf (hist r)))[j]?.map fun f =>
        { f with next := (AMap.get ((c.endsIdxs.get r).getD []) j).bind fun e => (c.ends[e]?).join } := by
      cases hg : c.endsIdxs.get r with
      | none =>
        rw [hg] at h3
        simp only at h3
        refine ⟨_, by rw [h3, hm, hfr]; rfl, ?_⟩
        intro j
        simp [AMap.get_nil, Function.comp_def]
      | some l =>
        rw [hg] at h3
        simp only at h3
        obtain ⟨fs, h4, h5⟩ := h3
        obtain ⟨fs', h6, h7⟩ := hend r l hg
        rw [hm, h6] at h4
        injection h4 with h4
        subst h4
        refine ⟨_, h5, ?_⟩
        intro j
        rw [h7 j, hfr]
        simp only [Option.map_some, Option.getD_some, List.map_map, List.getElem?_map, Option.map_map, Function.comp_def]
        congr 1
        funext f
        cases AMap.get l j <;> rfl
    obtain ⟨fs, h4, h5⟩ := key
    rw [h4]
    congr 1
    apply List.ext_getElem?
    intro j
    rw [h5 j]
    by_cases hj : j < cnt p (pathOf (hist r))
    · obtain ⟨i, cells, h6, h7⟩ := exists_index hj
      have h8 := fragmentsIn_getElem h6
      rw [h7] at h8
      rw [h8]
      have h9 := h6
      rw [pathOf_getElem, Option.map_eq_some_iff] at h9
      obtain ⟨⟨p', cells', e⟩, h10, h11⟩ := h9
      simp only [Prod.mk.injEq] at h11
      obtain ⟨rfl, rfl⟩ := h11
      simp only [Option.map_some]
      congr 2
      by_cases hE : i + 1 < (hist r).length
      · obtain ⟨h12, h13, _⟩ := h.piece r i cells' e h10 (Or.inl hE)
        rw [h7] at h12
        rw [h12, pathOf_getElem]
        simp only [Option.bind_some, h13, Option.join_some, Option.map_map]
        rfl
      · have hnone : AMap.get ((c.endsIdxs.get r).getD []) j = none := by
          by_contra hcon
          obtain ⟨e', he'⟩ := Option.ne_none_iff_exists'.1 hcon
          have hmem := AMap.mem_of_get he'
          cases hg : c.endsIdxs.get r with
          | none => rw [hg] at hmem; simp at hmem
          | some l =>
            rw [hg] at hmem
            obtain ⟨i', cells2, h14, h15, h16⟩ := (h.idxs r l hg).2.2 j e' hmem
            have h17 : i' + 1 < (hist r).length := by
              rcases h16 with h16 | h16
              · exact h16
              · rw [hact r] at h16; cases h16
            have h18 : (pathOf (hist r))[i']? = some (p', cells2) := by rw [pathOf_getElem, h14]; rfl
            have h19 := cnt_take_succ (p := p') h18
            have hi : i < (hist r).length := (List.getElem?_eq_some_iff.1 h10).1
            have h20 : cnt p' ((pathOf (hist r)).take (i' + 1)) ≤ cnt p' ((pathOf (hist r)).take i) := by
              unfold cnt
              refine (List.Sublist.filter _ ?_).length_le
              exact List.take_sublist_take_left (by omega)
            simp only [if_true] at h19
            omega
        rw [hnone]
        have : (pathOf (hist r))[i + 1]? = none := List.getElem?_eq_none (by rw [length_pathOf]; omega)
        rw [this]
        rfl
    · have : (fragmentsIn p (pathOf (hist r)))[j]? = none := List.getElem?_eq_none (by rw [length_fragmentsIn]; omega)
      rw [this]
      rfl

end Lue.DecreasingOrder

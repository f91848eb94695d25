import Verif.Program.Spec

/-!
C73: per operation.
-/
namespace Lue.Program

open Lue.Routing

/-- All executions end well, in agreement with `S'`, and there is one. -/
def Simulates (g : Grid) (S' : Whole) (runs : M State → Prop) : Prop :=
  (∃ r, runs r) ∧ ∀ r, runs r → ∃ s', r = .ok s' ∧ Agree g s' S'

theorem Agree.setArr {g : Grid} {s : State} {S : Whole} (h : Agree g s S) {t : Ty} {x : Nat} {a : PArr t.El} {w : Arr t.El}
    (hg : a.grid = g) (ha : Represents a w) : Agree g (s.setArr t x a) (S.setArr t x w) := by
  refine ⟨fun t' x' => ?_, fun t' x' => ?_, h.sc⟩
  · simp only [State.setArr, assign]
    split
    · rename_i ht; subst ht
      split
      · exact hg
      · exact h.grid _ _
    · exact h.grid _ _
  · simp only [State.setArr, Whole.setArr, assign]
    split
    · rename_i ht; subst ht
      split
      · exact ha
      · exact h.arr _ _
    · exact h.arr _ _

theorem Agree.setSc {g : Grid} {s : State} {S : Whole} (h : Agree g s S) {t : Ty} {x : Nat} {a : t.El} :
    Agree g (s.setSc t x a) (S.setSc t x a) := by
  refine ⟨h.grid, h.arr, fun t' x' => ?_⟩
  simp only [State.setSc, Whole.setSc, assign]
  split
  · rename_i ht; subst ht
    split
    · rfl
    · exact h.sc _ _
  · exact h.sc _ _

theorem isOrder_range (n : Nat) : IsOrder n (List.range n) := List.Perm.refl _

/-- An operation with an array as result. -/
theorem simulates_arr {g : Grid} {s : State} {S : Whole} (h : Agree g s S) {t : Ty} {dst : Nat} {w : Arr t.El}
    {m : M (PArr t.El)} (hm : ∃ r, m = .ok r ∧ r.grid = g ∧ Represents r w) :
    ∃ s', m.map (s.setArr t dst) = .ok s' ∧ Agree g s' (S.setArr t dst w) := by
  obtain ⟨r, rfl, hg, hr⟩ := hm
  exact ⟨_, rfl, h.setArr hg hr⟩

theorem Represents.congr {α : Type} {y : PArr α} {v w : Arr α} (h : Represents y v)
    (e : ∀ i j, i < y.grid.a0 → j < y.grid.a1 → v i j = w i j) : Represents y w := by
  refine ⟨h.ok, h.nr_parts, h.part_size, fun i j k0 k1 l0 l1 hc => ?_⟩
  obtain ⟨hi, hj⟩ := hc.lt h.ok
  rw [← e i j hi hj]
  exact h.elem i j k0 k1 l0 l1 hc

theorem Src.isValues {g : Grid} {s : State} {S : Whole} (h : Agree g s S) {t : Ty} (a : Src t) :
    (a.arg s).IsValues g (a.values S) := by
  cases a with
  | array x => exact ⟨h.grid t x, h.arr t x⟩
  | scalar x => intro i j; exact (h.sc t x).symm

theorem not_onCycle {a0 a1 : Nat} {v : Arr Nat} (h : ∀ c, ¬ Relation.TransGen (Drains a0 a1 v) c c) (c : Cell) :
    ¬ Accu.OnCycle a0 a1 v c := fun ⟨u, _, hu⟩ => h u hu

theorem flowDirections {g : Grid} {s : State} {S : Whole} (h : Agree g s S) {isNoData : Nat → Bool} {fd : Nat}
    (hv : InflowCount.Valid isNoData g.a0 g.a1 (S.arr .code fd)) (hp : 2 ≤ g.p0 ∧ 2 ≤ g.p1) :
    Accu.FlowDirections isNoData (s.arr .code fd) (S.arr .code fd) := by
  refine ⟨h.arr .code fd, ?_, ?_, ?_⟩
  · rw [h.grid]; exact hp.1
  · rw [h.grid]; exact hp.2
  · rw [h.grid]; exact hv

/-- The cells of a partition are cells of the array. -/
theorem part_subperm {α : Type} {x : PArr α} {v : Arr α} (hx : Represents x v) {data : List α} (hd : data ∈ x.parts) :
    data.Subperm (cells x.grid v) := by
  have h1 : data.Subperm x.parts.flatten := (List.sublist_flatten_of_mem hd).subperm
  exact h1.trans hx.flatten_perm.subperm

open Classical in
/-- What an operation computes agrees with what it means, for all partitionings and schedules. -/
theorem op_simulates {g : Grid} (hg : g.Ok) {o : Op} (hn : o.need ≤ g.p0 ∧ o.need ≤ g.p1) {s : State} {S S' : Whole}
    (h : Agree g s S) (hm : o.Means g.a0 g.a1 S S') : Simulates g S' (o.Runs g s) := by
  have ord := isOrder_range (g.n0 * g.n1)
  have hgr := h.grid
  cases o with
  | fill t dst x =>
    simp only [Op.Means] at hm
    subst hm
    refine ⟨⟨_, rfl⟩, fun r hr => ⟨_, hr, h.setArr rfl ?_⟩⟩
    rw [h.sc]
    exact store_represents hg _
  | unary t u dst P f x =>
    simp only [Op.Means] at hm
    subst hm
    refine ⟨⟨_, fun _ => P.mark, _, ord, rfl⟩, ?_⟩
    rintro r ⟨garbage, order, ho, rfl⟩
    have := LocalOp.unary_spec P f garbage (h.arr t x) (order := order) (by rw [hgr]; exact ho)
    rw [hgr] at this
    exact simulates_arr h this
  | binary t₁ t₂ u dst P f x y =>
    simp only [Op.Means] at hm
    subst hm
    refine ⟨⟨_, fun _ => P.mark, _, ord, rfl⟩, ?_⟩
    rintro r ⟨garbage, order, ho, rfl⟩
    have := LocalOp.binary_spec P f garbage (h.arr t₁ x) (h.arr t₂ y) (by rw [hgr, hgr]) (order := order)
      (by rw [hgr]; exact ho)
    rw [hgr] at this
    exact simulates_arr h this
  | binaryAS t₁ t₂ u dst P f x y =>
    simp only [Op.Means] at hm
    subst hm
    refine ⟨⟨_, fun _ => P.mark, _, ord, rfl⟩, ?_⟩
    rintro r ⟨garbage, order, ho, rfl⟩
    have := LocalOp.binaryAS_spec P f garbage (h.arr t₁ x) (s.sc t₂ y) (order := order) (by rw [hgr]; exact ho)
    rw [hgr, h.sc] at this
    rw [h.sc]
    exact simulates_arr h this
  | binarySA t₁ t₂ u dst P f x y =>
    simp only [Op.Means] at hm
    subst hm
    refine ⟨⟨_, fun _ => P.mark, _, ord, rfl⟩, ?_⟩
    rintro r ⟨garbage, order, ho, rfl⟩
    have := LocalOp.binarySA_spec P f garbage (s.sc t₁ x) (h.arr t₂ y) (order := order) (by rw [hgr]; exact ho)
    rw [hgr, h.sc] at this
    rw [h.sc]
    exact simulates_arr h this
  | ternary t₁ t₂ t₃ u dst P f x y z =>
    simp only [Op.Means] at hm
    subst hm
    refine ⟨⟨_, fun _ => P.mark, _, ord, rfl⟩, ?_⟩
    rintro r ⟨garbage, order, ho, rfl⟩
    have := (LocalOp.ternary_spec P f garbage (h.arr t₁ x) (h.arr t₂ y) (h.arr t₃ z) (by rw [hgr, hgr]) (by rw [hgr, hgr])
      (S.arr t₂ y 0 0) (S.arr t₃ z 0 0) (order := order) (by rw [hgr]; exact ho)).1
    rw [hgr] at this
    exact simulates_arr h this
  | wher c t dst P truth x y z =>
    obtain ⟨hdp, rfl⟩ := hm
    refine ⟨⟨_, fun _ => P.mark, _, ord, rfl⟩, ?_⟩
    rintro r ⟨garbage, order, ho, rfl⟩
    have := (LocalOp.where_spec P hdp truth garbage (h.arr c x) (h.arr t y) (h.arr t z) (by rw [hgr, hgr])
      (by rw [hgr, hgr]) P.mark (order := order) (by rw [hgr]; exact ho)).1
    rw [hgr] at this
    exact simulates_arr h this
  | focal t u dst halo radius functor x =>
    obtain ⟨w, rfl, hw⟩ := hm
    refine ⟨⟨_, fun _ => halo.n, fun i => w i i, _, ord, rfl⟩, ?_⟩
    rintro r ⟨garbage, garbage', order, ho, rfl⟩
    have := Focal.focal1_spec halo garbage garbage' radius functor (h.arr t x)
      (by rw [hgr]; exact Focal.largeEnough hg _ hn) w (by rw [hgr]; exact hw) (order := order) (by rw [hgr]; exact ho)
    rw [hgr] at this
    exact simulates_arr h this
  | focal2 t₁ t₂ u dst halo₁ halo₂ radius functor x y =>
    obtain ⟨w, rfl, hw⟩ := hm
    refine ⟨⟨_, fun _ => halo₁.n, fun _ => halo₂.n, fun i => w i i, _, ord, rfl⟩, ?_⟩
    rintro r ⟨garbage, garbage', garbage'', order, ho, rfl⟩
    have := Focal.focal2_spec halo₁ halo₂ garbage garbage' garbage'' radius functor (h.arr t₁ x) (h.arr t₂ y)
      (by rw [hgr, hgr]) (by rw [hgr]; exact Focal.largeEnough hg _ hn) w (by rw [hgr]; exact hw) (order := order)
      (by rw [hgr]; exact ho)
    rw [hgr] at this
    exact simulates_arr h this
  | zonal z t u dst P Z x zones =>
    obtain ⟨⟨R, hR, hIs, hdet⟩, w, rfl, hw⟩ := hm
    refine ⟨⟨_, Classical.decEq _, fun m => m, fun _ => P.mark, _, _, fun m => List.Perm.refl m, ord, ord, rfl⟩, ?_⟩
    rintro r ⟨dec, iter, garbage, order1, order2, hi, ho1, ho2, rfl⟩
    obtain ⟨y, u', h1, h2, h3, h4⟩ := Zonal.zonalArray_spec P hR hi garbage (h.arr t x) (h.arr z zones) (by rw [hgr, hgr])
      (order1 := order1) (order2 := order2) (by rw [hgr]; exact ho1) (by rw [hgr]; exact ho2)
    rw [hgr] at h2
    refine simulates_arr h ⟨y, h1, h2, Represents.congr h3 fun i j hi' hj' => ?_⟩
    rw [h2] at hi' hj'
    have hwij := hw i j hi' hj'
    have h4' := h4 i j
    unfold Zonal.zoneValues at h4'
    rw [hgr] at h4'
    have hdd : ∀ c : Nat × Nat, @decide (S.arr z zones c.1 c.2 = S.arr z zones i j) (dec _ _) =
      @decide (S.arr z zones c.1 c.2 = S.arr z zones i j) (Classical.propDecidable _) := fun c => by congr
    simp only [hdd] at h4'
    simp only at hwij
    rcases h4' with ⟨e, e'⟩ | ⟨e, sv, e', e''⟩
    · rw [if_pos e] at hwij
      rw [e', hwij]
    · rw [if_neg e] at hwij
      rw [e'']
      exact hdet _ _ _ (hIs _ _ e') hwij
  | inflowCount dst isNoData mark fd =>
    obtain ⟨hv, rfl⟩ := hm
    refine ⟨⟨_, _, _, ord, ord, rfl⟩, ?_⟩
    rintro r ⟨order1, order2, ho1, ho2, rfl⟩
    have := InflowCount.inflowCount_spec (mark := mark) (h.arr .code fd) (by rw [hgr]; exact hn.1) (by rw [hgr]; exact hn.2)
      (by rw [hgr]; exact hv) (order1 := order1) (order2 := order2) (by rw [hgr]; exact ho1) (by rw [hgr]; exact ho2)
    rw [hgr] at this
    exact simulates_arr h this
  | accu dst isNoData within fd inflow =>
    obtain ⟨hv, hc, rfl⟩ := hm
    have hfd := flowDirections h hv hn
    have hin : (inflow.arg s).IsValues (s.arr .code fd).grid (inflow.values S) := by rw [hgr]; exact Src.isValues h inflow
    refine ⟨?_, ?_⟩
    · obtain ⟨y, hy⟩ := (Accu.accu_yields_iff (within := within) hfd hin).2 (by
        rintro ⟨u, c, _, ho, _⟩
        rw [hgr] at ho
        exact not_onCycle hc u ho)
      exact ⟨_, y, hy, rfl⟩
    · rintro r ⟨y, hy, rfl⟩
      obtain ⟨w, hw, hyg, hval⟩ := Accu.accu_correct hfd hin hy
      rw [hgr] at hyg
      simp only [hgr] at hval
      refine ⟨_, rfl, h.setArr hyg (Represents.congr hw fun i j hi hj => ?_)⟩
      rw [hyg] at hi hj
      exact hval i j hi hj (not_onCycle hc _)
  | split dst₁ dst₂ isNoData within rule fd inflow parameter =>
    obtain ⟨hv, hc, out, rem, rfl, hor⟩ := hm
    have hfd := flowDirections h hv hn
    have hin : (inflow.arg s).IsValues (s.arr .code fd).grid (inflow.values S) := by rw [hgr]; exact Src.isValues h inflow
    have hpa : (parameter.arg s).IsValues (s.arr .code fd).grid (parameter.values S) := by
      rw [hgr]; exact Src.isValues h parameter
    refine ⟨?_, ?_⟩
    · obtain ⟨y, y', hy⟩ := (Accu.split_yields_iff (within := within) (split := rule) hfd hin hpa).2 (by
        rintro ⟨u, c, _, ho, _⟩
        rw [hgr] at ho
        exact not_onCycle hc u ho)
      exact ⟨_, y, y', hy, rfl⟩
    · rintro r ⟨y, y', hy, rfl⟩
      obtain ⟨out', rem', ho', hr', hg1, hg2, hval⟩ := Accu.split_correct hfd hin hpa hy
      rw [hgr] at hg1 hg2
      simp only [hgr] at hval
      have key : ∀ c : Cell, Acc (Drains g.a0 g.a1 (S.arr .code fd)) c → c.1 < g.a0 → c.2 < g.a1 →
          out' c.1 c.2 = out c.1 c.2 ∧ rem' c.1 c.2 = rem c.1 c.2 := by
        intro c hacc
        induction hacc with
        | intro c _ ih =>
          intro hi hj
          obtain ⟨v1, v2, v3⟩ := hval c.1 c.2 hi hj (not_onCycle hc _)
          have hspec := hor c.1 c.2 hi hj
          by_cases hinv : ∃ u ∈ Accu.catchment g.a0 g.a1 (S.arr .code fd) (c.1, c.2),
            Accu.Invalid₂ isNoData within (S.arr .code fd) (inflow.values S) (parameter.values S) u
          · rw [if_pos hinv] at hspec
            rw [v1.2 hinv, v2.2 hinv, hspec.1, hspec.2]
            exact ⟨rfl, rfl⟩
          · rw [if_neg hinv] at hspec
            obtain ⟨a, p, e1, e2, e3, e4⟩ := hspec
            obtain ⟨o, hoe⟩ := Option.ne_none_iff_exists'.1 (fun e => hinv (v1.1 e))
            obtain ⟨q, hqe⟩ := Option.ne_none_iff_exists'.1 (fun e => hinv (v2.1 e))
            obtain ⟨a', p', f1, f2, _, f4⟩ := v3 o q hoe hqe
            have ea : a' = a := Option.some.inj (f1.symm.trans e1)
            have ep : p' = p := Option.some.inj (f2.symm.trans e2)
            subst ea ep
            have hsum : ∑ u ∈ Accu.inflowing g.a0 g.a1 (S.arr .code fd) (c.1, c.2), (out' u.1 u.2).getD 0 =
                ∑ u ∈ Accu.inflowing g.a0 g.a1 (S.arr .code fd) (c.1, c.2), (out u.1 u.2).getD 0 := by
              refine Finset.sum_congr rfl fun u hu => ?_
              have hD : Drains g.a0 g.a1 (S.arr .code fd) u c := Accu.mem_inflowing.1 hu
              rw [(ih u hD hD.1 hD.2.1).1]
            rw [hsum] at f4
            rw [hoe, hqe, e3, e4, ← f4]
            exact ⟨rfl, rfl⟩
      refine ⟨_, rfl, (h.setArr hg1 (Represents.congr ho' fun i j hi hj => ?_)).setArr hg2
        (Represents.congr hr' fun i j hi hj => ?_)⟩
      · rw [hg1] at hi hj
        exact (key (i, j) (Accu.acc_iff.2 (not_onCycle hc _)) hi hj).1
      · rw [hg2] at hi hj
        exact (key (i, j) (Accu.acc_iff.2 (not_onCycle hc _)) hi hj).2
  | aggregate t u dst A x =>
    obtain ⟨⟨hF, hP⟩, v, rfl, hno, hv⟩ := hm
    refine ⟨⟨_, _, ord, rfl⟩, ?_⟩
    rintro r ⟨order, ho, rfl⟩
    have hcells : cells (s.arr t x).grid (S.arr t x) = (cellIdxs g.a0 g.a1).map fun c => S.arr t x c.1 c.2 := by
      rw [hgr]; rfl
    obtain ⟨y, h1, h2, h3⟩ := Aggregate.aggregateArray_spec A.P A.F hF hP (h.arr t x) (by
      intro data hd y hy
      rw [Aggregate.fold1_total A.F hF] at hy
      refine hno _ ?_ y hy
      have := part_subperm (h.arr t x) hd
      rw [hcells] at this
      exact this.filter _) (order := order) (by rw [hgr]; exact ho)
    rw [hcells] at h2 h3
    have e : y = v := by
      by_cases hemp : Aggregate.validCells A.P ((cellIdxs g.a0 g.a1).map fun c => S.arr t x c.1 c.2) = []
      · rw [h2 hemp]
        unfold Aggregate.validCells at hemp
        rw [if_pos hemp] at hv
        exact hv.symm
      · have h3 := h3 hemp
        unfold Aggregate.validCells at hemp h3
        rw [if_neg hemp] at hv
        rw [hv] at h3
        exact (Option.some.inj h3).symm
    subst e
    refine ⟨_, by rw [h1]; rfl, h.setSc⟩
  | scalar t₁ t₂ u dst f x y =>
    simp only [Op.Means] at hm
    subst hm
    refine ⟨⟨_, rfl⟩, fun r hr => ⟨_, hr, ?_⟩⟩
    rw [h.sc, h.sc]
    exact h.setSc

end Lue.Program

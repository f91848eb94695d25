import Verif.Accu.Properties
import Mathlib.Tactic.Abel

/-! C20, C21: operations which split the material in a cell into outflow and remainder. -/
namespace Lue.Accu

open Lue.Routing Lue.InflowCount Lue.Router Relation

theorem Represents.map {α β : Type} {y : PArr α} {w : Arr α} (h : Represents y w) (g : α → β) :
    Represents ⟨y.grid, y.parts.map fun p => p.map g⟩ fun i j => g (w i j) := by
  refine ⟨h.ok, by simpa using h.nr_parts, ?_, ?_⟩
  · intro k0 k1 p h0 h1 hp
    simp only [List.getElem?_map, Option.map_eq_some_iff] at hp
    obtain ⟨q, hq, rfl⟩ := hp
    simpa using h.part_size k0 k1 q h0 h1 hq
  · intro i j k0 k1 l0 l1 hc
    have := h.elem i j k0 k1 l0 l1 hc
    unfold PArr.elem? at this ⊢
    simp only [List.getElem?_map]
    cases hp : y.parts[k0 * y.grid.n1 + k1]? with
    | none => rw [hp] at this; simp at this
    | some p => rw [hp] at this; simp at this ⊢; rw [this]; exact ⟨_, rfl, rfl⟩

variable {K : Type} {isNoData : Nat → Bool} {fd : PArr Nat} {v : Arr Nat}

section
variable [Zero K] [Add K] {within : K → K → Bool} {split : K → K → K × K} {inflow parameter : Arg (Option K)}
variable {f q : Arr (Option K)}

theorem split_setup (hfd : FlowDirections isNoData fd v) (hin : inflow.IsValues fd.grid f)
    (hpa : parameter.IsValues fd.grid q) :
    Setup (splitCells within split inflow parameter) isNoData
      (fun c s => splitEnterCell within split (f c.1 c.2) (q c.1 c.2) s) fd.grid v where
  ok := hfd.represents.ok
  two0 := hfd.two0
  two1 := hfd.two1
  valid := hfd.valid
  leave := fun _ _ => rfl
  enter := fun k0 k1 c s h0 h1 hc => by
    simp only [splitCells]
    rw [toValue_ok hin h0 h1 hc, M.bind_ok, toValue_ok hpa h0 h1 hc, M.bind_ok]
    rfl

end

section
variable [AddCommMonoid K] {within : K → K → Bool} {split : K → K → K × K} {inflow parameter : Arg (Option K)}
variable {f q : Arr (Option K)}

/-- The arrival of material: the remainder stays at zero. -/
theorem split_acc_eq (val : Cell → Option K) (us : List Cell) :
    ∀ r, r = us.foldl (fun s u => splitEnterInter (val u) s) ((some 0, some 0) : Option K × Option K) →
      wt r.1 = (us.map fun u => wt (val u)).sum ∧ r.2 = r.1.map fun _ => 0 := by
  induction us using List.reverseRecOn with
  | nil => rintro r rfl; exact ⟨rfl, rfl⟩
  | append_singleton us u ih =>
    rintro r rfl
    rw [List.foldl_append, List.foldl_cons, List.foldl_nil]
    obtain ⟨h1, h2⟩ := ih _ rfl
    revert h1 h2
    generalize us.foldl (fun s u => splitEnterInter (val u) s) ((some 0, some 0) : Option K × Option K) = s
    rintro h1 h2
    rw [List.map_append, List.sum_append, ← h1]
    rcases s with ⟨s1, s2⟩
    simp only at h2
    subst h2
    cases s1 with
    | none => simp [splitEnterInter, wt]
    | some a => cases hv : val u <;> simp [splitEnterInter, hv, wt]

open Classical in
theorem split_equation {w : Arr (Option K × Option K)} {c : Cell}
    (h : IsSolutionAt (net (splitCells within split inflow parameter) isNoData
      (fun c s => splitEnterCell within split (f c.1 c.2) (q c.1 c.2) s) fd.grid.a0 fd.grid.a1 v) (fun c => w c.1 c.2) c) :
    (if Invalid₂ isNoData within v f q c ∨ ∃ u ∈ inflowing fd.grid.a0 fd.grid.a1 v c, (w u.1 u.2).1 = none
      then w c.1 c.2 = (none, none)
      else ∃ x p, f c.1 c.2 = some x ∧ q c.1 c.2 = some p ∧ within x p = true ∧
        w c.1 c.2 = (some (split p ((∑ u ∈ inflowing fd.grid.a0 fd.grid.a1 v c, (w u.1 u.2).1.getD 0) + x)).1,
          some (split p ((∑ u ∈ inflowing fd.grid.a0 fd.grid.a1 v c, (w u.1 u.2).1.getD 0) + x)).2)) := by
  obtain ⟨us, hn, hm, hv⟩ := h
  have hset : inflowing fd.grid.a0 fd.grid.a1 v c = us.toFinset := by
    ext u; rw [mem_inflowing, List.mem_toFinset, hm]; rfl
  obtain ⟨h1, h2⟩ := split_acc_eq (fun u => (w u.1 u.2).1) us _ rfl
  have hacc : ((net (splitCells within split inflow parameter) isNoData
      (fun c s => splitEnterCell within split (f c.1 c.2) (q c.1 c.2) s) fd.grid.a0 fd.grid.a1 v).acc
      (fun c => w c.1 c.2) us) = us.foldl (fun s u => splitEnterInter ((w u.1 u.2).1) s)
        ((some 0, some 0) : Option K × Option K) := rfl
  rw [hacc] at hv
  revert h1 h2 hv
  generalize us.foldl (fun s u => splitEnterInter ((w u.1 u.2).1) s) ((some 0, some 0) : Option K × Option K) = s
  intro hv h1 h2
  rw [← List.sum_toFinset (fun u : Cell => wt (w u.1 u.2).1) hn, ← hset,
    ← wt_total _ (fun u : Cell => (w u.1 u.2).1)] at h1
  replace h1 := wt_inj h1
  rcases s with ⟨s1, s2⟩
  simp only at h1 h2 hv
  subst h2
  simp only [net, splitCells] at hv
  unfold Invalid₂
  cases hnd : isNoData (v c.1 c.2)
  · simp only [Bool.false_eq_true, false_or]
    rw [hnd] at hv
    simp only [Bool.false_eq_true, if_false] at hv
    unfold total at h1
    by_cases hex : ∃ u ∈ inflowing fd.grid.a0 fd.grid.a1 v c, (w u.1 u.2).1 = none
    · rw [if_pos hex] at h1
      subst h1
      rw [if_pos (Or.inr hex), hv]
      rfl
    · rw [if_neg hex] at h1
      subst h1
      cases hf : f c.1 c.2 with
      | none =>
        rw [if_pos (Or.inl (by simp)), hv, hf]
        rfl
      | some x =>
        cases hq : q c.1 c.2 with
        | none =>
          rw [if_pos (Or.inl (by simp)), hv, hf, hq]
          rfl
        | some p =>
          cases hwi : within x p
          · rw [if_pos (Or.inl (by simp [hwi])), hv, hf, hq]
            simp [splitEnterCell, hwi]
          · rw [if_neg (by simp only [not_or]; exact ⟨by simp [hwi], hex⟩)]
            refine ⟨x, p, rfl, rfl, hwi, ?_⟩
            rw [hv, hf, hq]
            simp [splitEnterCell, hwi]
  · rw [if_pos (by simp), hv, hnd]
    rfl

end

section
variable [AddCommMonoid K] {within : K → K → Bool} {split : K → K → K × K} {inflow parameter : Arg (Option K)}
variable {f q : Arr (Option K)} {outflow remainder : PArr (Option K)}

/-- What holds in each cell: both results are no-data if and only if some cell in the catchment is not valid. Otherwise the
outflow and the remainder are the ones obtained by splitting the sum of the external inflow and the outflow of the cells
draining into the cell. -/
theorem split_correct (hfd : FlowDirections isNoData fd v) (hin : inflow.IsValues fd.grid f)
    (hpa : parameter.IsValues fd.grid q) (hy : SplitYields within split isNoData fd inflow parameter outflow remainder) :
    ∃ out rem : Arr (Option K), Represents outflow out ∧ Represents remainder rem ∧ outflow.grid = fd.grid ∧
      remainder.grid = fd.grid ∧
      ∀ i j, i < fd.grid.a0 → j < fd.grid.a1 → ¬ OnCycle fd.grid.a0 fd.grid.a1 v (i, j) →
        (out i j = none ↔ ∃ u ∈ catchment fd.grid.a0 fd.grid.a1 v (i, j), Invalid₂ isNoData within v f q u) ∧
        (rem i j = none ↔ ∃ u ∈ catchment fd.grid.a0 fd.grid.a1 v (i, j), Invalid₂ isNoData within v f q u) ∧
        ∀ o r, out i j = some o → rem i j = some r → ∃ x p, f i j = some x ∧ q i j = some p ∧ within x p = true ∧
          (o, r) = split p ((∑ u ∈ inflowing fd.grid.a0 fd.grid.a1 v (i, j), (out u.1 u.2).getD 0) + x) := by
  classical
  obtain ⟨_, _, y, hy, rfl, rfl⟩ := hy
  obtain ⟨hg, w, hw, h1, _⟩ := routed_result hfd.represents (split_setup hfd hin hpa) hy
  refine ⟨_, _, Represents.map hw _, Represents.map hw _, hg, hg, fun i j hi hj hc => ?_⟩
  have hnone : ∀ c : Cell, c ∈ allCells fd.grid.a0 fd.grid.a1 → Acc (Drains fd.grid.a0 fd.grid.a1 v) c →
      (((w c.1 c.2).1 = none ↔ ∃ u ∈ catchment fd.grid.a0 fd.grid.a1 v c, Invalid₂ isNoData within v f q u) ∧
      ((w c.1 c.2).2 = none ↔ ∃ u ∈ catchment fd.grid.a0 fd.grid.a1 v c, Invalid₂ isNoData within v f q u)) := by
    intro c hcell hacc
    induction hacc with
    | intro c hacc ih =>
      have hb := mem_allCells.1 hcell
      have heq := split_equation (h1 c.1 c.2 hb.1 hb.2 (acc_iff.1 (Acc.intro c hacc)))
      have hex : (∃ u ∈ catchment fd.grid.a0 fd.grid.a1 v c, Invalid₂ isNoData within v f q u) ↔
          (Invalid₂ isNoData within v f q c ∨ ∃ u ∈ inflowing fd.grid.a0 fd.grid.a1 v c, (w u.1 u.2).1 = none) := by
        rw [catchment_eq hcell]
        simp only [Finset.mem_insert, Finset.mem_biUnion]
        constructor
        · rintro ⟨u, rfl | ⟨u', h2, h3⟩, h4⟩
          · exact Or.inl h4
          · have hD := mem_inflowing.1 h2
            exact Or.inr ⟨u', h2, (ih u' hD (mem_allCells.2 ⟨hD.1, hD.2.1⟩)).1.2 ⟨u, h3, h4⟩⟩
        · rintro (h2 | ⟨u, h2, h3⟩)
          · exact ⟨c, Or.inl rfl, h2⟩
          · have hD := mem_inflowing.1 h2
            obtain ⟨u', h4, h5⟩ := (ih u hD (mem_allCells.2 ⟨hD.1, hD.2.1⟩)).1.1 h3
            exact ⟨u', Or.inr ⟨u, h2, h4⟩, h5⟩
      rw [hex]
      split_ifs at heq with hif
      · simp only at heq hif
        rw [heq]; exact ⟨iff_of_true rfl hif, iff_of_true rfl hif⟩
      · obtain ⟨x, p, _, _, _, h5⟩ := heq
        simp only at h5 hif
        rw [h5]; exact ⟨iff_of_false (by simp) hif, iff_of_false (by simp) hif⟩
  obtain ⟨n1, n2⟩ := hnone (i, j) (mem_allCells.2 ⟨hi, hj⟩) (acc_iff.2 hc)
  refine ⟨n1, n2, fun o r ho hr => ?_⟩
  have heq := split_equation (h1 i j hi hj hc)
  split_ifs at heq with hif
  · simp only at heq ho; rw [heq] at ho; simp at ho
  · obtain ⟨x, p, h2, h3, h4, h5⟩ := heq
    refine ⟨x, p, h2, h3, h4, ?_⟩
    simp only at h5 ho hr
    rw [h5] at ho hr
    simp only [Option.some.injEq] at ho hr
    rw [← ho, ← hr]

/-- The outcome does not depend on the schedule. -/
theorem split_unique (hfd : FlowDirections isNoData fd v) (hin : inflow.IsValues fd.grid f)
    (hpa : parameter.IsValues fd.grid q) {outflow' remainder' : PArr (Option K)}
    (hy : SplitYields within split isNoData fd inflow parameter outflow remainder)
    (hy' : SplitYields within split isNoData fd inflow parameter outflow' remainder') :
    outflow = outflow' ∧ remainder = remainder' := by
  obtain ⟨_, _, y, hy, rfl, rfl⟩ := hy
  obtain ⟨_, _, y', hy', rfl, rfl⟩ := hy'
  have := routed_unique hfd.represents (split_setup hfd hin hpa) (by
    intro x y s
    show splitEnterInter x (splitEnterInter y s) = splitEnterInter y (splitEnterInter x s)
    rcases s with ⟨s1, s2⟩
    cases s1 <;> cases x <;> cases y <;> simp [splitEnterInter, add_right_comm]) hy hy'
  subst this
  exact ⟨rfl, rfl⟩

/-- There is an outcome if and only if no cycle crosses a border between partitions. -/
theorem split_yields_iff (hfd : FlowDirections isNoData fd v) (hin : inflow.IsValues fd.grid f)
    (hpa : parameter.IsValues fd.grid q) :
    (∃ outflow remainder, SplitYields within split isNoData fd inflow parameter outflow remainder) ↔
      ¬ CycleCrossesBorder fd v := by
  rw [← routed_iff hfd.represents (split_setup (within := within) (split := split) hfd hin hpa)]
  constructor
  · rintro ⟨_, _, _, _, y, hy, _⟩; exact ⟨y, hy⟩
  · rintro ⟨y, hy⟩; exact ⟨_, _, hin.compatible, hpa.compatible, y, hy, rfl, rfl⟩

end

/-! ### Conservation of mass -/

section
variable [AddCommGroup K] {within : K → K → Bool} {split : K → K → K × K} {inflow parameter : Arg (Option K)}
variable {f q : Arr (Option K)} {outflow remainder : PArr (Option K)}

open Classical in
/-- Summing over a set of cells which contains all cells upstream of its cells: all outflow enters another cell of the set,
unless there is no such cell. -/
theorem sum_inflowing {a0 a1 : Nat} {o : Cell → K} {V : Finset Cell}
    (hV : ∀ u c, c ∈ V → Drains a0 a1 v u c → u ∈ V) :
    ∑ c ∈ V, ∑ u ∈ inflowing a0 a1 v c, o u = ∑ u ∈ V.filter (fun u => ∃ c ∈ V, Drains a0 a1 v u c), o u := by
  rw [← Finset.sum_biUnion]
  · refine Finset.sum_congr ?_ fun _ _ => rfl
    ext u
    simp only [Finset.mem_biUnion, mem_inflowing, Finset.mem_filter]
    exact ⟨fun ⟨c, h1, h2⟩ => ⟨hV u c h1 h2, c, h1, h2⟩, fun ⟨_, c, h1, h2⟩ => ⟨c, h1, h2⟩⟩
  · intro c _ c' _ hne
    show Disjoint (inflowing a0 a1 v c) (inflowing a0 a1 v c')
    rw [Finset.disjoint_left]
    intro u hu hu'
    exact hne ((mem_inflowing.1 hu).unique (mem_inflowing.1 hu'))

open Classical in
/-- C21: mass is conserved. In each cell outflow and remainder add up to the external inflow and the inflow from upstream.
In the set of cells with a valid result the external inflow equals the sum of the remainders plus the outflow of the
cells which do not drain into a cell in this set. -/
theorem split_conserves (hfd : FlowDirections isNoData fd v) (hin : inflow.IsValues fd.grid f)
    (hpa : parameter.IsValues fd.grid q) (hy : SplitYields within split isNoData fd inflow parameter outflow remainder)
    (hsplit : ∀ p a, (split p a).1 + (split p a).2 = a) :
    ∃ out rem : Arr (Option K), Represents outflow out ∧ Represents remainder rem ∧
      (∀ i j, i < fd.grid.a0 → j < fd.grid.a1 → ¬ OnCycle fd.grid.a0 fd.grid.a1 v (i, j) →
        ∀ o r, out i j = some o → rem i j = some r → ∃ x, f i j = some x ∧
          o + r = x + ∑ u ∈ inflowing fd.grid.a0 fd.grid.a1 v (i, j), (out u.1 u.2).getD 0) ∧
      ∀ V : Finset Cell, V = (allCells fd.grid.a0 fd.grid.a1).filter
          (fun c => ¬ OnCycle fd.grid.a0 fd.grid.a1 v c ∧ out c.1 c.2 ≠ none) →
        ∑ c ∈ V, (f c.1 c.2).getD 0 = ∑ c ∈ V, (rem c.1 c.2).getD 0 +
          ∑ c ∈ V.filter (fun u => ¬ ∃ c ∈ V, Drains fd.grid.a0 fd.grid.a1 v u c), (out c.1 c.2).getD 0 := by
  obtain ⟨out, rem, h1, h2, _, _, h3⟩ := split_correct hfd hin hpa hy
  refine ⟨out, rem, h1, h2, fun i j hi hj hc o r ho hr => ?_, fun V hVe => ?_⟩
  · obtain ⟨x, p, e1, _, _, e2⟩ := (h3 i j hi hj hc).2.2 o r ho hr
    refine ⟨x, e1, ?_⟩
    have := hsplit p ((∑ u ∈ inflowing fd.grid.a0 fd.grid.a1 v (i, j), (out u.1 u.2).getD 0) + x)
    rw [← e2] at this
    simp only at this
    rw [this, add_comm]
  · have hmem : ∀ c, c ∈ V ↔ c ∈ allCells fd.grid.a0 fd.grid.a1 ∧ ¬ OnCycle fd.grid.a0 fd.grid.a1 v c ∧
        out c.1 c.2 ≠ none := by intro c; rw [hVe, Finset.mem_filter]
    have hV : ∀ u c, c ∈ V → Drains fd.grid.a0 fd.grid.a1 v u c → u ∈ V := by
      intro u c hc hD
      obtain ⟨b1, b2, b3⟩ := (hmem c).1 hc
      have b4 : u ∈ allCells fd.grid.a0 fd.grid.a1 := mem_allCells.2 ⟨hD.1, hD.2.1⟩
      have b5 : ¬ OnCycle fd.grid.a0 fd.grid.a1 v u := by
        rintro ⟨t, ht, htt⟩; exact b2 ⟨t, ht.tail hD, htt⟩
      refine (hmem u).2 ⟨b4, b5, fun hn => b3 ?_⟩
      obtain ⟨t, t1, t2⟩ := ((h3 u.1 u.2 hD.1 hD.2.1 b5).1).1 hn
      refine ((h3 c.1 c.2 hD.2.2.1 hD.2.2.2.1 b2).1).2 ⟨t, ?_, t2⟩
      exact (mem_catchment b1).2 (((mem_catchment b4).1 t1).tail hD)
    have hcell : ∀ c ∈ V, (f c.1 c.2).getD 0 + ∑ u ∈ inflowing fd.grid.a0 fd.grid.a1 v c, (out u.1 u.2).getD 0 =
        (out c.1 c.2).getD 0 + (rem c.1 c.2).getD 0 := by
      intro c hc
      obtain ⟨b1, b2, b3⟩ := (hmem c).1 hc
      have b1 := mem_allCells.1 b1
      obtain ⟨e1, e2, e3⟩ := h3 c.1 c.2 b1.1 b1.2 b2
      cases ho : out c.1 c.2 with
      | none => exact absurd ho b3
      | some o =>
        cases hr : rem c.1 c.2 with
        | none => exact absurd (e1.2 (e2.1 hr)) b3
        | some r =>
          obtain ⟨x, p, e4, _, _, e5⟩ := e3 o r ho hr
          have := hsplit p ((∑ u ∈ inflowing fd.grid.a0 fd.grid.a1 v c, (out u.1 u.2).getD 0) + x)
          rw [e4]
          rw [← e5] at this
          simp only [Option.getD_some] at this ⊢
          rw [this, add_comm]
    have hsum := Finset.sum_congr rfl hcell
    rw [Finset.sum_add_distrib, Finset.sum_add_distrib, sum_inflowing (o := fun u => (out u.1 u.2).getD 0) hV,
      ← Finset.sum_filter_add_sum_filter_not V (fun u => ∃ c ∈ V, Drains fd.grid.a0 fd.grid.a1 v u c)
        (fun c => (out c.1 c.2).getD 0)] at hsum
    have := congrArg (fun z => z - ∑ u ∈ V.filter (fun u => ∃ c ∈ V, Drains fd.grid.a0 fd.grid.a1 v u c),
      (out u.1 u.2).getD 0) hsum
    simp only [add_sub_cancel_right] at this
    rw [this]
    abel

end

end Lue.Accu

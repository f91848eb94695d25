import Verif.Zonal.Model
import Mathlib.Algebra.BigOperators.Group.List.Basic
import Mathlib.Data.List.Dedup

/-!
C10: zonal statistics are computed over the whole zone, whatever the partitioning.
-/
namespace Lue.Zonal

variable {Z α σ ω : Type} [DecidableEq Z]

/-! ### Specification -/

/-- The values of the cells in zone `z` which take part: zone and value are valid and within the domain. -/
def zoneValues (P : Policies Z α ω) (g : Grid) (v : Arr α) (w : Arr Z) (z : Z) : List α :=
  ((cellIdxs g.a0 g.a1).filter fun c => decide (w c.1 c.2 = z) && !P.indp1 (v c.1 c.2) && !P.indp2 z && P.dp z (v c.1 c.2)).map
    fun c => v c.1 c.2

/-- Statistic `s` of an aggregator summarises values: relation `R` is maintained by the operations of the aggregator,
and does not depend on the order of the values. -/
structure Summarises (G : Aggregator α σ ω) (R : List α → σ → Prop) : Prop where
  add_none : ∀ x, R [x] (G.add none x)
  add_some : ∀ l s x, R l s → R (l ++ [x]) (G.add (some s) x)
  merge_none : ∀ l s, R l s → R l (G.merge none s)
  merge_some : ∀ l s m t, R l s → R m t → R (l ++ m) (G.merge (some s) t)
  perm : ∀ l m s, R l s → l.Perm m → R m s

/-! ### Proof -/

def valuesOf (z : Z) (vals : List (Z × α)) : List α := (vals.filter fun e => e.1 = z).map Prod.snd

/-- The map holds the statistics of a list of zones and values. -/
def Holds (R : List α → σ → Prop) (m : AMap Z σ) (vals : List (Z × α)) : Prop :=
  m.Ok ∧ ∀ z, (valuesOf z vals = [] ∧ m.get z = none) ∨
    (valuesOf z vals ≠ [] ∧ ∃ s, m.get z = some s ∧ R (valuesOf z vals) s)

theorem valuesOf_append (z : Z) (l m : List (Z × α)) : valuesOf z (l ++ m) = valuesOf z l ++ valuesOf z m := by
  simp [valuesOf]

theorem holds_add {G : Aggregator α σ ω} {R : List α → σ → Prop} (hG : Summarises G R) {m : AMap Z σ}
    {vals : List (Z × α)} (h : Holds R m vals) (z : Z) (x : α) :
    Holds R (m.put z (G.add (m.get z) x)) (vals ++ [(z, x)]) := by
  refine ⟨h.1.put _ _, fun z' => ?_⟩
  rw [valuesOf_append, AMap.get_put]
  by_cases hz : z = z'
  · subst hz
    right
    have e : valuesOf z [(z, x)] = [x] := by simp [valuesOf]
    rw [e]
    refine ⟨by simp, _, if_pos rfl, ?_⟩
    rcases h.2 z with ⟨h1, h2⟩ | ⟨h1, s, h2, h3⟩
    · rw [h1, h2]; exact hG.add_none x
    · rw [h2]; exact hG.add_some _ _ _ h3
  · have e : valuesOf z' [(z, x)] = [] := by simp [valuesOf, hz]
    simp only [e, List.append_nil, hz, if_false]
    exact h.2 z'

theorem holds_merge {G : Aggregator α σ ω} {R : List α → σ → Prop} (hG : Summarises G R)
    {iter : AMap Z σ → AMap Z σ} (hi : IsIter iter) {m other : AMap Z σ}
    {vals vals' : List (Z × α)} (h : Holds R m vals) (h' : Holds R other vals') :
    Holds R (mergeInto G iter m other) (vals ++ vals') := by
  have hok : (iter other).Ok := h'.1.perm (hi other)
  refine ⟨AMap.ok_foldl_put _ _ _ h.1, fun z => ?_⟩
  unfold mergeInto
  rw [AMap.get_foldl_put G.merge _ hok, AMap.get_perm h'.1 (hi other), valuesOf_append]
  rcases h'.2 z with ⟨h1, h2⟩ | ⟨h1, s, h2, h3⟩
  · rw [h1, h2, List.append_nil]; exact h.2 z
  · rw [h2]
    right
    refine ⟨by simp [h1], _, rfl, ?_⟩
    rcases h.2 z with ⟨g1, g2⟩ | ⟨g1, t, g2, g3⟩
    · rw [g1, g2]; exact hG.merge_none _ _ h3
    · rw [g2]; exact hG.merge_some _ _ _ _ g3 h3

theorem holds_mergeAll {G : Aggregator α σ ω} {R : List α → σ → Prop} (hG : Summarises G R)
    {iter : AMap Z σ → AMap Z σ} (hi : IsIter iter) (n : Nat) (ms : Nat → AMap Z σ) (valss : Nat → List (Z × α))
    (h : ∀ k < n, Holds R (ms k) (valss k)) :
    Holds R (mergeAll G iter ((List.range n).map ms)) ((List.range n).flatMap valss) := by
  induction n with
  | zero => exact ⟨AMap.ok_nil, fun z => .inl ⟨rfl, rfl⟩⟩
  | succ n ih =>
    rw [List.range_succ, List.map_append, List.flatMap_append, mergeAll, List.foldl_append]
    simp only [List.map_cons, List.map_nil, List.foldl_cons, List.foldl_nil, List.flatMap_cons, List.flatMap_nil,
      List.append_nil]
    exact holds_merge hG hi (ih fun k hk => h k (by omega)) (h n (by omega))

/-- The pairs which take part, given indices of cells. -/
def pairs (P : Policies Z α ω) (v : Arr α) (w : Arr Z) (l : List (Nat × Nat)) : List (Z × α) :=
  (l.filter fun c => !P.indp1 (v c.1 c.2) && !P.indp2 (w c.1 c.2) && P.dp (w c.1 c.2) (v c.1 c.2)).map
    fun c => (w c.1 c.2, v c.1 c.2)

theorem pairs_append (P : Policies Z α ω) (v : Arr α) (w : Arr Z) (l m : List (Nat × Nat)) :
    pairs P v w (l ++ m) = pairs P v w l ++ pairs P v w m := by simp [pairs]

theorem zonalPartition_holds (P : Policies Z α ω) {G : Aggregator α σ ω} {R : List α → σ → Prop}
    (hG : Summarises G R) (v : Arr α) (w : Arr Z) (l : List (Nat × Nat)) :
    ∃ m, zonalPartition P G (l.map fun c => v c.1 c.2) (l.map fun c => w c.1 c.2) = .ok m ∧
      Holds R m (pairs P v w l) := by
  have key : ∀ n ≤ l.length, ∃ m, forLoop n (fun i (m : AMap Z σ) => do
      let x ← rd (l.map fun c => v c.1 c.2) i
      let z ← rd (l.map fun c => w c.1 c.2) i
      if !P.indp1 x && !P.indp2 z then
        if P.dp z x then .ok (m.put z (G.add (m.get z) x)) else .ok m
      else .ok m) [] = .ok m ∧ Holds R m (pairs P v w (l.take n)) := by
    intro n
    induction n with
    | zero => intro _; exact ⟨[], rfl, AMap.ok_nil, fun z => .inl ⟨rfl, rfl⟩⟩
    | succ n ih =>
      intro hn
      obtain ⟨m, he, hm⟩ := ih (by omega)
      have e1 : (l.map fun c => v c.1 c.2)[n]? = some (v l[n].1 l[n].2) := by simp [show n < l.length by omega]
      have e2 : (l.map fun c => w c.1 c.2)[n]? = some (w l[n].1 l[n].2) := by simp [show n < l.length by omega]
      have e3 : l.take (n + 1) = l.take n ++ [l[n]] := List.take_succ_eq_append_getElem (by omega)
      unfold forLoop at he ⊢
      rw [List.range_succ, List.foldlM_append, he, e3, pairs_append]
      simp only [M.bind_ok, List.foldlM_cons, List.foldlM_nil, rd_ok e1, rd_ok e2]
      by_cases h1 : P.indp1 (v l[n].1 l[n].2) <;> by_cases h2 : P.indp2 (w l[n].1 l[n].2) <;>
        by_cases h3 : P.dp (w l[n].1 l[n].2) (v l[n].1 l[n].2) <;>
        simp only [h1, h2, h3, pairs, List.filter_cons, List.filter_nil, Bool.not_true, Bool.not_false, Bool.and_true,
          Bool.and_false, Bool.and_self, Bool.false_eq_true, if_true, if_false, List.map_nil, List.append_nil,
          List.map_cons] <;>
        first
          | exact ⟨m, rfl, hm⟩
          | exact ⟨_, rfl, holds_add hG hm _ _⟩
  obtain ⟨m, h1, h2⟩ := key l.length (Nat.le_refl _)
  rw [List.take_length] at h2
  exact ⟨m, by unfold zonalPartition; rw [List.length_map]; exact h1, h2⟩

theorem valuesOf_pairs (P : Policies Z α ω) (g : Grid) (v : Arr α) (w : Arr Z) (z : Z) :
    valuesOf z (pairs P v w (cellIdxs g.a0 g.a1)) = zoneValues P g v w z := by
  unfold valuesOf pairs zoneValues
  rw [List.filter_map, List.map_map, List.filter_filter]
  congr 1
  apply List.filter_congr
  intro c _
  simp only [Function.comp]
  by_cases h : w c.1 c.2 = z
  · subst h; simp
  · simp [h]

theorem valuesOf_perm {l m : List (Z × α)} (h : l.Perm m) (z : Z) : (valuesOf z l).Perm (valuesOf z m) :=
  (h.filter _).map _

theorem zonalPartition2_spec (P : Policies Z α ω) (G : Aggregator α σ ω) (garbage : Nat → ω) (m : AMap Z σ)
    (zones : List Z) : ∃ r, zonalPartition2 P G garbage m zones = .ok r ∧ r.length = zones.length ∧
      ∀ (i : Nat) z, zones[i]? = some z → r[i]? = some (match m.get z with | none => P.mark | some s => G.value s) := by
  let val : Nat → ω := fun i =>
    match zones[i]? with
    | some z => (match m.get z with | none => P.mark | some s => G.value s)
    | none => P.mark
  refine ⟨(List.range zones.length).map val, ?_, by simp, ?_⟩
  · unfold zonalPartition2
    refine forLoop_write val _ ?_ _ (by simp [uninitialised])
    intro i hi out ho
    have hz : zones[i]? = some zones[i] := List.getElem?_eq_getElem hi
    simp only [rd_ok hz, M.bind_ok, val, hz]
    cases m.get zones[i] <;> simp only [wr_ok _ (show i < out.length by omega)]
  · intro i z hz
    have hi := (List.getElem?_eq_some_iff.mp hz).1
    simp only [List.getElem?_map, List.getElem?_range hi, Option.map_some, val, hz]

/-- The tail of the operation: given the statistics of the whole array, each cell gets the statistic of its zone. -/
theorem zonal_finish (P : Policies Z α ω) {G : Aggregator α σ ω} {R : List α → σ → Prop} (hG : Summarises G R)
    (garbage : Nat → ω) {z : PArr Z} {v : Arr α} {w : Arr Z} (hz : Represents z w)
    {order : List Nat} (ho : IsOrder (z.grid.n0 * z.grid.n1) order) {m : AMap Z σ}
    (hm : Holds R m ((List.range (z.grid.n0 * z.grid.n1)).flatMap fun k => pairs P v w (partIdxs z.grid k))) :
    ∃ parts u, runTasks (z.grid.n0 * z.grid.n1) (fun k => do zonalPartition2 P G garbage m (← rd z.parts k)) order
        = .ok parts ∧ Represents ⟨z.grid, parts⟩ u ∧
      ∀ i j, (zoneValues P z.grid v w (w i j) = [] ∧ u i j = P.mark) ∨
        (zoneValues P z.grid v w (w i j) ≠ [] ∧
          ∃ s, R (zoneValues P z.grid v w (w i j)) s ∧ u i j = G.value s) := by
  obtain ⟨parts, h1, h2⟩ := runTasks_represents hz.ok ho
    (task := fun k => do zonalPartition2 P G garbage m (← rd z.parts k))
    (w := fun i j => match m.get (w i j) with | none => P.mark | some s => G.value s) (by
      intro k0 k1 h0 h1
      obtain ⟨p, hpk, hlen, hv⟩ := hz.part h0 h1
      obtain ⟨r, hr, hrl, hre⟩ := zonalPartition2_spec P G garbage m p
      refine ⟨r, ?_, by omega, fun l0 l1 hl0 hl1 => hre _ _ (hv l0 l1 hl0 hl1)⟩
      simp only [rd_ok hpk, M.bind_ok, hr])
  refine ⟨parts, _, h1, h2, fun i j => ?_⟩
  have hperm : (valuesOf (w i j) ((List.range (z.grid.n0 * z.grid.n1)).flatMap fun k => pairs P v w (partIdxs z.grid k))).Perm
      (zoneValues P z.grid v w (w i j)) := by
    rw [← valuesOf_pairs]
    apply valuesOf_perm
    have e : ((List.range (z.grid.n0 * z.grid.n1)).flatMap fun k => pairs P v w (partIdxs z.grid k)) =
        pairs P v w ((List.range (z.grid.n0 * z.grid.n1)).flatMap (partIdxs z.grid)) := by
      generalize List.range (z.grid.n0 * z.grid.n1) = l
      induction l with
      | nil => rfl
      | cons a l ih => rw [List.flatMap_cons, List.flatMap_cons, pairs_append, ih]
    rw [e]
    exact ((partIdxs_perm hz.ok).filter _).map _
  rcases hm.2 (w i j) with ⟨h3, h4⟩ | ⟨h3, s, h4, h5⟩
  · left
    refine ⟨?_, by simp only [h4]⟩
    rw [h3] at hperm
    exact (List.nil_perm.mp hperm)
  · right
    refine ⟨?_, s, hG.perm _ _ _ h5 hperm, by simp only [h4]⟩
    intro h6
    rw [h6] at hperm
    exact h3 (List.perm_nil.mp hperm)

/-- C10, for all aggregators: each cell gets the statistic of the values of its zone in the whole array, or no-data if
there are no such values. For all partitionings, orders of completion, and orders of iteration. -/
theorem zonalArray_spec (P : Policies Z α ω) {G : Aggregator α σ ω} {R : List α → σ → Prop} (hG : Summarises G R)
    {iter : AMap Z σ → AMap Z σ} (hi : IsIter iter) (garbage : Nat → ω) {x : PArr α} {z : PArr Z} {v : Arr α}
    {w : Arr Z} (hx : Represents x v) (hz : Represents z w) (hg : x.grid = z.grid)
    {order1 order2 : List Nat} (ho1 : IsOrder (z.grid.n0 * z.grid.n1) order1)
    (ho2 : IsOrder (z.grid.n0 * z.grid.n1) order2) :
    ∃ r u, zonalArray P G iter garbage order1 order2 x z = .ok r ∧ r.grid = z.grid ∧ Represents r u ∧
      ∀ i j, (zoneValues P z.grid v w (w i j) = [] ∧ u i j = P.mark) ∨
        (zoneValues P z.grid v w (w i j) ≠ [] ∧
          ∃ s, R (zoneValues P z.grid v w (w i j)) s ∧ u i j = G.value s) := by
  have hmk : ∀ k, ∃ m, zonalPartition P G ((partIdxs z.grid k).map fun c => v c.1 c.2)
      ((partIdxs z.grid k).map fun c => w c.1 c.2) = .ok m ∧ Holds R m (pairs P v w (partIdxs z.grid k)) :=
    fun k => zonalPartition_holds P hG v w _
  choose ms hms1 hms2 using hmk
  have hrun := runTasks_ok (task := fun k => do zonalPartition P G (← rd x.parts k) (← rd z.parts k)) ho1 (r := ms) (by
    intro k hk
    have hxk := hx.parts_get (k := k) (by rw [hg]; exact hk)
    rw [hg] at hxk
    rw [rd_ok hxk, M.bind_ok, rd_ok (hz.parts_get hk), M.bind_ok]
    exact hms1 k)
  have hm := holds_mergeAll hG hi (z.grid.n0 * z.grid.n1) ms (fun k => pairs P v w (partIdxs z.grid k))
    (fun k _ => hms2 k)
  obtain ⟨parts, u, h1, h2, h3⟩ := zonal_finish P hG garbage hz ho2 hm
  refine ⟨⟨z.grid, parts⟩, u, ?_, rfl, h2, h3⟩
  simp only [zonalArray, verifyCompatible_same hg, hrun, h1, M.bind_ok]

theorem zonalPartitionS_eq (P : Policies Z α ω) (G : Aggregator α σ ω) (value : α) (zones : List Z) :
    zonalPartitionS P G value zones = zonalPartition P G (zones.map fun _ => value) zones := by
  have key : ∀ n ≤ zones.length, forLoop n (fun i (m : AMap Z σ) => do
      let x ← rd (zones.map fun _ => value) i
      let z ← rd zones i
      if !P.indp1 x && !P.indp2 z then
        if P.dp z x then .ok (m.put z (G.add (m.get z) x)) else .ok m
      else .ok m) [] = if !P.indp1 value then forLoop n (fun i (m : AMap Z σ) => do
        let z ← rd zones i
        if !P.indp2 z then
          if P.dp z value then .ok (m.put z (G.add (m.get z) value)) else .ok m
        else .ok m) [] else .ok [] := by
    intro n
    induction n with
    | zero => intro _; by_cases h : P.indp1 value <;> simp [h] <;> rfl
    | succ n ih =>
      intro hn
      have ih := ih (by omega)
      have e1 : (zones.map fun _ => value)[n]? = some value := by simp [show n < zones.length by omega]
      have e2 : zones[n]? = some zones[n] := List.getElem?_eq_getElem (by omega)
      unfold forLoop at ih ⊢
      rw [List.range_succ, List.foldlM_append, ih, List.foldlM_append]
      by_cases h : P.indp1 value
      · simp only [h, Bool.not_true, Bool.false_eq_true, if_false, M.bind_ok, List.foldlM_cons, List.foldlM_nil,
          rd_ok e1, rd_ok e2, Bool.false_and]
        rfl
      · simp only [h, Bool.not_false, if_true, List.foldlM_cons, List.foldlM_nil, rd_ok e1, rd_ok e2, M.bind_ok,
          Bool.true_and]
  unfold zonalPartitionS zonalPartition
  rw [key _ (Nat.le_refl _)]

/-- Same for scalar values: the array is filled with the scalar. -/
theorem zonalArrayS_spec (P : Policies Z α ω) {G : Aggregator α σ ω} {R : List α → σ → Prop} (hG : Summarises G R)
    {iter : AMap Z σ → AMap Z σ} (hi : IsIter iter) (garbage : Nat → ω) (value : α) {z : PArr Z}
    {w : Arr Z} (hz : Represents z w)
    {order1 order2 : List Nat} (ho1 : IsOrder (z.grid.n0 * z.grid.n1) order1)
    (ho2 : IsOrder (z.grid.n0 * z.grid.n1) order2) :
    ∃ r u, zonalArrayS P G iter garbage order1 order2 value z = .ok r ∧ r.grid = z.grid ∧ Represents r u ∧
      ∀ i j, (zoneValues P z.grid (fun _ _ => value) w (w i j) = [] ∧ u i j = P.mark) ∨
        (zoneValues P z.grid (fun _ _ => value) w (w i j) ≠ [] ∧
          ∃ s, R (zoneValues P z.grid (fun _ _ => value) w (w i j)) s ∧ u i j = G.value s) := by
  have hmk : ∀ k, ∃ m, zonalPartitionS P G value
      ((partIdxs z.grid k).map fun c => w c.1 c.2) = .ok m ∧
      Holds R m (pairs P (fun _ _ => value) w (partIdxs z.grid k)) := by
    intro k
    rw [zonalPartitionS_eq, List.map_map]
    exact zonalPartition_holds P hG (fun _ _ => value) w _
  choose ms hms1 hms2 using hmk
  have hrun := runTasks_ok (task := fun k => do zonalPartitionS P G value (← rd z.parts k)) ho1 (r := ms) (by
    intro k hk
    rw [rd_ok (hz.parts_get hk), M.bind_ok]
    exact hms1 k)
  have hm := holds_mergeAll hG hi (z.grid.n0 * z.grid.n1) ms
    (fun k => pairs P (fun _ _ => value) w (partIdxs z.grid k)) (fun k _ => hms2 k)
  obtain ⟨parts, u, h1, h2, h3⟩ := zonal_finish P hG garbage hz ho2 hm
  refine ⟨⟨z.grid, parts⟩, u, ?_, rfl, h2, h3⟩
  simp only [zonalArrayS, hrun, h1, M.bind_ok]

/-- A zone which is no-data has no values. -/
theorem zoneValues_noData (P : Policies Z α ω) (g : Grid) (v : Arr α) (w : Arr Z) (z : Z) (h : P.indp2 z = true) :
    zoneValues P g v w z = [] := by simp [zoneValues, h]

/-- The values of a zone. -/
theorem mem_zoneValues (P : Policies Z α ω) (g : Grid) (v : Arr α) (w : Arr Z) (z : Z) (y : α) :
    y ∈ zoneValues P g v w z ↔ ∃ i j, i < g.a0 ∧ j < g.a1 ∧ w i j = z ∧ v i j = y ∧
      P.indp1 y = false ∧ P.indp2 z = false ∧ P.dp z y = true := by
  simp only [zoneValues, List.mem_map, List.mem_filter, mem_cellIdxs, Bool.and_eq_true, decide_eq_true_eq,
    Bool.not_eq_true', Prod.exists]
  constructor
  · rintro ⟨i, j, ⟨⟨h0, h1⟩, ⟨⟨h2, h3⟩, h4⟩, h5⟩, rfl⟩; exact ⟨i, j, h0, h1, h2, rfl, h3, h4, h5⟩
  · rintro ⟨i, j, h0, h1, h2, rfl, h3, h4, h5⟩; exact ⟨i, j, ⟨⟨h0, h1⟩, ⟨⟨h2, h3⟩, h4⟩, h5⟩, rfl⟩

/-! ### The statistics -/

theorem sum_summarises [AddCommMonoid α] : Summarises (sum : Aggregator α α α) (fun l s => s = l.sum) where
  add_none x := by simp [sum]
  add_some l s x h := by simp [sum, h]
  merge_none l s h := by simp [sum, h]
  merge_some l s m t h h' := by simp [sum, h, h']
  perm l m s h hp := by rw [h]; exact hp.sum_eq

theorem minimum_summarises [LinearOrder α] :
    Summarises (minimum : Aggregator α α α) (fun l s => s ∈ l ∧ ∀ y ∈ l, s ≤ y) where
  add_none x := by simp [minimum]
  add_some l s x h := by
    simp only [minimum, Option.getD_some]
    constructor
    · rcases min_choice s x with e | e <;> rw [e] <;> simp [h.1]
    · intro y hy
      rcases List.mem_append.mp hy with hy | hy
      · exact le_trans (min_le_left _ _) (h.2 y hy)
      · simp only [List.mem_singleton] at hy; subst hy; exact min_le_right _ _
  merge_none l s h := by simpa [minimum] using h
  merge_some l s m t h h' := by
    simp only [minimum, Option.getD_some]
    constructor
    · rcases min_choice s t with e | e <;> rw [e] <;> simp [h.1, h'.1]
    · intro y hy
      rcases List.mem_append.mp hy with hy | hy
      · exact le_trans (min_le_left _ _) (h.2 y hy)
      · exact le_trans (min_le_right _ _) (h'.2 y hy)
  perm l m s h hp := ⟨hp.mem_iff.mp h.1, fun y hy => h.2 y (hp.mem_iff.mpr hy)⟩

theorem maximum_summarises [LinearOrder α] :
    Summarises (maximum : Aggregator α α α) (fun l s => s ∈ l ∧ ∀ y ∈ l, y ≤ s) :=
  minimum_summarises (α := αᵒᵈ)

theorem mean_summarises [AddCommMonoid α] (div : α → Nat → α) :
    Summarises (mean div) (fun l s => s = (l.sum, l.length)) where
  add_none x := by simp [mean]
  add_some l s x h := by simp [mean, h]
  merge_none l s h := by simp [mean, h]
  merge_some l s m t h h' := by simp [mean, h, h']
  perm l m s h hp := by rw [h, hp.sum_eq, hp.length_eq]

theorem insert_all [DecidableEq α] (l s : List α) (hs : s.Nodup) :
    (l.foldl (fun set e => set.insert e) s).Nodup ∧
      ∀ y, y ∈ l.foldl (fun set e => set.insert e) s ↔ y ∈ s ∨ y ∈ l := by
  induction l generalizing s with
  | nil => simp [hs]
  | cons a l ih =>
    obtain ⟨h1, h2⟩ := ih (s.insert a) (List.Nodup.insert hs)
    refine ⟨h1, fun y => ?_⟩
    rw [List.foldl_cons, h2]
    simp only [List.mem_insert_iff, List.mem_cons]
    tauto

theorem diversity_summarises [DecidableEq α] :
    Summarises (diversity : Aggregator α (List α) Nat) (fun l s => s.Nodup ∧ ∀ y, y ∈ s ↔ y ∈ l) where
  add_none x := by simp [diversity]
  add_some l s x h := by
    refine ⟨List.Nodup.insert h.1, fun y => ?_⟩
    simp only [diversity, Option.getD_some, List.mem_insert_iff, h.2, List.mem_append, List.mem_singleton]
    tauto
  merge_none l s h := h
  merge_some l s m t h h' := by
    obtain ⟨h1, h2⟩ := insert_all t s h.1
    refine ⟨h1, fun y => ?_⟩
    simp only [diversity]
    rw [h2, h.2, h'.2, List.mem_append]
  perm l m s h hp := ⟨h.1, fun y => by rw [h.2, hp.mem_iff]⟩

/-- The frequencies: the count of each value. -/
def Frequencies [DecidableEq α] (l : List α) (f : AMap α Nat) : Prop :=
  f.Ok ∧ ∀ y, f.get y = if l.count y = 0 then none else some (l.count y)

theorem majority_summarises [LinearOrder α] {iter : AMap α Nat → AMap α Nat} (hi : IsIter iter) (zero : α) :
    Summarises (majority iter zero) Frequencies where
  add_none x := by
    refine ⟨AMap.ok_nil.put _ _, fun y => ?_⟩
    show AMap.get (AMap.put [] x _) y = _
    rw [AMap.get_put]
    by_cases h : x = y <;> simp [h, AMap.get_nil]
  add_some l f x h := by
    refine ⟨h.1.put _ _, fun y => ?_⟩
    show AMap.get (AMap.put f x ((f.get x).getD 0 + 1)) y = _
    rw [AMap.get_put, h.2, h.2, List.count_append]
    by_cases hxy : x = y
    · subst hxy
      by_cases h0 : l.count x = 0 <;> simp [h0]
    · have : List.count y [x] = 0 := by simp [List.count_singleton, hxy]
      simp [hxy, this]
  merge_none l f h := h
  merge_some l f m t h h' := by
    have hok := h'.1.perm (hi t)
    refine ⟨AMap.ok_foldl_put (fun o e => o.getD 0 + e) _ _ h.1, fun y => ?_⟩
    show AMap.get ((iter t).foldl (fun f e => f.put e.1 ((f.get e.1).getD 0 + e.2)) f) y = _
    rw [AMap.get_foldl_put (fun o e => o.getD 0 + e) _ hok, AMap.get_perm h'.1 (hi t), h'.2, h.2, List.count_append]
    by_cases h1 : l.count y = 0 <;> by_cases h2 : m.count y = 0 <;> simp [h1, h2]
  perm l m f h hp := ⟨h.1, fun y => by rw [h.2, hp.count_eq]⟩

/-- The largest of the most frequent values. -/
def IsMajority [LinearOrder α] (l : List α) (r : α) : Prop :=
  r ∈ l ∧ (∀ y ∈ l, l.count y ≤ l.count r) ∧ ∀ y ∈ l, l.count y = l.count r → y ≤ r

theorem majorityValue_spec [LinearOrder α] {iter : AMap α Nat → AMap α Nat} (hi : IsIter iter) (zero : α)
    {l : List α} (hl : l ≠ []) {f : AMap α Nat} (hf : Frequencies l f) : IsMajority l (majorityValue iter zero f) := by
  have key : ∀ (es : List (α × Nat)) (s : α × Nat), (∀ e ∈ es, 0 < e.2) →
      let r := es.foldl (fun (s : α × Nat) e =>
        if e.2 > s.2 then (e.1, e.2)
        else if e.2 = s.2 then (if e.1 > s.1 then (e.1, s.2) else s)
        else s) s
      (r ∈ es ∨ r = s) ∧ s.2 ≤ r.2 ∧ (s.2 = r.2 → s.1 ≤ r.1) ∧ (∀ e ∈ es, e.2 ≤ r.2 ∧ (e.2 = r.2 → e.1 ≤ r.1)) := by
    intro es
    induction es with
    | nil => intro s _; simp
    | cons e es ih =>
      intro s hpos
      rw [List.foldl_cons]
      have hpos' : ∀ e ∈ es, 0 < e.2 := fun e he => hpos e (by simp [he])
      split
      · rename_i h
        obtain ⟨h1, h2, h3, h4⟩ := ih (e.1, e.2) hpos'
        refine ⟨?_, ?_, ?_, ?_⟩
        · rcases h1 with h1 | h1
          · exact .inl (by simp [h1])
          · left; rw [h1]; simp
        · have : e.2 ≤ _ := h2
          omega
        · intro hs
          have : e.2 ≤ _ := h2
          omega
        · intro e' he'
          rcases List.mem_cons.mp he' with rfl | he'
          · exact ⟨h2, h3⟩
          · exact h4 e' he'
      · split
        · rename_i h h'
          split
          · rename_i hgt
            obtain ⟨h1, h2, h3, h4⟩ := ih (e.1, s.2) hpos'
            refine ⟨?_, h2, ?_, ?_⟩
            · rcases h1 with h1 | h1
              · exact .inl (by simp [h1])
              · left; rw [h1, ← h']; simp
            · intro hs; exact le_trans (le_of_lt hgt) (h3 hs)
            · intro e' he'
              rcases List.mem_cons.mp he' with rfl | he'
              · exact ⟨h'.trans_le h2, fun hs => h3 (h'.symm.trans hs)⟩
              · exact h4 e' he'
          · rename_i hgt
            obtain ⟨h1, h2, h3, h4⟩ := ih s hpos'
            refine ⟨?_, h2, h3, ?_⟩
            · rcases h1 with h1 | h1
              · exact .inl (by simp [h1])
              · exact .inr h1
            · intro e' he'
              rcases List.mem_cons.mp he' with rfl | he'
              · exact ⟨h'.trans_le h2, fun hs => le_trans (not_lt.mp hgt) (h3 (h'.symm.trans hs))⟩
              · exact h4 e' he'
        · rename_i h h'
          obtain ⟨h1, h2, h3, h4⟩ := ih s hpos'
          refine ⟨?_, h2, h3, ?_⟩
          · rcases h1 with h1 | h1
            · exact .inl (by simp [h1])
            · exact .inr h1
          · intro e' he'
            rcases List.mem_cons.mp he' with rfl | he'
            · constructor
              · omega
              · intro hs; omega
            · exact h4 e' he'
  have hok := hf.1.perm (hi f)
  have hmem : ∀ y n, (y, n) ∈ iter f ↔ y ∈ l ∧ n = l.count y := by
    intro y n
    rw [(hi f).mem_iff, AMap.mem_iff_get hf.1, hf.2]
    by_cases h : l.count y = 0
    · simp [h, List.count_eq_zero.mp h]
    · have : y ∈ l := by
        by_contra hn; exact h (List.count_eq_zero.mpr hn)
      simp only [h, if_false, Option.some.injEq, this, true_and]
      exact eq_comm
  obtain ⟨h1, h2, _, h4⟩ := key (iter f) (zero, 0) (by
    intro e he
    obtain ⟨h1, h2⟩ := (hmem e.1 e.2).mp he
    rw [h2]; exact List.count_pos_iff.mpr h1)
  obtain ⟨y0, hy0⟩ := List.exists_mem_of_ne_nil l hl
  have hpos0 : 0 < l.count y0 := List.count_pos_iff.mpr hy0
  have hy0' := (h4 (y0, l.count y0) ((hmem _ _).mpr ⟨hy0, rfl⟩)).1
  unfold majorityValue
  rcases h1 with h1 | h1
  · obtain ⟨h5, h6⟩ := (hmem _ _).mp h1
    refine ⟨h5, fun y hy => ?_, fun y hy hc => ?_⟩
    · rw [← h6]; exact (h4 (y, l.count y) ((hmem _ _).mpr ⟨hy, rfl⟩)).1
    · exact (h4 (y, l.count y) ((hmem _ _).mpr ⟨hy, rfl⟩)).2 (hc.trans h6.symm)
  · rw [h1] at hy0'
    simp only at hy0'
    omega

section
variable {x : PArr α} {z : PArr Z} {v : Arr α} {w : Arr Z}
  {order1 order2 : List Nat}

/-- zonal_sum: the sum of the values in the zone. -/
theorem zonal_sum_spec [AddCommMonoid α] (P : Policies Z α α) {iter : AMap Z α → AMap Z α} (hi : IsIter iter)
    (garbage : Nat → α) (hx : Represents x v) (hz : Represents z w) (hg : x.grid = z.grid)
    (ho1 : IsOrder (z.grid.n0 * z.grid.n1) order1) (ho2 : IsOrder (z.grid.n0 * z.grid.n1) order2) :
    ∃ r u, zonalArray P sum iter garbage order1 order2 x z = .ok r ∧ r.grid = z.grid ∧ Represents r u ∧
      ∀ i j, u i j = if zoneValues P z.grid v w (w i j) = [] then P.mark else (zoneValues P z.grid v w (w i j)).sum := by
  obtain ⟨r, u, h1, h2, h3, h4⟩ := zonalArray_spec P sum_summarises hi garbage hx hz hg ho1 ho2
  refine ⟨r, u, h1, h2, h3, fun i j => ?_⟩
  rcases h4 i j with ⟨h5, h6⟩ | ⟨h5, s, h6, h7⟩
  · rw [if_pos h5, h6]
  · rw [if_neg h5, h7, h6]; rfl

/-- zonal_area: the number of cells in the zone. -/
theorem zonal_area_spec (P : Policies Z Nat Nat) (hP : P.indp1 1 = false) (hdp : ∀ z, P.dp z 1 = true)
    {iter : AMap Z Nat → AMap Z Nat} (hi : IsIter iter)
    (garbage : Nat → Nat) (hz : Represents z w)
    (ho1 : IsOrder (z.grid.n0 * z.grid.n1) order1) (ho2 : IsOrder (z.grid.n0 * z.grid.n1) order2) :
    ∃ r u, zonalArrayS P sum iter garbage order1 order2 1 z = .ok r ∧ r.grid = z.grid ∧ Represents r u ∧
      ∀ i j, i < z.grid.a0 → j < z.grid.a1 → u i j = if P.indp2 (w i j) then P.mark
        else ((cellIdxs z.grid.a0 z.grid.a1).filter fun c => decide (w c.1 c.2 = w i j)).length := by
  obtain ⟨r, u, h1, h2, h3, h4⟩ := zonalArrayS_spec P sum_summarises hi garbage 1 hz ho1 ho2
  refine ⟨r, u, h1, h2, h3, fun i j hij hij' => ?_⟩
  by_cases hn : P.indp2 (w i j)
  · rw [if_pos hn]
    rcases h4 i j with ⟨h5, h6⟩ | ⟨h5, _⟩
    · exact h6
    · exact absurd (zoneValues_noData P _ _ _ _ hn) h5
  · rw [if_neg hn]
    have e : (zoneValues P z.grid (fun _ _ => 1) w (w i j)).sum =
        ((cellIdxs z.grid.a0 z.grid.a1).filter fun c => decide (w c.1 c.2 = w i j)).length := by
      simp [zoneValues, hP, hdp, hn]
    rcases h4 i j with ⟨h5, h6⟩ | ⟨h5, s, h6, h7⟩
    · exfalso
      have : 1 ∈ zoneValues P z.grid (fun _ _ => 1) w (w i j) := by
        rw [mem_zoneValues]
        exact ⟨i, j, hij, hij', rfl, rfl, hP, by simpa using hn, hdp _⟩
      rw [h5] at this; cases this
    · rw [h7, h6]; exact e

/-- zonal_minimum: the smallest value in the zone. -/
theorem zonal_minimum_spec [LinearOrder α] (P : Policies Z α α) {iter : AMap Z α → AMap Z α} (hi : IsIter iter)
    (garbage : Nat → α) (hx : Represents x v) (hz : Represents z w) (hg : x.grid = z.grid)
    (ho1 : IsOrder (z.grid.n0 * z.grid.n1) order1) (ho2 : IsOrder (z.grid.n0 * z.grid.n1) order2) :
    ∃ r u, zonalArray P minimum iter garbage order1 order2 x z = .ok r ∧ r.grid = z.grid ∧ Represents r u ∧
      ∀ i j, (zoneValues P z.grid v w (w i j) = [] ∧ u i j = P.mark) ∨
        (u i j ∈ zoneValues P z.grid v w (w i j) ∧ ∀ y ∈ zoneValues P z.grid v w (w i j), u i j ≤ y) := by
  obtain ⟨r, u, h1, h2, h3, h4⟩ := zonalArray_spec P minimum_summarises hi garbage hx hz hg ho1 ho2
  refine ⟨r, u, h1, h2, h3, fun i j => ?_⟩
  rcases h4 i j with ⟨h5, h6⟩ | ⟨h5, s, h6, h7⟩
  · exact .inl ⟨h5, h6⟩
  · right; rw [h7]; exact h6

/-- zonal_maximum: the largest value in the zone. -/
theorem zonal_maximum_spec [LinearOrder α] (P : Policies Z α α) {iter : AMap Z α → AMap Z α} (hi : IsIter iter)
    (garbage : Nat → α) (hx : Represents x v) (hz : Represents z w) (hg : x.grid = z.grid)
    (ho1 : IsOrder (z.grid.n0 * z.grid.n1) order1) (ho2 : IsOrder (z.grid.n0 * z.grid.n1) order2) :
    ∃ r u, zonalArray P maximum iter garbage order1 order2 x z = .ok r ∧ r.grid = z.grid ∧ Represents r u ∧
      ∀ i j, (zoneValues P z.grid v w (w i j) = [] ∧ u i j = P.mark) ∨
        (u i j ∈ zoneValues P z.grid v w (w i j) ∧ ∀ y ∈ zoneValues P z.grid v w (w i j), y ≤ u i j) := by
  obtain ⟨r, u, h1, h2, h3, h4⟩ := zonalArray_spec P maximum_summarises hi garbage hx hz hg ho1 ho2
  refine ⟨r, u, h1, h2, h3, fun i j => ?_⟩
  rcases h4 i j with ⟨h5, h6⟩ | ⟨h5, s, h6, h7⟩
  · exact .inl ⟨h5, h6⟩
  · right; rw [h7]; exact h6

/-- zonal_mean: the sum of the values in the zone divided by their number, which is not zero. -/
theorem zonal_mean_spec [AddCommMonoid α] (div : α → Nat → α) (P : Policies Z α α)
    {iter : AMap Z (α × Nat) → AMap Z (α × Nat)} (hi : IsIter iter)
    (garbage : Nat → α) (hx : Represents x v) (hz : Represents z w) (hg : x.grid = z.grid)
    (ho1 : IsOrder (z.grid.n0 * z.grid.n1) order1) (ho2 : IsOrder (z.grid.n0 * z.grid.n1) order2) :
    ∃ r u, zonalArray P (mean div) iter garbage order1 order2 x z = .ok r ∧ r.grid = z.grid ∧ Represents r u ∧
      ∀ i j, (zoneValues P z.grid v w (w i j) = [] ∧ u i j = P.mark) ∨
        (zoneValues P z.grid v w (w i j) ≠ [] ∧ u i j =
          div (zoneValues P z.grid v w (w i j)).sum (zoneValues P z.grid v w (w i j)).length) := by
  obtain ⟨r, u, h1, h2, h3, h4⟩ := zonalArray_spec P (mean_summarises div) hi garbage hx hz hg ho1 ho2
  refine ⟨r, u, h1, h2, h3, fun i j => ?_⟩
  rcases h4 i j with ⟨h5, h6⟩ | ⟨h5, s, h6, h7⟩
  · exact .inl ⟨h5, h6⟩
  · right; rw [h7, h6]; exact ⟨h5, rfl⟩

/-- zonal_diversity: the number of distinct values in the zone. -/
theorem zonal_diversity_spec [DecidableEq α] (P : Policies Z α Nat)
    {iter : AMap Z (List α) → AMap Z (List α)} (hi : IsIter iter)
    (garbage : Nat → Nat) (hx : Represents x v) (hz : Represents z w) (hg : x.grid = z.grid)
    (ho1 : IsOrder (z.grid.n0 * z.grid.n1) order1) (ho2 : IsOrder (z.grid.n0 * z.grid.n1) order2) :
    ∃ r u, zonalArray P diversity iter garbage order1 order2 x z = .ok r ∧ r.grid = z.grid ∧ Represents r u ∧
      ∀ i j, u i j = if zoneValues P z.grid v w (w i j) = [] then P.mark
        else (zoneValues P z.grid v w (w i j)).dedup.length := by
  obtain ⟨r, u, h1, h2, h3, h4⟩ := zonalArray_spec P diversity_summarises hi garbage hx hz hg ho1 ho2
  refine ⟨r, u, h1, h2, h3, fun i j => ?_⟩
  rcases h4 i j with ⟨h5, h6⟩ | ⟨h5, s, h6, h7⟩
  · rw [if_pos h5, h6]
  · rw [if_neg h5, h7]
    apply List.Perm.length_eq
    rw [List.perm_ext_iff_of_nodup h6.1 (List.nodup_dedup _)]
    intro a
    rw [h6.2, List.mem_dedup]

/-- zonal_majority: the most frequent value in the zone, the largest one in case of ties. -/
theorem zonal_majority_spec [LinearOrder α] (P : Policies Z α α)
    {iter : AMap Z (AMap α Nat) → AMap Z (AMap α Nat)} (hi : IsIter iter)
    {iter' : AMap α Nat → AMap α Nat} (hi' : IsIter iter') (zero : α)
    (garbage : Nat → α) (hx : Represents x v) (hz : Represents z w) (hg : x.grid = z.grid)
    (ho1 : IsOrder (z.grid.n0 * z.grid.n1) order1) (ho2 : IsOrder (z.grid.n0 * z.grid.n1) order2) :
    ∃ r u, zonalArray P (majority iter' zero) iter garbage order1 order2 x z = .ok r ∧ r.grid = z.grid ∧
      Represents r u ∧
      ∀ i j, (zoneValues P z.grid v w (w i j) = [] ∧ u i j = P.mark) ∨
        IsMajority (zoneValues P z.grid v w (w i j)) (u i j) := by
  obtain ⟨r, u, h1, h2, h3, h4⟩ := zonalArray_spec P (majority_summarises hi' zero) hi garbage hx hz hg ho1 ho2
  refine ⟨r, u, h1, h2, h3, fun i j => ?_⟩
  rcases h4 i j with ⟨h5, h6⟩ | ⟨h5, s, h6, h7⟩
  · exact .inl ⟨h5, h6⟩
  · right; rw [h7]; exact majorityValue_spec hi' zero h5 h6

end

/-! ### Example -/

/-- A zone over two partitions, a no-data value (99), and a no-data zone (0). -/
example : ∃ (x z : PArr Nat) (P : Policies Nat Nat Nat), Represents x (fun _ j => [5, 99, 7, 7].getD j 0) ∧
    Represents z (fun _ j => [1, 1, 0, 1].getD j 0) ∧ x.grid = z.grid ∧ IsOrder (z.grid.n0 * z.grid.n1) [1, 0] ∧
    zoneValues P z.grid (fun _ j => [5, 99, 7, 7].getD j 0) (fun _ j => [1, 1, 0, 1].getD j 0) 1 = [5, 7] ∧
    IsIter (List.reverse : AMap Nat Nat → AMap Nat Nat) ∧ IsMajority [5, 7] 7 :=
  ⟨store ⟨1, 4, 1, 2⟩ _, store ⟨1, 4, 1, 2⟩ _, ⟨(· == 99), (· == 0), fun _ _ => true, 99⟩,
    store_represents ⟨by decide, by decide, by decide, by decide⟩ _,
    store_represents ⟨by decide, by decide, by decide, by decide⟩ _, rfl, by unfold IsOrder; decide, rfl,
    fun m => List.reverse_perm m, by unfold IsMajority; decide⟩

end Lue.Zonal

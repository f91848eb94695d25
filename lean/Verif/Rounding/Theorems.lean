import Verif.Rounding.Bound
import Verif.Aggregate.Properties
import Verif.Zonal.Properties
import Verif.Accu.Properties

/-!
C76: what adding up floating point numbers in cells results in, for all partitionings, orders of completion, orders of
iteration and schedules.
-/
namespace Lue.Rounding

open Lue.FloatOps

variable {L : Lib} {u η : ℝ}

/-! ### Lists of elements -/

theorem isNaN_nan : isNaN Fl.nan = true := rfl

theorem isNaN_fin (r : ℝ) : isNaN (Fl.fin r) = false := rfl

theorem number_nan : number Fl.nan = none := rfl

theorem number_fin (r : ℝ) : number (Fl.fin r) = some r := rfl

/-- An element which is a number of the type -/
def IsNumber (L : Lib) (x : Fl) : Prop := ∃ r, x = .fin r ∧ L.Rep r

theorem number_isNumber {l : List Fl} (h : ∀ x ∈ l, Element L x) :
    (l.filter fun x => !isNaN x).filterMap number = l.filterMap number ∧ ∀ x ∈ l.filter fun x => !isNaN x, IsNumber L x := by
  constructor
  · induction l with
    | nil => rfl
    | cons a l ih =>
      have ih := ih fun x hx => h x (List.mem_cons_of_mem _ hx)
      rcases h a (by simp) with rfl | ⟨r, rfl, _⟩
      · simpa [isNaN_nan, number_nan, List.filterMap_cons] using ih
      · simpa [isNaN_fin, number_fin] using ih
  · intro x hx
    rw [List.mem_filter] at hx
    rcases h x hx.1 with rfl | h
    · simp [isNaN] at hx
    · exact h

theorem foldl_added {l : List Fl} (h : ∀ x ∈ l, IsNumber L x) {xs : List ℝ} {s : Fl} (hs : Added L xs s) :
    Added L (xs ++ l.filterMap number) (l.foldl (FloatOps.add L) s) := by
  induction l generalizing xs s with
  | nil => simpa using hs
  | cons a l ih =>
    obtain ⟨r, rfl, hr⟩ := h a (by simp)
    have := ih (fun x hx => h x (by simp [hx])) (hs.add (Added.one hr))
    simpa [number] using this

theorem fold1_added {l : List Fl} (h : ∀ x ∈ l, IsNumber L x) : match Aggregate.fold1 id (FloatOps.add L) l with
    | none => l.filterMap number = []
    | some s => l.filterMap number ≠ [] ∧ Added L (l.filterMap number) s := by
  cases l with
  | nil => rfl
  | cons a l =>
    obtain ⟨r, rfl, hr⟩ := h a (by simp)
    have := foldl_added (fun x hx => h x (List.mem_cons_of_mem _ hx)) (Added.one hr)
    simp only [Aggregate.fold1]
    exact ⟨by simp [number], by simpa [number] using this⟩

/-! ### sum -/

/-- The sum over a partition -/
theorem partition_added {data : List Fl} (h : ∀ x ∈ data, Element L x) :
    (data.filterMap number = [] ∧
      Aggregate.aggregatePartition sumPolicies (sumFunctor L) data = Fl.nan) ∨
    (data.filterMap number ≠ [] ∧ Added L (data.filterMap number)
      (Aggregate.aggregatePartition sumPolicies (sumFunctor L) data)) := by
  rw [Aggregate.aggregatePartition_eq]
  obtain ⟨h1, h2⟩ := number_isNumber h
  have hv : Aggregate.validCells sumPolicies data = data.filter fun x => !isNaN x := by
    simp [Aggregate.validCells, sumPolicies]
  have := fold1_added h2
  rw [h1] at this
  rw [hv]
  change (_ ∧ (Aggregate.fold1 id (FloatOps.add L) _).getD _ = _) ∨ (_ ∧ Added L _ ((Aggregate.fold1 id (FloatOps.add L) _).getD _))
  cases hf : Aggregate.fold1 id (FloatOps.add L) (data.filter fun x => !isNaN x) with
  | none => rw [hf] at this; exact .inl ⟨this, rfl⟩
  | some s => rw [hf] at this; exact .inr this

/-- The sums of the partitions which contain numbers -/
noncomputable def partials (L : Lib) (ps : List (List Fl)) : List Fl :=
  (ps.map (Aggregate.aggregatePartition sumPolicies (sumFunctor L))).filter
    fun r => !isNaN r

theorem partials_added {ps : List (List Fl)} (h : ∀ data ∈ ps, ∀ x ∈ data, Element L x)
    (hn : ∀ data ∈ ps, ∀ s, Added L (data.filterMap number) s → isNaN s = false) {xs : List ℝ} {s : Fl} (hs : Added L xs s) :
    Added L (xs ++ ps.flatten.filterMap number) ((partials L ps).foldl (FloatOps.add L) s) := by
  induction ps generalizing xs s with
  | nil => simpa [partials] using hs
  | cons a ps ih =>
    have ih := @ih (fun d hd => h d (by simp [hd])) (fun d hd => hn d (by simp [hd]))
    rcases partition_added (h a (by simp)) with ⟨h1, h2⟩ | ⟨_, h2⟩
    · have e : partials L (a :: ps) = partials L ps := by
        unfold partials
        rw [List.map_cons, List.filter_cons, h2]
        simp [isNaN]
      rw [e, List.flatten_cons, List.filterMap_append, h1, List.nil_append]
      exact ih hs
    · have e : partials L (a :: ps) =
          Aggregate.aggregatePartition sumPolicies (sumFunctor L) a :: partials L ps := by
        unfold partials
        rw [List.map_cons, List.filter_cons, hn a (by simp) _ h2]
        simp
      rw [e, List.flatten_cons, List.filterMap_append, ← List.append_assoc, List.foldl_cons]
      exact ih (hs.add h2)

theorem total_added {ps : List (List Fl)} (h : ∀ data ∈ ps, ∀ x ∈ data, Element L x)
    (hn : ∀ data ∈ ps, ∀ s, Added L (data.filterMap number) s → isNaN s = false) :
    (ps.flatten.filterMap number = [] ∧ partials L ps = []) ∨
    (ps.flatten.filterMap number ≠ [] ∧ ∃ r, Aggregate.total (FloatOps.add L) (partials L ps) = some r ∧
      Added L (ps.flatten.filterMap number) r) := by
  induction ps with
  | nil => exact .inl ⟨rfl, rfl⟩
  | cons a ps ih =>
    have h' : ∀ data ∈ ps, ∀ x ∈ data, Element L x := fun d hd => h d (by simp [hd])
    have hn' : ∀ data ∈ ps, ∀ s, Added L (data.filterMap number) s → isNaN s = false := fun d hd => hn d (by simp [hd])
    rcases partition_added (h a (by simp)) with ⟨h1, h2⟩ | ⟨h1, h2⟩
    · have e : partials L (a :: ps) = partials L ps := by
        unfold partials
        rw [List.map_cons, List.filter_cons, h2]
        simp [isNaN]
      rw [e, List.flatten_cons, List.filterMap_append, h1, List.nil_append]
      exact ih h' hn'
    · have e : partials L (a :: ps) =
          Aggregate.aggregatePartition sumPolicies (sumFunctor L) a :: partials L ps := by
        unfold partials
        rw [List.map_cons, List.filter_cons, hn a (by simp) _ h2]
        simp
      right
      rw [e, List.flatten_cons, List.filterMap_append]
      exact ⟨by simp [h1], _, rfl, partials_added h' hn' h2⟩

section
variable {x : PArr Fl} {v : Arr Fl} {order : List Nat}

theorem numbers_eq (g : Grid) (v : Arr Fl) : numbers g v = (cells g v).filterMap number := by
  unfold numbers cells
  rw [List.filterMap_map]; rfl

/-- `sum` adds up all numbers in the array, in some order. -/
theorem sum_added (hx : Represents x v) (hv : ∀ i j, i < x.grid.a0 → j < x.grid.a1 → Element L (v i j))
    (hn : ∀ l s, l.Subperm (numbers x.grid v) → Added L l s → isNaN s = false)
    (ho : IsOrder (x.grid.n0 * x.grid.n1) order) :
    ∃ r, sum L order x = .ok r ∧ (numbers x.grid v = [] → r = Fl.nan) ∧
      (numbers x.grid v ≠ [] → Added L (numbers x.grid v) r) := by
  have hperm : x.parts.flatten.Perm (cells x.grid v) := hx.flatten_perm
  have hnum : (x.parts.flatten.filterMap number).Perm (numbers x.grid v) := by
    rw [numbers_eq]; exact hperm.filterMap _
  have hel : ∀ data ∈ x.parts, ∀ y ∈ data, Element L y := by
    intro data hd y hy
    have : y ∈ cells x.grid v := hperm.mem_iff.1 (List.mem_flatten.2 ⟨data, hd, hy⟩)
    obtain ⟨c, hc, rfl⟩ := List.mem_map.1 this
    have := mem_cellIdxs.1 hc
    exact hv _ _ this.1 this.2
  have hnn : ∀ data ∈ x.parts, ∀ s, Added L (data.filterMap number) s → isNaN s = false := by
    intro data hd s hs
    refine hn _ s ?_ hs
    refine List.Subperm.trans ?_ hnum.subperm
    exact ((List.sublist_flatten_of_mem hd).filterMap number).subperm
  refine ⟨_, Aggregate.aggregateArray_eq _ _ hx ho, ?_⟩
  rw [Aggregate.aggregateResults_eq]
  have e : ((x.parts.map (Aggregate.aggregatePartition sumPolicies (sumFunctor L))).map
      (sumFunctor L).part1).filter (fun r => !sumPolicies.isNoData r) = partials L x.parts := by
    have : (sumFunctor L).part1 = id := rfl
    rw [this, List.map_id]
    rfl
  rw [e]
  change (_ → (Aggregate.total (FloatOps.add L) _).getD _ = _) ∧ (_ → Added L _ ((Aggregate.total (FloatOps.add L) _).getD _))
  rcases total_added hel hnn with ⟨h1, h2⟩ | ⟨h1, r, h2, h3⟩
  · have h1 : numbers x.grid v = [] := by rw [h1] at hnum; exact List.nil_perm.1 hnum
    rw [h2]
    exact ⟨fun _ => rfl, fun h => absurd h1 h⟩
  · have hne : numbers x.grid v ≠ [] := by
      intro h
      rw [h] at hnum
      exact h1 (List.perm_nil.1 hnum)
    rw [h2]
    exact ⟨fun h => absurd h hne, fun _ => h3.perm hnum⟩

theorem Added.notNaN (hA : Accurate L u η) {xs l : List ℝ} (hf : Fits L u xs) {s : Fl} (hl : l.Subperm xs)
    (h : Added L l s) : isNaN s = false := by
  obtain ⟨l', h1, h2⟩ := hl
  obtain ⟨r, rfl, _⟩ := h.isSum hA ((fits_perm h1).1 (fits_sublist hA.u_nonneg h2 hf))
  rfl

theorem Added.notNaN' (hA : Accurate L u η) {xs l : List ℝ} (hf : ExactlyAdded L xs) {s : Fl} (hl : l.Subperm xs)
    (h : Added L l s) : isNaN s = false := by
  rw [h.exact hA fun ys hy => hf ys (hy.trans hl)]
  rfl

/-- C76, `sum`: the result is the sum of the numbers in the array, apart from a rounding error which is limited whatever the
partitioning, and no-data if and only if there are none. -/
theorem sum_correct (hA : Accurate L u η) (hx : Represents x v)
    (hv : ∀ i j, i < x.grid.a0 → j < x.grid.a1 → Element L (v i j)) (hf : Fits L u (numbers x.grid v))
    (ho : IsOrder (x.grid.n0 * x.grid.n1) order) :
    ∃ r, sum L order x = .ok r ∧ (numbers x.grid v = [] → r = Fl.nan) ∧
      (numbers x.grid v ≠ [] → IsSum u (numbers x.grid v) r) := by
  obtain ⟨r, h1, h2, h3⟩ := sum_added hx hv (fun l s hl h => h.notNaN hA hf hl) ho
  exact ⟨r, h1, h2, fun h => (h3 h).isSum hA hf⟩

/-- C76, `sum`: if no rounding is required, whichever numbers are added, the result is exact, whatever the partitioning. -/
theorem sum_exact (hA : Accurate L u η) (hx : Represents x v)
    (hv : ∀ i j, i < x.grid.a0 → j < x.grid.a1 → Element L (v i j)) (hf : ExactlyAdded L (numbers x.grid v))
    (ho : IsOrder (x.grid.n0 * x.grid.n1) order) :
    sum L order x = .ok (if numbers x.grid v = [] then Fl.nan else Fl.fin (numbers x.grid v).sum) := by
  obtain ⟨r, h1, h2, h3⟩ := sum_added hx hv (fun l s hl h => h.notNaN' hA hf hl) ho
  rw [h1]
  split_ifs with h
  · rw [h2 h]
  · rw [(h3 h).exact hA hf]

/-- C76: the results for different partitionings of the same array differ at most by the sum of the limits. -/
theorem sum_partitionings (hA : Accurate L u η) {x' : PArr Fl} {order' : List Nat} (hx : Represents x v)
    (hx' : Represents x' v) (h0 : x'.grid.a0 = x.grid.a0) (h1 : x'.grid.a1 = x.grid.a1)
    (hv : ∀ i j, i < x.grid.a0 → j < x.grid.a1 → Element L (v i j)) (hf : Fits L u (numbers x.grid v))
    (hne : numbers x.grid v ≠ []) (ho : IsOrder (x.grid.n0 * x.grid.n1) order)
    (ho' : IsOrder (x'.grid.n0 * x'.grid.n1) order') :
    ∃ a b, sum L order x = .ok (Fl.fin a) ∧ sum L order' x' = .ok (Fl.fin b) ∧
      |a - b| ≤ 2 * (((1 + u) ^ ((numbers x.grid v).length - 1) - 1) * magnitude (numbers x.grid v)) := by
  have he : numbers x'.grid v = numbers x.grid v := by unfold numbers; rw [h0, h1]
  obtain ⟨r, e1, _, e2⟩ := sum_correct hA hx hv hf ho
  obtain ⟨r', e1', _, e2'⟩ := sum_correct hA hx' (by rwa [h0, h1]) (by rwa [he]) ho'
  rw [he] at e2'
  obtain ⟨a, rfl, ha⟩ := e2 hne
  obtain ⟨b, rfl, hb⟩ := e2' hne
  refine ⟨a, b, e1, e1', ?_⟩
  rw [abs_sub_comm] at hb
  have := abs_add_le (a - (numbers x.grid v).sum) ((numbers x.grid v).sum - b)
  rw [sub_add_sub_cancel] at this
  linarith

end

/-! ### zonal_sum and zonal_mean -/

section
variable {Z : Type} [DecidableEq Z] {isNoData : Z → Bool} {x : PArr Fl} {z : PArr Z} {v : Arr Fl} {w : Arr Z}
variable {order1 order2 : List Nat}

theorem numbers_append (l m : List Fl) : (l ++ m).filterMap number = l.filterMap number ++ m.filterMap number :=
  List.filterMap_append

theorem zonal_sum_summarises : Zonal.Summarises (zonalSum L)
    (fun l s => (∀ x ∈ l, IsNumber L x) → Added L (l.filterMap number) s) where
  add_none a h := by
    obtain ⟨r, rfl, hr⟩ := h a (by simp)
    exact Added.one hr
  add_some l s a h hl := by
    obtain ⟨r, rfl, hr⟩ := hl a (by simp)
    have := (h fun x hx => hl x (by simp [hx])).add (Added.one hr)
    rw [numbers_append]
    exact this
  merge_none l s h := h
  merge_some l s m t h h' hl := by
    have := (h fun x hx => hl x (by simp [hx])).add (h' fun x hx => hl x (by simp [hx]))
    rw [numbers_append]
    exact this
  perm l m s h hp hl := (h fun x hx => hl x (hp.mem_iff.1 hx)).perm (hp.filterMap _)

theorem zonal_mean_summarises : Zonal.Summarises (zonalMean L)
    (fun l s => (∀ x ∈ l, IsNumber L x) → Added L (l.filterMap number) s.1 ∧ s.2 = (l.filterMap number).length) where
  add_none a h := by
    obtain ⟨r, rfl, hr⟩ := h a (by simp)
    exact ⟨Added.one hr, rfl⟩
  add_some l s a h hl := by
    obtain ⟨r, rfl, hr⟩ := hl a (by simp)
    obtain ⟨h1, h2⟩ := h fun x hx => hl x (by simp [hx])
    have := h1.add (Added.one hr)
    rw [numbers_append]
    exact ⟨this, by simp [zonalMean, Zonal.mean, h2, number]⟩
  merge_none l s h := h
  merge_some l s m t h h' hl := by
    obtain ⟨h1, h2⟩ := h fun x hx => hl x (by simp [hx])
    obtain ⟨h3, h4⟩ := h' fun x hx => hl x (by simp [hx])
    rw [numbers_append]
    exact ⟨h1.add h3, by simp [zonalMean, Zonal.mean, h2, h4]⟩
  perm l m s h hp hl := by
    obtain ⟨h1, h2⟩ := h fun x hx => hl x (hp.mem_iff.1 hx)
    have := hp.filterMap (number : Fl → Option ℝ)
    exact ⟨h1.perm this, by rw [h2, this.length_eq]⟩

/-- The values in a zone are the numbers in its cells. -/
theorem zoneValues_numbers (g : Grid) (hv : ∀ i j, i < g.a0 → j < g.a1 → Element L (v i j)) (k : Z)
    (hk : isNoData k = false) :
    (∀ y ∈ Zonal.zoneValues (zonalPolicies isNoData) g v w k, IsNumber L y) ∧
    (Zonal.zoneValues (zonalPolicies isNoData) g v w k).filterMap number = zoneNumbers g v w k ∧
    (Zonal.zoneValues (zonalPolicies isNoData) g v w k = [] ↔ zoneNumbers g v w k = []) := by
  have hlist : ∀ l : List (Nat × Nat), (∀ c ∈ l, c.1 < g.a0 ∧ c.2 < g.a1) →
      (∀ y ∈ (l.filter fun c => decide (w c.1 c.2 = k) && !(zonalPolicies isNoData).indp1 (v c.1 c.2) &&
        !(zonalPolicies isNoData).indp2 k && (zonalPolicies isNoData).dp k (v c.1 c.2)).map (fun c => v c.1 c.2), IsNumber L y) ∧
      ((l.filter fun c => decide (w c.1 c.2 = k) && !(zonalPolicies isNoData).indp1 (v c.1 c.2) &&
        !(zonalPolicies isNoData).indp2 k && (zonalPolicies isNoData).dp k (v c.1 c.2)).map (fun c => v c.1 c.2)).filterMap number =
      (l.filter fun c => decide (w c.1 c.2 = k)).filterMap fun c => number (v c.1 c.2) := by
    intro l
    induction l with
    | nil => simp
    | cons c l ih =>
      intro hl
      obtain ⟨ih1, ih2⟩ := ih fun c hc => hl c (by simp [hc])
      have hc := hl c (by simp)
      by_cases hw : w c.1 c.2 = k
      · rcases hv _ _ hc.1 hc.2 with hn | ⟨r, hr, hrep⟩
        · simp only [zonalPolicies] at ih1 ih2 ⊢
          rw [List.filter_cons, List.filter_cons]
          simp only [hw, hn, decide_true, isNaN, Bool.not_true, Bool.and_false, Bool.false_and, Bool.false_eq_true, if_false,
            if_true, List.filterMap_cons, number]
          exact ⟨ih1, ih2⟩
        · simp only [zonalPolicies] at ih1 ih2 ⊢
          rw [List.filter_cons, List.filter_cons]
          simp only [hw, hr, hk, decide_true, isNaN_fin, Bool.not_false, Bool.and_true, if_true, List.map_cons, List.filterMap_cons, number_fin]
          refine ⟨?_, ?_⟩
          · intro y hy
            rcases List.mem_cons.1 hy with rfl | hy
            · exact ⟨r, rfl, hrep⟩
            · exact ih1 y (by simpa [hk] using hy)
          · congr 1
            simpa [hk] using ih2
      · simp only [zonalPolicies] at ih1 ih2 ⊢
        rw [List.filter_cons, List.filter_cons]
        simp only [hw, decide_false, Bool.false_and, Bool.false_eq_true, if_false]
        exact ⟨ih1, ih2⟩
  obtain ⟨h1, h2⟩ := hlist (cellIdxs g.a0 g.a1) fun c hc => mem_cellIdxs.1 hc
  refine ⟨h1, h2, ?_⟩
  unfold zoneNumbers
  rw [← h2]
  unfold Zonal.zoneValues
  constructor
  · intro h; rw [h]; rfl
  · intro h
    generalize (((cellIdxs g.a0 g.a1).filter _).map _ : List Fl) = l at h h1
    cases l with
    | nil => rfl
    | cons a l =>
      obtain ⟨r, rfl, _⟩ := h1 a (by simp)
      simp [number] at h

/-- There are no values in a zone which is no-data. -/
theorem zoneValues_noData {g : Grid} {k : Z} (h : isNoData k = true) :
    Zonal.zoneValues (zonalPolicies isNoData) g v w k = [] := by
  unfold Zonal.zoneValues
  rw [List.map_eq_nil_iff, List.filter_eq_nil_iff]
  intro c _ hc
  simp only [zonalPolicies, Bool.and_eq_true, decide_eq_true_eq, Bool.not_eq_true'] at hc
  simp_all

/-- C76, `zonal_sum`: each cell contains the sum of the numbers in its zone, apart from a rounding error which is limited
whatever the partitioning and the orders. -/
theorem zonal_sum_correct (hA : Accurate L u η) {iter : AMap Z Fl → AMap Z Fl} (hi : Zonal.IsIter iter)
    (garbage : Nat → Fl) (hx : Represents x v) (hz : Represents z w) (hg : x.grid = z.grid)
    (hv : ∀ i j, i < z.grid.a0 → j < z.grid.a1 → Element L (v i j))
    (ho1 : IsOrder (z.grid.n0 * z.grid.n1) order1) (ho2 : IsOrder (z.grid.n0 * z.grid.n1) order2) :
    ∃ r y, Zonal.zonalArray (zonalPolicies isNoData) (zonalSum L) iter garbage order1 order2 x z = .ok r ∧
      r.grid = z.grid ∧ Represents r y ∧
      ∀ i j, i < z.grid.a0 → j < z.grid.a1 → (isNoData (w i j) = true → y i j = Fl.nan) ∧ (isNoData (w i j) = false →
        (zoneNumbers z.grid v w (w i j) = [] → y i j = Fl.nan) ∧
        (zoneNumbers z.grid v w (w i j) ≠ [] →
          (Fits L u (zoneNumbers z.grid v w (w i j)) → IsSum u (zoneNumbers z.grid v w (w i j)) (y i j)) ∧
          (ExactlyAdded L (zoneNumbers z.grid v w (w i j)) → y i j = Fl.fin (zoneNumbers z.grid v w (w i j)).sum))) := by
  obtain ⟨r, y, h1, h2, h3, h4⟩ := Zonal.zonalArray_spec (zonalPolicies isNoData) zonal_sum_summarises hi garbage hx hz hg ho1 ho2
  refine ⟨r, y, h1, h2, h3, fun i j _ _ => ⟨fun hk => ?_, fun hk => ?_⟩⟩
  · rcases h4 i j with ⟨_, h6⟩ | ⟨h5, _⟩
    · exact h6
    · exact absurd (zoneValues_noData hk) h5
  obtain ⟨e1, e2, e3⟩ := zoneValues_numbers (w := w) z.grid hv (w i j) hk
  rcases h4 i j with ⟨h5, h6⟩ | ⟨h5, s, h6, h7⟩
  · exact ⟨fun _ => h6, fun h => absurd (e3.1 h5) h⟩
  · have hadd := h6 e1
    rw [e2] at hadd
    have h7 : y i j = s := h7
    rw [h7]
    exact ⟨fun h => absurd (e3.2 h) h5, fun _ => ⟨fun hf => hadd.isSum hA hf, fun hf => hadd.exact hA hf⟩⟩

/-- C76, `zonal_mean`: each cell contains the mean of the numbers in its zone, apart from a rounding error which is limited
whatever the partitioning and the orders. -/
theorem zonal_mean_correct (hA : Accurate L u η) {iter : AMap Z (Fl × Nat) → AMap Z (Fl × Nat)} (hi : Zonal.IsIter iter)
    (garbage : Nat → Fl) (hx : Represents x v) (hz : Represents z w) (hg : x.grid = z.grid)
    (hv : ∀ i j, i < z.grid.a0 → j < z.grid.a1 → Element L (v i j))
    (ho1 : IsOrder (z.grid.n0 * z.grid.n1) order1) (ho2 : IsOrder (z.grid.n0 * z.grid.n1) order2) :
    ∃ r y, Zonal.zonalArray (zonalPolicies isNoData) (zonalMean L) iter garbage order1 order2 x z = .ok r ∧
      r.grid = z.grid ∧ Represents r y ∧
      ∀ i j, i < z.grid.a0 → j < z.grid.a1 → (isNoData (w i j) = true → y i j = Fl.nan) ∧ (isNoData (w i j) = false →
        (zoneNumbers z.grid v w (w i j) = [] → y i j = Fl.nan) ∧
        (zoneNumbers z.grid v w (w i j) ≠ [] → Fits L u (zoneNumbers z.grid v w (w i j)) →
          L.Rep ((zoneNumbers z.grid v w (w i j)).length : ℝ) → IsMean u η (zoneNumbers z.grid v w (w i j)) (y i j))) := by
  obtain ⟨r, y, h1, h2, h3, h4⟩ := Zonal.zonalArray_spec (zonalPolicies isNoData) zonal_mean_summarises hi garbage hx hz hg ho1 ho2
  refine ⟨r, y, h1, h2, h3, fun i j _ _ => ⟨fun hk => ?_, fun hk => ?_⟩⟩
  · rcases h4 i j with ⟨_, h6⟩ | ⟨h5, _⟩
    · exact h6
    · exact absurd (zoneValues_noData hk) h5
  obtain ⟨e1, e2, e3⟩ := zoneValues_numbers (w := w) z.grid hv (w i j) hk
  rcases h4 i j with ⟨h5, h6⟩ | ⟨h5, s, h6, h7⟩
  · exact ⟨fun _ => h6, fun h => absurd (e3.1 h5) h⟩
  · obtain ⟨hadd, hlen⟩ := h6 e1
    rw [e2] at hadd hlen
    have h7 : y i j = div L s.1 (.fin (s.2 : ℝ)) := h7
    rw [h7, hlen]
    exact ⟨fun h => absurd (e3.2 h) h5, fun _ hf hr => hadd.isMean hA hf hr⟩

end

/-! ### accu -/

section
open Lue.Routing Lue.InflowCount Lue.Router Lue.Accu Relation

variable {isNoDataFd : Nat → Bool} {fd : PArr Nat} {v : Arr Nat} {inflow : Arg (Option Fl)}
variable {f : Arr (Option Fl)}

theorem accu_setup' (hfd : FlowDirections isNoDataFd fd v) (hin : inflow.IsValues fd.grid f) :
    Setup (accuFunctor L inflow) isNoDataFd (fun c s => enterCell L (f c.1 c.2) s) fd.grid v where
  ok := hfd.represents.ok
  two0 := hfd.two0
  two1 := hfd.two1
  valid := hfd.valid
  leave := fun _ _ => rfl
  enter := fun k0 k1 c s h0 h1 hc => by
    simp only [accuFunctor, accuCells]
    have : inflow.toValue (k0 * fd.grid.n1 + k1) (lin (fd.grid.cols k1) c) =
        .ok (f (glob fd.grid k0 k1 c).1 (glob fd.grid k0 k1 c).2) := by
      cases inflow with
      | array x =>
        obtain ⟨h, hx⟩ := hin
        rw [← h] at h0 h1 hc ⊢
        obtain ⟨p, h2, h3⟩ := Represents.holds hx h0 h1
        simp only [Arg.toValue]
        rw [rd_ok h2, M.bind_ok, rd_ok (h3.2 c hc)]
      | scalar b =>
        have h : ∀ i j, f i j = b := hin
        simp only [Arg.toValue]
        rw [h]
    rw [this, M.bind_ok]
    rfl

/-- The contents of a cell after the arrival of material -/
def Arrived (L : Lib) (xs : List ℝ) (s : Option Fl) : Prop :=
  (xs = [] ∧ s = some (Fl.fin 0)) ∨ (∃ t, s = some t ∧ Added L xs t)

theorem Arrived.push (hA : Accurate L u η) {xs ys : List ℝ} {s : Option Fl} {t : Fl} (h : Arrived L xs s)
    (ht : Added L ys t) : ∃ r, enterInter L (some t) s = some r ∧ Added L (xs ++ ys) r := by
  rcases h with ⟨rfl, rfl⟩ | ⟨s, rfl, hs⟩
  · refine ⟨t, ?_, ht⟩
    show some (FloatOps.add L (.fin 0) t) = some t
    rw [ht.zero_add hA]
  · exact ⟨_, rfl, hs.add ht⟩

theorem accu_fold (hA : Accurate L u η) {val : Cell → Option Fl} {parts : Cell → List ℝ} :
    ∀ (us : List Cell) (xs : List ℝ) (s : Option Fl), Arrived L xs s →
      (∀ c ∈ us, ∃ t, val c = some t ∧ Added L (parts c) t) →
      Arrived L (xs ++ us.flatMap parts) (us.foldl (fun s c => enterInter L (val c) s) s)
  | [], xs, s, h, _ => by simpa using h
  | c :: us, xs, s, h, hus => by
    obtain ⟨t, ht, hadd⟩ := hus c (by simp)
    obtain ⟨r, hr, hr'⟩ := h.push hA hadd
    have := accu_fold hA us (xs ++ parts c) (some r) (.inr ⟨r, rfl, hr'⟩) fun d hd => hus d (by simp [hd])
    rw [List.foldl_cons, ht, hr]
    simpa using this

theorem accu_fold_none {val : Cell → Option Fl} : ∀ (us : List Cell) (s : Option Fl),
    (s = none ∨ ∃ c ∈ us, val c = none) → us.foldl (fun s c => enterInter L (val c) s) s = none
  | [], s, h => by simpa using h
  | c :: us, s, h => by
    rw [List.foldl_cons]
    refine accu_fold_none us _ ?_
    rcases h with rfl | ⟨d, hd, he⟩
    · left; rfl
    · rcases List.mem_cons.1 hd with rfl | hd
      · left; rw [he]; cases s <;> rfl
      · exact .inr ⟨d, hd, he⟩

/-- A cell whose flow direction and inflow are usable -/
def ValidAt (L : Lib) (isNoDataFd : Nat → Bool) (v : Arr Nat) (f : Arr (Option Fl)) (x : Cell → ℝ) (c : Cell) : Prop :=
  isNoDataFd (v c.1 c.2) = false ∧ f c.1 c.2 = some (Fl.fin (x c)) ∧ L.Rep (x c) ∧ 0 ≤ x c

theorem inflowing_disjoint {a0 a1 : Nat} {c : Cell} (hacc : Acc (Drains a0 a1 v) c) {a b : Cell}
    (ha : Drains a0 a1 v a c) (hb : Drains a0 a1 v b c) (hne : a ≠ b) :
    Disjoint (catchment a0 a1 v a) (catchment a0 a1 v b) := by
  have hin : ∀ a, Drains a0 a1 v a c → a ∈ allCells a0 a1 := fun a h => mem_allCells.2 ⟨h.1, h.2.1⟩
  rw [Finset.disjoint_left]
  intro w hw hw'
  rw [mem_catchment (hin a ha)] at hw
  rw [mem_catchment (hin b hb)] at hw'
  have key : ∀ a b, Drains a0 a1 v a c → Drains a0 a1 v b c → a ≠ b → ReflTransGen (Drains a0 a1 v) a b → False := by
    intro a b hD hD' hne hr
    rcases ReflTransGen.cases_head hr with h1 | ⟨d, hd, hr⟩
    · exact hne h1
    · have := hd.unique hD
      subst this
      exact acc_transGen hacc (TransGen.tail' hr hD')
  rcases ReflTransGen.total_of_right_unique (fun a b c h h' => h.unique h') hw hw' with h1 | h1
  · exact key a b ha hb hne h1
  · exact key b a hb ha hne.symm h1

/-- The numbers entering the catchment of a cell are those entering the cell and those entering the catchments of the cells
draining into it. -/
theorem catchmentNumbers_perm {a0 a1 : Nat} {c : Cell} (hc : c ∈ allCells a0 a1) (hacc : Acc (Drains a0 a1 v) c)
    {us : List Cell} (hn : us.Nodup) (hm : ∀ a, a ∈ us ↔ Drains a0 a1 v a c) (x : Cell → ℝ) :
    (us.flatMap (catchmentNumbers a0 a1 v x) ++ [x c]).Perm (catchmentNumbers a0 a1 v x c) := by
  classical
  unfold catchmentNumbers
  have e : us.flatMap (fun c => (catchment a0 a1 v c).toList.map x) ++ [x c] =
      (us.flatMap (fun c => (catchment a0 a1 v c).toList) ++ [c]).map x := by
    rw [List.map_append, List.map_flatMap]; rfl
  rw [e]
  refine List.Perm.map x ?_
  have hnd : (us.flatMap (fun c => (catchment a0 a1 v c).toList) ++ [c]).Nodup := by
    rw [List.nodup_append]
    refine ⟨?_, by simp, ?_⟩
    · rw [List.nodup_flatMap]
      refine ⟨fun a _ => Finset.nodup_toList _, ?_⟩
      refine List.Pairwise.imp_of_mem ?_ hn
      intro a b ha hb hne
      have := inflowing_disjoint hacc ((hm a).1 ha) ((hm b).1 hb) hne
      intro w hw hw'
      exact Finset.disjoint_left.1 this (Finset.mem_toList.1 hw) (Finset.mem_toList.1 hw')
    · intro a ha b hb hab
      subst hab
      rw [List.mem_singleton] at hb
      subst hb
      obtain ⟨d, hd, hdd⟩ := List.mem_flatMap.1 ha
      have hD := (hm d).1 hd
      rw [Finset.mem_toList, mem_catchment (mem_allCells.2 ⟨hD.1, hD.2.1⟩)] at hdd
      exact acc_transGen hacc (TransGen.tail' hdd hD)
  refine (List.perm_ext_iff_of_nodup hnd (Finset.nodup_toList _)).2 fun w => ?_
  rw [List.mem_append, List.mem_flatMap, List.mem_singleton, Finset.mem_toList, catchment_eq hc, Finset.mem_insert,
    Finset.mem_biUnion]
  constructor
  · rintro (⟨d, hd, hw⟩ | rfl)
    · exact .inr ⟨d, mem_inflowing.2 ((hm d).1 hd), Finset.mem_toList.1 hw⟩
    · exact .inl rfl
  · rintro (rfl | ⟨d, hd, hw⟩)
    · exact .inr rfl
    · exact .inl ⟨d, (hm d).2 (mem_inflowing.1 hd), Finset.mem_toList.2 hw⟩

theorem accu_added (hA : Accurate L u η) {w : Arr (Option Fl)} {a0 a1 : Nat} {x : Cell → ℝ} {c : Cell}
    (hc : c ∈ allCells a0 a1) (hacc : Acc (Drains a0 a1 v) c)
    (hs : ∀ d, d ∈ catchment a0 a1 v c → IsSolutionAt (net (accuFunctor L inflow) isNoDataFd
      (fun c s => enterCell L (f c.1 c.2) s) a0 a1 v) (fun c => w c.1 c.2) d)
    (hval : ∀ d ∈ catchment a0 a1 v c, ValidAt L isNoDataFd v f x d) :
    ∃ t, w c.1 c.2 = some t ∧ Added L (catchmentNumbers a0 a1 v x c) t := by
  induction hacc with
  | intro c hacc ih =>
    have hself : c ∈ catchment a0 a1 v c := (mem_catchment hc).2 .refl
    obtain ⟨us, hn, hm, hw⟩ := hs c hself
    have hm : ∀ a, a ∈ us ↔ Drains a0 a1 v a c := hm
    have hus : ∀ a ∈ us, ∃ t, w a.1 a.2 = some t ∧ Added L (catchmentNumbers a0 a1 v x a) t := by
      intro a ha
      have hD := (hm a).1 ha
      have ha0 : a ∈ allCells a0 a1 := mem_allCells.2 ⟨hD.1, hD.2.1⟩
      have hsub : ∀ d, d ∈ catchment a0 a1 v a → d ∈ catchment a0 a1 v c := fun d hd =>
        (mem_catchment hc).2 (((mem_catchment ha0).1 hd).tail hD)
      exact ih a hD ha0 (fun d hd => hs d (hsub d hd)) fun d hd => hval d (hsub d hd)
    have harr := accu_fold hA (val := fun c => w c.1 c.2) us [] (some (.fin 0)) (.inl ⟨rfl, rfl⟩) hus
    rw [List.nil_append] at harr
    obtain ⟨hnd, hf, hrep, hpos⟩ := hval c hself
    have hfin : w c.1 c.2 = enterCell L (f c.1 c.2)
        (us.foldl (fun s c => enterInter L (w c.1 c.2) s) (some (.fin 0))) := by
      refine hw.trans ?_
      simp only [net, hnd, Bool.false_eq_true, if_false]
      rfl
    have hwith : accuWithin (Fl.fin (x c)) = true := by
      show decide (0 ≤ x c) = true
      simpa using hpos
    have hperm := catchmentNumbers_perm hc (Acc.intro c hacc) hn hm x
    rw [hfin, hf]
    rcases harr with ⟨h1, h2⟩ | ⟨t, h1, h2⟩
    · rw [h2]
      simp only [enterCell, accuEnterCell, hwith, Bool.not_true, Bool.false_eq_true, if_false]
      refine ⟨_, rfl, ?_⟩
      rw [h1, List.nil_append] at hperm
      refine Added.perm ?_ hperm
      have := (Added.one hrep).zero_add hA
      show Added L [x c] (FloatOps.add L (.fin 0) (.fin (x c)))
      rw [this]
      exact Added.one hrep
    · rw [h1]
      simp only [enterCell, accuEnterCell, hwith, Bool.not_true, Bool.false_eq_true, if_false]
      exact ⟨_, rfl, (h2.add (Added.one hrep)).perm hperm⟩

theorem accu_none {w : Arr (Option Fl)} {a0 a1 : Nat} {c : Cell}
    (hc : c ∈ allCells a0 a1) (hacc : Acc (Drains a0 a1 v) c)
    (hs : ∀ d, d ∈ catchment a0 a1 v c → IsSolutionAt (net (accuFunctor L inflow) isNoDataFd
      (fun c s => enterCell L (f c.1 c.2) s) a0 a1 v) (fun c => w c.1 c.2) d)
    (hval : ∃ d ∈ catchment a0 a1 v c, Invalid isNoDataFd accuWithin v f d) : w c.1 c.2 = none := by
  classical
  induction hacc with
  | intro c hacc ih =>
    have hself : c ∈ catchment a0 a1 v c := (mem_catchment hc).2 .refl
    obtain ⟨us, hn, hm, hw⟩ := hs c hself
    have hm : ∀ a, a ∈ us ↔ Drains a0 a1 v a c := hm
    have hfin : w c.1 c.2 = if isNoDataFd (v c.1 c.2) = true then none else enterCell L (f c.1 c.2)
        (us.foldl (fun s c => enterInter L (w c.1 c.2) s) (some (.fin 0))) := hw
    obtain ⟨d, hd, hinv⟩ := hval
    rw [catchment_eq hc, Finset.mem_insert, Finset.mem_biUnion] at hd
    rcases hd with rfl | ⟨a, ha, hda⟩
    · rw [hfin]
      rcases hinv with h | h
      · rw [if_pos h]
      · split
        · rfl
        · cases hfd : f d.1 d.2 with
          | none => cases us.foldl (fun s c => enterInter L (w c.1 c.2) s) (some (.fin 0)) <;> rfl
          | some a =>
            have h := h a hfd
            cases us.foldl (fun s c => enterInter L (w c.1 c.2) s) (some (.fin 0)) with
            | none => rfl
            | some s => simp [enterCell, accuEnterCell, h]
    · have hD := mem_inflowing.1 ha
      have ha0 : a ∈ allCells a0 a1 := mem_allCells.2 ⟨hD.1, hD.2.1⟩
      have hsub : ∀ d, d ∈ catchment a0 a1 v a → d ∈ catchment a0 a1 v c := fun d hd =>
        (mem_catchment hc).2 (((mem_catchment ha0).1 hd).tail hD)
      have hnone := ih a hD ha0 (fun d hd => hs d (hsub d hd)) ⟨d, hda, hinv⟩
      rw [hfin, accu_fold_none (val := fun c => w c.1 c.2) us (some (.fin 0)) (.inr ⟨a, (hm a).2 hD, hnone⟩)]
      split <;> rfl

theorem unusable_invalid {c : Cell} (h : Unusable isNoDataFd v f c) : Invalid isNoDataFd accuWithin v f c := by
  rcases h with h | h | ⟨b, h, hb⟩
  · exact .inl h
  · exact .inr fun a ha => by rw [h] at ha; cases ha
  · refine .inr fun a ha => ?_
    rw [h] at ha
    obtain rfl := Option.some.inj ha
    rcases hb with rfl | ⟨r, rfl, hr⟩
    · rfl
    · simp [accuWithin, geq, hr]

/-- C76, `accu`: there is an outcome if and only if no cycle crosses a border between partitions. -/
theorem accu_yields (hfd : FlowDirections isNoDataFd fd v) (hin : inflow.IsValues fd.grid f) :
    (∃ y, AccuYields L isNoDataFd fd inflow y) ↔ ¬ CycleCrossesBorder fd v := by
  rw [← routed_iff hfd.represents (accu_setup' (L := L) hfd hin)]
  exact ⟨fun ⟨y, hy⟩ => ⟨y, hy.2⟩, fun ⟨y, hy⟩ => ⟨y, hin.compatible, hy⟩⟩

/-- C76, `accu`: whatever the partitioning and the schedule, each cell which is not on or downstream of a cycle contains the
sum of what enters the cells in its catchment, apart from a rounding error which is limited, or no-data if one of the cells
in its catchment is not valid. -/
theorem accu_correct (hA : Accurate L u η) (hfd : FlowDirections isNoDataFd fd v) (hin : inflow.IsValues fd.grid f)
    {y : PArr (Option Fl)} (hy : AccuYields L isNoDataFd fd inflow y) :
    y.grid = fd.grid ∧ ∃ w, Represents y w ∧ ∀ i j, i < fd.grid.a0 → j < fd.grid.a1 →
      ¬ OnCycle fd.grid.a0 fd.grid.a1 v (i, j) →
      ((∃ d ∈ catchment fd.grid.a0 fd.grid.a1 v (i, j), Unusable isNoDataFd v f d) → w i j = none) ∧
      ∀ x : Cell → ℝ, (∀ d ∈ catchment fd.grid.a0 fd.grid.a1 v (i, j), ValidAt L isNoDataFd v f x d) →
        ∃ r, w i j = some r ∧
          (Fits L u (catchmentNumbers fd.grid.a0 fd.grid.a1 v x (i, j)) →
            IsSum u (catchmentNumbers fd.grid.a0 fd.grid.a1 v x (i, j)) r) ∧
          (ExactlyAdded L (catchmentNumbers fd.grid.a0 fd.grid.a1 v x (i, j)) →
            r = Fl.fin (catchmentNumbers fd.grid.a0 fd.grid.a1 v x (i, j)).sum) := by
  obtain ⟨h1, w, h2, h3, _⟩ := routed_result hfd.represents (accu_setup' hfd hin) hy.2
  refine ⟨h1, w, h2, fun i j hi hj hcyc => ?_⟩
  have hc : (i, j) ∈ allCells fd.grid.a0 fd.grid.a1 := mem_allCells.2 ⟨hi, hj⟩
  have hacc := acc_iff.2 hcyc
  have hs : ∀ d, d ∈ catchment fd.grid.a0 fd.grid.a1 v (i, j) → IsSolutionAt (net (accuFunctor L inflow)
      isNoDataFd (fun c s => enterCell L (f c.1 c.2) s) fd.grid.a0 fd.grid.a1 v) (fun c => w c.1 c.2) d := by
    intro d hd
    have hd := (mem_catchment hc).1 hd
    have hd0 := mem_allCells.1 (mem_allCells_of_upstream hc hd)
    exact h3 d.1 d.2 hd0.1 hd0.2 (acc_iff.1 (acc_upstream hacc hd))
  refine ⟨fun ⟨d, hd, h⟩ => accu_none hc hacc hs ⟨d, hd, unusable_invalid h⟩, fun x hx => ?_⟩
  obtain ⟨t, ht, hadd⟩ := accu_added hA hc hacc hs hx
  exact ⟨t, ht, fun hf => hadd.isSum hA hf, fun hf => hadd.exact hA hf⟩

end

end Lue.Rounding

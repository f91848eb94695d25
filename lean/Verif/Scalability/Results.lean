import Verif.Scalability.Runs

/-!
# Scalability experiments: the results
-/
namespace Lue.Scalability

theorem insertByTime_perm (x : Result) : ∀ l, (insertByTime x l).Perm (x :: l)
  | [] => List.Perm.refl _
  | y :: ys => by
    unfold insertByTime
    split
    · exact List.Perm.refl _
    · exact ((insertByTime_perm x ys).cons y).trans (List.Perm.swap x y ys)

theorem insertByTime_sorted (x : Result) :
    ∀ l, l.Pairwise (fun a b => a.start ≤ b.start) → (insertByTime x l).Pairwise (fun a b => a.start ≤ b.start)
  | [], _ => List.pairwise_singleton _ _
  | y :: ys, h => by
    unfold insertByTime
    cases h with
    | cons hy hys =>
      split
      · rename_i hlt
        refine List.Pairwise.cons ?_ (List.Pairwise.cons hy hys)
        intro z hz
        rcases List.mem_cons.mp hz with rfl | hz
        · omega
        · have := hy z hz
          omega
      · rename_i hlt
        refine List.Pairwise.cons ?_ (insertByTime_sorted x ys hys)
        intro z hz
        rcases List.mem_cons.mp ((insertByTime_perm x ys).mem_iff.mp hz) with rfl | hz
        · omega
        · exact hy z hz

theorem foldl_sort (l : List Result) : ∀ acc : List Result, acc.Pairwise (fun a b => a.start ≤ b.start) →
    (l.foldl (fun acc x => insertByTime x acc) acc).Perm (l ++ acc) ∧
      (l.foldl (fun acc x => insertByTime x acc) acc).Pairwise (fun a b => a.start ≤ b.start) := by
  induction l with
  | nil => exact fun acc h => ⟨List.Perm.refl _, h⟩
  | cons x l ih =>
    intro acc h
    obtain ⟨h1, h2⟩ := ih (insertByTime x acc) (insertByTime_sorted x acc h)
    refine ⟨?_, h2⟩
    refine h1.trans ?_
    exact ((insertByTime_perm x acc).append_left l).trans List.perm_middle

theorem sort_perm (l : List Result) : (sortByTime l).Perm l := by
  have := (foldl_sort l [] List.Pairwise.nil).1
  rwa [List.append_nil] at this

theorem sort_sorted (l : List Result) : (sortByTime l).Pairwise (fun a b => a.start ≤ b.start) :=
  (foldl_sort l [] List.Pairwise.nil).2

theorem offset_nonneg {a b : Int} (h : a ≤ b) : 0 ≤ offset a b := Int.tdiv_nonneg (by omega) (by decide)

theorem offset_mono {e a b : Int} (ha : e ≤ a) (h : a ≤ b) : offset e a ≤ offset e b := by
  unfold offset
  rw [Int.tdiv_eq_ediv_of_nonneg (by omega), Int.tdiv_eq_ediv_of_nonneg (by omega)]
  omega

theorem offset_bounds {e a : Int} (ha : e ≤ a) : offset e a * 1000000 ≤ a - e ∧ a - e < (offset e a + 1) * 1000000 := by
  unfold offset
  rw [Int.tdiv_eq_ediv_of_nonneg (by omega)]
  omega

/-- What is imported. -/
theorem importRaw_eq {b : Benchmark} {l : List Nat} {files : Nat → Option Result} (hs : Sizes b.worker.pool l) :
    importRaw b files = (l.mapM (readResult files) >>= fun items =>
      firstStart (sortByTime items) >>= fun epoch => (sortByTime items).mapM (toRow epoch)) := by
  unfold importRaw
  rw [← perSize hs (readResult files), hs.1]
  rfl

theorem toRows {epoch : Int} : ∀ {l : List Result}, (∀ r ∈ l, epoch ≤ r.start) →
    l.mapM (toRow epoch) = .ok (l.map fun r => ⟨offset epoch r.start, r.durations, r.nrWorkers⟩)
  | [], _ => rfl
  | r :: l, h => by
    have h1 : toRow epoch r = .ok ⟨offset epoch r.start, r.durations, r.nrWorkers⟩ := by
      unfold toRow
      rw [require_pos (offset_nonneg (h r List.mem_cons_self))]
      rfl
    rw [List.mapM_cons, h1, toRows fun x hx => h x (List.mem_cons_of_mem _ hx)]
    rfl

theorem readResult_ok {files : Nat → Option Result} {n : Nat} {r : Result} (h : readResult files n = .ok r) :
    files n = some r := by
  unfold readResult at h
  split at h
  · rename_i x hx
    rw [hx, Except.ok.inj h]
  · cases h

/-- C63: importing results succeeds if and only if there is a file for each number of workers asked for. -/
theorem import_ok {c : Cluster} {j : BenchmarkJson} {b : Benchmark} (hb : makeBenchmark c j = .ok b)
    (files : Nat → Option Result) :
    (∃ rows, importRaw b files = .ok rows) ↔ ∀ n, Wanted j.pool n → (files n).isSome := by
  obtain ⟨p, hp, hi, _⟩ := benchmark_is hb
  obtain ⟨l, hs, hl, hw, _, hhead, _⟩ := pool_sizes hp
  rw [importRaw_eq (by rw [hi.pool.1]; exact hs)]
  constructor
  · rintro ⟨rows, h⟩ n hn
    obtain ⟨items, h1, _⟩ := bind_eq_ok h
    have hf := mapM_ok h1
    obtain ⟨i, hi', rfl⟩ := List.getElem_of_mem ((hw n).mpr hn)
    have hlen : i < items.length := by rw [← hf.length_eq]; exact hi'
    have := (List.forall₂_iff_get.mp hf).2 i hi' hlen
    simp only [List.get_eq_getElem] at this
    rw [readResult_ok this]
    rfl
  · intro h
    obtain ⟨items, hitems⟩ : ∃ items, l.mapM (readResult files) = .ok items := by
      apply mapM_total
      intro n hn
      obtain ⟨r, hr⟩ := Option.isSome_iff_exists.mp (h n ((hw n).mp hn))
      exact ⟨r, by unfold readResult; rw [hr]⟩
    rw [hitems]
    show ∃ rows, (firstStart (sortByTime items) >>= fun epoch => (sortByTime items).mapM (toRow epoch)) = .ok rows
    have hne : sortByTime items ≠ [] := by
      intro hnil
      have h1 := (sort_perm items).length_eq
      rw [hnil, ← (mapM_ok hitems).length_eq] at h1
      cases l with
      | nil => cases hhead
      | cons => cases h1
    have hsorted := sort_sorted items
    cases hso : sortByTime items with
    | nil => exact absurd hso hne
    | cons r rs =>
      show ∃ rows, (r :: rs).mapM (toRow r.start) = .ok rows
      rw [toRows]
      · exact ⟨_, rfl⟩
      · intro x hx
        rw [hso] at hsorted
        cases hsorted with
        | cons h1 _ =>
          rcases List.mem_cons.mp hx with rfl | hx
          · omega
          · exact h1 x hx

/-- C63: the dataset contains one measurement for each number of workers asked for, with the durations in the file with the
results, ordered by the time the benchmark was started, whatever the order in which they were performed. Locations in time
are relative to the start of the first benchmark, in whole seconds. -/
theorem import_rows {c : Cluster} {j : BenchmarkJson} {b : Benchmark} (hb : makeBenchmark c j = .ok b)
    {files : Nat → Option Result} (hon : Honest files) {rows : List Row} (h : importRaw b files = .ok rows) :
    (rows.map Row.nrWorkers).Nodup ∧ (∀ n, n ∈ rows.map Row.nrWorkers ↔ Wanted j.pool n) ∧
      rows.Pairwise (fun x y => x.offset ≤ y.offset) ∧
      ∃ n0 f0, Wanted j.pool n0 ∧ files n0 = some f0 ∧
        ∀ row ∈ rows, ∃ f, files row.nrWorkers = some f ∧ row.durations = f.durations ∧ f0.start ≤ f.start ∧
          row.offset * 1000000 ≤ f.start - f0.start ∧ f.start - f0.start < (row.offset + 1) * 1000000 := by
  obtain ⟨p, hp, hi, _⟩ := benchmark_is hb
  obtain ⟨l, hs, hl, hw, _, hhead, _⟩ := pool_sizes hp
  rw [importRaw_eq (by rw [hi.pool.1]; exact hs)] at h
  obtain ⟨items, h1, h⟩ := bind_eq_ok h
  obtain ⟨epoch, h2, h⟩ := bind_eq_ok h
  have hf := mapM_ok h1
  have hfile : ∀ r ∈ items, files r.nrWorkers = some r ∧ r.nrWorkers ∈ l := by
    intro r hr
    obtain ⟨i, hi', rfl⟩ := List.getElem_of_mem hr
    have hlen : i < l.length := by rw [hf.length_eq]; exact hi'
    have := readResult_ok ((List.forall₂_iff_get.mp hf).2 i hlen hi')
    simp only [List.get_eq_getElem] at this
    rw [hon _ _ this]
    exact ⟨this, List.getElem_mem _⟩
  have hmap : items.map Result.nrWorkers = l := by
    have := forall2_map_eq (f := Result.nrWorkers) (g := id) (fun a b h => hon _ _ (readResult_ok h)) hf
    rw [this, List.map_id]
  have hperm := sort_perm items
  have hsorted := sort_sorted items
  cases hso : sortByTime items with
  | nil =>
    rw [hso] at h2
    cases h2
  | cons r0 rs =>
    rw [hso] at h2 h hperm hsorted
    have he : r0.start = epoch := Except.ok.inj h2
    subst he
    have hmin : ∀ r ∈ r0 :: rs, r0.start ≤ r.start := by
      intro x hx
      cases hsorted with
      | cons g1 _ =>
        rcases List.mem_cons.mp hx with rfl | hx
        · omega
        · exact g1 x hx
    rw [toRows hmin] at h
    obtain rfl := Except.ok.inj h
    have hnr : ((r0 :: rs).map fun r => (⟨offset r0.start r.start, r.durations, r.nrWorkers⟩ : Row)).map Row.nrWorkers =
        (r0 :: rs).map Result.nrWorkers := by
      rw [List.map_map]
      rfl
    have hp' : ((r0 :: rs).map Result.nrWorkers).Perm l := by
      rw [← hmap]
      exact hperm.map _
    have hr0 := hfile r0 (hperm.mem_iff.mp List.mem_cons_self)
    refine ⟨?_, ?_, ?_, r0.nrWorkers, r0, (hw _).mp hr0.2, hr0.1, ?_⟩
    · rw [hnr]
      exact hp'.symm.nodup (hl.imp fun h => Nat.ne_of_lt h)
    · intro n
      rw [hnr, hp'.mem_iff]
      exact hw n
    · rw [List.pairwise_map]
      refine List.Pairwise.imp_of_mem ?_ hsorted
      intro x y hx hy hxy
      exact offset_mono (hmin x hx) hxy
    · intro row hrow
      obtain ⟨r, hr, rfl⟩ := List.mem_map.mp hrow
      exact ⟨r, (hfile r (hperm.mem_iff.mp hr)).1, rfl, hmin r hr, offset_bounds (hmin r hr)⟩

theorem single_ok : ∀ {rows : List Row}, (1 ∈ rows.map Row.nrWorkers) →
    ∃ t ∈ rows, single rows = .ok t ∧ t.nrWorkers = 1
  | [], h => by cases h
  | r :: rows, h => by
    unfold single
    by_cases h1 : r.nrWorkers = 1
    · rw [if_pos h1]
      exact ⟨r, List.mem_cons_self, rfl, h1⟩
    · rw [if_neg h1]
      rw [List.map_cons, List.mem_cons] at h
      rcases h with h | h
      · exact absurd h.symm h1
      · obtain ⟨t, ht, h2⟩ := single_ok h
        exact ⟨t, List.mem_cons_of_mem _ ht, h2⟩

theorem single_error : ∀ {rows : List Row}, (1 ∉ rows.map Row.nrWorkers) → single rows = .error .key
  | [], _ => rfl
  | r :: rows, h => by
    rw [List.map_cons, List.mem_cons, not_or] at h
    unfold single
    rw [if_neg (fun h1 => h.1 h1.symm)]
    exact single_error h.2

theorem divide_get {x y : List Rat} {i : Nat} {a b : Rat} (hx : x[i]? = some a) (hy : y[i]? = some b) :
    (divide x y)[i]? = some (a / b) := by
  unfold divide
  rw [List.getElem?_zipWith, hx, hy]

/-- C63: the relative speed-up of a strong scalability experiment with `n` workers is `t1 / tn`, and the relative
efficiency is `100% * t1 / (n * tn)`, for all repetitions, whatever the order in which benchmarks were performed. -/
theorem strong_scaling {c : Cluster} {j : BenchmarkJson} {b : Benchmark} (hb : makeBenchmark c j = .ok b)
    {files : Nat → Option Result} (hon : Honest files) {rows : List Row} (h : importRaw b files = .ok rows)
    (h1 : Wanted j.pool 1) :
    ∃ s, strongScaling rows = .ok s ∧ s.map Scaling.nrWorkers = rows.map Row.nrWorkers ∧
      ∀ x ∈ s, ∃ f1 fn, files 1 = some f1 ∧ files x.nrWorkers = some fn ∧ x.durations = fn.durations ∧
        ∀ (i : Nat) t1 tn, f1.durations[i]? = some t1 → fn.durations[i]? = some tn →
          x.speedUp[i]? = some (t1 / tn) ∧ x.efficiency[i]? = some (100 * t1 / (x.nrWorkers * tn)) := by
  obtain ⟨_, hw, _, _, _, _, _, hall⟩ := import_rows hb hon h
  obtain ⟨t, ht, h2, h3⟩ := single_ok ((hw 1).mpr h1)
  obtain ⟨f1, hf1, hd1, _⟩ := hall t ht
  unfold strongScaling
  rw [h2]
  refine ⟨_, rfl, ?_, ?_⟩
  · rw [List.map_map]
    rfl
  · intro x hx
    obtain ⟨r, hr, rfl⟩ := List.mem_map.mp hx
    obtain ⟨fn, hfn, hdn, _⟩ := hall r hr
    refine ⟨f1, fn, by rw [← h3]; exact hf1, hfn, hdn, ?_⟩
    intro i t1 tn g1 g2
    rw [← hd1] at g1
    rw [← hdn] at g2
    dsimp only
    refine ⟨divide_get g1 g2, ?_⟩
    rw [List.getElem?_map, divide_get g1 g2, Option.map_some]
    congr 1
    rw [div_eq_mul_inv, div_eq_mul_inv, div_eq_mul_inv, mul_inv]
    ring

/-- C63: the relative efficiency of a weak scalability experiment with `n` workers is `100% * t1 / tn`. -/
theorem weak_scaling {c : Cluster} {j : BenchmarkJson} {b : Benchmark} (hb : makeBenchmark c j = .ok b)
    {files : Nat → Option Result} (hon : Honest files) {rows : List Row} (h : importRaw b files = .ok rows)
    (h1 : Wanted j.pool 1) :
    ∃ s, weakScaling rows = .ok s ∧ s.map Scaling.nrWorkers = rows.map Row.nrWorkers ∧
      ∀ x ∈ s, ∃ f1 fn, files 1 = some f1 ∧ files x.nrWorkers = some fn ∧ x.durations = fn.durations ∧
        ∀ (i : Nat) t1 tn, f1.durations[i]? = some t1 → fn.durations[i]? = some tn → x.efficiency[i]? = some (100 * t1 / tn) := by
  obtain ⟨_, hw, _, _, _, _, _, hall⟩ := import_rows hb hon h
  obtain ⟨t, ht, h2, h3⟩ := single_ok ((hw 1).mpr h1)
  obtain ⟨f1, hf1, hd1, _⟩ := hall t ht
  unfold weakScaling
  rw [h2]
  refine ⟨_, rfl, ?_, ?_⟩
  · rw [List.map_map]
    rfl
  · intro x hx
    obtain ⟨r, hr, rfl⟩ := List.mem_map.mp hx
    obtain ⟨fn, hfn, hdn, _⟩ := hall r hr
    refine ⟨f1, fn, by rw [← h3]; exact hf1, hfn, hdn, ?_⟩
    intro i t1 tn g1 g2
    rw [← hd1] at g1
    rw [← hdn] at g2
    dsimp only
    refine divide_get ?_ g2
    rw [List.getElem?_map, g1, Option.map_some]

/-- C63, finding: results of experiments in which no run with a single worker is asked for can't be post-processed, although
such experiments can be performed and imported. -/
theorem no_single_worker {c : Cluster} {j : BenchmarkJson} {b : Benchmark} (hb : makeBenchmark c j = .ok b)
    {files : Nat → Option Result} (hon : Honest files) {rows : List Row} (h : importRaw b files = .ok rows)
    (h1 : ¬ Wanted j.pool 1) : strongScaling rows = .error .key ∧ weakScaling rows = .error .key := by
  obtain ⟨_, hw, _⟩ := import_rows hb hon h
  have hs := single_error (rows := rows) (fun hm => h1 ((hw 1).mp hm))
  unfold strongScaling weakScaling
  rw [hs]
  exact ⟨rfl, rfl⟩

/-! ### Examples -/

/-- Eight NUMA nodes with 6 cores, per cluster node -/
def exCluster : Cluster := ⟨12, 2, 4, 6, true⟩

def exJson : BenchmarkJson := ⟨3, .numaNode, .numaNode, { multiplier := some 2, minSize := some 1, maxSize := some 7 }⟩

def exBenchmark : Benchmark := ⟨3, .numaNode, ⟨.numaNode, .multiplied 1 4 2, 1, 1, 1, 4, 6, 6⟩⟩

theorem exBenchmark_ok : makeBenchmark exCluster exJson = .ok exBenchmark := by decide

def exExperiment : Experiment := ⟨.strong, [1000, 1000], [100, 100], fun _ n e => n * e⟩

example : script exCluster exBenchmark exExperiment =
    .ok [⟨1, 1, 6, 1, 3, [1000, 1000], [100, 100]⟩, ⟨1, 2, 6, 2, 3, [1000, 1000], [100, 100]⟩,
      ⟨1, 4, 6, 4, 3, [1000, 1000], [100, 100]⟩] := by decide

example : Sane exCluster := by unfold Sane; decide

/-- Weak scaling in one dimension -/
example : script exCluster exBenchmark ⟨.weak, [1000], [100], fun _ n e => n * e⟩ =
    .ok [⟨1, 1, 6, 1, 3, [1000], [100]⟩, ⟨1, 2, 6, 2, 3, [2000], [100]⟩, ⟨1, 4, 6, 4, 3, [4000], [100]⟩] := by decide

/-- The second benchmark was started first. -/
def exFiles : Nat → Option Result
  | 1 => some ⟨5500000, [8, 9], 1⟩
  | 2 => some ⟨1000000, [4, 5], 2⟩
  | 4 => some ⟨9000000, [3, 3], 4⟩
  | _ => none

theorem exFiles_honest : Honest exFiles := by
  intro n r h
  unfold exFiles at h
  split at h
  · obtain rfl := Option.some.inj h; rfl
  · obtain rfl := Option.some.inj h; rfl
  · obtain rfl := Option.some.inj h; rfl
  · cases h

example : importRaw exBenchmark exFiles = .ok [⟨0, [4, 5], 2⟩, ⟨4, [8, 9], 1⟩, ⟨8, [3, 3], 4⟩] := rfl

example : Wanted exJson.pool 1 := ⟨1, 7, 0, rfl, rfl, rfl, by decide⟩

/-- Too many NUMA nodes -/
example : makeBenchmark exCluster ⟨3, .numaNode, .numaNode, { incrementor := some 3, minSize := some 1, maxSize := some 12 }⟩ =
    .error .assertion := by decide

/-- The largest number of workers is 7. -/
example : (makeBenchmark exCluster
    ⟨3, .numaNode, .numaNode, { incrementor := some 3, minSize := some 1, maxSize := some 9 }⟩).toOption.map
      (fun b => b.worker.maxNrNumaNodes) = some 7 := by decide

/-- Finding: a range with a single size is refused when the script is created. -/
example : script exCluster ⟨3, .numaNode, ⟨.numaNode, .multiplied 4 4 2, 1, 1, 4, 4, 6, 6⟩⟩ exExperiment =
    .error .assertion := by decide

end Lue.Scalability

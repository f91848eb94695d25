import Verif.Scalability.Properties

/-!
# Scalability experiments: the runs
-/
namespace Lue.Scalability

theorem mapM_ok {α β : Type} {f : α → Except Err β} :
    ∀ {l : List α} {rs : List β}, l.mapM f = .ok rs → List.Forall₂ (fun a r => f a = .ok r) l rs
  | [], rs, h => by
    rw [List.mapM_nil] at h
    obtain rfl := Except.ok.inj h
    exact .nil
  | a :: l, rs, h => by
    rw [List.mapM_cons] at h
    obtain ⟨b, hb, h⟩ := bind_eq_ok h
    obtain ⟨bs, hbs, h⟩ := bind_eq_ok h
    obtain rfl := Except.ok.inj h
    exact .cons hb (mapM_ok hbs)

theorem mapM_total {α β : Type} {f : α → Except Err β} :
    ∀ {l : List α}, (∀ a ∈ l, ∃ b, f a = .ok b) → ∃ rs, l.mapM f = .ok rs
  | [], _ => ⟨[], rfl⟩
  | a :: l, h => by
    obtain ⟨b, hb⟩ := h a List.mem_cons_self
    obtain ⟨rs, hrs⟩ := mapM_total (l := l) fun x hx => h x (List.mem_cons_of_mem _ hx)
    exact ⟨b :: rs, by rw [List.mapM_cons, hb, hrs]; rfl⟩

theorem mapM_congr {α β : Type} {f g : α → Except Err β} :
    ∀ {l : List α}, (∀ a ∈ l, f a = g a) → l.mapM f = l.mapM g
  | [], _ => rfl
  | a :: l, h => by
    rw [List.mapM_cons, List.mapM_cons, h a List.mem_cons_self,
      mapM_congr (l := l) fun x hx => h x (List.mem_cons_of_mem _ hx)]

theorem mapM_map {α β γ : Type} {f : β → Except Err γ} (g : α → β) :
    ∀ l : List α, (l.map g).mapM f = l.mapM fun a => f (g a)
  | [] => rfl
  | a :: l => by rw [List.map_cons, List.mapM_cons, List.mapM_cons, mapM_map g l]

theorem range_getElem (l : List Nat) : (List.range l.length).map (fun i => l.getD i 0) = l := by
  apply List.ext_getElem
  · simp
  · intro i h1 h2
    simp [List.getD, List.getElem?_eq_getElem h2]

/-- For each of the sizes. -/
theorem perSize {γ : Type} {p : WorkerRange} {l : List Nat} (hs : Sizes p l) (f : Nat → Except Err γ) :
    (p.nrPermutations >>= fun nr => (List.range nr).mapM fun idx => p.permutationSize idx >>= f) = l.mapM f := by
  rw [hs.1]
  show (List.range l.length).mapM _ = _
  conv_rhs => rw [← range_getElem l]
  rw [mapM_map]
  apply mapM_congr
  intro i hi
  have hi' := List.mem_range.mp hi
  rw [hs.2 i, List.getElem?_eq_getElem hi']
  show f l[i] = f (l.getD i 0)
  congr 1
  simp [List.getD, List.getElem?_eq_getElem hi']

/-- What is known about a benchmark. -/
inductive IsBenchmark (c : Cluster) (n : Nat) (p : WorkerRange) : Benchmark → Prop where
  | threadNuma (h : p.maxSize ≤ c.nrCoresPerNumaNode) :
    IsBenchmark c n p ⟨n, .numaNode, ⟨.thread, p, 1, 1, 1, 1, p.minSize, p.maxSize⟩⟩
  | threadCluster (h : p.maxSize ≤ c.nrCores) :
    IsBenchmark c n p ⟨n, .clusterNode, ⟨.thread, p, 1, 1, c.nrNumaNodes, c.nrNumaNodes, p.minSize, p.maxSize⟩⟩
  | numaNode (h : p.maxSize ≤ c.nrNumaNodes) (hc : 1 ≤ c.nrCoresPerNumaNode) :
    IsBenchmark c n p
      ⟨n, .numaNode, ⟨.numaNode, p, 1, 1, p.minSize, p.maxSize, c.nrCoresPerNumaNode, c.nrCoresPerNumaNode⟩⟩
  | clusterNode (h : p.maxSize ≤ c.nrClusterNodes) (hn : 1 ≤ c.nrNumaNodes) (hc : 1 ≤ c.nrCoresPerNumaNode) :
    IsBenchmark c n p
      ⟨n, .numaNode, ⟨.clusterNode, p, p.minSize, p.maxSize, c.nrNumaNodes, c.nrNumaNodes, c.nrCoresPerNumaNode,
        c.nrCoresPerNumaNode⟩⟩

theorem checked_eq {w w' : Worker} (h : w.checked = .ok w') :
    w' = w ∧ (1 ≤ w.minNrClusterNodes ∧ w.minNrClusterNodes ≤ w.maxNrClusterNodes) ∧
      (1 ≤ w.minNrNumaNodes ∧ w.minNrNumaNodes ≤ w.maxNrNumaNodes) ∧
      (1 ≤ w.minNrThreads ∧ w.minNrThreads ≤ w.maxNrThreads) := by
  unfold Worker.checked at h
  obtain ⟨_, h1, h⟩ := bind_eq_ok h
  obtain ⟨_, h2, h⟩ := bind_eq_ok h
  obtain ⟨_, h3, h⟩ := bind_eq_ok h
  exact ⟨(Except.ok.inj h).symm, require_ok h1, require_ok h2, require_ok h3⟩

theorem benchmark_is {c : Cluster} {j : BenchmarkJson} {b : Benchmark} (h : makeBenchmark c j = .ok b) :
    ∃ p, makePool j.pool = .ok p ∧ IsBenchmark c j.count p b ∧ b.localityPer = j.localityPer ∧
      b.worker.type = j.workerType := by
  unfold makeBenchmark at h
  obtain ⟨p, hp, hA⟩ := bind_eq_ok h
  obtain ⟨w, hw, hB⟩ := bind_eq_ok hA
  clear h hA
  refine ⟨p, hp, ?_⟩
  obtain ⟨count, per, type, pj⟩ := j
  dsimp only at hw hB ⊢
  unfold workerOf at hw
  cases type with
  | thread =>
    dsimp only at hw
    cases per with
    | clusterNode =>
      obtain ⟨rfl, h1, h2, h3⟩ := checked_eq hw
      unfold Benchmark.checked at hB
      dsimp only at hB
      obtain ⟨_, g1, hB⟩ := bind_eq_ok hB
      obtain ⟨_, g2, hB⟩ := bind_eq_ok hB
      obtain ⟨_, g3, hB⟩ := bind_eq_ok hB
      obtain rfl := Except.ok.inj hB
      exact ⟨.threadCluster (require_ok g3), rfl, rfl⟩
    | numaNode =>
      obtain ⟨rfl, h1, h2, h3⟩ := checked_eq hw
      unfold Benchmark.checked at hB
      dsimp only at hB
      obtain ⟨_, g1, hB⟩ := bind_eq_ok hB
      obtain ⟨_, g2, hB⟩ := bind_eq_ok hB
      obtain ⟨_, g3, hB⟩ := bind_eq_ok hB
      obtain ⟨_, g4, hB⟩ := bind_eq_ok hB
      obtain rfl := Except.ok.inj hB
      exact ⟨.threadNuma (require_ok g4), rfl, rfl⟩
  | numaNode =>
    dsimp only at hw
    obtain ⟨_, hper, hw2⟩ := bind_eq_ok hw
    clear hw
    obtain rfl := require_ok hper
    obtain ⟨rfl, h1, h2, h3⟩ := checked_eq hw2
    unfold Benchmark.checked at hB
    dsimp only at hB
    obtain ⟨_, g1, hB⟩ := bind_eq_ok hB
    obtain ⟨_, g2, hB⟩ := bind_eq_ok hB
    obtain ⟨_, g3, hB⟩ := bind_eq_ok hB
    obtain ⟨_, g4, hB⟩ := bind_eq_ok hB
    obtain ⟨_, g5, hB⟩ := bind_eq_ok hB
    obtain rfl := Except.ok.inj hB
    exact ⟨.numaNode (require_ok g4) h3.1, rfl, rfl⟩
  | clusterNode =>
    dsimp only at hw
    obtain ⟨_, hper, hw2⟩ := bind_eq_ok hw
    clear hw
    obtain rfl := require_ok hper
    obtain ⟨rfl, h1, h2, h3⟩ := checked_eq hw2
    unfold Benchmark.checked at hB
    dsimp only at hB
    obtain ⟨_, g1, hB⟩ := bind_eq_ok hB
    obtain ⟨_, g2, hB⟩ := bind_eq_ok hB
    obtain ⟨_, g3, hB⟩ := bind_eq_ok hB
    obtain ⟨_, g4, hB⟩ := bind_eq_ok hB
    obtain ⟨_, g5, hB⟩ := bind_eq_ok hB
    obtain rfl := Except.ok.inj hB
    exact ⟨.clusterNode (require_ok g3) h2.1 h3.1, rfl, rfl⟩

theorem IsBenchmark.pool {c : Cluster} {n : Nat} {p : WorkerRange} {b : Benchmark} (h : IsBenchmark c n p b) :
    b.worker.pool = p ∧ b.count = n := by
  cases h <;> exact ⟨rfl, rfl⟩

/-- C63: settings stored in the dataset are read back: the benchmark is the same. -/
theorem benchmark_roundtrip {c : Cluster} {j : BenchmarkJson} {b : Benchmark} (h : makeBenchmark c j = .ok b) :
    makeBenchmark c b.toJson = .ok b := by
  obtain ⟨p, hp, hb, hper, htype⟩ := benchmark_is h
  have e : ∀ j' : BenchmarkJson, j'.count = j.count → j'.localityPer = j.localityPer → j'.workerType = j.workerType →
      makePool j'.pool = makePool j.pool → makeBenchmark c j' = makeBenchmark c j := by
    intro j' h1 h2 h3 h4
    unfold makeBenchmark
    rw [h1, h2, h3, h4]
  rw [e b.toJson, h]
  · exact hb.pool.2
  · exact hper
  · exact htype
  · show makePool b.worker.pool.toJson = _
    rw [hb.pool.1, pool_roundtrip hp, hp]

theorem perBenchmark_eq {b : Benchmark} {l : List Nat} (hs : Sizes b.worker.pool l) (f : Nat → Except Err Run) :
    perBenchmark b f = l.mapM f := perSize hs f

theorem shapeFor_ok {e : Experiment} {n : Nat} {s : List Nat} (h : e.shapeFor n = .ok s) (nodes tasks threads count : Nat)
    (ps : List Nat) : SizeOk e ⟨nodes, tasks, threads, n, count, s, ps⟩ := by
  unfold Experiment.shapeFor at h
  unfold SizeOk
  cases hk : e.kind with
  | strong =>
    rw [hk] at h
    exact (Except.ok.inj h).symm
  | weak =>
    rw [hk] at h
    dsimp only at h ⊢
    unfold scaleArrayShape at h
    obtain ⟨_, h1, h⟩ := bind_eq_ok h
    obtain rfl := Except.ok.inj h
    have h1 := require_ok h1
    unfold absDiff at h1
    constructor
    · have : 1000 * nrElements (e.arrayShape.map (e.scaled e.arrayShape.length n)) < 1001 * (n * nrElements e.arrayShape) := by
        omega
      exact_mod_cast this
    · have : 999 * (n * nrElements e.arrayShape) < 1000 * nrElements (e.arrayShape.map (e.scaled e.arrayShape.length n)) := by
        omega
      exact_mod_cast this

theorem nrCores_eq (c : Cluster) : c.nrCores = c.nrNumaNodes * c.nrCoresPerNumaNode := by
  unfold Cluster.nrCores Cluster.nrNumaNodes
  rw [Nat.mul_assoc]

/-- What is known about a single run. -/
theorem run_ok {c : Cluster} {b : Benchmark} {e : Experiment} {n count : Nat} {p : WorkerRange} {r : Run} (hc : Sane c)
    (hb : IsBenchmark c count p b) (h1 : 1 ≤ n) (hn : n ≤ p.maxSize)
    (h : (b.worker.type = .thread ∧ runThreads b e n = .ok r) ∨ (b.worker.type = .numaNode ∧ runNumaNodes b e n = .ok r) ∨
      (b.worker.type = .clusterNode ∧ runClusterNodes b e n = .ok r)) :
    r.nrWorkers = n ∧ r.count = count ∧ workersOf c b.worker.type r = n ∧ Fits c b r ∧ SizeOk e r ∧
      (r.partitionShape = e.partitionShape ∨ (b.worker.type = .thread ∧ n = 1 ∧ r.partitionShape = r.arrayShape)) := by
  obtain ⟨hc1, hc2, hc3⟩ := hc
  have hcores := nrCores_eq c
  rcases h with ⟨ht, h⟩ | ⟨ht, h⟩ | ⟨ht, h⟩
  · unfold runThreads at h
    obtain ⟨s, hs, h⟩ := bind_eq_ok h
    obtain rfl := Except.ok.inj h
    rw [ht]
    refine ⟨rfl, hb.pool.2, ?_, ?_, shapeFor_ok hs _ _ _ _ _, ?_⟩
    · show 1 * n = n
      omega
    · cases hb with
      | threadNuma hm =>
        have : c.nrCoresPerNumaNode ≤ c.nrNumaNodes * c.nrCoresPerNumaNode := Nat.le_mul_of_pos_left _ hc2
        unfold Fits
        dsimp only
        exact ⟨by omega, by omega, h1, hc1, by omega, fun _ => ⟨by omega, by omega⟩⟩
      | threadCluster hm =>
        unfold Fits
        dsimp only
        exact ⟨by omega, by omega, h1, hc1, by omega, fun h => by cases h⟩
      | numaNode => cases ht
      | clusterNode => cases ht
    · dsimp only
      by_cases hn1 : n > 1
      · rw [if_pos hn1]; exact Or.inl rfl
      · rw [if_neg hn1]; exact Or.inr ⟨rfl, by omega, rfl⟩
  · unfold runNumaNodes at h
    obtain ⟨_, _, h⟩ := bind_eq_ok h
    obtain ⟨s, hs, h⟩ := bind_eq_ok h
    obtain rfl := Except.ok.inj h
    rw [ht]
    refine ⟨rfl, hb.pool.2, ?_, ?_, shapeFor_ok hs _ _ _ _ _, Or.inl rfl⟩
    · cases hb with
      | threadNuma => cases ht
      | threadCluster => cases ht
      | clusterNode => cases ht
      | numaNode hm hcc =>
        show n * (c.nrCoresPerNumaNode / c.nrCoresPerNumaNode) = n
        rw [Nat.div_self hcc, Nat.mul_one]
    · cases hb with
      | threadNuma => cases ht
      | threadCluster => cases ht
      | clusterNode => cases ht
      | numaNode hm hcc =>
        have : n * c.nrCoresPerNumaNode ≤ c.nrNumaNodes * c.nrCoresPerNumaNode := Nat.mul_le_mul_right _ (by omega)
        unfold Fits
        dsimp only
        exact ⟨by omega, h1, hcc, hc1, by omega, fun _ => ⟨by omega, Nat.le_refl _⟩⟩
  · unfold runClusterNodes at h
    obtain ⟨_, _, h⟩ := bind_eq_ok h
    obtain ⟨_, _, h⟩ := bind_eq_ok h
    obtain ⟨s, hs, h⟩ := bind_eq_ok h
    obtain rfl := Except.ok.inj h
    rw [ht]
    refine ⟨rfl, hb.pool.2, ?_, ?_, shapeFor_ok hs _ _ _ _ _, Or.inl rfl⟩
    · cases hb with
      | threadNuma => cases ht
      | threadCluster => cases ht
      | numaNode => cases ht
      | clusterNode hm hn hcc =>
        show n * c.nrNumaNodes * c.nrCoresPerNumaNode / c.nrCores = n
        rw [hcores, Nat.mul_assoc]
        exact Nat.mul_div_cancel n (Nat.mul_pos hn hcc)
    · cases hb with
      | threadNuma => cases ht
      | threadCluster => cases ht
      | numaNode => cases ht
      | clusterNode hm hn' hcc =>
        unfold Fits
        dsimp only
        refine ⟨h1, Nat.mul_pos h1 hn', hcc, by omega, ?_, fun _ => ⟨Nat.le_refl _, Nat.le_refl _⟩⟩
        rw [hcores, Nat.mul_assoc]

/-- The script contains a run for each of the sizes. -/
theorem script_eq {c : Cluster} {b : Benchmark} {e : Experiment} {count : Nat} {p : WorkerRange} {l : List Nat}
    {runs : List Run} (hb : IsBenchmark c count p b) (hs : Sizes p l) (h : script c b e = .ok runs) :
    List.Forall₂ (fun n r => (b.worker.type = .thread ∧ runThreads b e n = .ok r) ∨
      (b.worker.type = .numaNode ∧ runNumaNodes b e n = .ok r) ∨
      (b.worker.type = .clusterNode ∧ runClusterNodes b e n = .ok r)) l runs := by
  unfold script at h
  obtain ⟨_, h0, h⟩ := bind_eq_ok h
  have h0 := require_ok h0
  have hs' : Sizes b.worker.pool l := by rw [hb.pool.1]; exact hs
  by_cases hsl : c.slurm = true
  · rw [if_pos hsl] at h
    cases hb with
    | threadNuma hm =>
      rw [if_neg (by exact Nat.lt_irrefl 0), if_neg (by exact Nat.lt_irrefl 0), perBenchmark_eq hs'] at h
      exact (mapM_ok h).imp fun a r har => Or.inl ⟨rfl, har⟩
    | threadCluster hm =>
      have : ¬ c.nrNumaNodes - c.nrNumaNodes > 0 := by omega
      rw [if_neg (by exact Nat.lt_irrefl 0)] at h
      unfold Worker.nrNumaNodesRange at h
      dsimp only at h
      rw [if_neg this, perBenchmark_eq hs'] at h
      exact (mapM_ok h).imp fun a r har => Or.inl ⟨rfl, har⟩
    | numaNode hm hcc =>
      have h2 : ¬ c.nrCoresPerNumaNode - c.nrCoresPerNumaNode > 0 := by omega
      unfold Worker.nrClusterNodesRange Worker.nrNumaNodesRange Worker.nrThreadsRange at h0
      dsimp only at h0
      rw [if_neg (by exact Nat.lt_irrefl 0), if_neg h2] at h0
      have h3 : p.maxSize - p.minSize > 0 := by
        by_contra hc
        rw [if_neg hc] at h0
        omega
      rw [if_neg (by exact Nat.lt_irrefl 0)] at h
      unfold Worker.nrNumaNodesRange at h
      dsimp only at h
      rw [if_pos h3, perBenchmark_eq hs'] at h
      exact (mapM_ok h).imp fun a r har => Or.inr (Or.inl ⟨rfl, har⟩)
    | clusterNode hm hn hcc =>
      have h1 : ¬ c.nrNumaNodes - c.nrNumaNodes > 0 := by omega
      have h2 : ¬ c.nrCoresPerNumaNode - c.nrCoresPerNumaNode > 0 := by omega
      unfold Worker.nrClusterNodesRange Worker.nrNumaNodesRange Worker.nrThreadsRange at h0
      dsimp only at h0
      rw [if_neg h1, if_neg h2] at h0
      have h3 : p.maxSize - p.minSize > 0 := by
        by_contra hc
        rw [if_neg hc] at h0
        omega
      unfold Worker.nrClusterNodesRange at h
      dsimp only at h
      rw [if_pos h3, perBenchmark_eq hs'] at h
      exact (mapM_ok h).imp fun a r har => Or.inr (Or.inr ⟨rfl, har⟩)
  · rw [if_neg hsl] at h
    obtain ⟨_, ht, h⟩ := bind_eq_ok h
    rw [perBenchmark_eq hs'] at h
    exact (mapM_ok h).imp fun a r har => Or.inl ⟨require_ok ht, har⟩

theorem forall2_map_eq {α β γ : Type} {R : α → β → Prop} {f : β → γ} {g : α → γ} (hR : ∀ a b, R a b → f b = g a) :
    ∀ {l : List α} {rs : List β}, List.Forall₂ R l rs → rs.map f = l.map g
  | [], [], .nil => rfl
  | a :: l, b :: rs, .cons h t => by rw [List.map_cons, List.map_cons, hR a b h, forall2_map_eq hR t]

/-- C63: the script of an experiment contains exactly one run for each number of workers asked for, in increasing order. No
two runs write to the same file. Each run uses the number of workers of the type asked for, is repeated as often
as asked for, and does not use more than what is available in the cluster. The size of the array is the same for all
runs (strong scalability), or, within 0.1%, proportional to the number of workers (weak scalability). -/
theorem script_runs {c : Cluster} {j : BenchmarkJson} {b : Benchmark} {e : Experiment} {runs : List Run} (hc : Sane c)
    (hb : makeBenchmark c j = .ok b) (h : script c b e = .ok runs) :
    (runs.map Run.nrWorkers).Pairwise (· < ·) ∧ (∀ n, n ∈ runs.map Run.nrWorkers ↔ Wanted j.pool n) ∧
      ∀ r ∈ runs, workersOf c j.workerType r = r.nrWorkers ∧ r.count = j.count ∧ Fits c b r ∧ SizeOk e r ∧
        (r.partitionShape = e.partitionShape ∨
          (j.workerType = .thread ∧ r.nrWorkers = 1 ∧ r.partitionShape = r.arrayShape)) := by
  obtain ⟨p, hp, hi, _, htype⟩ := benchmark_is hb
  obtain ⟨l, hs, hl, hw, h1, _, hlast⟩ := pool_sizes hp
  have hf := script_eq hi hs h
  have hle : ∀ n ∈ l, n ≤ p.maxSize := by
    intro n hn
    obtain ⟨l', rfl⟩ : ∃ l', l = l' ++ [p.maxSize] := ⟨_, (List.dropLast_append_getLast? _ hlast).symm⟩
    rw [List.mem_append] at hn
    rcases hn with hn | hn
    · exact Nat.le_of_lt ((List.pairwise_append.mp hl).2.2 n hn _ (List.mem_singleton.mpr rfl))
    · rw [List.mem_singleton.mp hn]
  have hf' : List.Forall₂ (fun n r => r.nrWorkers = n ∧ r.count = j.count ∧ workersOf c b.worker.type r = n ∧ Fits c b r ∧
      SizeOk e r ∧ (r.partitionShape = e.partitionShape ∨
        (b.worker.type = .thread ∧ n = 1 ∧ r.partitionShape = r.arrayShape))) l runs := by
    have : List.Forall₂ (fun n r => (n ∈ l) ∧ ((b.worker.type = .thread ∧ runThreads b e n = .ok r) ∨
      (b.worker.type = .numaNode ∧ runNumaNodes b e n = .ok r) ∨
      (b.worker.type = .clusterNode ∧ runClusterNodes b e n = .ok r))) l runs := by
      rw [List.forall₂_iff_get] at hf ⊢
      exact ⟨hf.1, fun i h1 h2 => ⟨List.get_mem _ _, hf.2 i h1 h2⟩⟩
    exact this.imp fun n r hnr => run_ok hc hi (h1 n hnr.1) (hle n hnr.1) hnr.2
  have hmap : runs.map Run.nrWorkers = l := by
    have := forall2_map_eq (f := Run.nrWorkers) (g := id) (fun a b h => h.1) hf'
    rw [this, List.map_id]
  refine ⟨by rw [hmap]; exact hl, fun n => by rw [hmap]; exact hw n, ?_⟩
  intro r hr
  obtain ⟨i, hi', rfl⟩ := List.getElem_of_mem hr
  have hlen : i < l.length := by rw [← hmap, List.length_map]; exact hi'
  obtain ⟨g1, g2, g3, g4, g5, g6⟩ := (List.forall₂_iff_get.mp hf').2 i hlen hi'
  simp only [List.get_eq_getElem] at g1 g2 g3 g4 g5 g6
  rw [htype] at g3 g6
  refine ⟨by rw [g3, g1], g2, g4, g5, ?_⟩
  rcases g6 with g6 | g6
  · exact Or.inl g6
  · exact Or.inr ⟨g6.1, by rw [g1]; exact g6.2.1, g6.2.2⟩

/-- C63: a script for a strong scalability experiment is created if more than one number of workers is asked for, if
the scheduler is Slurm or the workers are threads. -/
theorem script_ok {c : Cluster} {j : BenchmarkJson} {b : Benchmark} {e : Experiment}
    (hb : makeBenchmark c j = .ok b) (he : e.kind = .strong) (hs : c.slurm = true ∨ j.workerType = .thread)
    (hn : ∃ m n, m ≠ n ∧ Wanted j.pool m ∧ Wanted j.pool n) : ∃ runs, script c b e = .ok runs := by
  obtain ⟨p, hp, hi, _, htype⟩ := benchmark_is hb
  obtain ⟨l, hsz, hl, hw, h1, hhead, hlast⟩ := pool_sizes hp
  have hlt : p.maxSize - p.minSize > 0 := by
    obtain ⟨m, n, hmn, hm, hn⟩ := hn
    rw [← hw] at hm hn
    cases l with
    | nil => cases hm
    | cons a l =>
      obtain rfl := Option.some.inj hhead
      cases hl with
      | cons hall _ =>
        have hmem : p.maxSize ∈ p.minSize :: l := List.mem_of_getLast? hlast
        rcases List.mem_cons.mp hmem with h | h
        · exfalso
          cases l with
          | nil =>
            simp only [List.mem_singleton] at hm hn
            omega
          | cons b l =>
            have hb' : p.maxSize ∈ b :: l := by
              rw [List.getLast?_cons_cons] at hlast
              exact List.mem_of_getLast? hlast
            have := hall _ hb'
            omega
        · have := hall _ h
          omega
  have hshape : ∀ n, e.shapeFor n = .ok e.arrayShape := by
    intro n
    unfold Experiment.shapeFor
    rw [he]
  have hsz' : Sizes b.worker.pool l := by rw [hi.pool.1]; exact hsz
  have hthreads : ∃ runs, perBenchmark b (runThreads b e) = .ok runs := by
    rw [perBenchmark_eq hsz']
    apply mapM_total
    intro n _
    unfold runThreads
    rw [hshape]
    exact ⟨_, rfl⟩
  have hnuma : b.worker.nrThreadsRange = 0 → ∃ runs, perBenchmark b (runNumaNodes b e) = .ok runs := by
    intro h0
    rw [perBenchmark_eq hsz']
    apply mapM_total
    intro n _
    unfold runNumaNodes
    rw [hshape, require_pos h0]
    exact ⟨_, rfl⟩
  have hcluster : b.worker.nrThreadsRange = 0 → b.worker.nrNumaNodesRange = 0 →
      ∃ runs, perBenchmark b (runClusterNodes b e) = .ok runs := by
    intro h0 h0'
    rw [perBenchmark_eq hsz']
    apply mapM_total
    intro n _
    unfold runClusterNodes
    rw [hshape, require_pos h0, require_pos h0']
    exact ⟨_, rfl⟩
  unfold script
  cases hi with
  | threadNuma hm =>
    rw [require_pos (by
      show 0 + 0 + (if p.maxSize - p.minSize > 0 then 1 else 0) = 1
      rw [if_pos hlt])]
    show ∃ runs, (if c.slurm = true then _ else _) = _
    by_cases hsl : c.slurm = true
    · rw [if_pos hsl, if_neg (by exact Nat.lt_irrefl 0), if_neg (by exact Nat.lt_irrefl 0)]; exact hthreads
    · rw [if_neg hsl, require_pos rfl]; exact hthreads
  | threadCluster hm =>
    have h0 : ¬ c.nrNumaNodes - c.nrNumaNodes > 0 := by omega
    rw [require_pos (by
      show 0 + (if c.nrNumaNodes - c.nrNumaNodes > 0 then 1 else 0) + (if p.maxSize - p.minSize > 0 then 1 else 0) = 1
      rw [if_pos hlt, if_neg h0])]
    show ∃ runs, (if c.slurm = true then _ else _) = _
    by_cases hsl : c.slurm = true
    · rw [if_pos hsl, if_neg (by exact Nat.lt_irrefl 0), if_neg (by exact h0)]; exact hthreads
    · rw [if_neg hsl, require_pos rfl]; exact hthreads
  | numaNode hm hcc =>
    have hsl : c.slurm = true := by
      rcases hs with h | h
      · exact h
      · rw [← htype] at h; cases h
    have h0 : ¬ c.nrCoresPerNumaNode - c.nrCoresPerNumaNode > 0 := by omega
    rw [require_pos (by
      show 0 + (if p.maxSize - p.minSize > 0 then 1 else 0) +
        (if c.nrCoresPerNumaNode - c.nrCoresPerNumaNode > 0 then 1 else 0) = 1
      rw [if_pos hlt, if_neg h0])]
    show ∃ runs, (if c.slurm = true then _ else _) = _
    rw [if_pos hsl, if_neg (by exact Nat.lt_irrefl 0), if_pos (by exact hlt)]
    exact hnuma (Nat.sub_self _)
  | clusterNode hm hn' hcc =>
    have hsl : c.slurm = true := by
      rcases hs with h | h
      · exact h
      · rw [← htype] at h; cases h
    have h0 : ¬ c.nrCoresPerNumaNode - c.nrCoresPerNumaNode > 0 := by omega
    have h0' : ¬ c.nrNumaNodes - c.nrNumaNodes > 0 := by omega
    rw [require_pos (by
      show (if p.maxSize - p.minSize > 0 then 1 else 0) + (if c.nrNumaNodes - c.nrNumaNodes > 0 then 1 else 0) +
        (if c.nrCoresPerNumaNode - c.nrCoresPerNumaNode > 0 then 1 else 0) = 1
      rw [if_pos hlt, if_neg h0, if_neg h0'])]
    show ∃ runs, (if c.slurm = true then _ else _) = _
    rw [if_pos hsl, if_pos (by exact hlt)]
    exact hcluster (Nat.sub_self _) (Nat.sub_self _)

end Lue.Scalability

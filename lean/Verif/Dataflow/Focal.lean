import Verif.Dataflow.Operations

/-!
C74: focal operations, written as a set of tasks.
-/
namespace Lue.Dataflow

open Lue.Focal

variable {V α γ : Type}

theorem mem_around {n0 n1 k k0 k1 : Nat} (h0 : k0 < n0) (h1 : k1 < n1)
    (h : k0 ≤ k / n1 + 1 ∧ k / n1 ≤ k0 + 1 ∧ k1 ≤ k % n1 + 1 ∧ k % n1 ≤ k1 + 1) : k0 * n1 + k1 ∈ around n0 n1 k := by
  unfold around
  simp only [List.mem_flatMap, List.mem_range, List.mem_map, List.mem_filter, decide_eq_true_eq]
  exact ⟨k0, h0, k1, ⟨h1, h⟩, rfl⟩

theorem around_lt {n0 n1 k k' : Nat} (h : k' ∈ around n0 n1 k) : k' < n0 * n1 := by
  unfold around at h
  simp only [List.mem_flatMap, List.mem_range, List.mem_map, List.mem_filter] at h
  obtain ⟨k0, h0, k1, ⟨h1, _⟩, rfl⟩ := h
  have : (k0 + 1) * n1 ≤ n0 * n1 := Nat.mul_le_mul_right _ h0
  rw [Nat.add_mul] at this
  omega

theorem partitions_get {x x' : PArr α} (hg : x'.grid = x.grid) {n0 n1 k k0 k1 : Nat} (e0 : n0 = x.grid.n0) (e1 : n1 = x.grid.n1)
    (h : ∀ k' ∈ around n0 n1 k, x'.parts[k']? = x.parts[k']?)
    (hk : k0 ≤ k / n1 + 1 ∧ k / n1 ≤ k0 + 1 ∧ k1 ≤ k % n1 + 1 ∧ k % n1 ≤ k1 + 1) :
    (partitions x').get k0 k1 = (partitions x).get k0 k1 := by
  subst e0 e1
  unfold Blk.get partitions rd
  simp only [hg, List.getElem?_mapIdx]
  by_cases hlt : k0 < x.grid.n0 ∧ k1 < x.grid.n1
  · rw [if_pos hlt, if_pos hlt, h _ (mem_around hlt.1 hlt.2 hk)]
  · rw [if_neg hlt, if_neg hlt]

/-- The neighbourhood of a partition only contains partitions around it. -/
theorem neighbourhood_congr (h : Halo α) (r : Nat) {x x' : PArr α} (hg : x'.grid = x.grid) {k : Nat} {kind : Kind}
    (hp : ∀ k' ∈ around x.grid.n0 x.grid.n1 k, x'.parts[k']? = x.parts[k']?)
    (hk : KindOk x.grid.n0 x.grid.n1 (k / x.grid.n1) (k % x.grid.n1) kind) :
    neighbourhood h r x' kind (k / x.grid.n1) (k % x.grid.n1) = neighbourhood h r x kind (k / x.grid.n1) (k % x.grid.n1) := by
  have P : ∀ (i j : Nat), (i ≤ k / x.grid.n1 + 1 ∧ k / x.grid.n1 ≤ i + 1 ∧ j ≤ k % x.grid.n1 + 1 ∧ k % x.grid.n1 ≤ j + 1) →
      (partitions x').get i j = (partitions x).get i j := fun i j hij => partitions_get hg rfl rfl hp hij
  have pe0 : (partitions x).e0 = x.grid.n0 := rfl
  have pe1 : (partitions x).e1 = x.grid.n1 := rfl
  have pe0' : (partitions x').e0 = x.grid.n0 := by rw [← hg]; rfl
  have pe1' : (partitions x').e1 = x.grid.n1 := by rw [← hg]; rfl
  generalize k / x.grid.n1 = k0 at *
  generalize k % x.grid.n1 = k1 at *
  cases kind with
  | nwCorner =>
    obtain ⟨rfl, rfl⟩ := hk
    simp only [neighbourhood, northWestCorner, pe0, pe1, pe0', pe1', hg]
    rw [P 0 0 (by omega), P 0 1 (by omega), P 1 0 (by omega), P 1 1 (by omega)]
  | neCorner =>
    obtain ⟨rfl, e1, e2⟩ := hk
    simp only [neighbourhood, northEastCorner, pe0, pe1, pe0', pe1', hg]
    rw [P 0 (x.grid.n1 - 2) (by omega), P 0 (x.grid.n1 - 1) (by omega), P 1 (x.grid.n1 - 2) (by omega),
      P 1 (x.grid.n1 - 1) (by omega)]
  | swCorner =>
    obtain ⟨e1, e2, rfl⟩ := hk
    simp only [neighbourhood, southWestCorner, pe0, pe1, pe0', pe1', hg]
    rw [P (x.grid.n0 - 2) 0 (by omega), P (x.grid.n0 - 1) 0 (by omega), P (x.grid.n0 - 2) 1 (by omega),
      P (x.grid.n0 - 1) 1 (by omega)]
  | seCorner =>
    obtain ⟨e1, e2, e3, e4⟩ := hk
    simp only [neighbourhood, southEastCorner, pe0, pe1, pe0', pe1', hg]
    rw [P (x.grid.n0 - 2) (x.grid.n1 - 2) (by omega), P (x.grid.n0 - 1) (x.grid.n1 - 2) (by omega),
      P (x.grid.n0 - 2) (x.grid.n1 - 1) (by omega), P (x.grid.n0 - 1) (x.grid.n1 - 1) (by omega)]
  | nSide =>
    obtain ⟨rfl, e1, e2⟩ := hk
    simp only [neighbourhood, northSide, pe0, pe0', hg]
    rw [P 0 (k1 - 1) (by omega), P 0 k1 (by omega), P 0 (k1 + 1) (by omega), P 1 (k1 - 1) (by omega), P 1 k1 (by omega),
      P 1 (k1 + 1) (by omega)]
  | sSide =>
    obtain ⟨e1, e2, e3, e4⟩ := hk
    simp only [neighbourhood, southSide, pe0, pe0', hg]
    rw [P (x.grid.n0 - 2) (k1 - 1) (by omega), P (x.grid.n0 - 2) k1 (by omega), P (x.grid.n0 - 2) (k1 + 1) (by omega),
      P (x.grid.n0 - 1) (k1 - 1) (by omega), P (x.grid.n0 - 1) k1 (by omega), P (x.grid.n0 - 1) (k1 + 1) (by omega)]
  | wSide =>
    obtain ⟨e1, e2, rfl⟩ := hk
    simp only [neighbourhood, westSide, pe1, pe1', hg]
    rw [P (k0 - 1) 0 (by omega), P k0 0 (by omega), P (k0 + 1) 0 (by omega), P (k0 - 1) 1 (by omega), P k0 1 (by omega),
      P (k0 + 1) 1 (by omega)]
  | eSide =>
    obtain ⟨e1, e2, e3, e4⟩ := hk
    simp only [neighbourhood, eastSide, pe1, pe1', hg]
    rw [P (k0 - 1) (x.grid.n1 - 2) (by omega), P k0 (x.grid.n1 - 2) (by omega), P (k0 + 1) (x.grid.n1 - 2) (by omega),
      P (k0 - 1) (x.grid.n1 - 1) (by omega), P k0 (x.grid.n1 - 1) (by omega), P (k0 + 1) (x.grid.n1 - 1) (by omega)]
  | inner =>
    obtain ⟨e1, e2, e3, e4⟩ := hk
    simp only [neighbourhood, inner]
    rw [P (k0 - 1) (k1 - 1) (by omega), P (k0 - 1) k1 (by omega), P (k0 - 1) (k1 + 1) (by omega),
      P k0 (k1 - 1) (by omega), P k0 k1 (by omega), P k0 (k1 + 1) (by omega),
      P (k0 + 1) (k1 - 1) (by omega), P (k0 + 1) k1 (by omega), P (k0 + 1) (k1 + 1) (by omega)]

/-- An array with partitions `ps` at positions `ks`. All other partitions are empty. -/
def withPartitions (g : Grid) (ks : List Nat) (ps : List (List α)) : PArr α :=
  ⟨g, (List.range (g.n0 * g.n1)).map fun k => ((ks.zip ps).lookup k).getD []⟩

theorem lookup_zip {l : List (List α)} {k : Nat} {p : List α} (hp : l[k]? = some p) : ∀ {ks : List Nat} {ps : List (List α)},
    ks.mapM (fun k => rd l k) = .ok ps → k ∈ ks → (ks.zip ps).lookup k = some p := by
  intro ks
  induction ks with
  | nil => intro ps _ h; simp at h
  | cons a ks ih =>
    intro ps h hk
    rw [List.mapM_cons] at h
    cases ha : rd l a with
    | error e => rw [ha] at h; exact absurd h (by simp [bind, Except.bind])
    | ok q =>
      rw [ha, M.bind_ok] at h
      cases hs : ks.mapM (fun k => rd l k) with
      | error e => rw [hs] at h; exact absurd h (by simp [bind, Except.bind])
      | ok qs =>
        rw [hs, M.bind_ok] at h
        obtain rfl := Except.ok.inj h
        rw [List.zip_cons_cons, List.lookup_cons]
        by_cases e : k = a
        · subst e
          rw [rd_ok hp] at ha
          obtain rfl := Except.ok.inj ha
          simp
        · have : (k == a) = false := by simpa using e
          rw [this]
          exact ih hs (by simpa [e] using hk)

/-- What a task of a focal operation computes given the partitions around its own. -/
def focalBody (T : Emb V (List α)) (U : Emb V (List γ)) (h : Halo α) (garbage : Nat → α) (garbage' : Nat → γ) (r : Nat)
    (functor : List α → M γ) (g : Grid) (k : Nat) (vs : List V) : M V := do
  let ps ← vs.mapM T.down
  let slots ← spawn g.n0 g.n1 (launches g.n0 g.n1)
  .ok (U.up (← task1 h garbage garbage' r functor (withPartitions g (around g.n0 g.n1 k) ps) slots k))

/-- C74: the tasks of a focal operation depend on the partitions around their own, and on nothing else: executing them given
these partitions is what `focal_operation` does, see C14. -/
theorem runStage_focal (T : Emb V (List α)) (U : Emb V (List γ)) (h : Halo α) (garbage : Nat → α) (garbage' : Nat → γ) (r : Nat)
    (functor : List α → M γ) {order : List Nat} {arrays : List (List V)} {a : Nat} {x : PArr α}
    (ha : arrays[a]? = some (x.parts.map T.up)) (hl : x.parts.length = x.grid.n0 * x.grid.n1) (h0 : 0 < x.grid.n0)
    (h1 : 0 < x.grid.n1) (ho : IsOrder (x.grid.n0 * x.grid.n1) order) :
    runStage order (focalStage x.grid.n0 x.grid.n1 [a] (focalBody T U h garbage garbage' r functor x.grid)) arrays =
      (focal1 h garbage garbage' r functor order x).map fun y => y.parts.map U.up := by
  unfold focal1 runStage
  obtain ⟨slots, hs, hkind⟩ := spawn_ok h0 h1
  simp only [hs, M.bind_ok, focalStage]
  rw [runTasks_congr ho (task' := fun k => (task1 h garbage garbage' r functor x slots k).map U.up) (fun k hk => ?_)]
  · rw [Router.runTasks_map U.up (task := task1 h garbage garbage' r functor x slots) (fun k => rfl)]
    cases runTasks (x.grid.n0 * x.grid.n1) (task1 h garbage garbage' r functor x slots) order <;> rfl
  · have hk0 : k / x.grid.n1 < x.grid.n0 := by
      rw [Nat.div_lt_iff_lt_mul h1]; exact hk
    have hk1 : k % x.grid.n1 < x.grid.n1 := Nat.mod_lt _ h1
    obtain ⟨kind, hslot, hkd⟩ := hkind _ _ hk0 hk1
    rw [Nat.mul_comm, Nat.div_add_mod] at hslot
    -- reading the partitions
    have hread : ∃ ps, (around x.grid.n0 x.grid.n1 k).mapM (fun k => rd x.parts k) = .ok ps := by
      have : ∀ l : List Nat, (∀ k ∈ l, k < x.parts.length) → ∃ ps, l.mapM (fun k => rd x.parts k) = .ok ps := by
        intro l
        induction l with
        | nil => intro _; exact ⟨[], rfl⟩
        | cons b l ih =>
          intro hb
          obtain ⟨ps, hps⟩ := ih fun k hk => hb k (by simp [hk])
          refine ⟨x.parts[b]'(hb b (by simp)) :: ps, ?_⟩
          rw [List.mapM_cons, rd_ok (List.getElem?_eq_getElem (hb b (by simp))), M.bind_ok, hps, M.bind_ok]
          rfl
      exact this _ fun k' hk' => by rw [hl]; exact around_lt hk'
    obtain ⟨ps, hps⟩ := hread
    obtain ⟨hpl, hpi⟩ := mapM_inv hps
    have hmap : ([a].flatMap fun a => (around x.grid.n0 x.grid.n1 k).map fun k' => (a, k')).mapM
        (fun d : Nat × Nat => do rd (← rd arrays d.1) d.2) = .ok (ps.map T.up) := by
      refine mapM_intro (by simp [hpl]) fun i d w h1 h2 => ?_
      simp only [List.flatMap_cons, List.flatMap_nil, List.append_nil, List.getElem?_map] at h1 h2
      cases hi : (around x.grid.n0 x.grid.n1 k)[i]? with
      | none => rw [hi] at h1; exact absurd h1 (by simp)
      | some k' =>
        rw [hi] at h1
        obtain rfl := Option.some.inj h1
        cases hp : ps[i]? with
        | none => rw [hp] at h2; exact absurd h2 (by simp)
        | some p =>
          rw [hp] at h2
          obtain rfl := Option.some.inj h2
          have e := resultAt_up T (k := k') ha
          unfold resultAt at e
          rw [e, hpi i k' p hi hp]
          rfl
    rw [hmap, M.bind_ok]
    unfold focalBody
    rw [mapM_down, M.bind_ok, hs, M.bind_ok]
    have hx : ∀ k' ∈ around x.grid.n0 x.grid.n1 k,
        (withPartitions x.grid (around x.grid.n0 x.grid.n1 k) ps).parts[k']? = x.parts[k']? := by
      intro k' hk'
      have hlt := around_lt hk'
      unfold withPartitions
      simp only [List.getElem?_map, List.getElem?_range hlt, Option.map_some]
      have hp : x.parts[k']? = some (x.parts[k']'(by omega)) := List.getElem?_eq_getElem _
      rw [lookup_zip hp hps hk', hp]
      rfl
    have e : task1 h garbage garbage' r functor (withPartitions x.grid (around x.grid.n0 x.grid.n1 k) ps) slots k =
        task1 h garbage garbage' r functor x slots k := by
      unfold task1
      rw [rd_ok hslot, M.bind_ok, M.bind_ok]
      simp only []
      rw [← neighbourhood_congr h r (x := x) (x' := withPartitions x.grid (around x.grid.n0 x.grid.n1 k) ps) rfl hx hkd]
      rfl
    rw [e]
    cases task1 h garbage garbage' r functor x slots k <;> rfl

end Lue.Dataflow

import Verif.Dataflow.Theorems
import Verif.Focal.Properties
import Verif.Zonal.Model
import Verif.Router.Natural

/-!
C74: what the operations do, written as the sets of tasks they create.
-/
namespace Lue.Dataflow

variable {V α β γ ω σ Z : Type}

/-- Values of a certain type (partitions of an array with elements of some type, results of aggregations, …) among the
results of tasks. -/
structure Emb (V τ : Type) where
  up : τ → V
  down : V → M τ
  down_up : ∀ x, down (up x) = .ok x

/-- The body of a task with one input. -/
def body1 {τ υ : Type} (T : Emb V τ) (U : Emb V υ) (f : τ → M υ) : List V → M V
  | [p] => do .ok (U.up (← f (← T.down p)))
  | _ => .error .thrown

/-- The body of a task with two inputs. -/
def body2 {τ τ' υ : Type} (T : Emb V τ) (T' : Emb V τ') (U : Emb V υ) (f : τ → τ' → M υ) : List V → M V
  | [p, q] => do .ok (U.up (← f (← T.down p) (← T'.down q)))
  | _ => .error .thrown

/-- The body of a task with any number of inputs. -/
def bodyN {τ υ : Type} (T : Emb V τ) (U : Emb V υ) (f : List τ → M υ) (vs : List V) : M V := do
  .ok (U.up (← f (← vs.mapM T.down)))

theorem mapM_down {τ : Type} (T : Emb V τ) (l : List τ) : (l.map T.up).mapM T.down = .ok l := by
  induction l with
  | nil => rfl
  | cons a l ih => rw [List.map_cons, List.mapM_cons, T.down_up, M.bind_ok, ih, M.bind_ok]; rfl

theorem runTasks_congr {π : Type} {n : Nat} {task task' : Nat → M π} {order : List Nat} (ho : IsOrder n order)
    (h : ∀ k < n, task k = task' k) : runTasks n task order = runTasks n task' order := by
  unfold runTasks
  have hmem : ∀ k ∈ order, k < n := fun k hk => by have := ho.mem_iff.1 hk; simpa using this
  have key : ∀ (l : List Nat) (s : List (Option π)), (∀ k ∈ l, k < n) → l.foldlM (fun (slots : List (Option π)) k => do
        let r ← task k
        wr slots k (some r)) s = l.foldlM (fun (slots : List (Option π)) k => do
        let r ← task' k
        wr slots k (some r)) s := by
    intro l
    induction l with
    | nil => intro s _; rfl
    | cons a l ih =>
      intro s hl
      rw [List.foldlM_cons, List.foldlM_cons, h a (hl a (by simp))]
      cases (do
        let r ← task' a
        wr s a (some r)) with
      | error e => rfl
      | ok s' => exact ih s' fun k hk => hl k (by simp [hk])
  rw [key order _ hmem]

theorem resultAt_up {τ : Type} (T : Emb V τ) {arrays : List (List V)} {a k : Nat} {parts : List τ}
    (h : arrays[a]? = some (parts.map T.up)) : resultAt arrays (a, k) = (rd parts k).map T.up := by
  simp only [resultAt, rd_ok h, M.bind_ok]
  unfold rd
  rw [List.getElem?_map]
  cases parts[k]? <;> rfl

/-- C74: executing the tasks of a unary local operation is what `unary_local_operation` does, see C07. -/
theorem runStage_local1 (T : Emb V (List α)) (U : Emb V (List β)) (op : List α → M (List β)) (order : List Nat)
    {arrays : List (List V)} {a : Nat} {x : PArr α} (ha : arrays[a]? = some (x.parts.map T.up)) :
    runStage order (localStage (x.grid.n0 * x.grid.n1) [a] (body1 T U op)) arrays =
      (LocalOp.array1 op order x).map fun y => y.parts.map U.up := by
  unfold LocalOp.array1 runStage
  rw [Router.runTasks_map U.up (task := fun k => do op (← rd x.parts k)) (fun k => ?_)]
  · simp only [localStage]
    cases runTasks (x.grid.n0 * x.grid.n1) (fun k => do op (← rd x.parts k)) order <;> rfl
  · simp only [localStage, List.map_cons, List.map_nil, List.mapM_cons, List.mapM_nil]
    have e := resultAt_up T (k := k) ha
    unfold resultAt at e
    rw [e]
    cases rd x.parts k with
    | error e => rfl
    | ok p =>
      simp only [Except.map, M.bind_ok, body1, T.down_up, pure, Except.pure]
      cases op p <;> rfl

/-- C74: same, for two arrays. -/
theorem runStage_local2 (T : Emb V (List α)) (T' : Emb V (List β)) (U : Emb V (List γ)) (op : List α → List β → M (List γ))
    (order : List Nat) {arrays : List (List V)} {a b : Nat} {x : PArr α} {y : PArr β}
    (ha : arrays[a]? = some (x.parts.map T.up)) (hb : arrays[b]? = some (y.parts.map T'.up)) (hg : y.grid = x.grid) :
    runStage order (localStage (x.grid.n0 * x.grid.n1) [a, b] (body2 T T' U op)) arrays =
      (LocalOp.array2 op order x y).map fun z => z.parts.map U.up := by
  unfold LocalOp.array2 runStage
  rw [verifyCompatible_same hg.symm, M.bind_ok]
  rw [Router.runTasks_map U.up (task := fun k => do op (← rd x.parts k) (← rd y.parts k)) (fun k => ?_)]
  · simp only [localStage]
    cases runTasks (x.grid.n0 * x.grid.n1) (fun k => do op (← rd x.parts k) (← rd y.parts k)) order <;> rfl
  · simp only [localStage, List.map_cons, List.map_nil, List.mapM_cons, List.mapM_nil]
    have e := resultAt_up T (k := k) ha
    have e' := resultAt_up T' (k := k) hb
    unfold resultAt at e e'
    rw [e, e']
    cases rd x.parts k with
    | error e => rfl
    | ok p =>
      cases rd y.parts k with
      | error e => rfl
      | ok q =>
        simp only [Except.map, M.bind_ok, body2, T.down_up, T'.down_up, pure, Except.pure]
        cases op p q <;> rfl

/-- The results of a set of tasks which all depend on a single, previous, result: reading them all. -/
theorem mapM_all {τ : Type} (T : Emb V τ) {arrays : List (List V)} {a : Nat} {parts : List τ}
    (h : arrays[a]? = some (parts.map T.up)) :
    (((List.range parts.length).map fun k => (a, k)).mapM fun d : Nat × Nat => do rd (← rd arrays d.1) d.2) =
      .ok (parts.map T.up) := by
  refine mapM_intro (by simp) fun i d w h1 h2 => ?_
  have hi := (List.getElem?_eq_some_iff.1 h1).1
  simp only [List.length_map, List.length_range] at hi
  rw [List.getElem?_map, List.getElem?_range hi] at h1
  obtain rfl := Option.some.inj h1
  have e := resultAt_up T (k := i) h
  unfold resultAt at e
  simp only at e
  rw [List.getElem?_map, List.getElem?_eq_getElem hi] at h2
  obtain rfl := Option.some.inj h2
  simp only [e, rd_ok (List.getElem?_eq_getElem hi)]
  rfl

/-- A single task, which depends on all results of a set of tasks. -/
theorem runStage_reduce {τ υ : Type} (T : Emb V τ) (U : Emb V υ) (f : List τ → M υ) {arrays : List (List V)} {a : Nat}
    {parts : List τ} (h : arrays[a]? = some (parts.map T.up)) :
    runStage [0] (reduceStage parts.length a (bodyN T U f)) arrays = (f parts).map fun r => [U.up r] := by
  unfold runStage runTasks
  simp only [reduceStage, List.foldlM_cons, List.foldlM_nil, mapM_all T h, M.bind_ok, bodyN, mapM_down]
  cases f parts <;> rfl

/-- C74: an aggregate operation creates a task per partition, and one which depends on all of these, see C08. -/
theorem runStage_aggregate (T : Emb V (List α)) (U : Emb V ω) (P : Aggregate.Policies α ω) (F : Aggregate.Functor α ω)
    {order : List Nat} {arrays : List (List V)} {a : Nat} {x : PArr α} (ha : arrays[a]? = some (x.parts.map T.up))
    (ho : IsOrder (x.grid.n0 * x.grid.n1) order) :
    (do
      let results ← runStage order (localStage (x.grid.n0 * x.grid.n1) [a]
        (body1 T U fun p => .ok (Aggregate.aggregatePartition P F p))) arrays
      runStage [0] (reduceStage (x.grid.n0 * x.grid.n1) arrays.length
        (bodyN U U fun rs => .ok (Aggregate.aggregateResults P F rs))) (arrays ++ [results])) =
      (Aggregate.aggregateArray P F order x).map fun r => [U.up r] := by
  unfold Aggregate.aggregateArray
  have e : runStage order (localStage (x.grid.n0 * x.grid.n1) [a]
        (body1 T U fun p => .ok (Aggregate.aggregatePartition P F p))) arrays =
      (runTasks (x.grid.n0 * x.grid.n1) (fun k => do .ok (Aggregate.aggregatePartition P F (← rd x.parts k))) order).map
        (List.map U.up) := by
    unfold runStage
    refine Router.runTasks_map U.up (fun k => ?_) _ _
    simp only [localStage, List.map_cons, List.map_nil, List.mapM_cons, List.mapM_nil]
    have e := resultAt_up T (k := k) ha
    unfold resultAt at e
    rw [e]
    cases rd x.parts k with
    | error e => rfl
    | ok p => simp only [Except.map, M.bind_ok, body1, T.down_up, pure, Except.pure]
  rw [e]
  cases hr : runTasks (x.grid.n0 * x.grid.n1)
      (fun k => do .ok (Aggregate.aggregatePartition P F (← rd x.parts k))) order with
  | error e => rfl
  | ok rs =>
    simp only [Except.map, M.bind_ok]
    have hn := (runTasks_inv ho hr).1
    rw [← hn]
    exact runStage_reduce U U _ (by simp)

/-- C74: a zonal operation creates a task per partition, one which depends on all of these, and again a task per partition,
which depends on the result of the former, see C10. -/
theorem runStage_zonal [DecidableEq Z] (T : Emb V (List α)) (T' : Emb V (List Z)) (S : Emb V (AMap Z σ)) (U : Emb V (List ω))
    (P : Zonal.Policies Z α ω) (G : Zonal.Aggregator α σ ω) (iter : AMap Z σ → AMap Z σ) (garbage : Nat → ω)
    {order1 order2 : List Nat} {arrays : List (List V)} {a b : Nat} {x : PArr α} {z : PArr Z}
    (ha : arrays[a]? = some (x.parts.map T.up)) (hb : arrays[b]? = some (z.parts.map T'.up)) (hg : z.grid = x.grid)
    (ho : IsOrder (x.grid.n0 * x.grid.n1) order1) :
    (do
      let aggregators ← runStage order1 (localStage (x.grid.n0 * x.grid.n1) [a, b]
        (body2 T T' S (Zonal.zonalPartition P G))) arrays
      let merged ← runStage [0] (reduceStage (x.grid.n0 * x.grid.n1) arrays.length
        (bodyN S S fun l => .ok (Zonal.mergeAll G iter l))) (arrays ++ [aggregators])
      runStage order2 (localScalarStage (x.grid.n0 * x.grid.n1) [b] (arrays.length + 1)
        (body2 T' S U fun p m => Zonal.zonalPartition2 P G garbage m p)) (arrays ++ [aggregators] ++ [merged])) =
      (Zonal.zonalArray P G iter garbage order1 order2 x z).map fun y => y.parts.map U.up := by
  unfold Zonal.zonalArray
  rw [verifyCompatible_same hg.symm, M.bind_ok, hg]
  have e : runStage order1 (localStage (x.grid.n0 * x.grid.n1) [a, b] (body2 T T' S (Zonal.zonalPartition P G))) arrays =
      (runTasks (x.grid.n0 * x.grid.n1) (fun k => do Zonal.zonalPartition P G (← rd x.parts k) (← rd z.parts k)) order1).map
        (List.map S.up) := by
    unfold runStage
    refine Router.runTasks_map S.up (fun k => ?_) _ _
    simp only [localStage, List.map_cons, List.map_nil, List.mapM_cons, List.mapM_nil]
    have e := resultAt_up T (k := k) ha
    have e' := resultAt_up T' (k := k) hb
    unfold resultAt at e e'
    rw [e, e']
    cases rd x.parts k with
    | error e => rfl
    | ok p =>
      cases rd z.parts k with
      | error e => rfl
      | ok q =>
        simp only [Except.map, M.bind_ok, body2, T.down_up, T'.down_up, pure, Except.pure]
        cases Zonal.zonalPartition P G p q <;> rfl
  rw [e]
  simp only []
  cases hr : runTasks (x.grid.n0 * x.grid.n1)
      (fun k => do Zonal.zonalPartition P G (← rd x.parts k) (← rd z.parts k)) order1 with
  | error e => rfl
  | ok l =>
    simp only [Except.map, M.bind_ok]
    have hn := (runTasks_inv ho hr).1
    have e2 : runStage [0] (reduceStage (x.grid.n0 * x.grid.n1) arrays.length
        (bodyN S S fun l => .ok (Zonal.mergeAll G iter l))) (arrays ++ [l.map S.up]) = .ok [S.up (Zonal.mergeAll G iter l)] := by
      rw [← hn]
      exact runStage_reduce S S _ (by simp)
    rw [e2, M.bind_ok]
    have hb' : (arrays ++ [l.map S.up] ++ [[S.up (Zonal.mergeAll G iter l)]])[b]? = some (z.parts.map T'.up) := by
      have := (List.getElem?_eq_some_iff.1 hb).1
      rw [List.append_assoc, List.getElem?_append_left this, hb]
    have hm' : (arrays ++ [l.map S.up] ++ [[S.up (Zonal.mergeAll G iter l)]])[arrays.length + 1]? =
        some ([Zonal.mergeAll G iter l].map S.up) := by simp
    unfold runStage
    rw [Router.runTasks_map U.up (task := fun k => do
      Zonal.zonalPartition2 P G garbage (Zonal.mergeAll G iter l) (← rd z.parts k)) (fun k => ?_)]
    · simp only [localScalarStage]
      cases runTasks (x.grid.n0 * x.grid.n1) (fun k => do
        Zonal.zonalPartition2 P G garbage (Zonal.mergeAll G iter l) (← rd z.parts k)) order2 <;> rfl
    · simp only [localScalarStage, List.map_cons, List.map_nil, List.mapM_cons, List.mapM_nil, List.singleton_append,
        List.cons_append, List.nil_append]
      have e := resultAt_up T' (k := k) hb'
      have e' := resultAt_up S (k := 0) hm'
      unfold resultAt at e e'
      simp only [List.append_assoc, List.cons_append, List.nil_append] at e e' ⊢
      rw [e, e']
      cases rd z.parts k with
      | error e => rfl
      | ok p =>
        simp only [rd, List.getElem?_cons_zero, Except.map, M.bind_ok, body2, S.down_up, T'.down_up, pure, Except.pure]
        cases Zonal.zonalPartition2 P G garbage (Zonal.mergeAll G iter l) p <;> rfl

end Lue.Dataflow

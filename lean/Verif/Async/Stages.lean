import Verif.Dataflow.Focal

/-!
C75: the operations which are not part of C74, written as the sets of tasks they create. `A` below is
`source/framework/algorithm/include/lue/framework/algorithm`.
-/
namespace Lue.Dataflow

open Lue.Focal

variable {V α β γ δ : Type}

/-- The body of a task with three inputs. -/
def body3 {τ τ' τ'' υ : Type} (T : Emb V τ) (T' : Emb V τ') (T'' : Emb V τ'') (U : Emb V υ) (f : τ → τ' → τ'' → M υ) :
    List V → M V
  | [p, q, r] => do .ok (U.up (← f (← T.down p) (← T'.down q) (← T''.down r)))
  | _ => .error .thrown

/-- `A/create_partitioned_array.hpp:1024-1037`, `InstantiateFilled`: per partition a task which depends on the fill value. -/
def fillStage (n : Nat) (scalar : Nat) (f : Nat → List V → M V) : Stage V where
  n := n
  deps := fun _ => [(scalar, 0)]
  body := f

/-- Computations with scalars (`binary_local_operation.hpp:564-606`): a single task, which depends on scalars. -/
def scalarStage (inputs : List Nat) (f : List V → M V) : Stage V where
  n := 1
  deps := fun _ => inputs.map fun a => (a, 0)
  body := fun _ => f

theorem runStage_eq {τ : Type} (U : Emb V τ) {stage : Stage V} {n : Nat} (hn : stage.n = n) {task : Nat → M τ}
    {order : List Nat} {arrays : List (List V)} (ho : IsOrder n order)
    (h : ∀ k < n, (do
      let vs ← (stage.deps k).mapM (resultAt arrays)
      stage.body k vs) = (task k).map U.up) :
    runStage order stage arrays = (runTasks n task order).map (List.map U.up) := by
  unfold runStage
  rw [hn]
  have e := runTasks_congr (π := V) ho (task := fun k => do
      let vs ← (stage.deps k).mapM fun d : Nat × Nat => do rd (← rd arrays d.1) d.2
      stage.body k vs) (task' := fun k => (task k).map U.up) (fun k hk => h k hk)
  rw [e]
  exact Router.runTasks_map U.up (task := task) (fun k => rfl) n order

theorem map_parts {V τ : Type} (U : Emb V (List τ)) (g : Grid) (m : M (List (List τ))) :
    m.map (List.map U.up) = (m.bind fun parts => .ok (⟨g, parts⟩ : PArr τ)).map fun y => y.parts.map U.up := by
  cases m <;> rfl

/-- The value of a scalar. -/
theorem resultAt_scalar {τ : Type} (T : Emb V τ) {arrays : List (List V)} {a : Nat} {v : τ}
    (h : arrays[a]? = some [T.up v]) : resultAt arrays (a, 0) = .ok (T.up v) := by
  rw [resultAt_ok]
  exact ⟨_, h, rfl⟩

theorem runStage_fill (T : Emb V α) (U : Emb V (List α)) (g : Grid) {order : List Nat} {arrays : List (List V)} {a : Nat} {v : α}
    (ha : arrays[a]? = some [T.up v]) (ho : IsOrder (g.n0 * g.n1) order) :
    runStage order (fillStage (g.n0 * g.n1) a fun k => body1 T U fun v => rd (store g fun _ _ => v).parts k) arrays =
      .ok ((store g fun _ _ => v).parts.map U.up) := by
  rw [runStage_eq U (n := g.n0 * g.n1) rfl (task := fun k => rd (store g fun _ _ => v).parts k) ho]
  · have hlen : (store g fun _ _ => v).parts.length = g.n0 * g.n1 := by simp [store]
    rw [runTasks_ok ho (r := fun k => ((store g fun _ _ => v).parts[k]?).getD [])]
    · simp only [Except.map]
      congr 2
      apply List.ext_getElem?
      intro k
      by_cases hk : k < g.n0 * g.n1
      · rw [List.getElem?_map, List.getElem?_range hk, List.getElem?_eq_getElem (by omega)]
        simp only [Option.map_some, List.getElem?_eq_getElem (show k < (store g fun _ _ => v).parts.length by omega)]
        rfl
      · rw [List.getElem?_eq_none (by simpa using hk), List.getElem?_eq_none (by omega)]
    · intro k hk
      rw [rd_ok (List.getElem?_eq_getElem (by omega)), List.getElem?_eq_getElem (by omega)]
      rfl
  · intro k hk
    simp only [fillStage, List.mapM_cons, List.mapM_nil, resultAt_scalar T ha, M.bind_ok, pure, Except.pure, body1, T.down_up]
    cases rd (store g fun _ _ => v).parts k <;> rfl

/-- `A/definition/binary_local_operation.hpp:458-561`: an array and a scalar -/
theorem runStage_localScalar (T : Emb V (List α)) (T' : Emb V β) (U : Emb V (List γ)) (op : List α → β → M (List γ))
    {order : List Nat} {arrays : List (List V)} {a b : Nat} {x : PArr α} {v : β} (ha : arrays[a]? = some (x.parts.map T.up))
    (hb : arrays[b]? = some [T'.up v]) (ho : IsOrder (x.grid.n0 * x.grid.n1) order) :
    runStage order (localScalarStage (x.grid.n0 * x.grid.n1) [a] b (body2 T T' U op)) arrays =
      (LocalOp.array1 (fun p => op p v) order x).map fun y => y.parts.map U.up := by
  unfold LocalOp.array1
  rw [runStage_eq U rfl (task := fun k => do op (← rd x.parts k) v) ho]
  · exact map_parts U _ _
  · intro k _
    simp only [localScalarStage, List.map_cons, List.map_nil, List.singleton_append, List.mapM_cons, List.mapM_nil,
      resultAt_scalar T' hb, resultAt_up T ha]
    cases rd x.parts k with
    | error e => rfl
    | ok p =>
      simp only [Except.map, M.bind_ok, body2, T.down_up, T'.down_up, pure, Except.pure]
      cases op p v <;> rfl

/-- `A/definition/ternary_local_operation.hpp`, `where.hpp`: three arrays -/
theorem runStage_local3 (T : Emb V (List α)) (T' : Emb V (List β)) (T'' : Emb V (List δ)) (U : Emb V (List γ))
    (op : List α → List β → List δ → M (List γ)) {order : List Nat} {arrays : List (List V)} {a b c : Nat} {x : PArr α}
    {y : PArr β} {z : PArr δ} (ha : arrays[a]? = some (x.parts.map T.up)) (hb : arrays[b]? = some (y.parts.map T'.up))
    (hc : arrays[c]? = some (z.parts.map T''.up)) (hy : y.grid = x.grid) (hz : z.grid = x.grid)
    (ho : IsOrder (x.grid.n0 * x.grid.n1) order) :
    runStage order (localStage (x.grid.n0 * x.grid.n1) [a, b, c] (body3 T T' T'' U op)) arrays =
      (LocalOp.array3 op order x y z).map fun y => y.parts.map U.up := by
  unfold LocalOp.array3
  rw [verifyCompatible_same hy.symm, M.bind_ok, verifyCompatible_same hz.symm, M.bind_ok]
  rw [runStage_eq U rfl (task := fun k => do op (← rd x.parts k) (← rd y.parts k) (← rd z.parts k)) ho]
  · exact map_parts U _ _
  · intro k _
    simp only [localStage, List.map_cons, List.map_nil, List.mapM_cons, List.mapM_nil, resultAt_up T ha, resultAt_up T' hb,
      resultAt_up T'' hc]
    cases rd x.parts k with
    | error e => rfl
    | ok p =>
      cases rd y.parts k with
      | error e => rfl
      | ok q =>
        cases rd z.parts k with
        | error e => rfl
        | ok r =>
          simp only [Except.map, M.bind_ok, body3, T.down_up, T'.down_up, T''.down_up, pure, Except.pure]
          cases op p q r <;> rfl

theorem runStage_scalar {τ τ' υ : Type} (T : Emb V τ) (T' : Emb V τ') (U : Emb V υ) (f : τ → τ' → υ)
    {arrays : List (List V)} {a b : Nat} {x : τ} {y : τ'} (ha : arrays[a]? = some [T.up x]) (hb : arrays[b]? = some [T'.up y]) :
    runStage [0] (scalarStage [a, b] (body2 T T' U fun x y => .ok (f x y))) arrays = .ok [U.up (f x y)] := by
  rw [runStage_eq U (n := 1) rfl (task := fun _ => .ok (f x y)) (List.Perm.refl [0])]
  · rfl
  · intro k _
    simp only [scalarStage, List.map_cons, List.map_nil, List.mapM_cons, List.mapM_nil, resultAt_scalar T ha,
      resultAt_scalar T' hb, M.bind_ok, body2, T.down_up, T'.down_up, pure, Except.pure, Except.map]

/-! ### Focal operations with two inputs -/

/-- Reading the partitions around a partition. -/
theorem read_around (T : Emb V (List α)) {arrays : List (List V)} {a : Nat} {x : PArr α} {k : Nat}
    (ha : arrays[a]? = some (x.parts.map T.up)) (hl : x.parts.length = x.grid.n0 * x.grid.n1) :
    ∃ ps, ((around x.grid.n0 x.grid.n1 k).map fun k' => (a, k')).mapM (resultAt arrays) = .ok (ps.map T.up) ∧
      ps.length = (around x.grid.n0 x.grid.n1 k).length ∧
      ∀ k' ∈ around x.grid.n0 x.grid.n1 k, (withPartitions x.grid (around x.grid.n0 x.grid.n1 k) ps).parts[k']? = x.parts[k']? := by
  have hread : ∃ ps, (around x.grid.n0 x.grid.n1 k).mapM (fun k => rd x.parts k) = .ok ps := by
    have : ∀ l : List Nat, (∀ k ∈ l, k < x.parts.length) → ∃ ps, l.mapM (fun k => rd x.parts k) = .ok ps := by
      intro l
      induction l with
      | nil => intro _; exact ⟨[], rfl⟩
      | cons b l ih =>
        intro hb
        obtain ⟨ps, hps⟩ := ih fun k hk => hb k (by simp [hk])
        refine ⟨x.parts[b]'(hb b (by simp)) :: ps, ?_⟩
        rw [List.mapM_cons, rd_ok (List.getElem?_eq_getElem (hb b (by simp))), M.bind_ok, hps, M.bind_ok]
        rfl
    exact this _ fun k' hk' => by rw [hl]; exact around_lt hk'
  obtain ⟨ps, hps⟩ := hread
  obtain ⟨hpl, hpi⟩ := mapM_inv hps
  refine ⟨ps, mapM_intro (by simp [hpl]) fun i d w h1 h2 => ?_, hpl, fun k' hk' => ?_⟩
  · simp only [List.getElem?_map] at h1 h2
    cases hi : (around x.grid.n0 x.grid.n1 k)[i]? with
    | none => rw [hi] at h1; exact absurd h1 (by simp)
    | some k' =>
      rw [hi] at h1
      obtain rfl := Option.some.inj h1
      cases hp : ps[i]? with
      | none => rw [hp] at h2; exact absurd h2 (by simp)
      | some p =>
        rw [hp] at h2
        obtain rfl := Option.some.inj h2
        rw [resultAt_up T (k := k') ha, hpi i k' p hi hp]
        rfl
  · have hlt := around_lt hk'
    unfold withPartitions
    simp only [List.getElem?_map, List.getElem?_range hlt, Option.map_some]
    have hp : x.parts[k']? = some (x.parts[k']'(by omega)) := List.getElem?_eq_getElem _
    rw [lookup_zip hp hps hk', hp]
    rfl

/-- What a task of a focal operation with two inputs computes given the partitions around its own. -/
def focalBody2 (T : Emb V (List α)) (T' : Emb V (List β)) (U : Emb V (List γ)) (h : Halo α) (h' : Halo β) (garbage : Nat → α)
    (garbage' : Nat → β) (garbage'' : Nat → γ) (r : Nat) (functor : List α → List β → M γ) (g : Grid) (k : Nat) (vs : List V) :
    M V := do
  let ks := around g.n0 g.n1 k
  let ps ← (vs.take ks.length).mapM T.down
  let qs ← (vs.drop ks.length).mapM T'.down
  let slots ← spawn g.n0 g.n1 (launches g.n0 g.n1)
  .ok (U.up (← task2 h h' garbage garbage' garbage'' r functor (withPartitions g ks ps) (withPartitions g ks qs) slots k))

theorem mapM_append_ok {τ υ : Type} {f : τ → M υ} {l l' : List τ} {r r' : List υ} (h : l.mapM f = .ok r) (h' : l'.mapM f = .ok r') :
    (l ++ l').mapM f = .ok (r ++ r') := by
  rw [List.mapM_append, h, M.bind_ok, h', M.bind_ok]
  rfl

theorem runStage_focal2 (T : Emb V (List α)) (T' : Emb V (List β)) (U : Emb V (List γ)) (h : Halo α) (h' : Halo β)
    (garbage : Nat → α) (garbage' : Nat → β) (garbage'' : Nat → γ) (r : Nat)
    (functor : List α → List β → M γ) {order : List Nat} {arrays : List (List V)} {a b : Nat} {x : PArr α} {y : PArr β}
    (ha : arrays[a]? = some (x.parts.map T.up)) (hl : x.parts.length = x.grid.n0 * x.grid.n1)
    (hb : arrays[b]? = some (y.parts.map T'.up)) (hl' : y.parts.length = x.grid.n0 * x.grid.n1) (hg : y.grid = x.grid)
    (h0 : 0 < x.grid.n0) (h1 : 0 < x.grid.n1) (ho : IsOrder (x.grid.n0 * x.grid.n1) order) :
    runStage order (focalStage x.grid.n0 x.grid.n1 [a, b]
        (focalBody2 T T' U h h' garbage garbage' garbage'' r functor x.grid)) arrays =
      (focal2 h h' garbage garbage' garbage'' r functor order x y).map fun y => y.parts.map U.up := by
  unfold focal2
  rw [verifyCompatible_same hg.symm, M.bind_ok]
  obtain ⟨slots, hs, hkind⟩ := spawn_ok h0 h1
  simp only [hs, M.bind_ok]
  rw [runStage_eq U rfl (task := task2 h h' garbage garbage' garbage'' r functor x y slots) ho]
  · exact map_parts U _ _
  · intro k hk
    have hk0 : k / x.grid.n1 < x.grid.n0 := by
      rw [Nat.div_lt_iff_lt_mul h1]; exact hk
    have hk1 : k % x.grid.n1 < x.grid.n1 := Nat.mod_lt _ h1
    obtain ⟨kind, hslot, hkd⟩ := hkind _ _ hk0 hk1
    rw [Nat.mul_comm, Nat.div_add_mod] at hslot
    obtain ⟨ps, e1, l1, p1⟩ := read_around T (k := k) ha hl
    obtain ⟨qs, e2, l2, p2⟩ := read_around T' (k := k) hb (by rw [hg]; exact hl')
    rw [hg] at e2 l2 p2
    have e : (focalStage x.grid.n0 x.grid.n1 [a, b]
        (focalBody2 T T' U h h' garbage garbage' garbage'' r functor x.grid)).deps k =
        ((around x.grid.n0 x.grid.n1 k).map fun k' => (a, k')) ++ ((around x.grid.n0 x.grid.n1 k).map fun k' => (b, k')) := by
      simp [focalStage]
    rw [e, mapM_append_ok e1 e2, M.bind_ok]
    simp only [focalStage, focalBody2]
    rw [← l1, List.take_left' (by simp), List.drop_left' (by simp), mapM_down, M.bind_ok, mapM_down, M.bind_ok, hs, M.bind_ok]
    have e : task2 h h' garbage garbage' garbage'' r functor (withPartitions x.grid (around x.grid.n0 x.grid.n1 k) ps)
        (withPartitions x.grid (around x.grid.n0 x.grid.n1 k) qs) slots k =
        task2 h h' garbage garbage' garbage'' r functor x y slots k := by
      unfold task2
      rw [rd_ok hslot, M.bind_ok, M.bind_ok]
      simp only []
      have n1 := neighbourhood_congr h r (x := x) (x' := withPartitions x.grid (around x.grid.n0 x.grid.n1 k) ps) rfl p1 hkd
      have n2 := neighbourhood_congr h' r (x := y) (x' := withPartitions x.grid (around x.grid.n0 x.grid.n1 k) qs) hg.symm
        (by rw [hg]; exact p2) (by rw [hg]; exact hkd)
      rw [hg] at n2
      rw [← n1, ← n2]
      rfl
    rw [e]
    cases task2 h h' garbage garbage' garbage'' r functor x y slots k <;> rfl

end Lue.Dataflow

import Verif.Async.Stages
import Verif.InflowCount.Model

/-!
C75: `inflow_count`, written as the sets of tasks it creates. `A` below is
`source/framework/algorithm/include/lue/framework/algorithm`.

The code has a task per partition, which first sends messages to the tasks of the partitions around it, and then receives
the ones they send. Sending does not wait for anything. In the model the parts of the task before and after the messages
have been received are separate tasks.
-/
namespace Lue.Dataflow

open Lue.InflowCount Lue.Focal

variable {V : Type}

/-- `A/definition/inflow_count.hpp:96-420` (connectivity_ready): per partition a task which determines which messages to send. -/
def sendStage (T : Emb V (List Nat)) (O : Emb V (List Output)) (isNoData : Nat → Bool) (g : Grid) (a : Nat) : Stage V where
  n := g.n0 * g.n1
  deps := fun k => [(a, k)]
  body := fun k => body1 T O fun p => outputs isNoData (g.rows (k / g.n1)) (g.cols (k % g.n1)) p

/-- `A/definition/inflow_count.hpp:422-577`: what the task computes given the partition with flow directions, and the messages
sent by the partitions around it. -/
def countBody (T : Emb V (List Nat)) (O : Emb V (List Output)) (isNoData : Nat → Bool) (mark : Nat → Nat) (g : Grid) (k : Nat) :
    List V → M V
  | p :: os => do
      let sent := (withPartitions g (around g.n0 g.n1 k) (← os.mapM O.down)).parts
      .ok (T.up (← countReady isNoData mark (g.rows (k / g.n1)) (g.cols (k % g.n1)) (← T.down p)
        (← inputCells g sent (k / g.n1) (k % g.n1))))
  | [] => .error .thrown

/-- `A/definition/inflow_count.hpp:662-725`: per partition a task which depends on the partition with flow directions, and
the messages sent by the partitions around it. -/
def countStage (T : Emb V (List Nat)) (O : Emb V (List Output)) (isNoData : Nat → Bool) (mark : Nat → Nat) (g : Grid)
    (a s : Nat) : Stage V where
  n := g.n0 * g.n1
  deps := fun k => (a, k) :: (around g.n0 g.n1 k).map fun q => (s, q)
  body := countBody T O isNoData mark g

theorem sender_around {m0 m1 k0 k1 : Nat} {d : Dir} (h : hasNeighbour m0 m1 k0 k1 d = true) (h0 : k0 < m0) (h1 : k1 < m1) :
    ((((k0 : Int) + d.offset.1) * m1 + (k1 + d.offset.2))).toNat ∈ around m0 m1 (k0 * m1 + k1) := by
  have e0 : (k0 * m1 + k1) / m1 = k0 := by
    rw [Nat.mul_comm, Nat.mul_add_div (by omega), Nat.div_eq_of_lt h1, Nat.add_zero]
  have e1 : (k0 * m1 + k1) % m1 = k1 := by
    rw [Nat.mul_comm, Nat.mul_add_mod, Nat.mod_eq_of_lt h1]
  have key : ∀ (q0 q1 : Nat) (o0 o1 : Int), (q0 : Int) = k0 + o0 → (q1 : Int) = k1 + o1 → q0 < m0 → q1 < m1 → -1 ≤ o0 → o0 ≤ 1 →
      -1 ≤ o1 → o1 ≤ 1 → ((((k0 : Int) + o0) * m1 + (k1 + o1))).toNat ∈ around m0 m1 (k0 * m1 + k1) := by
    intro q0 q1 o0 o1 f0 f1 hq0 hq1 _ _ _ _
    rw [← f0, ← f1]
    have e : ((q0 : Int) * m1 + q1).toNat = q0 * m1 + q1 := by
      have : ((q0 : Int) * m1 + q1) = ((q0 * m1 + q1 : Nat) : Int) := by push_cast; ring
      rw [this, Int.toNat_natCast]
    rw [e]
    refine mem_around hq0 hq1 ?_
    rw [e0, e1]
    omega
  unfold hasNeighbour at h
  simp only [Bool.and_eq_true, decide_eq_true_eq] at h
  obtain ⟨_, h⟩ := h
  cases d <;> simp only [Dir.offset, Bool.and_eq_true, decide_eq_true_eq] at h ⊢
  · exact key (k0 - 1) k1 _ _ (by omega) (by omega) (by omega) (by omega) (by omega) (by omega) (by omega) (by omega)
  · exact key (k0 - 1) (k1 + 1) _ _ (by omega) (by omega) (by omega) (by omega) (by omega) (by omega) (by omega) (by omega)
  · exact key k0 (k1 + 1) _ _ (by omega) (by omega) (by omega) (by omega) (by omega) (by omega) (by omega) (by omega)
  · exact key (k0 + 1) (k1 + 1) _ _ (by omega) (by omega) (by omega) (by omega) (by omega) (by omega) (by omega) (by omega)
  · exact key (k0 + 1) k1 _ _ (by omega) (by omega) (by omega) (by omega) (by omega) (by omega) (by omega) (by omega)
  · exact key (k0 + 1) (k1 - 1) _ _ (by omega) (by omega) (by omega) (by omega) (by omega) (by omega) (by omega) (by omega)
  · exact key k0 (k1 - 1) _ _ (by omega) (by omega) (by omega) (by omega) (by omega) (by omega) (by omega) (by omega)
  · exact key (k0 - 1) (k1 - 1) _ _ (by omega) (by omega) (by omega) (by omega) (by omega) (by omega) (by omega) (by omega)

theorem mapM_congr {τ υ : Type} {f f' : τ → M υ} : ∀ {l : List τ}, (∀ a ∈ l, f a = f' a) → l.mapM f = l.mapM f' := by
  intro l
  induction l with
  | nil => intro _; rfl
  | cons a l ih => intro h; rw [List.mapM_cons, List.mapM_cons, h a (by simp), ih fun b hb => h b (by simp [hb])]

/-- Messages are received from the partitions around a partition only. -/
theorem inputCells_congr {g : Grid} {sent sent' : List (List Output)} {k0 k1 : Nat} (h0 : k0 < g.n0) (h1 : k1 < g.n1)
    (h : ∀ q ∈ around g.n0 g.n1 (k0 * g.n1 + k1), sent'[q]? = sent[q]?) :
    inputCells g sent' k0 k1 = inputCells g sent k0 k1 := by
  unfold inputCells
  refine mapM_congr fun d _ => ?_
  by_cases hd : hasNeighbour g.n0 g.n1 k0 k1 d = true
  · rw [if_pos hd, if_pos hd]
    simp only []
    have := h _ (sender_around hd h0 h1)
    unfold rd
    rw [this]
  · rw [if_neg hd, if_neg hd]

/-- `inflow_count` creates a task per partition which sends messages, and a task per partition which depends on the messages
of the partitions around it, see C18. -/
theorem runStage_inflowCount (T : Emb V (List Nat)) (O : Emb V (List Output)) (isNoData : Nat → Bool) (mark : Nat → Nat)
    {order1 order2 : List Nat} {arrays : List (List V)} {a : Nat} {x : PArr Nat}
    (ha : arrays[a]? = some (x.parts.map T.up)) (ho1 : IsOrder (x.grid.n0 * x.grid.n1) order1)
    (ho2 : IsOrder (x.grid.n0 * x.grid.n1) order2) :
    (do
      let sent ← runStage order1 (sendStage T O isNoData x.grid a) arrays
      runStage order2 (countStage T O isNoData mark x.grid a arrays.length) (arrays ++ [sent])) =
      (inflowCount isNoData mark order1 order2 x).map fun y => y.parts.map T.up := by
  unfold inflowCount
  rw [runStage_eq O (n := x.grid.n0 * x.grid.n1) rfl (task := fun k => do
    outputs isNoData (x.grid.rows (k / x.grid.n1)) (x.grid.cols (k % x.grid.n1)) (← rd x.parts k)) ho1]
  · simp only []
    cases hr : runTasks (x.grid.n0 * x.grid.n1) (fun k => do
      outputs isNoData (x.grid.rows (k / x.grid.n1)) (x.grid.cols (k % x.grid.n1)) (← rd x.parts k)) order1 with
    | error e => rfl
    | ok l =>
      simp only [Except.map, M.bind_ok]
      have hn := (runTasks_inv ho1 hr).1
      rw [runStage_eq T (n := x.grid.n0 * x.grid.n1) rfl (task := fun k => do
        countReady isNoData mark (x.grid.rows (k / x.grid.n1)) (x.grid.cols (k % x.grid.n1)) (← rd x.parts k)
          (← inputCells x.grid l (k / x.grid.n1) (k % x.grid.n1))) ho2]
      · exact map_parts T _ _
      · intro k hk
        have h1 : 0 < x.grid.n1 := by
          rcases Nat.eq_zero_or_pos x.grid.n1 with e | e
          · rw [e, Nat.mul_zero] at hk; omega
          · exact e
        have hk0 : k / x.grid.n1 < x.grid.n0 := by rw [Nat.div_lt_iff_lt_mul h1]; exact hk
        have hk1 : k % x.grid.n1 < x.grid.n1 := Nat.mod_lt _ h1
        obtain ⟨ps, e1, l1, p1⟩ := read_around O (x := ⟨x.grid, l⟩) (k := k)
          (show (arrays ++ [l.map O.up])[arrays.length]? = some (l.map O.up) by simp) hn
        have ha' : (arrays ++ [l.map O.up])[a]? = some (x.parts.map T.up) := by
          rw [List.getElem?_append_left (List.getElem?_eq_some_iff.1 ha).1, ha]
        simp only [countStage, List.mapM_cons, resultAt_up T ha']
        simp only [] at e1 l1 p1
        cases rd x.parts k with
        | error e => rfl
        | ok p =>
          simp only [Except.map, M.bind_ok, e1, pure, Except.pure, countBody, mapM_down, T.down_up]
          have ek : k / x.grid.n1 * x.grid.n1 + k % x.grid.n1 = k := by rw [Nat.mul_comm, Nat.div_add_mod]
          rw [inputCells_congr (sent := l) hk0 hk1 (by rw [ek]; exact p1)]
          cases inputCells x.grid l (k / x.grid.n1) (k % x.grid.n1) with
          | error e => rfl
          | ok cells =>
            simp only [M.bind_ok]
            cases countReady isNoData mark (x.grid.rows (k / x.grid.n1)) (x.grid.cols (k % x.grid.n1)) p cells <;> rfl
  · intro k _
    simp only [sendStage, List.mapM_cons, List.mapM_nil, resultAt_up T ha]
    cases rd x.parts k with
    | error e => rfl
    | ok p =>
      simp only [Except.map, M.bind_ok, body1, T.down_up, pure, Except.pure]
      cases outputs isNoData (x.grid.rows (k / x.grid.n1)) (x.grid.cols (k % x.grid.n1)) p <;> rfl

end Lue.Dataflow

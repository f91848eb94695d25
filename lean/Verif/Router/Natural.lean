import Verif.Router.Properties

/-! Accumulators of which one is an image of the other: the executions are the same. -/
namespace Lue.Router

open Lue.Routing Lue.InflowCount

variable {σ μ σ' μ' : Type}

/-- What happens in the cells according to `F'` is the image of what happens according to `F`. -/
structure Hom (F : CellAccumulator σ μ) (F' : CellAccumulator σ' μ') (h : σ → σ') (hm : μ → μ') : Prop where
  init : h F.init = F'.init
  enterInter : ∀ m s, h (F.enterInter m s) = F'.enterInter (hm m) (h s)
  enterCell : ∀ k e s, (F.enterCell k e s).map h = F'.enterCell k e (h s)
  leaveCell : ∀ a b, h (F.leaveCell a b) = F'.leaveCell (h a) (h b)
  outflow : ∀ s, hm (F.outflow s) = F'.outflow (h s)
  markNoData : ∀ s, h (F.markNoData s) = F'.markNoData (h s)
  enterIntra : ∀ s, h (F.enterIntra s) = F'.enterIntra (h s)
  leaveIntra : ∀ s, h (F.leaveIntra s) = F'.leaveIntra (h s)
  leaveInter : ∀ s, h (F.leaveInter s) = F'.leaveInter (h s)
  stopSink : ∀ s, h (F.stopSink s) = F'.stopSink (h s)
  stopConfluence : ∀ s, h (F.stopConfluence s) = F'.stopConfluence (h s)
  stopOutput : ∀ s, h (F.stopOutput s) = F'.stopOutput (h s)

/-- The image of the state of a partition -/
def PState.map (h : σ → σ') (hm : μ → μ') (p : PState σ μ) : PState σ' μ' where
  started := p.started
  data := p.data.map h
  counts := p.counts
  outs := p.outs
  pending := p.pending
  chan := fun d => (p.chan d).map fun m => (m.1, hm m.2)
  closed := p.closed

/-- The image of the state of all partitions -/
def Sys.map (h : σ → σ') (hm : μ → μ') (s : Sys σ μ) : Sys σ' μ' := fun k0 k1 => (s k0 k1).map h hm

section
variable {α β γ : Type}

theorem map_bind (x : M α) (f : α → M β) (g : β → γ) : (x >>= f).map g = x >>= fun a => (f a).map g := by
  cases x <;> rfl

theorem bind_map (x : M α) (f : α → β) (g : β → M γ) : x.map f >>= g = x >>= fun a => g (f a) := by
  cases x <;> rfl

theorem bind_congr_ok {x : M α} {f g : α → M β} (h : ∀ a, x = .ok a → f a = g a) : x >>= f = x >>= g := by
  cases x with
  | error e => rfl
  | ok a => exact h a rfl

theorem rd_map (h : α → β) (l : List α) (i : Nat) : rd (l.map h) i = (rd l i).map h := by
  unfold rd
  rw [List.getElem?_map]
  cases l[i]? <;> rfl

theorem wr_map (h : α → β) (l : List α) (i : Nat) (v : α) : wr (l.map h) i (h v) = (wr l i v).map (List.map h) := by
  unfold wr
  rw [List.length_map]
  split
  · simp [Except.map, List.map_set]
  · rfl

theorem map_ite (c : Prop) [Decidable c] (x y : M α) (f : α → β) : (if c then x else y).map f = if c then x.map f else y.map f := by
  split <;> rfl

theorem map_ok (x : α) (f : α → β) : (Except.ok x : M α).map f = .ok (f x) := rfl

theorem map_pure (x : α) (f : α → β) : (pure x : M α).map f = pure (f x) := rfl

theorem map_error (e : Err) (f : α → β) : (Except.error e : M α).map f = .error e := rfl
end

section
variable {F : CellAccumulator σ μ} {F' : CellAccumulator σ' μ'} {h : σ → σ'} {hm : μ → μ'}

theorem hookAt_map {f : σ → σ} {f' : σ' → σ'} (hf : ∀ s, h (f s) = f' (h s)) (e : Nat) (p : PState σ μ) :
    hookAt f' e (p.map h hm) = (hookAt f e p).map (PState.map h hm) := by
  unfold hookAt
  simp only [map_bind]
  show (rd (p.data.map h) e >>= _) = _
  rw [rd_map, bind_map]
  refine bind_congr_ok fun a _ => ?_
  show (wr (p.data.map h) e _ >>= _) = _
  rw [← hf, wr_map, bind_map]
  rfl

theorem chan_update (chan : Dir → List (Int × μ)) (d : Dir) (l : List (Int × μ)) :
    (fun d' => (Function.update chan d l d').map fun m => (m.1, hm m.2)) =
      Function.update (fun d' => (chan d').map fun m => (m.1, hm m.2)) d (l.map fun m => (m.1, hm m.2)) := by
  funext d'
  by_cases hd : d' = d
  · subst hd; simp
  · simp [Function.update_of_ne hd]

theorem stopAtOutput_map (H : Hom F F' h hm) (x : Ctx) (c o : Int × Int) (p : PState σ μ) :
    stopAtOutput F' x c o (p.map h hm) = (stopAtOutput F x c o p).map (PState.map h hm) := by
  unfold stopAtOutput
  simp only [map_bind]
  refine bind_congr_ok fun e _ => ?_
  rw [hookAt_map H.stopOutput, bind_map]
  refine bind_congr_ok fun q _ => ?_
  refine bind_congr_ok fun di _ => ?_
  obtain ⟨d, idx⟩ := di
  dsimp only
  refine bind_congr_ok fun _ _ => ?_
  split
  · simp only [map_bind, map_ite, map_error, map_pure]
    refine bind_congr_ok fun e' _ => ?_
    show (rd (q.data.map h) e' >>= _) = _
    rw [rd_map, bind_map]
    refine bind_congr_ok fun a _ => ?_
    show (if q.closed d = true then _ else _) = _
    split
    · rfl
    · have hc : Function.update (fun d' => (q.chan d').map fun m => (m.1, hm m.2)) d
          ((q.chan d).map (fun m => (m.1, hm m.2)) ++ [(idx, F'.outflow (h a))]) =
          fun d' => (Function.update q.chan d (q.chan d ++ [(idx, F.outflow a)]) d').map fun m => (m.1, hm m.2) := by
        rw [chan_update, List.map_append, List.map_singleton, H.outflow]
      unfold PState.map
      dsimp only
      rw [hc]
  · rfl

theorem accumulateCell_map (H : Hom F F' h hm) (x : Ctx) (c : Int × Int) (p : PState σ μ) :
    accumulateCell F' x c (p.map h hm) = (accumulateCell F x c p).map fun r => (r.1.map h hm, r.2) := by
  unfold accumulateCell
  simp only [map_bind]
  refine bind_congr_ok fun e _ => ?_
  refine bind_congr_ok fun count _ => ?_
  refine bind_congr_ok fun _ _ => ?_
  show (rd (p.data.map h) e >>= _) = _
  rw [rd_map, bind_map]
  refine bind_congr_ok fun a _ => ?_
  rw [← H.enterCell, bind_map]
  refine bind_congr_ok fun st _ => ?_
  show (wr (p.data.map h) e (h st) >>= _) = _
  rw [wr_map, bind_map]
  refine bind_congr_ok fun data _ => ?_
  refine bind_congr_ok fun code _ => ?_
  generalize downstreamCell x.n0 x.n1 code c.1 c.2 = dw
  obtain ⟨o, within⟩ := dw
  dsimp only
  rw [map_ite, map_ite]
  have hset : ({ p.map h hm with data := data.map h } : PState σ' μ') = ({ p with data := data } : PState σ μ).map h hm := rfl
  rw [hset]
  by_cases ho : o.1 = 0 ∧ o.2 = 0
  · rw [if_pos ho, if_pos ho, hookAt_map H.stopSink, bind_map]
    simp only [map_bind, map_pure]
  · rw [if_neg ho, if_neg ho]
    by_cases hw : (!within) = true
    · rw [if_pos hw, if_pos hw, stopAtOutput_map H, bind_map]
      simp only [map_bind, map_pure]
    · rw [if_neg hw, if_neg hw]
      simp only [map_bind]
      refine bind_congr_ok fun e' _ => ?_
      show (rd (data.map h) e >>= _) = _
      rw [rd_map, bind_map]
      refine bind_congr_ok fun a1 _ => ?_
      show (rd (data.map h) e' >>= _) = _
      rw [rd_map, bind_map]
      refine bind_congr_ok fun a2 _ => ?_
      show (wr (data.map h) e' _ >>= _) = _
      rw [← H.leaveCell, wr_map, bind_map]
      refine bind_congr_ok fun data2 _ => ?_
      refine bind_congr_ok fun count2 _ => ?_
      refine bind_congr_ok fun _ _ => ?_
      refine bind_congr_ok fun counts2 _ => ?_
      have hset2 : ({ p.map h hm with data := data2.map h, counts := counts2 } : PState σ' μ') =
          ({ p with data := data2, counts := counts2 } : PState σ μ).map h hm := rfl
      rw [map_ite]
      by_cases hc : count2 - 1 > 0
      · rw [if_pos hc, if_pos hc]
        show (hookAt F'.stopConfluence e' (PState.map h hm { p with data := data2, counts := counts2 }) >>= _) = _
        rw [hookAt_map H.stopConfluence, bind_map]
        simp only [map_bind, map_pure]
      · rw [if_neg hc, if_neg hc]
        rfl

theorem accumulateLoop_map (H : Hom F F' h hm) (x : Ctx) : ∀ (fuel : Nat) (c : Int × Int) (p : PState σ μ),
    accumulateLoop F' x fuel c (p.map h hm) = (accumulateLoop F x fuel c p).map (PState.map h hm)
  | 0, _, _ => rfl
  | fuel + 1, c, p => by
    unfold accumulateLoop
    rw [accumulateCell_map H, bind_map, map_bind]
    refine bind_congr_ok fun r _ => ?_
    obtain ⟨q, next⟩ := r
    cases next with
    | none => rfl
    | some c' => exact accumulateLoop_map H x fuel c' q

theorem intraCell_map (H : Hom F F' h hm) (isNoData : Nat → Bool) (x : Ctx) (counts : List Nat) (i j : Int) (p : PState σ μ) :
    intraCell F' isNoData x counts i j (p.map h hm) = (intraCell F isNoData x counts i j p).map (PState.map h hm) := by
  unfold intraCell
  simp only [map_bind]
  refine bind_congr_ok fun e _ => ?_
  refine bind_congr_ok fun code _ => ?_
  rw [map_ite]
  split
  · simp only [map_bind]
    show (rd (p.data.map h) e >>= _) = _
    rw [rd_map, bind_map]
    refine bind_congr_ok fun a _ => ?_
    show (wr (p.data.map h) e _ >>= _) = _
    rw [← H.markNoData, wr_map, bind_map]
    rfl
  · simp only [map_bind]
    refine bind_congr_ok fun count _ => ?_
    rw [map_ite]
    split
    · rw [hookAt_map H.enterIntra, bind_map]
      simp only [map_bind]
      refine bind_congr_ok fun q _ => ?_
      unfold accumulate
      rw [accumulateLoop_map H, bind_map]
      refine bind_congr_ok fun r _ => ?_
      rw [hookAt_map H.leaveIntra]
    · rfl

theorem forLoop_map {α β : Type} (f : α → β) {body : Nat → α → M α} {body' : Nat → β → M β}
    (hb : ∀ i s, body' i (f s) = (body i s).map f) : ∀ (n : Nat) (s : α), forLoop n body' (f s) = (forLoop n body s).map f := by
  intro n
  induction n with
  | zero => intro s; rfl
  | succ n ih =>
    intro s
    unfold forLoop at ih ⊢
    rw [List.range_succ, List.foldlM_append, List.foldlM_append, ih, bind_map, map_bind]
    refine bind_congr_ok fun a _ => ?_
    simp only [List.foldlM_cons, List.foldlM_nil, map_bind]
    rw [hb, bind_map]
    rfl

theorem solveIntra_map (H : Hom F F' h hm) (isNoData : Nat → Bool) (x : Ctx) (p : PState σ μ) :
    solveIntra F' isNoData x (p.map h hm) = (solveIntra F isNoData x p).map (PState.map h hm) := by
  unfold solveIntra
  have hl := forLoop_map (PState.map h hm) (fun i s => forLoop_map (PState.map h hm) (fun j s => intraCell_map H isNoData x p.counts i j s) x.n1 s)
    x.n0 p
  show (forLoop x.n0 (fun i s' => forLoop x.n1 (fun j s' => intraCell F' isNoData x p.counts i j s') s') (p.map h hm) >>= _) = _
  rw [hl, bind_map, map_bind]
  rfl

theorem receiveMaterial_map (H : Hom F F' h hm) (x : Ctx) (d : Dir) (m : Int × μ) (p : PState σ μ) :
    receiveMaterial F' x d (m.1, hm m.2) (p.map h hm) = (receiveMaterial F x d m p).map (PState.map h hm) := by
  unfold receiveMaterial
  simp only [map_bind]
  refine bind_congr_ok fun _ _ => ?_
  refine bind_congr_ok fun e _ => ?_
  refine bind_congr_ok fun count _ => ?_
  refine bind_congr_ok fun _ _ => ?_
  show (rd (p.data.map h) e >>= _) = _
  rw [rd_map, bind_map]
  refine bind_congr_ok fun a _ => ?_
  show (wr (p.data.map h) e _ >>= _) = _
  rw [← H.enterInter, wr_map, bind_map]
  refine bind_congr_ok fun data _ => ?_
  refine bind_congr_ok fun counts _ => ?_
  rw [map_ite]
  split
  · simp only [map_bind]
    show (accumulate F' x _ (PState.map h hm { p with
      pending := Function.update p.pending d ((p.pending d).erase (convert x.n0 x.n1 d m.1)), data := data, counts := counts }) >>= _) = _
    unfold accumulate
    rw [accumulateLoop_map H, bind_map]
    refine bind_congr_ok fun r _ => ?_
    rw [hookAt_map H.leaveInter]
  · rfl

theorem Sys.map_set (s : Sys σ μ) (k0 k1 : Nat) (p : PState σ μ) :
    (s.set k0 k1 p).map h hm = (s.map h hm).set k0 k1 (p.map h hm) := by
  funext i j
  unfold Sys.map Sys.set
  split <;> rfl

theorem perform_map (H : Hom F F' h hm) (isNoData : Nat → Bool) (x : PArr Nat) (s : Sys σ μ) (a : Action) :
    perform F' isNoData x (s.map h hm) a = (perform F isNoData x s a).map (Sys.map h hm) := by
  cases a with
  | intra k0 k1 =>
    unfold perform
    simp only [map_bind]
    refine bind_congr_ok fun cx _ => ?_
    show (solveIntra F' isNoData cx ((s k0 k1).map h hm) >>= _) = _
    rw [solveIntra_map H, bind_map]
    refine bind_congr_ok fun p _ => ?_
    show pure _ = pure _
    rw [Sys.map_set]
  | receive k0 k1 d =>
    unfold perform
    dsimp only
    generalize neighbour d k0 k1 = q
    obtain ⟨q0, q1⟩ := q
    dsimp only
    have hch : ((s.map h hm) q0 q1).chan d.sender = ((s q0 q1).chan d.sender).map fun m => (m.1, hm m.2) := rfl
    rw [hch]
    cases hl : (s q0 q1).chan d.sender with
    | nil => rfl
    | cons m ms =>
      rw [List.map_cons]
      dsimp only
      simp only [map_bind]
      refine bind_congr_ok fun cx _ => ?_
      have hset : (s.map h hm).set q0 q1 { (s.map h hm) q0 q1 with
          chan := Function.update ((s.map h hm) q0 q1).chan d.sender (ms.map fun m => (m.1, hm m.2)) } =
          (s.set q0 q1 { s q0 q1 with chan := Function.update (s q0 q1).chan d.sender ms }).map h hm := by
        rw [Sys.map_set]
        congr 1
        unfold PState.map
        dsimp only
        rw [chan_update]
        rfl
      rw [hset]
      show (receiveMaterial F' cx d (m.1, hm m.2) (PState.map h hm _) >>= _) = _
      rw [receiveMaterial_map H, bind_map]
      refine bind_congr_ok fun p _ => ?_
      show pure _ = pure _
      simp only [Sys.map_set]

theorem getD_map_default (l : List (PState σ μ)) (i : Nat) :
    (l.map (PState.map h hm)).getD i default = (l.getD i default).map h hm := by
  rw [List.getD_eq_getElem?_getD, List.getD_eq_getElem?_getD, List.getElem?_map]
  cases l[i]? <;> rfl

theorem mapM_map {α β γ : Type} (f : β → γ) {b : α → M β} {b' : α → M γ} (hb : ∀ i, b' i = (b i).map f) : ∀ l : List α,
    l.mapM b' = (l.mapM b).map (List.map f) := by
  intro l
  induction l with
  | nil => rfl
  | cons a l ih =>
    rw [List.mapM_cons, List.mapM_cons, hb, ih, bind_map, map_bind]
    refine bind_congr_ok fun x _ => ?_
    rw [bind_map, map_bind]
    rfl

theorem runTasks_map {α β : Type} (f : α → β) {task : Nat → M α} {task' : Nat → M β} (ht : ∀ k, task' k = (task k).map f)
    (n : Nat) (order : List Nat) : runTasks n task' order = (runTasks n task order).map (List.map f) := by
  have key : ∀ (l : List Nat) (s : List (Option α)),
      l.foldlM (fun (slots : List (Option β)) k => do
        let r ← task' k
        wr slots k (some r)) (s.map (Option.map f)) =
      (l.foldlM (fun (slots : List (Option α)) k => do
        let r ← task k
        wr slots k (some r)) s).map (List.map (Option.map f)) := by
    intro l
    induction l with
    | nil => intro s; rfl
    | cons k l ih =>
      intro s
      simp only [List.foldlM_cons]
      rw [ht k, bind_map]
      simp only [map_bind, bind_assoc]
      refine bind_congr_ok fun r _ => ?_
      rw [show (some (f r) : Option β) = Option.map f (some r) from rfl, wr_map, bind_map]
      exact bind_congr_ok fun s' _ => ih s'
  unfold runTasks
  have h0 : (List.replicate n none : List (Option β)) = (List.replicate n (none : Option α)).map (Option.map f) := by
    rw [List.map_replicate]; rfl
  rw [h0, key, bind_map, map_bind]
  refine bind_congr_ok fun slots hs => ?_
  clear h0 hs
  induction slots with
  | nil => rfl
  | cons a l ih =>
    rw [List.map_cons, List.mapM_cons, List.mapM_cons, ih]
    cases a with
    | none => rfl
    | some r =>
      rw [map_bind]
      show (Except.ok (f r) >>= _) = (Except.ok r >>= _)
      rw [M.bind_ok, M.bind_ok, bind_map, map_bind]
      rfl

theorem initialise_map (H : Hom F F' h hm) (isNoData : Nat → Bool) (order1 order2 : List Nat) (x : PArr Nat) :
    initialise F' isNoData order1 order2 x = (initialise F isNoData order1 order2 x).map (Sys.map h hm) := by
  unfold initialise
  simp only [map_bind]
  refine bind_congr_ok fun counts _ => ?_
  refine bind_congr_ok fun sent _ => ?_
  rw [runTasks_map (PState.map h hm) (task := fun k => do
    let outs ← rd sent k
    let inputs ← inputCells x.grid sent (k / x.grid.n1) (k % x.grid.n1)
    return ({
      data := List.replicate (x.grid.rows (k / x.grid.n1) * x.grid.cols (k % x.grid.n1)) F.init
      counts := ← rd counts.parts k
      outs := outs.map fun o => (o.dir, o.cell)
      pending := fun d => ((directions.zip inputs).lookup d).getD [] } : PState σ μ)) (fun k => ?_), bind_map]
  · refine bind_congr_ok fun states _ => ?_
    show pure _ = pure _
    congr 1
    funext k0 k1
    exact getD_map_default _ _
  · simp only [map_bind]
    refine bind_congr_ok fun outs _ => ?_
    refine bind_congr_ok fun inputs _ => ?_
    refine bind_congr_ok fun cs _ => ?_
    show pure _ = pure _
    unfold PState.map
    dsimp only
    rw [List.map_replicate, H.init]
    rfl

theorem enabled_map {g : Grid} {s : Sys σ μ} {a : Action} : Enabled g (s.map h hm) a ↔ Enabled g s a := by
  cases a with
  | intra k0 k1 => rfl
  | receive k0 k1 d =>
    unfold Enabled Sys.map PState.map
    simp only [ne_eq, List.map_eq_nil_iff]

theorem finished_map {g : Grid} {s : Sys σ μ} : Finished g (s.map h hm) ↔ Finished g s := Iff.rfl

theorem stuck_map {g : Grid} {s : Sys σ μ} : Stuck g (s.map h hm) ↔ Stuck g s :=
  forall_congr' fun _ => not_congr enabled_map

theorem results_map {g : Grid} {s : Sys σ μ} : results g (s.map h hm) = ⟨g, (results g s).parts.map (List.map h)⟩ := by
  simp only [results, List.map_map]
  rfl

theorem map_eq_ok {α β : Type} {x : M α} {f : α → β} {b : β} (hx : x.map f = .ok b) : ∃ a, x = .ok a ∧ f a = b := by
  cases x with
  | error e => cases hx
  | ok a => exact ⟨a, rfl, Except.ok.inj hx⟩

variable {isNoData : Nat → Bool} {order1 order2 : List Nat} {x : PArr Nat}

/-- The image of an execution is an execution. -/
theorem Reachable.map (H : Hom F F' h hm) {s : Sys σ μ} (hs : Reachable F isNoData order1 order2 x s) :
    Reachable F' isNoData order1 order2 x (s.map h hm) := by
  induction hs with
  | init h1 => exact .init (by rw [initialise_map H, h1]; rfl)
  | step _ he hp ih => exact .step ih (enabled_map.2 he) (by rw [perform_map H, hp]; rfl)

/-- Every execution of the image is the image of an execution. -/
theorem Reachable.lift (H : Hom F F' h hm) {s' : Sys σ' μ'} (hs : Reachable F' isNoData order1 order2 x s') :
    ∃ s, Reachable F isNoData order1 order2 x s ∧ s.map h hm = s' := by
  induction hs with
  | init h1 =>
    rw [initialise_map H] at h1
    obtain ⟨s, h2, h3⟩ := map_eq_ok h1
    exact ⟨s, .init h2, h3⟩
  | step _ he hp ih =>
    obtain ⟨s, h1, rfl⟩ := ih
    rw [perform_map H] at hp
    obtain ⟨s2, h2, h3⟩ := map_eq_ok hp
    exact ⟨s2, .step h1 (enabled_map.1 he) h2, h3⟩

end

end Lue.Router

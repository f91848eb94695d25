import Verif.AccuInfo.Trace
import Verif.Accu.Routed

/-! All partitions -/
namespace Lue.AccuInfo

open Lue.Routing Lue.InflowCount Lue.Router Lue.Accu

theorem runTasks_mem {π : Type} {n : Nat} {task : Nat → M π} {order : List Nat} {l : List π}
    (hrun : runTasks n task order = .ok l) : ∀ a ∈ l, ∃ k, task k = .ok a := by
  have key : ∀ (o : List Nat) (s s' : List (Option π)), (∀ a, some a ∈ s → ∃ k, task k = .ok a) →
      o.foldlM (fun (slots : List (Option π)) k => do
        let r ← task k
        wr slots k (some r)) s = .ok s' → ∀ a, some a ∈ s' → ∃ k, task k = .ok a := by
    intro o
    induction o with
    | nil => intro s s' hs h; obtain rfl := Except.ok.inj h; exact hs
    | cons k o ih =>
      intro s s' hs h
      rw [List.foldlM_cons] at h
      obtain ⟨s1, h1, h⟩ := obind h
      obtain ⟨r, h2, h1⟩ := obind h1
      obtain ⟨_, rfl⟩ := owr h1
      refine ih _ s' (fun a ha => ?_) h
      rcases List.mem_or_eq_of_mem_set ha with ha | ha
      · exact hs a ha
      · exact ⟨k, by rw [h2, Option.some.inj ha]⟩
  unfold runTasks at hrun
  obtain ⟨slots, h1, h⟩ := obind hrun
  have h2 := key order _ slots (by simp) h1
  clear h1 key hrun
  induction slots generalizing l with
  | nil => obtain rfl := Except.ok.inj h; simp
  | cons b slots ih =>
    rw [List.mapM_cons] at h
    obtain ⟨r, h3, h⟩ := obind h
    obtain ⟨l', h4, h⟩ := obind h
    obtain rfl := Except.ok.inj h
    intro a ha
    rcases List.mem_cons.1 ha with rfl | ha
    · cases b with
      | none => cases h3
      | some r' =>
        obtain rfl := Except.ok.inj h3
        exact h2 _ (by simp)
    · exact ih h4 (fun a ha => h2 a (by simp [ha])) a ha

theorem initialise_fresh {σ μ : Type} {F : CellAccumulator σ μ} {isNoData : Nat → Bool} {order1 order2 : List Nat}
    {x : PArr Nat} {s : Sys σ μ} (h : initialise F isNoData order1 order2 x = .ok s) (k0 k1 : Nat) :
    (s k0 k1).started = false ∧ (∀ a ∈ (s k0 k1).data, a = F.init) ∧ ∀ d, (s k0 k1).chan d = [] := by
  unfold initialise at h
  obtain ⟨counts, _, h⟩ := obind h
  obtain ⟨sent, _, h⟩ := obind h
  obtain ⟨states, h1, h⟩ := obind h
  obtain rfl := Except.ok.inj h
  have hall : ∀ p ∈ states, p.started = false ∧ (∀ a ∈ p.data, a = F.init) ∧ ∀ d, p.chan d = [] := by
    intro p hp
    obtain ⟨k, hk⟩ := runTasks_mem h1 p hp
    obtain ⟨outs, _, hk⟩ := obind hk
    obtain ⟨inputs, _, hk⟩ := obind hk
    obtain ⟨cs, _, hk⟩ := obind hk
    obtain rfl := Except.ok.inj hk
    exact ⟨rfl, fun a ha => List.eq_of_mem_replicate ha, fun _ => rfl⟩
  dsimp only
  rw [List.getD_eq_getElem?_getD]
  cases hs : states[k0 * x.grid.n1 + k1]? with
  | none => exact ⟨rfl, (fun a ha => by cases ha), fun _ => rfl⟩
  | some p => exact hall p (List.mem_of_getElem? hs)

/-- What is known about all partitions. -/
def SysOk (isNoData : Nat → Bool) (x : PArr Nat) (s : Sys (Nat × Trace) (Nat × (Nat × Bool))) : Prop :=
  ∀ k0 k1, k0 < x.grid.n0 → k1 < x.grid.n1 → ∀ cx, ctx x k0 k1 = .ok cx → PInv isNoData cx (k0 * x.grid.n1 + k1) (s k0 k1)

theorem ctx_nr {x : PArr Nat} {k0 k1 : Nat} {cx : Ctx} (h : ctx x k0 k1 = .ok cx) :
    cx.k0 * cx.m1 + cx.k1 = k0 * x.grid.n1 + k1 := by
  unfold ctx at h
  obtain ⟨fd, _, h⟩ := obind h
  obtain rfl := Except.ok.inj h
  rfl

theorem reachable_ok {isNoData : Nat → Bool} (hnd : ∀ code, isNoData code = true → move code = none) {order1 order2 : List Nat}
    {x : PArr Nat} (hctx : ∀ k0 k1, k0 < x.grid.n0 → k1 < x.grid.n1 → ∃ cx, ctx x k0 k1 = .ok cx)
    {s : Sys (Nat × Trace) (Nat × (Nat × Bool))} (h : Reachable bothCells isNoData order1 order2 x s) :
    SysOk isNoData x s := by
  induction h with
  | init h =>
    intro k0 k1 _ _ cx _
    obtain ⟨h1, h2, h3⟩ := initialise_fresh h k0 k1
    exact ⟨fun _ => ⟨h2, h3⟩, fun h4 => by rw [h1] at h4; cases h4⟩
  | @step s s' a _ he hp ih =>
    cases a with
    | intra q0 q1 =>
      unfold perform at hp
      obtain ⟨cx, h1, hp⟩ := obind hp
      obtain ⟨p, h2, hp⟩ := obind hp
      obtain rfl := Except.ok.inj hp
      intro k0 k1 hk0 hk1 cx' hcx'
      unfold Sys.set
      split
      · rename_i hk
        obtain ⟨rfl, rfl⟩ := hk
        rw [h1] at hcx'
        obtain rfl := Except.ok.inj hcx'
        exact solveIntra_ok hnd (ctx_nr h1) h2 he.2.2 (ih _ _ hk0 hk1 _ h1)
      · exact ih k0 k1 hk0 hk1 cx' hcx'
    | receive r0 r1 d =>
      obtain ⟨e1, e2, e3, e4, e5, e6⟩ := he
      have nb := neighbour_nb e1 e2 e5
      have hne := neighbour_ne nb
      unfold perform at hp
      dsimp only at hp
      have hnb : neighbour d r0 r1 = (nb0 r0 d, nb1 r1 d) := rfl
      rw [hnb] at hp e6
      dsimp only at hp e6
      generalize nb0 r0 d = q0 at *
      generalize nb1 r1 d = q1 at *
      have hqb : q0 < x.grid.n0 ∧ q1 < x.grid.n1 := ⟨nb.q0_lt, nb.q1_lt⟩
      cases hch : (s q0 q1).chan d.sender with
      | nil => exact absurd hch e6
      | cons m ms =>
        rw [hch] at hp
        dsimp only at hp
        obtain ⟨cx, h1, hp⟩ := obind hp
        obtain ⟨p, h2, hp⟩ := obind hp
        obtain rfl := Except.ok.inj hp
        have hset : (Sys.set s q0 q1 { s q0 q1 with chan := Function.update (s q0 q1).chan d.sender ms }) r0 r1 = s r0 r1 := by
          unfold Sys.set
          rw [if_neg fun hh => hne ⟨hh.1.symm, hh.2.symm⟩]
        rw [hset] at h2
        intro k0 k1 hk0 hk1 cx' hcx'
        have hq : ∀ cx', ctx x q0 q1 = .ok cx' → (s q0 q1).started = true ∧
            PInv isNoData cx' (q0 * x.grid.n1 + q1) { s q0 q1 with chan := Function.update (s q0 q1).chan d.sender ms } := by
          intro cx' hcx'
          have hi := ih q0 q1 hqb.1 hqb.2 cx' hcx'
          have hst : (s q0 q1).started = true := by
            cases hst : (s q0 q1).started with
            | true => rfl
            | false =>
              have := (hi.1 hst).2 d.sender
              rw [hch] at this
              cases this
          refine ⟨hst, (fun hf => ?_), fun _ => ?_⟩
          · have hf : (s q0 q1).started = false := hf
            rw [hst] at hf; cases hf
          · obtain ⟨i1, i2⟩ := hi.2 hst
            refine ⟨⟨i1.cell, fun d' m' hm' => ?_⟩, i2⟩
            dsimp only at hm'
            by_cases hd : d' = d.sender
            · subst hd
              rw [Function.update_self] at hm'
              exact i1.msgs _ m' (by rw [hch]; simp [hm'])
            · rw [Function.update_of_ne hd] at hm'
              exact i1.msgs _ m' hm'
        unfold Sys.set
        split
        · rename_i hk
          obtain ⟨rfl, rfl⟩ := hk
          rw [h1] at hcx'
          obtain rfl := Except.ok.inj hcx'
          refine (receive_ok hnd (ctx_nr h1) h2 e3 ?_ (ih _ _ hk0 hk1 _ h1)).2
          -- The message comes from another partition
          obtain ⟨cxq, hcxq⟩ := hctx q0 q1 hqb.1 hqb.2
          have hi := (ih q0 q1 hqb.1 hqb.2 cxq hcxq).2 (hq cxq hcxq).1
          rw [hi.1.msgs d.sender m (by rw [hch]; simp)]
          intro he
          have d1 := congrArg (· / x.grid.n1) he
          have d2 := congrArg (· % x.grid.n1) he
          simp only [idx_div hqb.2, idx_mod hqb.2, idx_div hk1, idx_mod hk1] at d1 d2
          exact hne ⟨d1, d2⟩
        · split
          · rename_i hk
            obtain ⟨rfl, rfl⟩ := hk
            exact (hq cx' hcx').2
          · exact ih k0 k1 hk0 hk1 cx' hcx'

end Lue.AccuInfo

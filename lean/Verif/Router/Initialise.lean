import Verif.Router.System

/-! The initial state. -/
namespace Lue.Router

open Lue.Routing Lue.InflowCount

variable {σ μ : Type}

section
variable {F : CellAccumulator σ μ} {isNoData : Nat → Bool} {enter : Cell → σ → σ} {v : Arr Nat}

/-- The outputs of a partition. -/
def outputsOf (isNoData : Nat → Bool) (g : Grid) (v : Arr Nat) (k0 k1 : Nat) : List Output :=
  (border (g.rows k0) (g.cols k1)).filterMap (output isNoData (g.rows k0) (g.cols k1) (codes g v k0 k1))

theorem output_eq (hcode : ∀ code, isNoData code = true → move code = none) {n0 n1 : Nat} {code : Int × Int → Nat} {c : Int × Int} :
    output isNoData n0 n1 code c = (leave n0 n1 c.1 c.2 (code c)).map fun r => ⟨r.1, c, r.2⟩ := by
  unfold output
  by_cases h : isNoData (code c) = true
  · rw [if_pos h]; simp [leave, hcode _ h]
  · rw [if_neg h]

theorem mem_outputsOf {g : Grid} (hcode : ∀ code, isNoData code = true → move code = none)
    (hrows : ∀ k, 2 ≤ g.rows k) (hcols : ∀ k, 2 ≤ g.cols k) {k0 k1 : Nat} {o : Output} :
    o ∈ outputsOf isNoData g v k0 k1 ↔ InRange (g.rows k0) (g.cols k1) o.cell ∧
      leave (g.rows k0) (g.cols k1) o.cell.1 o.cell.2 (codes g v k0 k1 o.cell) = some (o.dir, o.idx) := by
  unfold outputsOf
  rw [List.mem_filterMap]
  constructor
  · rintro ⟨c, hc, ho⟩
    rw [mem_border (hrows k0) (hcols k1)] at hc
    rw [output_eq hcode, Option.map_eq_some_iff] at ho
    obtain ⟨r, hr, rfl⟩ := ho
    exact ⟨hc.1, hr⟩
  · rintro ⟨h1, h2⟩
    refine ⟨o.cell, (mem_border (hrows k0) (hcols k1)).2 ⟨h1, leave_border h1 h2⟩, ?_⟩
    rw [output_eq hcode, h2]; rfl

theorem nodup_outputsOf {g : Grid} (hrows : ∀ k, 2 ≤ g.rows k) (hcols : ∀ k, 2 ≤ g.cols k) {k0 k1 : Nat} :
    ((outputsOf isNoData g v k0 k1).map Output.cell).Nodup := by
  unfold outputsOf
  rw [List.map_filterMap]
  refine (nodup_border (hrows k0) (hcols k1)).filterMap ?_
  intro a a' b ha hb
  simp only [Option.mem_def, Option.map_eq_some_iff, output] at ha hb
  obtain ⟨o, ho, rfl⟩ := ha
  obtain ⟨o', ho', he⟩ := hb
  split_ifs at ho ho'
  simp only [Option.map_eq_some_iff] at ho ho'
  obtain ⟨_, _, rfl⟩ := ho
  obtain ⟨_, _, rfl⟩ := ho'
  exact he.symm

/-- Nothing has happened. -/
def Ghost.none (s : σ) : Ghost Cell σ := ⟨∅, fun _ => [], ∅, fun _ => s⟩

theorem lookup_zip_map {β : Type} {f : Dir → β} (d : Dir) : (directions.zip (directions.map f)).lookup d = some (f d) := by
  cases d <;> rfl

theorem initialise_ok {x : PArr Nat} (hx : Represents x v) (S : Setup F isNoData enter x.grid v) {order1 order2 : List Nat}
    (ho1 : IsOrder (x.grid.n0 * x.grid.n1) order1) (ho2 : IsOrder (x.grid.n0 * x.grid.n1) order2) :
    ∃ s, initialise F isNoData order1 order2 x = .ok s ∧ SInv F isNoData enter x.grid v (Ghost.none F.init) s ∧
      ∀ k0 k1, k0 < x.grid.n0 → k1 < x.grid.n1 → (s k0 k1).started = false := by
  obtain ⟨y, hy1, hy2, hy3⟩ := inflowCount_spec (mark := id) hx S.two0 S.two1 S.valid ho1 ho2
  have hpart := fun k0 k1 (h0 : k0 < x.grid.n0) (h1 : k1 < x.grid.n1) => Represents.holds hx h0 h1
  have hcounts : ∀ k0 k1, k0 < x.grid.n0 → k1 < x.grid.n1 → ∃ p, y.parts[k0 * x.grid.n1 + k1]? = some p ∧
      Holds (x.grid.rows k0) (x.grid.cols k1) p fun c => nrInflows x.grid.a0 x.grid.a1 v (glob x.grid k0 k1 c) := by
    intro k0 k1 h0 h1
    rw [← hy2] at h0 h1
    obtain ⟨p, hp1, hp2⟩ := Represents.holds hy3 h0 h1
    rw [hy2] at hp1 hp2
    refine ⟨p, hp1, hp2.congr fun c hc => ?_⟩
    unfold inflowCounts
    by_cases hn : isNoData (v (glob x.grid k0 k1 c).1 (glob x.grid k0 k1 c).2) = true
    · rw [if_pos hn]; exact (nrInflows_noData S.valid hn).symm
    · rw [if_neg hn]
  have hgd : x.grid = x.grid := rfl
  generalize hgen : x.grid = g at *
  -- output cells
  have hsend : ∀ k < g.n0 * g.n1, (do outputs isNoData (g.rows (k / g.n1)) (g.cols (k % g.n1)) (← rd x.parts k)) =
      .ok (outputsOf isNoData g v (k / g.n1) (k % g.n1)) := by
    intro k hk
    obtain ⟨h0, h1, he⟩ := idx_split hk
    obtain ⟨p, h2, h3⟩ := hpart _ _ h0 h1
    rw [he] at h2
    rw [rd_ok h2, M.bind_ok, outputs_ok (S.rows _) (S.cols _) h3]; rfl
  have hsent := runTasks_ok ho1 hsend
  set sent := (List.range (g.n0 * g.n1)).map fun k => outputsOf isNoData g v (k / g.n1) (k % g.n1) with hsentdef
  have hrdsent : ∀ q0 q1, q0 < g.n0 → q1 < g.n1 → rd sent (q0 * g.n1 + q1) = .ok (outputsOf isNoData g v q0 q1) := by
    intro q0 q1 h0 h1
    apply rd_ok
    rw [hsentdef, List.getElem?_map, List.getElem?_range (idx_lt h0 h1), Option.map_some, idx_div h1, idx_mod h1]
  have hinputs : ∀ k0 k1, k0 < g.n0 → k1 < g.n1 →
      inputCells g sent k0 k1 = .ok (directions.map (received isNoData g v k0 k1)) := by
    intro k0 k1 h0 h1
    unfold inputCells
    refine mapM_ok _ (fun d _ => ?_)
    unfold received
    by_cases hn : hasNeighbour g.n0 g.n1 k0 k1 d = true
    · rw [if_pos hn, if_pos hn]
      have n := neighbour_nb h0 h1 hn
      have hq : (((k0 : Int) + d.offset.1) * g.n1 + (k1 + d.offset.2)).toNat = nb0 k0 d * g.n1 + nb1 k1 d := by
        have e0 := n.eq0; have e1 := n.eq1
        rw [← e0, ← e1, ← Int.natCast_mul, ← Int.natCast_add]
        rfl
      simp only [hq, hrdsent _ _ n.q0_lt n.q1_lt, M.bind_ok, receive_messages]
      rfl
    · rw [if_neg hn, if_neg hn]
  -- the states
  have hstate : ∀ k < g.n0 * g.n1, ∃ p : PState σ μ, (do
      let outs ← rd sent k
      let inputs ← inputCells g sent (k / g.n1) (k % g.n1)
      return ({
        data := List.replicate (g.rows (k / g.n1) * g.cols (k % g.n1)) F.init
        counts := ← rd y.parts k
        outs := outs.map fun o => (o.dir, o.cell)
        pending := fun d => ((directions.zip inputs).lookup d).getD [] } : PState σ μ) : M (PState σ μ)) = .ok p ∧
      PRel F g v (Ghost.none F.init) (k / g.n1) (k % g.n1) p ∧ p.started = false := by
    intro k hk
    obtain ⟨h0, h1, he⟩ := idx_split hk
    obtain ⟨p, h2, h3⟩ := hcounts _ _ h0 h1
    have hs := hrdsent _ _ h0 h1
    rw [he] at h2 hs
    rw [hs, M.bind_ok, hinputs _ _ h0 h1, M.bind_ok, rd_ok h2, M.bind_ok]
    refine ⟨_, rfl, ⟨?_, ?_, ⟨?_, ?_⟩, ?_, ?_, ?_, ?_⟩, rfl⟩
    · exact h3.congr fun c _ => by simp [Ghost.none]
    · refine ⟨by simp, fun c hc => ?_⟩
      rw [List.getElem?_replicate, if_pos (lin_lt hc)]; rfl
    · refine List.Nodup.of_map Prod.snd ?_
      rw [List.map_map]
      exact nodup_outputsOf S.rows S.cols
    · intro d c
      simp only [List.mem_map, Prod.mk.injEq]
      constructor
      · rintro ⟨o, ho, rfl, rfl⟩
        obtain ⟨a, b⟩ := (mem_outputsOf S.valid.code S.rows S.cols).1 ho
        exact ⟨a, ⟨_, b⟩, by simp [Ghost.none]⟩
      · rintro ⟨a, ⟨idx, b⟩, _⟩
        exact ⟨⟨d, c, idx⟩, (mem_outputsOf S.valid.code S.rows S.cols).2 ⟨a, b⟩, rfl, rfl⟩
    · intro d _
      exact ⟨[], by simp, by simp [Ghost.none], .nil⟩
    · intro d hd
      have nb := neighbour_nb h0 h1 hd
      simp only [lookup_zip_map, Option.getD_some]
      refine ⟨((outputsOf isNoData g v (nb0 (k / g.n1) d) (nb1 (k % g.n1) d)).filter fun o => o.dir = d.sender).map Output.cell,
        ?_, ?_, ?_⟩
      · exact (nodup_outputsOf S.rows S.cols).sublist (List.Sublist.map _ List.filter_sublist)
      · intro c
        simp only [List.mem_map, List.mem_filter, decide_eq_true_eq]
        constructor
        · rintro ⟨o, ⟨ho, hod⟩, rfl⟩
          obtain ⟨a, b⟩ := (mem_outputsOf S.valid.code S.rows S.cols).1 ho
          exact ⟨a, ⟨_, by rw [b, hod]⟩, Or.inl (by simp [Ghost.none])⟩
        · rintro ⟨a, ⟨idx, b⟩, _⟩
          exact ⟨⟨d.sender, c, idx⟩, ⟨(mem_outputsOf S.valid.code S.rows S.cols).2 ⟨a, b⟩, rfl⟩, rfl⟩
      · unfold received
        rw [if_pos hd, List.map_map]
        apply List.Perm.of_eq
        apply List.map_congr_left
        intro o ho
        rw [List.mem_filter] at ho
        obtain ⟨_, b⟩ := (mem_outputsOf S.valid.code S.rows S.cols).1 ho.1
        simp [outIdx, b]
    · intro d hd
      simp only [lookup_zip_map, Option.getD_some]
      unfold received
      rw [if_neg (by simp [hd])]
    · intro d c hcl; exact absurd hcl (by simp)
  choose! r hr using hstate
  have hstates := runTasks_ok ho2 (fun k hk => (hr k hk).1)
  set states := (List.range (g.n0 * g.n1)).map r with hst
  have hget : ∀ k0 k1, k0 < g.n0 → k1 < g.n1 → states.getD (k0 * g.n1 + k1) default = r (k0 * g.n1 + k1) := by
    intro k0 k1 h0 h1
    rw [List.getD_eq_getElem?_getD, hst, List.getElem?_map, List.getElem?_range (idx_lt h0 h1)]; rfl
  refine ⟨fun k0 k1 => states.getD (k0 * g.n1 + k1) default, ?_, ⟨?_, ?_, ?_⟩, ?_⟩
  · unfold initialise
    simp only [hgen, hy1, M.bind_ok, hsent, hstates]
    rfl
  · have hact : actOf g (fun k0 k1 => states.getD (k0 * g.n1 + k1) default) = ∅ := by
      ext u
      simp only [Set.mem_empty_iff_false, iff_false]
      rintro ⟨k0, k1, h0, h1, hs, _⟩
      simp only [hget k0 k1 h0 h1] at hs
      rw [(hr _ (idx_lt h0 h1)).2.2] at hs
      exact absurd hs (by simp)
    rw [hact]
    refine ⟨by simp [Ghost.none], by simp [Ghost.none], by simp [Ghost.none], by simp [Ghost.none], by simp [Ghost.none], ?_,
      by simp [Ghost.none], by simp [Ghost.none], by simp [Ghost.none], by simp, by simp⟩
    intro c
    rw [if_neg (by simp [Ghost.none])]
    rfl
  · intro k0 k1 h0 h1
    have := (hr _ (idx_lt h0 h1)).2.1
    rw [idx_div h1, idx_mod h1] at this
    simp only [hget k0 k1 h0 h1]
    exact this
  · intro k0 k1 _ _ c c' _ _ _ hm
    simp [Ghost.none] at hm
  · intro k0 k1 h0 h1
    simp only [hget k0 k1 h0 h1]
    exact (hr _ (idx_lt h0 h1)).2.2

end

end Lue.Router

import Verif.InflowCount.Geometry
import Mathlib.Data.Set.Card

/-!
C18: inflow_count returns for each cell the number of cells draining into it.
-/
namespace Lue.InflowCount

open Lue.Routing

/-! ### Specification -/

/-- The number of cells of the array draining into a cell. -/
noncomputable def nrInflows (a0 a1 : Nat) (fd : Arr Nat) (c : Cell) : Nat := Set.ncard {s : Cell | Drains a0 a1 fd s c}

/-- The result: no-data cells are marked. -/
noncomputable def inflowCounts (isNoData : Nat → Bool) (mark : Nat → Nat) (a0 a1 : Nat) (fd : Arr Nat) : Arr Nat :=
  fun i j => if isNoData (fd i j) then mark 0 else nrInflows a0 a1 fd (i, j)

/-- A valid flow direction network: a no-data value is not a direction, and no cell drains into a no-data cell. -/
structure Valid (isNoData : Nat → Bool) (a0 a1 : Nat) (fd : Arr Nat) : Prop where
  code : ∀ code, isNoData code = true → move code = none
  downstream : ∀ c c', Drains a0 a1 fd c c' → isNoData (fd c'.1 c'.2) = false

/-! ### Helpers -/

theorem mapM_ok {X Y : Type} {f : X → M Y} {h : X → Y} : ∀ l : List X, (∀ x ∈ l, f x = .ok (h x)) → l.mapM f = .ok (l.map h) := by
  intro l
  induction l with
  | nil => intro _; rfl
  | cons a l ih =>
    intro hl
    rw [List.mapM_cons, hl a (by simp), M.bind_ok, ih (fun x hx => hl x (by simp [hx])), M.bind_ok]
    rfl

theorem foldlM_flatten {σ X : Type} (step : σ → X → M σ) : ∀ (ll : List (List X)) (s : σ),
    ll.foldlM (fun s l => l.foldlM step s) s = ll.flatten.foldlM step s := by
  intro ll
  induction ll with
  | nil => intro s; rfl
  | cons l ll ih =>
    intro s
    rw [List.foldlM_cons, List.flatten_cons, List.foldlM_append]
    congr 1
    funext s'
    exact ih s'

theorem receive_messages (conv : Int → Int × Int) (o : List Output) (d : Dir) :
    receive conv (messages o d) = (o.filter fun o => o.dir = d).map fun o => conv o.idx := by
  unfold messages
  simp only
  by_cases h : ((o.filter fun o => o.dir = d).map Output.idx).isEmpty
  · rw [if_pos h]
    simp only [List.isEmpty_iff, List.map_eq_nil_iff] at h
    simp [receive, h]
  · rw [if_neg h]
    have h2 : ¬ ((o.filter fun o => o.dir = d).map Output.idx) = [] := by simpa using h
    simp only [receive, List.isEmpty_iff, h2, if_false, List.isEmpty_nil, if_true, List.append_nil, List.map_map]
    rfl

theorem bumps_ok {n0 n1 : Nat} : ∀ (t : List (Int × Int)), (∀ c ∈ t, InRange n0 n1 c) → ∀ (s : List Nat) (f : Int × Int → Nat),
    Holds n0 n1 s f → ∃ s', t.foldlM (fun s c => bump n0 n1 c.1 c.2 s) s = .ok s' ∧
      Holds n0 n1 s' (fun c => f c + t.count c) := by
  intro t
  induction t with
  | nil => intro _ s f hs; exact ⟨s, rfl, by simpa using hs⟩
  | cons a t ih =>
    intro ht s f hs
    obtain ⟨s1, h1, h2⟩ := bump_ok hs (ht a (by simp))
    obtain ⟨s2, h3, h4⟩ := ih (fun c hc => ht c (by simp [hc])) s1 _ h2
    refine ⟨s2, ?_, h4.congr ?_⟩
    · rw [List.foldlM_cons, h1, M.bind_ok, h3]
    · intro c _
      by_cases he : c = a
      · subst he; simp; omega
      · rw [Function.update_of_ne he, List.count_cons_of_ne (fun e => he e.symm)]

/-- A cell of a neighbouring partition drains into cell `c`. -/
def SendsTo (isNoData : Nat → Bool) (n0 n1 m0 m1 : Nat) (code : Int × Int → Nat) (d : Dir) (c s : Int × Int) : Prop :=
  isNoData (code s) = false ∧ ∃ idx, leave m0 m1 s.1 s.2 (code s) = some (d.sender, idx) ∧ convert n0 n1 d idx = c

open Classical in
theorem count_received (isNoData : Nat → Bool) (n0 n1 m0 m1 : Nat) (code : Int × Int → Nat) (d : Dir) (c : Int × Int) :
    ∀ l : List (Int × Int),
      (((l.filterMap (output isNoData m0 m1 code)).filter fun o => o.dir = d.sender).map
        fun o => convert n0 n1 d o.idx).count c =
      (l.filter fun s => SendsTo isNoData n0 n1 m0 m1 code d c s).length := by
  intro l
  induction l with
  | nil => rfl
  | cons s l ih =>
    rw [List.filterMap_cons]
    by_cases hn : isNoData (code s) = true
    · simp only [output, hn, if_true]
      rw [List.filter_cons_of_neg (by simp [SendsTo, hn])]
      exact ih
    · have hn' : isNoData (code s) = false := by simpa using hn
      rcases hl : leave m0 m1 s.1 s.2 (code s) with _ | ⟨dir, idx⟩
      · simp only [output, hn, hl, Option.map_none]
        rw [List.filter_cons_of_neg (by simp [SendsTo, hl])]
        exact ih
      · simp only [output, hn, hl, Option.map_some]
        by_cases hd : dir = d.sender
        · subst hd
          rw [if_neg (by simp)]
          simp only [List.filter_cons, decide_true, if_true, List.map_cons]
          by_cases hc : convert n0 n1 d idx = c
          · rw [if_pos (by simp [SendsTo, hn', hl, hc]), hc, List.count_cons_self, ih]
            rfl
          · rw [if_neg (by simp [SendsTo, hn', hl, hc]), List.count_cons_of_ne hc, ih]
        · rw [if_neg (by simp)]
          simp only
          rw [List.filter_cons_of_neg (by simp [hd]), List.filter_cons_of_neg (by simp [SendsTo, hl, hd])]
          exact ih

theorem received_inRange {d : Dir} {n0 n1 m0 m1 : Nat} {A0 A1 B0 B1 : Int} (hn0 : 0 < n0) (hn1 : 0 < n1)
    (h0 : Adj d.offset.1 A0 B0 n0 m0) (h1 : Adj d.offset.2 A1 B1 n1 m1) {s : Int × Int} (hs : InRange m0 m1 s)
    {code : Nat} {idx : Int} (h : leave m0 m1 s.1 s.2 code = some (d.sender, idx)) :
    InRange n0 n1 (convert n0 n1 d idx) := by
  rcases hm : move code with _ | o
  · simp [leave, hm] at h
  · have hb := move_bound hm
    obtain ⟨s1, s2, s3, s4⟩ := hs
    simp only [leave, hm, Option.bind_some] at h
    cases d <;> simp only [Dir.offset, Adj, Dir.sender, convert, InRange] at h0 h1 h ⊢ <;>
      split_ifs at h <;> simp only [Option.some.injEq, Prod.mk.injEq, reduceCtorEq, false_and, true_and] at h <;>
      omega

/-! ### Cells of partitions -/

/-- The cell of the array. -/
def glob (g : Grid) (k0 k1 : Nat) (c : Int × Int) : Cell := (k0 * g.p0 + c.1.toNat, k1 * g.p1 + c.2.toNat)

theorem glob_isCell {g : Grid} {k0 k1 : Nat} (h0 : k0 < g.n0) (h1 : k1 < g.n1) {c : Int × Int}
    (hc : InRange (g.rows k0) (g.cols k1) c) :
    IsCell g (glob g k0 k1 c).1 (glob g k0 k1 c).2 k0 k1 c.1.toNat c.2.toNat :=
  ⟨h0, h1, by have := hc.1; have := hc.2.1; omega, by have := hc.2.2.1; have := hc.2.2.2; omega, rfl, rfl⟩

theorem glob_inj {g : Grid} (hg : g.Ok) {k0 k1 q0 q1 : Nat} (h0 : k0 < g.n0) (h1 : k1 < g.n1) (h2 : q0 < g.n0) (h3 : q1 < g.n1)
    {c c' : Int × Int} (hc : InRange (g.rows k0) (g.cols k1) c) (hc' : InRange (g.rows q0) (g.cols q1) c')
    (he : glob g k0 k1 c = glob g q0 q1 c') : k0 = q0 ∧ k1 = q1 ∧ c = c' := by
  have a := glob_isCell h0 h1 hc
  have b := glob_isCell h2 h3 hc'
  rw [he] at a
  obtain ⟨e0, e1, e2, e3⟩ := a.unique hg b
  refine ⟨e0, e1, Prod.ext ?_ ?_⟩
  · have := hc.1; have := hc'.1; omega
  · have := hc.2.2.1; have := hc'.2.2.1; omega

theorem drains_glob {g : Grid} (hg : g.Ok) {v : Arr Nat} {k0 k1 q0 q1 : Nat} (h0 : k0 < g.n0) (h1 : k1 < g.n1)
    (h2 : q0 < g.n0) (h3 : q1 < g.n1) {s c : Int × Int} (hs : InRange (g.rows q0) (g.cols q1) s)
    (hc : InRange (g.rows k0) (g.cols k1) c) :
    Drains g.a0 g.a1 v (glob g q0 q1 s) (glob g k0 k1 c) ↔
      ∃ o, move (v (glob g q0 q1 s).1 (glob g q0 q1 s).2) = some o ∧
        ((q0 * g.p0 : Nat) : Int) + s.1 + o.1 = (k0 * g.p0 : Nat) + c.1 ∧
        ((q1 * g.p1 : Nat) : Int) + s.2 + o.2 = (k1 * g.p1 : Nat) + c.2 := by
  obtain ⟨a1, a2⟩ := (glob_isCell h2 h3 hs).lt hg
  obtain ⟨b1, b2⟩ := (glob_isCell h0 h1 hc).lt hg
  have := hs.1; have := hs.2.2.1; have := hc.1; have := hc.2.2.1
  constructor
  · rintro ⟨_, _, _, _, o, ho, e1, e2⟩
    refine ⟨o, ho, ?_, ?_⟩
    · simp only [glob] at e1; push_cast at e1 ⊢; omega
    · simp only [glob] at e2; push_cast at e2 ⊢; omega
  · rintro ⟨o, ho, e1, e2⟩
    refine ⟨a1, a2, b1, b2, o, ho, ?_, ?_⟩
    · simp only [glob]; push_cast at e1 ⊢; omega
    · simp only [glob]; push_cast at e2 ⊢; omega

/-- The index of the neighbour. -/
def nb0 (k0 : Nat) (d : Dir) : Nat := ((k0 : Int) + d.offset.1).toNat
def nb1 (k1 : Nat) (d : Dir) : Nat := ((k1 : Int) + d.offset.2).toNat

theorem neighbour_nb {g : Grid} {d : Dir} {k0 k1 : Nat} (h0 : k0 < g.n0) (h1 : k1 < g.n1)
    (h : hasNeighbour g.n0 g.n1 k0 k1 d = true) : Neighbour g d k0 k1 (nb0 k0 d) (nb1 k1 d) := by
  obtain ⟨q0, q1, hn⟩ := (hasNeighbour_iff h0 h1).mp h
  have e0 : nb0 k0 d = q0 := by have := hn.eq0; unfold nb0; omega
  have e1 : nb1 k1 d = q1 := by have := hn.eq1; unfold nb1; omega
  rw [e0, e1]; exact hn

section
variable {g : Grid} {v : Arr Nat} {isNoData : Nat → Bool} {mark : Nat → Nat}

/-- The flow directions of a partition. -/
def codes (g : Grid) (v : Arr Nat) (k0 k1 : Nat) (c : Int × Int) : Nat := v (glob g k0 k1 c).1 (glob g k0 k1 c).2

open Classical in
/-- The cells draining into cell `c` of partition (`k0`, `k1`), in the order in which they are counted. -/
noncomputable def sources (isNoData : Nat → Bool) (g : Grid) (v : Arr Nat) (k0 k1 : Nat) (c : Int × Int) : List Cell :=
  ((ordered (g.rows k0) (g.cols k1)).filter fun s =>
      decide (target isNoData (g.rows k0) (g.cols k1) (codes g v k0 k1) s = some c)).map (glob g k0 k1) ++
  directions.flatMap fun d =>
    if hasNeighbour g.n0 g.n1 k0 k1 d then
      ((border (g.rows (nb0 k0 d)) (g.cols (nb1 k1 d))).filter fun s =>
        SendsTo isNoData (g.rows k0) (g.cols k1) (g.rows (nb0 k0 d)) (g.cols (nb1 k1 d))
          (codes g v (nb0 k0 d) (nb1 k1 d)) d c s).map (glob g (nb0 k0 d) (nb1 k1 d))
    else []

theorem sendsTo_iff (hg : g.Ok) (hcode : ∀ code, isNoData code = true → move code = none) {d : Dir} {k0 k1 q0 q1 : Nat}
    (hn : Neighbour g d k0 k1 q0 q1) {s c : Int × Int} (hs : InRange (g.rows q0) (g.cols q1) s)
    (hc : InRange (g.rows k0) (g.cols k1) c) :
    SendsTo isNoData (g.rows k0) (g.cols k1) (g.rows q0) (g.cols q1) (codes g v q0 q1) d c s ↔
      Drains g.a0 g.a1 v (glob g q0 q1 s) (glob g k0 k1 c) := by
  obtain ⟨a0, a1⟩ := hn.adj hg
  rw [drains_glob hg hn.k0_lt hn.k1_lt hn.q0_lt hn.q1_lt hs hc]
  have := geo a0 a1 hs hc (codes g v q0 q1 s)
  unfold SendsTo
  rw [this]
  constructor
  · rintro ⟨_, h⟩; exact h
  · intro h
    refine ⟨?_, h⟩
    obtain ⟨o, ho, _⟩ := h
    by_contra hne
    have hne' : isNoData (v (glob g q0 q1 s).1 (glob g q0 q1 s).2) = true := by
      simpa only [codes, Bool.not_eq_false] using hne
    rw [hcode _ hne'] at ho
    exact absurd ho (by simp)

theorem target_iff (hg : g.Ok) (hcode : ∀ code, isNoData code = true → move code = none) {k0 k1 : Nat}
    (h0 : k0 < g.n0) (h1 : k1 < g.n1) {s c : Int × Int} (hs : InRange (g.rows k0) (g.cols k1) s)
    (hc : InRange (g.rows k0) (g.cols k1) c) :
    target isNoData (g.rows k0) (g.cols k1) (codes g v k0 k1) s = some c ↔
      Drains g.a0 g.a1 v (glob g k0 k1 s) (glob g k0 k1 c) := by
  rw [drains_glob hg h0 h1 h0 h1 hs hc]
  unfold target
  by_cases hn : isNoData (codes g v k0 k1 s) = true
  · have := hcode _ hn
    unfold codes at this
    simp [hn, this]
  · rw [if_neg hn, geo_own hc]
    constructor
    · rintro ⟨o, ho, e1, e2⟩; exact ⟨o, ho, by omega, by omega⟩
    · rintro ⟨o, ho, e1, e2⟩; exact ⟨o, ho, by omega, by omega⟩

theorem directions_nodup : directions.Nodup := by decide

theorem mem_directions (d : Dir) : d ∈ directions := by cases d <;> decide

theorem leave_border {n0 n1 : Nat} {s : Int × Int} (hs : InRange n0 n1 s) {code : Nat} {r : Dir × Int}
    (h : leave n0 n1 s.1 s.2 code = some r) : s.1 = 0 ∨ s.1 = n0 - 1 ∨ s.2 = 0 ∨ s.2 = n1 - 1 := by
  rcases hm : move code with _ | o
  · simp [leave, hm] at h
  · have hb := move_bound hm
    obtain ⟨s1, s2, s3, s4⟩ := hs
    simp only [leave, hm, Option.bind_some] at h
    split_ifs at h <;> omega

theorem mem_sources (hg : g.Ok) (hcode : ∀ code, isNoData code = true → move code = none)
    (hrows : ∀ k < g.n0, 2 ≤ g.rows k) (hcols : ∀ k < g.n1, 2 ≤ g.cols k)
    {k0 k1 : Nat} (h0 : k0 < g.n0) (h1 : k1 < g.n1) {c : Int × Int} (hc : InRange (g.rows k0) (g.cols k1) c) (s : Cell) :
    s ∈ sources isNoData g v k0 k1 c ↔ Drains g.a0 g.a1 v s (glob g k0 k1 c) := by
  simp only [sources, List.mem_append, List.mem_map, List.mem_filter, decide_eq_true_eq, List.mem_flatMap]
  constructor
  · rintro (⟨l, ⟨hl, ht⟩, rfl⟩ | ⟨d, _, hd⟩)
    · rw [mem_ordered (hrows _ h0) (hcols _ h1)] at hl
      exact (target_iff hg hcode h0 h1 hl hc).mp ht
    · split_ifs at hd with hn
      · simp only [List.mem_map, List.mem_filter, decide_eq_true_eq] at hd
        obtain ⟨l, ⟨hl, ht⟩, rfl⟩ := hd
        have hnb := neighbour_nb h0 h1 hn
        rw [mem_border (hrows _ hnb.q0_lt) (hcols _ hnb.q1_lt)] at hl
        exact (sendsTo_iff hg hcode hnb hl.1 hc).mp ht
      · simp at hd
  · intro hd
    obtain ⟨q0, q1, l0, l1, hcell⟩ := exists_isCell hg hd.1 hd.2.1
    have hs : InRange (g.rows q0) (g.cols q1) ((l0 : Int), (l1 : Int)) :=
      ⟨by simp, by have := hcell.l0_lt; simp; omega, by simp, by have := hcell.l1_lt; simp; omega⟩
    have hsg : s = glob g q0 q1 ((l0 : Int), (l1 : Int)) := by
      apply Prod.ext
      · simpa [glob] using hcell.i_eq
      · simpa [glob] using hcell.j_eq
    rw [hsg] at hd
    obtain ⟨o, ho, e0, e1⟩ := (drains_glob hg h0 h1 hcell.k0_lt hcell.k1_lt hs hc).mp hd
    have hb := move_bound ho
    have n0 := near hg.pos0 hg.le0 h0 hcell.k0_lt (l := c.1.toNat) (m := l0)
      (by have := hc.1; have := hc.2.1; simp only [Grid.rows] at *; omega) hcell.l0_lt (δ := o.1) ⟨hb.1, hb.2.1⟩
      (by have := hc.1; push_cast at e0 ⊢; omega)
    have n1 := near hg.pos1 hg.le1 h1 hcell.k1_lt (l := c.2.toNat) (m := l1)
      (by have := hc.2.2.1; have := hc.2.2.2; simp only [Grid.cols] at *; omega) hcell.l1_lt (δ := o.2) ⟨hb.2.2.1, hb.2.2.2.1⟩
      (by have := hc.2.2.1; push_cast at e1 ⊢; omega)
    by_cases hsame : q0 = k0 ∧ q1 = k1
    · obtain ⟨rfl, rfl⟩ := hsame
      left
      exact ⟨_, ⟨(mem_ordered (hrows _ h0) (hcols _ h1)).mpr hs, (target_iff hg hcode h0 h1 hs hc).mpr hd⟩, hsg.symm⟩
    · right
      obtain ⟨d, hdo⟩ := Dir.offset_surj n0.1 n0.2 n1.1 n1.2 (by omega)
      have hnb : Neighbour g d k0 k1 q0 q1 := ⟨h0, h1, hcell.k0_lt, hcell.k1_lt, by rw [hdo]; simp, by rw [hdo]; simp⟩
      have hhas := (hasNeighbour_iff (d := d) h0 h1).mpr ⟨q0, q1, hnb⟩
      have hq0 : nb0 k0 d = q0 := by have := hnb.eq0; unfold nb0; omega
      have hq1 : nb1 k1 d = q1 := by have := hnb.eq1; unfold nb1; omega
      refine ⟨d, mem_directions d, ?_⟩
      rw [if_pos hhas, hq0, hq1]
      simp only [List.mem_map, List.mem_filter, decide_eq_true_eq]
      have hst := (sendsTo_iff hg hcode hnb hs hc).mpr hd
      refine ⟨_, ⟨(mem_border (hrows _ hcell.k0_lt) (hcols _ hcell.k1_lt)).mpr ⟨hs, ?_⟩, hst⟩, hsg.symm⟩
      obtain ⟨_, idx, hl, _⟩ := hst
      exact leave_border hs hl

theorem nodup_sources (hg : g.Ok) (hrows : ∀ k < g.n0, 2 ≤ g.rows k) (hcols : ∀ k < g.n1, 2 ≤ g.cols k)
    {k0 k1 : Nat} (h0 : k0 < g.n0) (h1 : k1 < g.n1) (c : Int × Int) : (sources isNoData g v k0 k1 c).Nodup := by
  unfold sources
  apply List.Nodup.append
  · refine List.Nodup.map_on ?_ ((nodup_ordered (hrows _ h0) (hcols _ h1)).filter _)
    intro a ha b hb hab
    rw [List.mem_filter, mem_ordered (hrows _ h0) (hcols _ h1)] at ha hb
    exact (glob_inj hg h0 h1 h0 h1 ha.1 hb.1 hab).2.2
  · rw [List.nodup_flatMap]
    constructor
    · intro d _
      by_cases hn : hasNeighbour g.n0 g.n1 k0 k1 d = true
      · rw [if_pos hn]
        have hnb := neighbour_nb h0 h1 hn
        refine List.Nodup.map_on ?_ ((nodup_border (hrows _ hnb.q0_lt) (hcols _ hnb.q1_lt)).filter _)
        intro a ha b hb hab
        rw [List.mem_filter, mem_border (hrows _ hnb.q0_lt) (hcols _ hnb.q1_lt)] at ha hb
        exact (glob_inj hg hnb.q0_lt hnb.q1_lt hnb.q0_lt hnb.q1_lt ha.1.1 hb.1.1 hab).2.2
      · rw [if_neg hn]; exact List.nodup_nil
    · refine List.Pairwise.imp ?_ directions_nodup
      intro d d' hdd x hx hx'
      simp only at hx hx'
      split_ifs at hx with hn
      · split_ifs at hx' with hn'
        · rw [List.mem_map] at hx hx'
          obtain ⟨a, ha, rfl⟩ := hx
          obtain ⟨b, hb, hab⟩ := hx'
          have n := neighbour_nb h0 h1 hn
          have n' := neighbour_nb h0 h1 hn'
          rw [List.mem_filter, mem_border (hrows _ n.q0_lt) (hcols _ n.q1_lt)] at ha
          rw [List.mem_filter, mem_border (hrows _ n'.q0_lt) (hcols _ n'.q1_lt)] at hb
          obtain ⟨e0, e1, _⟩ := glob_inj hg n'.q0_lt n'.q1_lt n.q0_lt n.q1_lt hb.1.1 ha.1.1 hab
          apply hdd
          apply Dir.offset_inj
          have := n.eq0; have := n.eq1; have := n'.eq0; have := n'.eq1
          exact Prod.ext (by omega) (by omega)
        · simp at hx'
      · simp at hx
  · intro x hx hx'
    rw [List.mem_map] at hx
    obtain ⟨a, ha, rfl⟩ := hx
    rw [List.mem_filter, mem_ordered (hrows _ h0) (hcols _ h1)] at ha
    rw [List.mem_flatMap] at hx'
    obtain ⟨d, _, hd⟩ := hx'
    split_ifs at hd with hn
    · rw [List.mem_map] at hd
      obtain ⟨b, hb, hab⟩ := hd
      have n := neighbour_nb h0 h1 hn
      rw [List.mem_filter, mem_border (hrows _ n.q0_lt) (hcols _ n.q1_lt)] at hb
      obtain ⟨e0, e1, _⟩ := glob_inj hg n.q0_lt n.q1_lt h0 h1 hb.1.1 ha.1 hab
      have := n.eq0; have := n.eq1
      obtain ⟨_, _, _, _, hne⟩ := d.offset_bound
      omega
    · simp at hd

theorem length_sources (hg : g.Ok) (hcode : ∀ code, isNoData code = true → move code = none)
    (hrows : ∀ k < g.n0, 2 ≤ g.rows k) (hcols : ∀ k < g.n1, 2 ≤ g.cols k)
    {k0 k1 : Nat} (h0 : k0 < g.n0) (h1 : k1 < g.n1) {c : Int × Int} (hc : InRange (g.rows k0) (g.cols k1) c) :
    (sources isNoData g v k0 k1 c).length = nrInflows g.a0 g.a1 v (glob g k0 k1 c) := by
  classical
  unfold nrInflows
  have : {s : Cell | Drains g.a0 g.a1 v s (glob g k0 k1 c)} = ((sources isNoData g v k0 k1 c).toFinset : Set Cell) := by
    ext s
    simp [mem_sources hg hcode hrows hcols h0 h1 hc]
  rw [this, Set.ncard_coe_finset, List.toFinset_card_of_nodup (nodup_sources hg hrows hcols h0 h1 c)]

/-- The cells received by partition (`k0`, `k1`) from direction `d`. -/
def received (isNoData : Nat → Bool) (g : Grid) (v : Arr Nat) (k0 k1 : Nat) (d : Dir) : List (Int × Int) :=
  if hasNeighbour g.n0 g.n1 k0 k1 d then
    ((((border (g.rows (nb0 k0 d)) (g.cols (nb1 k1 d))).filterMap (output isNoData (g.rows (nb0 k0 d)) (g.cols (nb1 k1 d))
      (codes g v (nb0 k0 d) (nb1 k1 d)))).filter fun o => o.dir = d.sender).map
        fun o => convert (g.rows k0) (g.cols k1) d o.idx)
  else []

theorem received_ok (hg : g.Ok) (hrows : ∀ k < g.n0, 2 ≤ g.rows k) (hcols : ∀ k < g.n1, 2 ≤ g.cols k)
    {k0 k1 : Nat} (h0 : k0 < g.n0) (h1 : k1 < g.n1) (d : Dir) :
    ∀ c ∈ received isNoData g v k0 k1 d, InRange (g.rows k0) (g.cols k1) c := by
  intro c hc
  unfold received at hc
  split_ifs at hc with hn
  · have n := neighbour_nb h0 h1 hn
    simp only [List.mem_map, List.mem_filter, List.mem_filterMap, decide_eq_true_eq] at hc
    obtain ⟨o, ⟨⟨s, hs, ho⟩, hd⟩, rfl⟩ := hc
    rw [mem_border (hrows _ n.q0_lt) (hcols _ n.q1_lt)] at hs
    unfold output at ho
    split_ifs at ho
    simp only [Option.map_eq_some_iff] at ho
    obtain ⟨r, hr, rfl⟩ := ho
    obtain ⟨a0, a1⟩ := n.adj hg
    have := hrows _ h0; have := hcols _ h1
    simp only at hd
    refine received_inRange (by omega) (by omega) a0 a1 hs.1 (code := codes g v (nb0 k0 d) (nb1 k1 d) s) (idx := r.2) ?_
    rw [hr, ← hd]
  · simp at hc

theorem count_all (c : Int × Int) {k0 k1 : Nat} :
    ((ordered (g.rows k0) (g.cols k1)).countP fun s =>
      decide (target isNoData (g.rows k0) (g.cols k1) (codes g v k0 k1) s = some c)) +
      ((directions.map (received isNoData g v k0 k1)).flatten).count c = (sources isNoData g v k0 k1 c).length := by
  classical
  unfold sources
  rw [List.length_append, List.length_map, ← List.countP_eq_length_filter]
  congr 1
  rw [List.count_flatten, List.length_flatMap, List.map_map]
  congr 1
  apply List.map_congr_left
  intro d _
  simp only [Function.comp, received]
  by_cases hn : hasNeighbour g.n0 g.n1 k0 k1 d = true
  · rw [if_pos hn, if_pos hn, List.length_map, count_received]
  · rw [if_neg hn, if_neg hn]; rfl

/-- The main theorem: for every array of flow directions, partitioned in any way into partitions of at least 2 × 2 cells,
for every order in which the tasks of the partitions complete, inflow_count returns the number of cells draining into
each cell. -/
theorem inflowCount_spec {x : PArr Nat} {v : Arr Nat} (hx : Represents x v) (hp0 : 2 ≤ x.grid.p0) (hp1 : 2 ≤ x.grid.p1)
    (hvalid : Valid isNoData x.grid.a0 x.grid.a1 v) {order1 order2 : List Nat}
    (ho1 : IsOrder (x.grid.n0 * x.grid.n1) order1) (ho2 : IsOrder (x.grid.n0 * x.grid.n1) order2) :
    ∃ y, inflowCount isNoData mark order1 order2 x = .ok y ∧ y.grid = x.grid ∧
      Represents y (inflowCounts isNoData mark x.grid.a0 x.grid.a1 v) := by
  have hg := hx.ok
  generalize hgd : x.grid = g at *
  have hrows : ∀ k < g.n0, 2 ≤ g.rows k := fun k hk =>
    Nat.le_trans hp0 (Decomposition.Dim.extent_ge hg.pos0 k)
  have hcols : ∀ k < g.n1, 2 ≤ g.cols k := fun k hk =>
    Nat.le_trans hp1 (Decomposition.Dim.extent_ge hg.pos1 k)
  have hpart : ∀ k0 k1, k0 < g.n0 → k1 < g.n1 → ∃ p, x.parts[k0 * g.n1 + k1]? = some p ∧
      Holds (g.rows k0) (g.cols k1) p (codes g v k0 k1) := by
    intro k0 k1 h0 h1
    obtain ⟨p, h2, h3, h4⟩ := hx.part (k0 := k0) (k1 := k1) (by rw [hgd]; exact h0) (by rw [hgd]; exact h1)
    rw [hgd] at h2 h3 h4
    refine ⟨p, h2, h3, fun c hc => ?_⟩
    have := hc.1; have := hc.2.1; have := hc.2.2.1; have := hc.2.2.2
    exact h4 c.1.toNat c.2.toNat (by omega) (by omega)
  -- first round
  have hsend : ∀ k < g.n0 * g.n1, (do outputs isNoData (g.rows (k / g.n1)) (g.cols (k % g.n1)) (← rd x.parts k)) =
      .ok ((border (g.rows (k / g.n1)) (g.cols (k % g.n1))).filterMap
        (output isNoData (g.rows (k / g.n1)) (g.cols (k % g.n1)) (codes g v (k / g.n1) (k % g.n1)))) := by
    intro k hk
    obtain ⟨h0, h1, he⟩ := idx_split hk
    obtain ⟨p, h2, h3⟩ := hpart _ _ h0 h1
    rw [he] at h2
    rw [rd_ok h2, M.bind_ok, outputs_ok (hrows _ h0) (hcols _ h1) h3]
  have hsent := runTasks_ok ho1 hsend
  set sent := (List.range (g.n0 * g.n1)).map fun k => (border (g.rows (k / g.n1)) (g.cols (k % g.n1))).filterMap
        (output isNoData (g.rows (k / g.n1)) (g.cols (k % g.n1)) (codes g v (k / g.n1) (k % g.n1))) with hsentdef
  have hinputs : ∀ k0 k1, k0 < g.n0 → k1 < g.n1 →
      inputCells g sent k0 k1 = .ok (directions.map (received isNoData g v k0 k1)) := by
    intro k0 k1 h0 h1
    unfold inputCells
    refine mapM_ok _ (fun d _ => ?_)
    unfold received
    by_cases hn : hasNeighbour g.n0 g.n1 k0 k1 d = true
    · rw [if_pos hn, if_pos hn]
      have n := neighbour_nb h0 h1 hn
      have hq : (((k0 : Int) + d.offset.1) * g.n1 + (k1 + d.offset.2)).toNat = nb0 k0 d * g.n1 + nb1 k1 d := by
        have e0 := n.eq0; have e1 := n.eq1
        rw [← e0, ← e1, ← Int.natCast_mul, ← Int.natCast_add]
        rfl
      have hlt := idx_lt n.q0_lt n.q1_lt
      have hrd : rd sent (nb0 k0 d * g.n1 + nb1 k1 d) = .ok ((border (g.rows (nb0 k0 d)) (g.cols (nb1 k1 d))).filterMap
          (output isNoData (g.rows (nb0 k0 d)) (g.cols (nb1 k1 d)) (codes g v (nb0 k0 d) (nb1 k1 d)))) := by
        apply rd_ok
        rw [hsentdef, List.getElem?_map, List.getElem?_range hlt, Option.map_some, idx_div n.q1_lt, idx_mod n.q1_lt]
      simp only [hq, hrd, M.bind_ok, receive_messages]
    · rw [if_neg hn, if_neg hn]
  -- second round
  obtain ⟨parts, hrun, hrep⟩ := runTasks_represents hg ho2
    (task := fun k => do
      countReady isNoData mark (g.rows (k / g.n1)) (g.cols (k % g.n1)) (← rd x.parts k)
        (← inputCells g sent (k / g.n1) (k % g.n1)))
    (w := inflowCounts isNoData mark g.a0 g.a1 v) (by
      intro k0 k1 h0 h1
      obtain ⟨p, h2, h3⟩ := hpart k0 k1 h0 h1
      simp only [idx_div h1, idx_mod h1, rd_ok h2, M.bind_ok, hinputs k0 k1 h0 h1]
      have hv : ∀ c t, InRange (g.rows k0) (g.cols k1) c →
          target isNoData (g.rows k0) (g.cols k1) (codes g v k0 k1) c = some t → isNoData (codes g v k0 k1 t) = false := by
        intro c t hc ht
        exact hvalid.downstream _ _ ((target_iff hg hvalid.code h0 h1 hc (target_inRange ht)).mp ht)
      obtain ⟨s, hs1, hs2⟩ := countPartition_ok (mark := mark) (hrows _ h0) (hcols _ h1) h3 hv
      obtain ⟨s', hs3, hs4⟩ := bumps_ok ((directions.map (received isNoData g v k0 k1)).flatten) (by
        intro c hc
        rw [List.mem_flatten] at hc
        obtain ⟨l, hl, hc⟩ := hc
        rw [List.mem_map] at hl
        obtain ⟨d, _, rfl⟩ := hl
        exact received_ok hg hrows hcols h0 h1 d c hc) s _ hs2
      refine ⟨s', ?_, hs4.1, ?_⟩
      · unfold countReady
        rw [hs1, M.bind_ok]
        rw [← hs3]
        exact foldlM_flatten (fun s (c : Int × Int) => bump (g.rows k0) (g.cols k1) c.1 c.2 s) _ _
      · intro l0 l1 hl0 hl1
        have hc : InRange (g.rows k0) (g.cols k1) ((l0 : Int), (l1 : Int)) := ⟨by simp, by simp; omega, by simp, by simp; omega⟩
        have := hs4.2 _ hc
        have hlin : lin (g.cols k1) ((l0 : Int), (l1 : Int)) = l0 * g.cols k1 + l1 := by simp [lin]
        rw [hlin] at this
        rw [this]
        congr 1
        have hcount := count_all (isNoData := isNoData) (g := g) (v := v) ((l0 : Int), (l1 : Int)) (k0 := k0) (k1 := k1)
        have hlen := length_sources hg hvalid.code hrows hcols h0 h1 (v := v) hc
        have hcodes : codes g v k0 k1 ((l0 : Int), (l1 : Int)) = v (k0 * g.p0 + l0) (k1 * g.p1 + l1) := by
          simp [codes, glob]
        have hglob : glob g k0 k1 ((l0 : Int), (l1 : Int)) = (k0 * g.p0 + l0, k1 * g.p1 + l1) := by simp [glob]
        unfold inflowCounts countsAfter
        simp only
        rw [hcodes]
        by_cases hn : isNoData (v (k0 * g.p0 + l0) (k1 * g.p1 + l1)) = true
        · rw [if_pos hn, if_pos hn, if_pos ((mem_ordered (hrows _ h0) (hcols _ h1)).mpr hc)]
          have hempty : (sources isNoData g v k0 k1 ((l0 : Int), (l1 : Int))) = [] := by
            rw [List.eq_nil_iff_forall_not_mem]
            intro s hs
            have hd := (mem_sources hg hvalid.code hrows hcols h0 h1 hc s).mp hs
            have := hvalid.downstream _ _ hd
            rw [hglob] at this
            rw [this] at hn
            exact absurd hn (by simp)
          rw [hempty] at hcount
          simp only [List.length_nil] at hcount
          omega
        · rw [if_neg hn, if_neg hn, hcount, hlen, hglob])
  refine ⟨⟨g, parts⟩, ?_, rfl, hrep⟩
  unfold inflowCount
  simp only [hgd]
  rw [hsent, M.bind_ok, hrun, M.bind_ok]

end

/-! ### Concrete cases -/

/-- A 4 × 4 array in which all cells drain to the cell at (2, 2), which is a sink; cell (0, 3) holds no-data (0). -/
def exampleNetwork : Arr Nat := fun i j =>
  ([[3, 3, 2, 0], [3, 3, 2, 1], [6, 6, 5, 4], [9, 9, 8, 7]].getD i []).getD j 0

/-- It is a valid network. -/
theorem exampleNetwork_valid : Valid (· == 0) 4 4 exampleNetwork := by
  constructor
  · intro code h; simp only [beq_iff_eq] at h; subst h; rfl
  · rintro ⟨i, j⟩ ⟨i', j'⟩ ⟨h1, h2, h3, h4, d, hd, e1, e2⟩
    simp only at *
    interval_cases i <;> interval_cases j <;>
      simp [exampleNetwork, move] at hd <;>
      subst hd <;> simp only at e1 e2 <;>
      interval_cases i' <;> first | omega | (interval_cases j' <;> first | omega | rfl)

/-- The counts, per partition of 2 × 2 cells. -/
example : (inflowCount (· == 0) (fun _ => 255) [2, 0, 3, 1] [1, 3, 2, 0] (store ⟨4, 4, 2, 2⟩ exampleNetwork)).map
    PArr.parts = .ok [[0, 0, 0, 1], [0, 255, 2, 0], [0, 3, 0, 0], [8, 0, 0, 0]] := by decide

example : Represents (store ⟨4, 4, 2, 2⟩ exampleNetwork) exampleNetwork ∧ Valid (· == 0) 4 4 exampleNetwork ∧
    IsOrder 4 [2, 0, 3, 1] :=
  ⟨store_represents ⟨by decide, by decide, by decide, by decide⟩ _, exampleNetwork_valid, by unfold IsOrder; decide⟩

/-- Partitions of a single row are not handled: the cell south of the north-west cell is accessed, although it is not in
the partition. Here, an array of 2 × 2 cells is partitioned into rows. -/
theorem inflowCount_single_row :
    inflowCount (· == 0) (fun _ => 255) [0, 1] [0, 1] (store ⟨2, 2, 1, 2⟩ fun i _ => if i = 0 then 2 else 5) =
      .error .outOfBounds := by rfl

/-- The same holds for an array which consists of a single row: the counts are too high. The first cell drains into the
second one, once. -/
theorem inflowCount_single_row_counted_twice :
    (inflowCount (· == 0) (fun _ => 255) [0] [0] (store ⟨1, 2, 1, 2⟩ fun _ j => if j = 0 then 6 else 5)).map PArr.parts =
      .ok [[0, 2]] := by decide

/-- In an invalid network, in which a cell drains into a no-data cell, the marker of the no-data cell is changed: here it
becomes 256 instead of 255. -/
theorem inflowCount_invalid_network :
    (inflowCount (· == 0) (fun _ => 255) [0] [0] (store ⟨2, 2, 2, 2⟩ fun i j => if (i, j) = (0, 1) then 4 else
      if (i, j) = (0, 0) then 0 else 5)).map PArr.parts = .ok [[256, 0, 0, 0]] := by decide

end Lue.InflowCount

import Verif.Clump.Borders

/-!
C24: clump, for partitioned arrays.
-/
namespace Lue.Clump

open Relation Lue.Decomposition

variable {Z : Type}

/-! ### Global ids -/

theorem get_map {f : Nat → Nat} (m : AMap Nat Nat) (k : Nat) : AMap.get (m.map fun e => (e.1, f e.2)) k = (AMap.get m k).map f := by
  induction m with
  | nil => rfl
  | cons e m ih =>
    obtain ⟨a, b⟩ := e
    rw [List.map_cons, AMap.get_cons, AMap.get_cons, ih]
    split <;> rfl

/-- The lookup table of a partition, before global ids are assigned -/
def identLut (n : Nat) : AMap Nat Nat := (List.range n).map fun id => (id, id)

theorem get_ident (n id : Nat) : AMap.get (identLut n) id = if id < n then some id else none := by
  induction n with
  | zero => rfl
  | succ n ih =>
    have key : ∀ (m : AMap Nat Nat) k v, AMap.get (m ++ [(k, v)]) id = match AMap.get m id with
        | some a => some a
        | none => if k = id then some v else none := by
      intro m k v
      induction m with
      | nil => rw [List.nil_append, AMap.get_cons, AMap.get_nil]
      | cons e m ih =>
        obtain ⟨a, b⟩ := e
        rw [List.cons_append, AMap.get_cons, AMap.get_cons, ih]
        split <;> rfl
    have : identLut (n + 1) = identLut n ++ [(n, n)] := by
      unfold identLut; rw [List.range_succ, List.map_append]; rfl
    rw [this, key, ih]
    by_cases h : id < n
    · simp only [if_pos h, if_pos (show id < n + 1 by omega)]
    · simp only [if_neg h]
      by_cases h' : n = id
      · simp [h']
      · simp only [if_neg h', if_neg (show ¬ id < n + 1 by omega)]

/-- The lookup table contains ids 0, 1, ..., all with the same offset. -/
def Fresh (p : Local Z) : Prop := ∃ n, p.lut = identLut n

theorem reclassifyGlobal_length : ∀ (start : Nat) (ps : List (Local Z)), (reclassifyGlobal start ps).length = ps.length
  | _, [] => rfl
  | start, p :: ps => by simp only [reclassifyGlobal, List.length_cons, reclassifyGlobal_length]

theorem reclassifyGlobal_get : ∀ (start : Nat) (ps : List (Local Z)) (i : Nat) (q : Local Z), (reclassifyGlobal start ps)[i]? = some q →
    ∃ (p : Local Z) (off : Nat), ps[i]? = some p ∧ start ≤ off ∧ q = { p with lut := p.lut.map fun e => (e.1, e.2 + off) }
  | _, [], i, q, h => by simp [reclassifyGlobal] at h
  | start, p :: ps, 0, q, h => by
    simp only [reclassifyGlobal, List.getElem?_cons_zero, Option.some.injEq] at h
    exact ⟨p, start, rfl, Nat.le_refl _, h.symm⟩
  | start, p :: ps, i + 1, q, h => by
    simp only [reclassifyGlobal, List.getElem?_cons_succ] at h
    obtain ⟨p', off, e1, e2, e3⟩ := reclassifyGlobal_get _ ps i q h
    exact ⟨p', off, by simpa using e1, by omega, e3⟩

theorem reclassifyGlobal_ge {start : Nat} {ps : List (Local Z)} {i id gid : Nat} {q : Local Z}
    (h : (reclassifyGlobal start ps)[i]? = some q) (hg : q.lut.get id = some gid) : start ≤ gid := by
  obtain ⟨p, off, e1, e2, e3⟩ := reclassifyGlobal_get _ _ _ _ h
  rw [e3, get_map (f := fun a => a + off)] at hg
  obtain ⟨a, _, rfl⟩ := Option.map_eq_some_iff.1 hg
  omega

theorem reclassifyGlobal_inj : ∀ (start : Nat) (ps : List (Local Z)), (∀ p ∈ ps, Fresh p) → ∀ (i j : Nat) (p q : Local Z) (id id' gid : Nat),
    (reclassifyGlobal start ps)[i]? = some p → p.lut.get id = some gid → (reclassifyGlobal start ps)[j]? = some q →
    q.lut.get id' = some gid → i = j ∧ id = id'
  | _, [], _, i, j, p, q, id, id', gid, h, _, _, _ => by simp [reclassifyGlobal] at h
  | start, r :: ps, hf, i, j, p, q, id, id', gid, h1, h2, h3, h4 => by
    obtain ⟨n, hn⟩ := hf r (by simp)
    have hlen : r.lut.length = n := by rw [hn, identLut]; simp
    have head : ∀ (p : Local Z) id, (reclassifyGlobal start (r :: ps))[0]? = some p → p.lut.get id = some gid → id < n ∧ gid = id + start := by
      intro p id h h'
      simp only [reclassifyGlobal, List.getElem?_cons_zero, Option.some.injEq] at h
      rw [← h, get_map (f := fun a => a + start), hn, get_ident] at h'
      by_cases hlt : id < n
      · rw [if_pos hlt] at h'
        exact ⟨hlt, (Option.some.inj h').symm⟩
      · rw [if_neg hlt] at h'; cases h'
    have tail : ∀ (p : Local Z) i id, (reclassifyGlobal start (r :: ps))[i + 1]? = some p → p.lut.get id = some gid → start + n ≤ gid := by
      intro p i id h h'
      simp only [reclassifyGlobal, List.getElem?_cons_succ] at h
      rw [hlen] at h
      exact reclassifyGlobal_ge h h'
    rcases i with _ | i <;> rcases j with _ | j
    · obtain ⟨_, e1⟩ := head p id h1 h2
      obtain ⟨_, e2⟩ := head q id' h3 h4
      exact ⟨rfl, by omega⟩
    · obtain ⟨e0, e1⟩ := head p id h1 h2
      have := tail q j id' h3 h4
      omega
    · obtain ⟨e0, e1⟩ := head q id' h3 h4
      have := tail p i id h1 h2
      omega
    · simp only [reclassifyGlobal, List.getElem?_cons_succ] at h1 h3
      obtain ⟨e1, e2⟩ := reclassifyGlobal_inj _ ps (fun p hp => hf p (by simp [hp])) i j p q id id' gid h1 h2 h3 h4
      exact ⟨by omega, e2⟩

variable {g : Grid} {diagonal : Bool} {v : Arr (Option Z)}

/-- What is known about a partition, before global ids are assigned -/
def Start (g : Grid) (diagonal : Bool) (v : Arr (Option Z)) (results : List (Local Z)) : Prop :=
  results.length = g.n0 * g.n1 ∧ (∀ p ∈ results, Fresh p) ∧
    ∀ k0 k1 p, k0 < g.n0 → k1 < g.n1 → results[k0 * g.n1 + k1]? = some p → PartOk g diagonal v k0 k1 p

theorem found_of_start {results : List (Local Z)} (h : Start g diagonal v results) :
    Found g diagonal v (reclassifyGlobal 0 results) where
  len := by rw [reclassifyGlobal_length]; exact h.1
  part k0 k1 q h0 h1 hq := by
    obtain ⟨p, off, e1, _, rfl⟩ := reclassifyGlobal_get _ _ _ _ hq
    have hp := h.2.2 k0 k1 p h0 h1 e1
    obtain ⟨n, hc, hn⟩ := hp.clumps
    refine ⟨hp.nr, hp.nc, hp.zones_len, hp.clumps_len, hp.zone, n, hc, fun id => ?_⟩
    simp only
    rw [get_map (f := fun a => a + off), ← hn id]
    constructor
    · rintro ⟨a, ha⟩
      obtain ⟨b, hb, _⟩ := Option.map_eq_some_iff.1 ha
      exact ⟨b, hb⟩
    · rintro ⟨b, hb⟩; exact ⟨b + off, by rw [hb]; rfl⟩
  inj k k' gid := by
    rintro ⟨h1, p, h2, h3⟩ ⟨h1', p', h2', h3'⟩
    obtain ⟨e1, e2⟩ := reclassifyGlobal_inj 0 results h.2.1 _ _ p p' _ _ gid h2 h3 h2' h3'
    obtain ⟨e3, e4⟩ := key_eq h1 h1' e1
    exact Prod.ext e3 (Prod.ext e4 e2)

/-! ### Final ids -/

theorem SameCells.key {results results' : List (Local Z)} (h : SameCells results results') {c : Nat × Nat} {k : Key} :
    CellKey g results' c k ↔ CellKey g results c k := by
  constructor
  · rintro ⟨l0, l1, p', e1, e2, e3⟩
    have hlt : k.1 * g.n1 + k.2.1 < results.length := by rw [← h.len]; exact (List.getElem?_eq_some_iff.1 e2).1
    obtain ⟨q, f1, f2, f3, f4, f5⟩ := h.cells _ _ (List.getElem?_eq_getElem hlt)
    rw [e2] at f1; cases f1
    exact ⟨l0, l1, _, e1, List.getElem?_eq_getElem hlt, by rw [← f5]; exact e3⟩
  · rintro ⟨l0, l1, p, e1, e2, e3⟩
    obtain ⟨q, f1, f2, f3, f4, f5⟩ := h.cells _ _ e2
    exact ⟨l0, l1, q, e1, f1, by rw [f5]; exact e3⟩

/-- The collections do not overlap. -/
def Disjoint (sets : List (List Nat)) : Prop :=
  ∀ (i j : Nat) (s t : List Nat) (a : Nat), sets[i]? = some s → sets[j]? = some t → a ∈ s → a ∈ t → i = j

theorem reclass_ok [DecidableEq Z] (hg : g.Ok) {results : List (Local Z)} (hs : Start g diagonal v results) {fuel : Nat}
    (hfuel : 4 * (2 * (g.a0 + g.a1)) + 2 < fuel) :
    ∃ results' sets, determineReclassTables fuel g.n0 g.n1 diagonal results = .ok (results', sets) ∧
      SameCells (reclassifyGlobal 0 results) results' ∧
      (∀ c k, CellKey g (reclassifyGlobal 0 results) c k → ∃ a, Gid g.n1 results' k a) ∧
      (∀ c c' k k' a, CellKey g (reclassifyGlobal 0 results) c k → CellKey g (reclassifyGlobal 0 results) c' k' →
        Gid g.n1 results' k a → Gid g.n1 results' k' a → ReflTransGen (Linked diagonal (zoneOf g v)) c c') ∧
      (Disjoint sets → ∀ c c' k k' a, CellKey g (reclassifyGlobal 0 results) c k → CellKey g (reclassifyGlobal 0 results) c' k' →
        Linked diagonal (zoneOf g v) c c' → Gid g.n1 results' k a → Gid g.n1 results' k' a) ∧
      (g.n0 = 1 → g.n1 = 1 → sets = []) := by
  have hf := found_of_start hs
  generalize hres : reclassifyGlobal 0 results = res at hf
  obtain ⟨m, e1, e2, e3⟩ := mergeBorders_ok hg hf hfuel
  have hrel := hf.related hg
  obtain ⟨⟨sets, updates⟩, u1, u2⟩ := unionPass_ok hrel e2
  have into : ∀ (k : Key) i, m.keys.get k = some i → ∃ (a : Nat) (t : List Nat), Gid g.n1 res k a ∧ sets[target updates i]? = some t ∧ a ∈ t := by
    intro k i hk
    obtain ⟨s, a, f1, f2, f3⟩ := e2.keys k i hk
    obtain ⟨t, t1, t2⟩ := u2.into i s f1
    exact ⟨a, t, f2, t1, t2 a f3⟩
  obtain ⟨results', r1, r2, r3⟩ := updateResults_ok (n1 := g.n1) (sets := sets) (updateKeys m.keys updates) res (ok_updateKeys e2.ok updates)
    (fun k i hk => by
      rw [get_updateKeys] at hk
      obtain ⟨i0, hi0, rfl⟩ := Option.map_eq_some_iff.1 hk
      obtain ⟨a, t, t1, t2, t3⟩ := into k i0 hi0
      exact ⟨t, a, t2, List.ne_nil_of_mem t3, t1⟩)
  -- The final id is an id in the same collection
  have final : ∀ c k a, CellKey g res c k → Gid g.n1 res k a → ∀ b, Gid g.n1 results' k b → SameClump g diagonal v res a b := by
    intro c k a hc ha b hb
    rw [r3, get_updateKeys] at hb
    cases hk : m.keys.get k with
    | none =>
      rw [hk] at hb
      rw [ha.unique hb]
      exact ⟨c, c, k, k, hc, hb, hc, hb, .refl⟩
    | some i =>
      rw [hk] at hb
      obtain ⟨s, s1, s2⟩ := hb
      obtain ⟨a', t, t1, t2, t3⟩ := into k i hk
      rw [s1] at t2; cases t2
      rw [ha.unique t1]
      exact u2.rel s (List.mem_of_getElem? s1) a' t3 b (List.mem_of_head? s2)
  refine ⟨results', sets, ?_, r2, ?_, ?_, ?_, ?_⟩
  · unfold determineReclassTables
    simp only [hres, e1, M.bind_ok, u1, r1]
    rfl
  · intro c k hc
    cases hk : m.keys.get k with
    | none =>
      obtain ⟨a, ha⟩ := hf.gid hc
      exact ⟨a, by rw [r3, get_updateKeys, hk]; exact ha⟩
    | some i =>
      obtain ⟨a', t, t1, t2, t3⟩ := into k i hk
      obtain ⟨b, t', rfl⟩ := List.exists_cons_of_ne_nil (List.ne_nil_of_mem t3)
      exact ⟨b, by rw [r3, get_updateKeys, hk]; exact ⟨_, t2, rfl⟩⟩
  · intro c c' k k' a hc hc' ha ha'
    obtain ⟨b, hb⟩ := hf.gid hc
    obtain ⟨b', hb'⟩ := hf.gid hc'
    have h1 := final c k b hc hb a ha
    have h2 := final c' k' b' hc' hb' a ha'
    exact (hrel.trans _ _ _ h1 (hrel.symm _ _ h2)).path hg hf hc hb hc' hb'
  · intro hd c c' k k' a hc hc' hl ha
    by_cases hsame : k.1 = k'.1 ∧ k.2.1 = k'.2.1
    · rw [← hf.linked hg hc hc' hl hsame.1 hsame.2]; exact ha
    · obtain ⟨l0, l1, p, p1, p2, p3⟩ := hc
      obtain ⟨l0', l1', p', p1', p2', p3'⟩ := hc'
      have hm := merged_of_handled hg e3 ⟨l0, l1, p1⟩ ⟨l0', l1', p1'⟩ hl hsame
      have hc : CellKey g res c k := ⟨l0, l1, p, p1, p2, p3⟩
      have hc' : CellKey g res c' k' := ⟨l0', l1', p', p1', p2', p3'⟩
      obtain ⟨i, hi⟩ := hm.left k hc
      obtain ⟨i', hi'⟩ := hm.right k' hc'
      obtain ⟨b, t, t1, t2, t3⟩ := into k i hi
      obtain ⟨b', t', t1', t2', t3'⟩ := into k' i' hi'
      obtain ⟨j, s, s1, s2, s3⟩ := hm.joined k k' b b' hc hc' t1 t1'
      obtain ⟨s', s4, s5⟩ := u2.into j s s1
      have q1 := hd _ _ _ _ b t2 s4 t3 (s5 b s2)
      have q2 := hd _ _ _ _ b' t2' s4 t3' (s5 b' s3)
      rw [r3, get_updateKeys, hi] at ha
      obtain ⟨x, x1, x2⟩ := ha
      rw [r3, get_updateKeys, hi']
      exact ⟨x, by rw [q2, ← q1]; exact x1, x2⟩
  · intro h0 h1
    rw [h0, h1] at e1
    have : mergeBorders fuel 1 1 diagonal res = .ok ⟨[], []⟩ := by
      simp only [mergeBorders, forLoop, List.range_one, List.foldlM_cons, List.foldlM_nil, mergeSouth, mergeEast, mergeSouthEast]
      simp only [Nat.sub_self, Nat.lt_irrefl, if_false, M.bind_ok, decide_false, Bool.and_false, Bool.false_eq_true]
      rfl
    rw [this] at e1
    cases e1
    cases u1
    rfl

theorem clumpPartition_ok [DecidableEq Z] {fuel : Nat} (zones : List (Option Z)) {k0 k1 : Nat}
    (hl : zones.length = g.rows k0 * g.cols k1) (hfuel : 4 * (g.rows k0 * g.cols k1) + 2 < fuel)
    (hz : ∀ l0 l1, l0 < g.rows k0 → l1 < g.cols k1 → zones[l0 * g.cols k1 + l1]? = some (v (k0 * g.p0 + l0) (k1 * g.p1 + l1))) :
    ∃ p, clumpPartition fuel (g.rows k0) (g.cols k1) diagonal zones = .ok p ∧ Fresh p ∧ PartOk g diagonal v k0 k1 p := by
  obtain ⟨clumps, n, e1, e2, e3⟩ := clumpCells_ok hl diagonal hfuel
  refine ⟨⟨g.rows k0, g.cols k1, zones, clumps, identLut n⟩, ?_, ⟨n, rfl⟩, ⟨rfl, rfl, hl, e2, ?_, n, e3, ?_⟩⟩
  · unfold clumpPartition
    rw [e1, M.bind_ok]; rfl
  · intro l0 l1 h0 h1
    have := hz l0 l1 h0 h1
    unfold at2
    rw [cell_eq h1]
    simp only
    rw [this]; rfl
  · intro id
    rw [get_ident]
    constructor
    · rintro ⟨gid, hgid⟩
      by_contra hn
      rw [if_neg hn] at hgid; cases hgid
    · intro h; exact ⟨id, if_pos h⟩

theorem reclassPartition_ok {p : Local Z} (h : ∀ id, some id ∈ p.clumps → ∃ gid, p.lut.get id = some gid) :
    reclassPartition p = .ok (p.clumps.map fun o => o.bind p.lut.get) := by
  unfold reclassPartition
  have key : ∀ l : List (Option Nat), (∀ id, some id ∈ l → ∃ gid, p.lut.get id = some gid) →
      l.mapM (m := M) (fun | none => (.ok none : M (Option Nat)) | some id => match p.lut.get id with
        | none => .error .outOfBounds
        | some gid => .ok (some gid)) = .ok (l.map fun o => o.bind p.lut.get) := by
    intro l
    induction l with
    | nil => intro _; rfl
    | cons o l ih =>
      intro hl
      rw [List.mapM_cons, ih fun id hid => hl id (by simp [hid])]
      cases o with
      | none => rfl
      | some id =>
        obtain ⟨gid, hgid⟩ := hl id (by simp)
        simp only [hgid, List.map_cons, Option.bind_some]
        rfl
  exact key _ h

variable [DecidableEq Z] {x : PArr (Option Z)}

/-- Everything proved about `clump`. -/
theorem clump_ok (hx : Represents x v) (diagonal : Bool) {order1 order2 : List Nat} (h1 : IsOrder (x.grid.n0 * x.grid.n1) order1)
    (h2 : IsOrder (x.grid.n0 * x.grid.n1) order2) {fuel : Nat} (hfuel : 8 * ((x.grid.a0 + 1) * (x.grid.a1 + 1)) < fuel) :
    ∃ (y : PArr (Option Nat)) (sets : List (List Nat)) (w : Arr (Option Nat)), clump fuel diagonal order1 order2 x = .ok (y, sets) ∧
      y.grid = x.grid ∧ Represents y w ∧ (∀ c, zoneOf x.grid w c = none ↔ zoneOf x.grid v c = none) ∧
      (∀ c c' a, zoneOf x.grid w c = some a → zoneOf x.grid w c' = some a → ReflTransGen (Linked diagonal (zoneOf x.grid v)) c c') ∧
      (Disjoint sets → ∀ c c', ReflTransGen (Linked diagonal (zoneOf x.grid v)) c c' → zoneOf x.grid w c = zoneOf x.grid w c') ∧
      (x.grid.n0 = 1 → x.grid.n1 = 1 → sets = []) := by
  have hg := hx.ok
  have hexp : (x.grid.a0 + 1) * (x.grid.a1 + 1) = x.grid.a0 * x.grid.a1 + x.grid.a0 + x.grid.a1 + 1 := by
    rw [Nat.add_mul, Nat.mul_add]; omega
  generalize hgr : x.grid = g at *
  have htask : ∀ k < g.n0 * g.n1, ∃ p, (do clumpPartition fuel (g.rows (k / g.n1)) (g.cols (k % g.n1)) diagonal (← rd x.parts k)) = .ok p ∧
      Fresh p ∧ PartOk g diagonal v (k / g.n1) (k % g.n1) p := by
    intro k hk
    obtain ⟨k0, k1, hk2⟩ := idx_split hk
    obtain ⟨z, z1, z2, z3⟩ := hx.part (k0 := k / g.n1) (k1 := k % g.n1) (by rw [hgr]; exact k0) (by rw [hgr]; exact k1)
    simp only [hgr] at z1 z2 z3
    obtain ⟨b0, b1⟩ := size_bound hg k0 k1
    have hb : g.rows (k / g.n1) * g.cols (k % g.n1) ≤ g.a0 * g.a1 := Nat.mul_le_mul b0 b1
    obtain ⟨p, p1, p2, p3⟩ := clumpPartition_ok (fuel := fuel) (diagonal := diagonal) z z2 (by omega) z3
    rw [hk2] at z1
    exact ⟨p, by rw [rd_ok z1, M.bind_ok]; exact p1, p2, p3⟩
  let r : Nat → Local Z := fun k =>
    match (do clumpPartition fuel (g.rows (k / g.n1)) (g.cols (k % g.n1)) diagonal (← rd x.parts k) : M (Local Z)) with
    | .ok p => p
    | .error _ => ⟨0, 0, [], [], []⟩
  have hr : ∀ k < g.n0 * g.n1, (do clumpPartition fuel (g.rows (k / g.n1)) (g.cols (k % g.n1)) diagonal (← rd x.parts k)) = .ok (r k) ∧
      Fresh (r k) ∧ PartOk g diagonal v (k / g.n1) (k % g.n1) (r k) := by
    intro k hk
    obtain ⟨p, p1, p2, p3⟩ := htask k hk
    have : r k = p := by simp only [r, p1]
    rw [this]; exact ⟨p1, p2, p3⟩
  have hrun := runTasks_ok h1 (fun k hk => (hr k hk).1)
  have hstart : Start g diagonal v ((List.range (g.n0 * g.n1)).map r) := by
    refine ⟨by simp, ?_, ?_⟩
    · intro p hp
      obtain ⟨k, hk, rfl⟩ := List.mem_map.1 hp
      exact (hr k (List.mem_range.1 hk)).2.1
    · intro k0 k1 p h0 h1 hp
      have hk := idx_lt h0 h1
      rw [range_map_get r hk] at hp
      cases hp
      have := (hr _ hk).2.2
      rw [idx_div h1, idx_mod h1] at this
      exact this
  obtain ⟨res, sets, s1, s2, s3, s4, s5, s6⟩ := reclass_ok hg hstart (fuel := fuel) (by omega)
  have hf := found_of_start hstart
  generalize hbase : reclassifyGlobal 0 ((List.range (g.n0 * g.n1)).map r) = base at *
  -- The resulting array
  let w : Arr (Option Nat) := assemble g (fun k0 k1 l0 l1 => match res[k0 * g.n1 + k1]? with
    | some p => (at2 (g.cols k1) p.clumps (l0, l1)).bind p.lut.get
    | none => none)
  have hpart : ∀ k0 k1, k0 < g.n0 → k1 < g.n1 → ∃ q, res[k0 * g.n1 + k1]? = some q ∧ q.clumps.length = g.rows k0 * g.cols k1 ∧
      ∀ l0 l1 id, l0 < g.rows k0 → l1 < g.cols k1 → at2 (g.cols k1) q.clumps (l0, l1) = some id →
        CellKey g base (k0 * g.p0 + l0, k1 * g.p1 + l1) (k0, k1, id) := by
    intro k0 k1 h0 h1
    obtain ⟨p, p1, p2⟩ := hf.result h0 h1
    obtain ⟨q, q1, q2, q3, q4, q5⟩ := s2.cells _ _ p1
    refine ⟨q, q1, by rw [q5]; exact p2.clumps_len, fun l0 l1 id hl0 hl1 hid => ?_⟩
    exact ⟨l0, l1, p, ⟨h0, h1, hl0, hl1, rfl, rfl⟩, p1, by rw [← q5]; exact hid⟩
  obtain ⟨parts, t1, t2⟩ := runTasks_represents (g := g) (w := w) hg h2 (task := fun k => do reclassPartition (← rd res k)) (fun k0 k1 h0 h1 => by
    obtain ⟨q, q1, q2, q3⟩ := hpart k0 k1 h0 h1
    have hq := reclassPartition_ok (p := q) (fun id hid => by
      obtain ⟨e, he⟩ := List.mem_iff_getElem?.1 hid
      have hlt := (List.getElem?_eq_some_iff.1 he).1
      rw [q2] at hlt
      obtain ⟨a0, a1, a2⟩ := idx_split hlt
      have hat := getElem_at2 q2 a0 a1
      rw [a2, he] at hat
      obtain ⟨a, _, p, p1, p2⟩ := s3 _ _ (q3 _ _ id a0 a1 (Option.some.inj hat).symm)
      simp only at p1 p2
      rw [q1] at p1; cases p1
      exact ⟨a, p2⟩)
    refine ⟨_, by rw [rd_ok q1, M.bind_ok]; exact hq, by rw [List.length_map, q2], fun l0 l1 hl0 hl1 => ?_⟩
    rw [List.getElem?_map, getElem_at2 q2 hl0 hl1]
    have := IsCell.assemble hg (⟨h0, h1, hl0, hl1, rfl, rfl⟩ : IsCell g (k0 * g.p0 + l0) (k1 * g.p1 + l1) k0 k1 l0 l1)
      (fun k0 k1 l0 l1 => match res[k0 * g.n1 + k1]? with
        | some p => (at2 (g.cols k1) p.clumps (l0, l1)).bind p.lut.get
        | none => none)
    simp only [q1] at this
    rw [Option.map_some, ← this])
  -- The ids in the array
  have hw : ∀ c a, zoneOf g w c = some a ↔ ∃ k, CellKey g base c k ∧ Gid g.n1 res k a := by
    intro c a
    have hcell : ∀ k0 k1 l0 l1 q, IsCell g c.1 c.2 k0 k1 l0 l1 → res[k0 * g.n1 + k1]? = some q →
        zoneOf g w c = (at2 (g.cols k1) q.clumps (l0, l1)).bind q.lut.get := by
      intro k0 k1 l0 l1 q hc hq
      have h := IsCell.assemble hg hc (fun k0 k1 l0 l1 => match res[k0 * g.n1 + k1]? with
        | some p => (at2 (g.cols k1) p.clumps (l0, l1)).bind p.lut.get
        | none => none)
      simp only [hq] at h
      rw [← h]
      exact zoneOf_cell hg hc
    constructor
    · intro h
      obtain ⟨k0, k1, l0, l1, hc⟩ := isCell_of_zone (v := w) hg (c := c) (by rw [h]; simp)
      obtain ⟨q, q1, q2, q3⟩ := hpart k0 k1 hc.k0_lt hc.k1_lt
      rw [hcell k0 k1 l0 l1 q hc q1] at h
      obtain ⟨id, i1, i2⟩ := Option.bind_eq_some_iff.1 h
      have := q3 l0 l1 id hc.l0_lt hc.l1_lt i1
      rw [← hc.i_eq, ← hc.j_eq] at this
      exact ⟨(k0, k1, id), this, hc.k1_lt, q, q1, i2⟩
    · rintro ⟨k, hk, _, q, q1, q2⟩
      obtain ⟨l0, l1, p, p1, p2, p3⟩ := (SameCells.key s2).2 hk
      rw [q1] at p2; cases p2
      rw [hcell _ _ l0 l1 q p1 q1, p3]
      exact q2
  have hnone : ∀ c, zoneOf g w c = none ↔ zoneOf g v c = none := by
    intro c
    constructor
    · intro h
      by_contra hn
      obtain ⟨k, hk⟩ := (hf.cell hg).1 hn
      obtain ⟨a, ha⟩ := s3 c k hk
      rw [(hw c a).2 ⟨k, hk, ha⟩] at h; cases h
    · intro h
      cases hwc : zoneOf g w c with
      | none => rfl
      | some a =>
        obtain ⟨k, hk, _⟩ := (hw c a).1 hwc
        exact absurd h ((hf.cell hg).2 ⟨k, hk⟩)
  refine ⟨⟨g, parts⟩, sets, w, ?_, rfl, t2, hnone, ?_, ?_, s6⟩
  · unfold clump
    simp only [hgr]
    rw [hrun, M.bind_ok, s1]
    simp only [M.bind_ok]
    rw [t1, M.bind_ok]
    rfl
  · intro c c' a hc hc'
    obtain ⟨k, k1, k2⟩ := (hw c a).1 hc
    obtain ⟨k', k1', k2'⟩ := (hw c' a).1 hc'
    exact s4 c c' k k' a k1 k1' k2 k2'
  · intro hd c c' hp
    induction hp with
    | refl => rfl
    | @tail d e _ hl ih =>
      rw [ih]
      obtain ⟨k, hk⟩ := (hf.cell hg).1 hl.2.1
      obtain ⟨k', hk'⟩ := (hf.cell hg).1 hl.symm.2.1
      obtain ⟨a, ha⟩ := s3 d k hk
      rw [(hw d a).2 ⟨k, hk, ha⟩, (hw e a).2 ⟨k', hk', s5 hd d e k k' a hk hk' hl ha⟩]

/-- C24. Clumping succeeds, whatever the order in which the tasks complete. Cells without a zone have no clump id, all other
cells do. Cells with the same id are connected in the whole array. -/
theorem clump_sound (x : PArr (Option Z)) (v : Arr (Option Z)) (hx : Represents x v) (diagonal : Bool) (order1 order2 : List Nat)
    (h1 : IsOrder (x.grid.n0 * x.grid.n1) order1) (h2 : IsOrder (x.grid.n0 * x.grid.n1) order2) (fuel : Nat)
    (hfuel : 8 * ((x.grid.a0 + 1) * (x.grid.a1 + 1)) < fuel) :
    ∃ (y : PArr (Option Nat)) (sets : List (List Nat)) (w : Arr (Option Nat)), clump fuel diagonal order1 order2 x = .ok (y, sets) ∧
      y.grid = x.grid ∧ Represents y w ∧ (∀ i j, i < x.grid.a0 → j < x.grid.a1 → (w i j = none ↔ v i j = none)) ∧
      (∀ i j i' j', i < x.grid.a0 → j < x.grid.a1 → i' < x.grid.a0 → j' < x.grid.a1 → w i j ≠ none → w i j = w i' j' →
        ReflTransGen (Linked diagonal (zoneOf x.grid v)) (i, j) (i', j')) := by
  obtain ⟨y, sets, w, e1, e2, e3, e4, e5, _⟩ := clump_ok hx diagonal h1 h2 hfuel
  have hz : ∀ {α : Type} (u : Arr (Option α)) i j, i < x.grid.a0 → j < x.grid.a1 → zoneOf x.grid u (i, j) = u i j :=
    fun u i j hi hj => if_pos ⟨hi, hj⟩
  refine ⟨y, sets, w, e1, e2, e3, fun i j hi hj => ?_, fun i j i' j' hi hj hi' hj' hn he => ?_⟩
  · rw [← hz v i j hi hj, ← e4, hz w i j hi hj]
  · obtain ⟨a, ha⟩ := Option.ne_none_iff_exists'.1 hn
    exact e5 (i, j) (i', j') a (by rw [hz w i j hi hj, ha]) (by rw [hz w i' j' hi' hj', ← he, ha])

/-- C24. If the collections of ids which are left after merging collections do not overlap, connected cells have the same id:
the ids are those of the connected components. What is missing for this to hold for all arrays: the pass which merges
collections is not transitive (`clump_incomplete`). -/
theorem clump_components_partial (x : PArr (Option Z)) (v : Arr (Option Z)) (hx : Represents x v) (diagonal : Bool) (order1 order2 : List Nat)
    (h1 : IsOrder (x.grid.n0 * x.grid.n1) order1) (h2 : IsOrder (x.grid.n0 * x.grid.n1) order2) (fuel : Nat)
    (hfuel : 8 * ((x.grid.a0 + 1) * (x.grid.a1 + 1)) < fuel) :
    ∃ (y : PArr (Option Nat)) (sets : List (List Nat)) (w : Arr (Option Nat)), clump fuel diagonal order1 order2 x = .ok (y, sets) ∧
      y.grid = x.grid ∧ Represents y w ∧ (Disjoint sets →
      ∀ i j i' j', i < x.grid.a0 → j < x.grid.a1 → i' < x.grid.a0 → j' < x.grid.a1 → v i j ≠ none → v i' j' ≠ none →
        (w i j = w i' j' ↔ ReflTransGen (Linked diagonal (zoneOf x.grid v)) (i, j) (i', j'))) := by
  obtain ⟨y, sets, w, e1, e2, e3, e4, e5, e6, _⟩ := clump_ok hx diagonal h1 h2 hfuel
  have hz : ∀ {α : Type} (u : Arr (Option α)) i j, i < x.grid.a0 → j < x.grid.a1 → zoneOf x.grid u (i, j) = u i j :=
    fun u i j hi hj => if_pos ⟨hi, hj⟩
  refine ⟨y, sets, w, e1, e2, e3, fun hd i j i' j' hi hj hi' hj' hn hn' => ⟨fun he => ?_, fun hp => ?_⟩⟩
  · have : w i j ≠ none := fun h => by
      rw [← hz w i j hi hj, e4, hz v i j hi hj] at h; exact hn h
    obtain ⟨a, ha⟩ := Option.ne_none_iff_exists'.1 this
    exact e5 (i, j) (i', j') a (by rw [hz w i j hi hj, ha]) (by rw [hz w i' j' hi' hj', ← he, ha])
  · rw [← hz w i j hi hj, ← hz w i' j' hi' hj']
    exact e6 hd _ _ hp

/-- C24. In case of a single partition the ids are those of the connected components. -/
theorem clump_single_partition (x : PArr (Option Z)) (v : Arr (Option Z)) (hx : Represents x v) (hn0 : x.grid.n0 = 1) (hn1 : x.grid.n1 = 1)
    (diagonal : Bool) (fuel : Nat) (hfuel : 8 * ((x.grid.a0 + 1) * (x.grid.a1 + 1)) < fuel) :
    ∃ (y : PArr (Option Nat)) (sets : List (List Nat)) (w : Arr (Option Nat)), clump fuel diagonal [0] [0] x = .ok (y, sets) ∧
      y.grid = x.grid ∧ Represents y w ∧
      ∀ i j i' j', i < x.grid.a0 → j < x.grid.a1 → i' < x.grid.a0 → j' < x.grid.a1 → v i j ≠ none → v i' j' ≠ none →
        (w i j = w i' j' ↔ ReflTransGen (Linked diagonal (zoneOf x.grid v)) (i, j) (i', j')) := by
  have ho : IsOrder (x.grid.n0 * x.grid.n1) [0] := by rw [hn0, hn1]; exact List.Perm.refl _
  obtain ⟨y, sets, w, e1, e2, e3, e4⟩ := clump_components_partial x v hx diagonal [0] [0] ho ho fuel hfuel
  obtain ⟨y', sets', w', f1, _, _, _, _, _, f7⟩ := clump_ok hx diagonal ho ho hfuel
  rw [e1] at f1
  cases f1
  refine ⟨y, sets, w, e1, e2, e3, e4 ?_⟩
  rw [f7 hn0 hn1]
  intro i j s t a h
  simp at h

/-- C24. The order in which the tasks complete does not matter. -/
theorem clump_deterministic (x : PArr (Option Z)) (v : Arr (Option Z)) (hx : Represents x v) (diagonal : Bool)
    (order1 order2 order1' order2' : List Nat) (h1 : IsOrder (x.grid.n0 * x.grid.n1) order1)
    (h2 : IsOrder (x.grid.n0 * x.grid.n1) order2) (h1' : IsOrder (x.grid.n0 * x.grid.n1) order1')
    (h2' : IsOrder (x.grid.n0 * x.grid.n1) order2') (fuel : Nat) (hfuel : 8 * ((x.grid.a0 + 1) * (x.grid.a1 + 1)) < fuel) :
    clump fuel diagonal order1 order2 x = clump fuel diagonal order1' order2' x := by
  have key : ∀ {π : Type} {n : Nat} {task : Nat → M π} {o o' : List Nat} {r : List π}, IsOrder n o → IsOrder n o' →
      runTasks n task o = .ok r → runTasks n task o' = .ok r := by
    intro π n task o o' r ho ho' hr
    have hall : ∀ k < n, ∃ p, task k = .ok p := by
      intro k hk
      cases ht : task k with
      | ok p => exact ⟨p, rfl⟩
      | error e =>
        exfalso
        have hmem : k ∈ o := ho.mem_iff.2 (by simpa using hk)
        have bad : ∀ (l : List Nat) (s : List (Option π)), k ∈ l → ∀ s', l.foldlM (fun (slots : List (Option π)) k => do
            let r ← task k
            wr slots k (some r)) s ≠ .ok s' := by
          intro l
          induction l with
          | nil => intro s h; simp at h
          | cons a l ih =>
            intro s h s'
            rw [List.foldlM_cons]
            by_cases ha : a = k
            · subst ha; rw [ht]; intro h; cases h
            · cases hta : task a with
              | error e => intro h; cases h
              | ok p =>
                rw [M.bind_ok]
                cases hw : wr s a (some p) with
                | error e => intro h; cases h
                | ok s1 =>
                  rw [M.bind_ok]
                  exact ih s1 ((List.mem_cons.1 h).resolve_left (Ne.symm ha)) s'
        unfold runTasks at hr
        cases hfold : o.foldlM (fun (slots : List (Option π)) k => do
            let r ← task k
            wr slots k (some r)) (List.replicate n none) with
        | ok s' => exact bad o _ hmem s' hfold
        | error e => rw [hfold] at hr; cases hr
    have hp : Nonempty (Nat → π) ∨ n = 0 := by
      rcases Nat.eq_zero_or_pos n with h0 | h0
      · exact .inr h0
      · obtain ⟨p, _⟩ := hall 0 h0
        exact .inl ⟨fun _ => p⟩
    rcases hp with ⟨⟨d⟩⟩ | h0
    · let f : Nat → π := fun k => match task k with
        | .ok p => p
        | .error _ => d k
      have hf : ∀ k < n, task k = .ok (f k) := fun k hk => by
        obtain ⟨p, hp⟩ := hall k hk
        simp only [f, hp]
      rw [runTasks_ok ho hf] at hr
      rw [runTasks_ok ho' hf, hr]
    · subst h0
      rw [List.Perm.eq_nil ho] at hr
      rw [List.Perm.eq_nil ho']; exact hr
  obtain ⟨y, sets, w, e1, _⟩ := clump_ok hx diagonal h1 h2 hfuel
  rw [e1]
  symm
  unfold clump at e1 ⊢
  simp only at e1 ⊢
  cases ha : runTasks (x.grid.n0 * x.grid.n1) (fun k => do
    clumpPartition fuel (x.grid.rows (k / x.grid.n1)) (x.grid.cols (k % x.grid.n1)) diagonal (← rd x.parts k)) order1 with
  | error e => rw [ha] at e1; cases e1
  | ok a =>
    rw [key h1 h1' ha]
    rw [ha] at e1
    simp only [M.bind_ok] at e1 ⊢
    cases hb : determineReclassTables fuel x.grid.n0 x.grid.n1 diagonal a with
    | error e => rw [hb] at e1; cases e1
    | ok b =>
      rw [hb] at e1
      simp only [M.bind_ok] at e1 ⊢
      cases hc : runTasks (x.grid.n0 * x.grid.n1) (fun k => do reclassPartition (← rd b.1 k)) order2 with
      | error e => rw [hc] at e1; cases e1
      | ok c =>
        rw [key h2 h2' hc]
        rw [hc] at e1
        exact e1

/-! ### Counterexample and examples -/

/-- The letter E on its side, in an array with partitions of a single cell. -/
def letterE : Arr (Option Nat) := fun i j =>
  (([[some 7, none, none, none, some 7],
     [some 7, none, some 7, none, some 7],
     [some 7, some 7, some 7, some 7, some 7]].getD i []).getD j none)

def letterGrid : Grid := ⟨3, 5, 1, 1⟩

/-- C24. Connected cells can end up with different ids: the first and the last cell of the first row are connected, via the
other rows. -/
theorem clump_incomplete : ∃ (y : PArr (Option Nat)) (sets : List (List Nat)),
    clump 200 false (List.range 15) (List.range 15) (store letterGrid letterE) = .ok (y, sets) ∧
      y.parts[0]? = some [some 0] ∧ y.parts[4]? = some [some 1] ∧
      ReflTransGen (Linked false (zoneOf letterGrid letterE)) (0, 0) (0, 4) := by
  have link : ∀ c c', Adjacent false c c' → zoneOf letterGrid letterE c = some 7 → zoneOf letterGrid letterE c' = some 7 →
      Linked false (zoneOf letterGrid letterE) c c' := fun c c' h1 h2 h3 => ⟨h1, by rw [h2]; simp, by rw [h2, h3]⟩
  have hpath : ReflTransGen (Linked false (zoneOf letterGrid letterE)) (0, 0) (0, 4) := by
    refine .head (b := (1, 0)) (link _ _ (by unfold Adjacent; simp) (by decide +kernel) (by decide +kernel)) ?_
    refine .head (b := (2, 0)) (link _ _ (by unfold Adjacent; simp) (by decide +kernel) (by decide +kernel)) ?_
    refine .head (b := (2, 1)) (link _ _ (by unfold Adjacent; simp) (by decide +kernel) (by decide +kernel)) ?_
    refine .head (b := (2, 2)) (link _ _ (by unfold Adjacent; simp) (by decide +kernel) (by decide +kernel)) ?_
    refine .head (b := (2, 3)) (link _ _ (by unfold Adjacent; simp) (by decide +kernel) (by decide +kernel)) ?_
    refine .head (b := (2, 4)) (link _ _ (by unfold Adjacent; simp) (by decide +kernel) (by decide +kernel)) ?_
    refine .head (b := (1, 4)) (link _ _ (by unfold Adjacent; simp) (by decide +kernel) (by decide +kernel)) ?_
    exact .single (link _ _ (by unfold Adjacent; simp) (by decide +kernel) (by decide +kernel))
  have hrun : ∃ r, clump 200 false (List.range 15) (List.range 15) (store letterGrid letterE) = .ok r ∧
      r.1.parts[0]? = some [some 0] ∧ r.1.parts[4]? = some [some 1] := by
    have h : (match clump 200 false (List.range 15) (List.range 15) (store letterGrid letterE) with
        | .ok r => some (r.1.parts[0]?, r.1.parts[4]?)
        | .error _ => none) = some (some [some 0], some [some 1]) := by decide +kernel
    cases hc : clump 200 false (List.range 15) (List.range 15) (store letterGrid letterE) with
    | error e => rw [hc] at h; cases h
    | ok r =>
      rw [hc] at h
      obtain ⟨h1, h2⟩ := Prod.mk.inj (Option.some.inj h)
      exact ⟨r, rfl, h1, h2⟩
  obtain ⟨⟨y, sets⟩, r1, r2, r3⟩ := hrun
  exact ⟨y, sets, r1, r2, r3, hpath⟩

/-- The hypotheses of the theorems are met, also with more than one partition. -/
example : letterGrid.Ok ∧ letterGrid.n0 * letterGrid.n1 = 15 ∧ IsOrder 15 (List.range 15) ∧
    8 * ((letterGrid.a0 + 1) * (letterGrid.a1 + 1)) < 200 :=
  ⟨⟨by decide, by decide, by decide, by decide⟩, by decide, List.Perm.refl _, by decide⟩

/-- The collections left do not overlap in a case with a clump spanning four partitions. -/
example : (match clump 80 true [3, 1, 0, 2] (List.range 4) (store ⟨2, 2, 1, 1⟩ fun _ _ => some 7) with
    | .ok r => some (r.1.parts, r.2)
    | .error _ => none) = some ([[some 0], [some 0], [some 0], [some 0]], [[0, 1, 2, 3]]) := by decide +kernel

example : Disjoint [[0, 1, 2, 3]] := by
  rintro (_ | i) (_ | j) s t a h1 h2 h3 h4
  · rfl
  · simp at h2
  · simp at h1
  · simp at h1

end Lue.Clump

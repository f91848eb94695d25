import Verif.Clump.Global

/-!
C24: all borders between partitions.
-/
namespace Lue.Clump

open Relation Lue.Decomposition

variable {Z : Type} {g : Grid} {diagonal : Bool} {v : Arr (Option Z)} {results : List (Local Z)}

theorem mapM_range_ok {α : Type} {n : Nat} {f : Nat → M α} {h : Nat → α} (hf : ∀ i < n, f i = .ok (h i)) :
    (List.range n).mapM f = .ok ((List.range n).map h) := by
  have key : ∀ l : List Nat, (∀ x ∈ l, x < n) → l.mapM f = .ok (l.map h) := by
    intro l
    induction l with
    | nil => intro _; rfl
    | cons a l ih =>
      intro hl
      rw [List.mapM_cons, hf a (hl a (by simp)), ih fun x hx => hl x (by simp [hx])]; rfl
  exact key _ fun x hx => List.mem_range.1 hx

theorem rowSide_ok {α : Type} {nr nc row : Nat} {data : List (Option α)} (hl : data.length = nr * nc) (hr : row < nr) :
    rowSide nc row data = .ok ((List.range nc).map fun j => at2 nc data (row, j)) :=
  mapM_range_ok fun _ hj => get_ok hl hr hj

theorem colSide_ok {α : Type} {nr nc col : Nat} {data : List (Option α)} (hl : data.length = nr * nc) (hc : col < nc) :
    colSide nr nc col data = .ok ((List.range nr).map fun i => at2 nc data (i, col)) :=
  mapM_range_ok fun _ hi => get_ok hl hi hc

theorem range_map_get {α : Type} {n j : Nat} (f : Nat → α) (hj : j < n) : ((List.range n).map f)[j]? = some (f j) := by
  simp [hj]

theorem resultAt_ok {p : Local Z} {k0 k1 : Nat} (h1 : k1 < g.n1) (hp : results[k0 * g.n1 + k1]? = some p) :
    resultAt g.n1 results k0 k1 = .ok p := by
  unfold resultAt get
  rw [if_pos h1]; exact rd_ok hp

theorem rows_pos (hg : g.Ok) (k : Nat) : 0 < g.rows k := Dim.extent_pos hg.pos0 k
theorem cols_pos (hg : g.Ok) (k : Nat) : 0 < g.cols k := Dim.extent_pos hg.pos1 k

theorem rows_eq {k : Nat} (h : k + 1 < g.n0) : g.rows k = g.p0 := Dim.extent_of_not_last h
theorem cols_eq {k : Nat} (h : k + 1 < g.n1) : g.cols k = g.p1 := Dim.extent_of_not_last h

/-- The cell is in the partition. -/
def InPart (g : Grid) (k0 k1 : Nat) (c : Nat × Nat) : Prop := ∃ l0 l1, IsCell g c.1 c.2 k0 k1 l0 l1

theorem size_bound (hg : g.Ok) {k0 k1 : Nat} (h0 : k0 < g.n0) (h1 : k1 < g.n1) : g.rows k0 ≤ g.a0 ∧ g.cols k1 ≤ g.a1 := by
  have e0 := Dim.offset_add_extent_le hg.pos0 hg.le0 h0
  have e1 := Dim.offset_add_extent_le hg.pos1 hg.le1 h1
  unfold Grid.rows Grid.cols
  exact ⟨by omega, by omega⟩

variable [DecidableEq Z]

theorem mergeSouth_ok (hg : g.Ok) (hf : Found g diagonal v results) {m : Merges}
    (h : MInv (Gid g.n1 results) (SameClump g diagonal v results) m) {fuel : Nat} {k0 k1 : Nat} (h0 : k0 < g.n0) (h1 : k1 < g.n1)
    (hfuel : 4 * (2 * g.cols k1) + 2 < fuel) :
    ∃ m', mergeSouth fuel g.n0 g.n1 diagonal results k0 k1 m = .ok m' ∧ MInv (Gid g.n1 results) (SameClump g diagonal v results) m' ∧
      Le m m' ∧ ∀ c c', InPart g k0 k1 c → InPart g (k0 + 1) k1 c' → Linked diagonal (zoneOf g v) c c' → Merged g results m' c c' := by
  by_cases hs : k0 + 1 < g.n0
  · obtain ⟨p, p1, p2⟩ := hf.result h0 h1
    obtain ⟨q, q1, q2⟩ := hf.result hs h1
    have hrp := rows_pos hg k0
    have hrq := rows_pos hg (k0 + 1)
    have er := rows_eq hs
    have r1 := rowSide_ok p2.zones_len (show g.rows k0 - 1 < g.rows k0 by omega)
    have r2 := rowSide_ok p2.clumps_len (show g.rows k0 - 1 < g.rows k0 by omega)
    have r3 := rowSide_ok q2.zones_len hrq
    have r4 := rowSide_ok q2.clumps_len hrq
    have hmul : (k0 + 1) * g.p0 = k0 * g.p0 + g.p0 := by rw [Nat.add_mul, Nat.one_mul]
    obtain ⟨m', e1, e2, e3, e4⟩ := border_ok (f := fun c => ((k0 + 1) * g.p0 - 1 + c.1, k1 * g.p1 + c.2)) hg hf h
      (north := ⟨k0, k1, p, (List.range (g.cols k1)).map fun j => at2 (g.cols k1) p.clumps (g.rows k0 - 1, j)⟩)
      (south := ⟨k0 + 1, k1, q, (List.range (g.cols k1)).map fun j => at2 (g.cols k1) q.clumps (0, j)⟩)
      (nz := (List.range (g.cols k1)).map fun j => at2 (g.cols k1) p.zones (g.rows k0 - 1, j))
      (sz := (List.range (g.cols k1)).map fun j => at2 (g.cols k1) q.zones (0, j)) (nc := g.cols k1)
      ⟨by simp, p1, fun j hj => ⟨g.rows k0 - 1, j, ⟨h0, h1, by simp only; omega, hj, by simp only; omega, rfl⟩, range_map_get _ hj, range_map_get _ hj⟩⟩
      ⟨by simp, q1, fun j hj => ⟨0, j, ⟨hs, h1, hrq, hj, by simp only; omega, rfl⟩, range_map_get _ hj, range_map_get _ hj⟩⟩
      (fun c c' => adjacent_add) hfuel
    refine ⟨m', ?_, e2, e3, ?_⟩
    · unfold mergeSouth
      rw [if_pos (by omega), resultAt_ok h1 p1, M.bind_ok, resultAt_ok h1 q1, M.bind_ok, p2.nc, p2.nr, q2.nc, r1, M.bind_ok, r2, M.bind_ok,
        r3, M.bind_ok, r4, M.bind_ok]
      exact e1
    · rintro ⟨i, j⟩ ⟨i', j'⟩ ⟨l0, l1, hc⟩ ⟨l0', l1', hc'⟩ hl
      have a1 := hc.i_eq; have a2 := hc.j_eq; have a3 := hc.l0_lt
      have b1 := hc'.i_eq; have b2 := hc'.j_eq
      have hadj := hl.1
      simp only at a1 a2 b1 b2
      have : i + 1 = i' ∧ i + 1 = (k0 + 1) * g.p0 := by
        unfold Adjacent at hadj; simp only at hadj; omega
      have := e4 l1 l1' hc.l1_lt hc'.l1_lt
      simp only at this
      rw [show (k0 + 1) * g.p0 - 1 + 0 = i by omega, show (k0 + 1) * g.p0 - 1 + 1 = i' by omega, ← a2, ← b2] at this
      exact this hl
  · refine ⟨m, ?_, h, Le.refl _, fun c c' _ ⟨l0, l1, hc⟩ => absurd hc.k0_lt hs⟩
    unfold mergeSouth
    rw [if_neg (by omega)]

theorem adjacent_swap {a b : Nat} {c c' : Nat × Nat} :
    Adjacent diagonal (a + c.2, b + c.1) (a + c'.2, b + c'.1) ↔ Adjacent diagonal c c' := by
  unfold Adjacent; cases diagonal <;> simp <;> omega

theorem mergeEast_ok (hg : g.Ok) (hf : Found g diagonal v results) {m : Merges}
    (h : MInv (Gid g.n1 results) (SameClump g diagonal v results) m) {fuel : Nat} {k0 k1 : Nat} (h0 : k0 < g.n0) (h1 : k1 < g.n1)
    (hfuel : 4 * (2 * g.rows k0) + 2 < fuel) :
    ∃ m', mergeEast fuel g.n1 diagonal results k0 k1 m = .ok m' ∧ MInv (Gid g.n1 results) (SameClump g diagonal v results) m' ∧
      Le m m' ∧ ∀ c c', InPart g k0 k1 c → InPart g k0 (k1 + 1) c' → Linked diagonal (zoneOf g v) c c' → Merged g results m' c c' := by
  by_cases hs : k1 + 1 < g.n1
  · obtain ⟨p, p1, p2⟩ := hf.result h0 h1
    obtain ⟨q, q1, q2⟩ := hf.result h0 hs
    have hrp := cols_pos hg k1
    have hrq := cols_pos hg (k1 + 1)
    have er := cols_eq hs
    have r1 := colSide_ok p2.zones_len (show g.cols k1 - 1 < g.cols k1 by omega)
    have r2 := colSide_ok p2.clumps_len (show g.cols k1 - 1 < g.cols k1 by omega)
    have r3 := colSide_ok q2.zones_len hrq
    have r4 := colSide_ok q2.clumps_len hrq
    have hmul : (k1 + 1) * g.p1 = k1 * g.p1 + g.p1 := by rw [Nat.add_mul, Nat.one_mul]
    obtain ⟨m', e1, e2, e3, e4⟩ := border_ok (f := fun c => (k0 * g.p0 + c.2, (k1 + 1) * g.p1 - 1 + c.1)) hg hf h
      (north := ⟨k0, k1, p, (List.range (g.rows k0)).map fun j => at2 (g.cols k1) p.clumps (j, g.cols k1 - 1)⟩)
      (south := ⟨k0, k1 + 1, q, (List.range (g.rows k0)).map fun j => at2 (g.cols (k1 + 1)) q.clumps (j, 0)⟩)
      (nz := (List.range (g.rows k0)).map fun j => at2 (g.cols k1) p.zones (j, g.cols k1 - 1))
      (sz := (List.range (g.rows k0)).map fun j => at2 (g.cols (k1 + 1)) q.zones (j, 0)) (nc := g.rows k0)
      ⟨by simp, p1, fun j hj => ⟨j, g.cols k1 - 1, ⟨h0, h1, hj, by simp only; omega, rfl, by simp only; omega⟩, range_map_get _ hj, range_map_get _ hj⟩⟩
      ⟨by simp, q1, fun j hj => ⟨j, 0, ⟨h0, hs, hj, hrq, rfl, by simp only; omega⟩, range_map_get _ hj, range_map_get _ hj⟩⟩
      (fun c c' => adjacent_swap) hfuel
    refine ⟨m', ?_, e2, e3, ?_⟩
    · unfold mergeEast
      rw [if_pos (by omega), resultAt_ok h1 p1, M.bind_ok, resultAt_ok hs q1, M.bind_ok, p2.nc, p2.nr, q2.nc, q2.nr, r1, M.bind_ok, r2, M.bind_ok,
        r3, M.bind_ok, r4, M.bind_ok]
      exact e1
    · rintro ⟨i, j⟩ ⟨i', j'⟩ ⟨l0, l1, hc⟩ ⟨l0', l1', hc'⟩ hl
      have a1 := hc.i_eq; have a2 := hc.j_eq; have a3 := hc.l1_lt
      have b1 := hc'.i_eq; have b2 := hc'.j_eq
      have hadj := hl.1
      simp only at a1 a2 b1 b2
      have : j + 1 = j' ∧ j + 1 = (k1 + 1) * g.p1 := by
        unfold Adjacent at hadj; simp only at hadj; omega
      have := e4 l0 l0' hc.l0_lt hc'.l0_lt
      simp only at this
      rw [show (k1 + 1) * g.p1 - 1 + 0 = j by omega, show (k1 + 1) * g.p1 - 1 + 1 = j' by omega, ← a1, ← b1] at this
      exact this hl
  · refine ⟨m, ?_, h, Le.refl _, fun c c' _ ⟨l0, l1, hc⟩ => absurd hc.k1_lt hs⟩
    unfold mergeEast
    rw [if_neg (by omega)]

/-- `corner` contains the id of cell `c`. -/
def CornerOf (g : Grid) (results : List (Local Z)) (corner : Corner Z) (c : Nat × Nat) : Prop :=
  results[corner.row * g.n1 + corner.col]? = some corner.result ∧
    ∃ l0 l1, IsCell g c.1 c.2 corner.row corner.col l0 l1 ∧ corner.id = at2 (g.cols corner.col) corner.result.clumps (l0, l1)

omit [DecidableEq Z] in
theorem CornerOf.key (hg : g.Ok) {corner : Corner Z} {c : Nat × Nat} (h : CornerOf g results corner c) (k : Key) :
    CornerKey corner k ↔ CellKey g results c k := by
  obtain ⟨hr, l0, l1, e1, e2⟩ := h
  constructor
  · rintro ⟨id, h1, rfl⟩
    rw [e2] at h1
    exact ⟨l0, l1, corner.result, e1, hr, h1⟩
  · rintro ⟨l0', l1', p, f1, f2, f3⟩
    obtain ⟨a1, a2, a3, a4⟩ := e1.unique hg f1
    rw [← a1, ← a2, hr] at f2
    cases f2
    rw [← a2, ← a3, ← a4] at f3
    exact ⟨k.2.2, by rw [e2, f3], Prod.ext a1.symm (Prod.ext a2.symm rfl)⟩

omit [DecidableEq Z] in
theorem CornerOf.gid (hg : g.Ok) {corner : Corner Z} {c : Nat × Nat} (h : CornerOf g results corner c) (a : Nat) :
    CornerGid (Gid g.n1 results) corner a ↔ ∃ k, CellKey g results c k ∧ Gid g.n1 results k a := by
  constructor
  · rintro ⟨id, h1, h2, h3⟩
    exact ⟨_, (h.key hg _).1 ⟨id, h1, rfl⟩, h3⟩
  · rintro ⟨k, h1, h2⟩
    obtain ⟨id, e1, rfl⟩ := (h.key hg _).2 h1
    refine ⟨id, e1, ?_, h2⟩
    obtain ⟨_, p, f1, f2⟩ := h2
    rw [h.1] at f1; cases f1
    exact f2

omit [DecidableEq Z] in
theorem at2_four {a b c d : Option Z} (l : Nat × Nat) :
    at2 2 [a, b, c, d] l = if l = (0, 0) then a else if l = (0, 1) then b else if l = (1, 0) then c else if l = (1, 1) then d else none := by
  obtain ⟨i, j⟩ := l
  rcases i with _ | _ | i
  · rcases j with _ | _ | j
    · rfl
    · rfl
    · simp [at2, cell]
  · rcases j with _ | _ | j
    · rfl
    · rfl
    · simp [at2, cell]
  · have : (i + 1 + 1) * 2 + j = i * 2 + j + 4 := by omega
    simp [at2, cell, this]

theorem corners_ok (hg : g.Ok) (hf : Found g true v results) {m : Merges}
    (h : MInv (Gid g.n1 results) (SameClump g true v results) m) {nw ne sw se : Corner Z} {i j : Nat}
    (hnw : CornerOf g results nw (i, j)) (hne : CornerOf g results ne (i, j + 1)) (hsw : CornerOf g results sw (i + 1, j))
    (hse : CornerOf g results se (i + 1, j + 1)) {fuel : Nat} (hfuel : 18 < fuel) :
    ∃ m', mergeCorners fuel nw ne sw se [zoneOf g v (i, j), zoneOf g v (i, j + 1), zoneOf g v (i + 1, j), zoneOf g v (i + 1, j + 1)] m = .ok m' ∧
      MInv (Gid g.n1 results) (SameClump g true v results) m' ∧ Le m m' ∧
      (Linked true (zoneOf g v) (i, j) (i + 1, j + 1) → Merged g results m' (i, j) (i + 1, j + 1)) ∧
      (Linked true (zoneOf g v) (i, j + 1) (i + 1, j) → Merged g results m' (i, j + 1) (i + 1, j)) := by
  have hzone : ∀ l, at2 2 [zoneOf g v (i, j), zoneOf g v (i, j + 1), zoneOf g v (i + 1, j), zoneOf g v (i + 1, j + 1)] l ≠ none →
      zoneOf g v (i + l.1, j + l.2) = at2 2 [zoneOf g v (i, j), zoneOf g v (i, j + 1), zoneOf g v (i + 1, j), zoneOf g v (i + 1, j + 1)] l := by
    intro l hl
    rw [at2_four] at hl ⊢
    split at hl
    · rename_i e; subst e; rfl
    · split at hl
      · rename_i e; subst e; rfl
      · split at hl
        · rename_i e; subst e; rfl
        · split at hl
          · rename_i e; subst e; rfl
          · exact absurd rfl hl
  have hex : ∀ (corner : Corner Z) (c : Nat × Nat), CornerOf g results corner c → zoneOf g v c ≠ none →
      ∃ a, CornerGid (Gid g.n1 results) corner a := fun corner c hc hz => by
    obtain ⟨k, hk⟩ := (hf.cell hg).1 hz
    obtain ⟨a, ha⟩ := hf.gid hk
    exact ⟨a, (hc.gid hg a).2 ⟨k, hk, ha⟩⟩
  have hsame : ∀ (x y : Corner Z) (l l' : Nat × Nat) a b, CornerOf g results x (i + l.1, j + l.2) → CornerOf g results y (i + l'.1, j + l'.2) →
      ReflTransGen (Linked true (at2 2 [zoneOf g v (i, j), zoneOf g v (i, j + 1), zoneOf g v (i + 1, j), zoneOf g v (i + 1, j + 1)])) l l' →
      CornerGid (Gid g.n1 results) x a → CornerGid (Gid g.n1 results) y b → SameClump g true v results a b := by
    intro x y l l' a b hx hy hp ha hb
    obtain ⟨k, k1, k2⟩ := (hx.gid hg a).1 ha
    obtain ⟨k', k1', k2'⟩ := (hy.gid hg b).1 hb
    exact ⟨_, _, k, k', k1, k2, k1', k2', path_map (fun l => (i + l.1, j + l.2)) (fun _ _ h => adjacent_add.2 h) hzone hp⟩
  obtain ⟨m', e1, e2, e3, e4, e5⟩ := mergeCorners_ok (nw := nw) (ne := ne) (sw := sw) (se := se)
    (zones := [zoneOf g v (i, j), zoneOf g v (i, j + 1), zoneOf g v (i + 1, j), zoneOf g v (i + 1, j + 1)]) (hf.related hg) h rfl hfuel
    (hex nw _ hnw) (hex ne _ hne) (hex sw _ hsw) (hex se _ hse)
    (fun a b hp _ ha hb => hsame nw se (0, 0) (1, 1) a b hnw hse hp ha hb)
    (fun a b hp _ ha hb => hsame ne sw (0, 1) (1, 0) a b hne hsw hp ha hb)
  refine ⟨m', e1, e2, e3, fun hl => ?_, fun hl => ?_⟩
  · obtain ⟨a1, a2, a3⟩ := e4 ⟨.inr ⟨.inl rfl, .inr ⟨rfl, .inl rfl⟩⟩, hl.2.1, hl.2.2⟩
    exact ⟨fun k k' a b h1 h2 h3 h4 => a1 a b ((hnw.gid hg a).2 ⟨k, h1, h3⟩) ((hse.gid hg b).2 ⟨k', h2, h4⟩),
      fun k hk => a2 k ((hnw.key hg k).2 hk), fun k hk => a3 k ((hse.key hg k).2 hk)⟩
  · obtain ⟨a1, a2, a3⟩ := e5 ⟨.inr ⟨.inl rfl, .inr ⟨rfl, .inr rfl⟩⟩, hl.2.1, hl.2.2⟩
    exact ⟨fun k k' a b h1 h2 h3 h4 => a1 a b ((hne.gid hg a).2 ⟨k, h1, h3⟩) ((hsw.gid hg b).2 ⟨k', h2, h4⟩),
      fun k hk => a2 k ((hne.key hg k).2 hk), fun k hk => a3 k ((hsw.key hg k).2 hk)⟩

theorem mergeSouthEast_ok (hg : g.Ok) (hf : Found g diagonal v results) {m : Merges}
    (h : MInv (Gid g.n1 results) (SameClump g diagonal v results) m) {fuel : Nat} {k0 k1 : Nat} (h0 : k0 < g.n0) (h1 : k1 < g.n1)
    (hfuel : 18 < fuel) :
    ∃ m', mergeSouthEast fuel g.n0 g.n1 diagonal results k0 k1 m = .ok m' ∧ MInv (Gid g.n1 results) (SameClump g diagonal v results) m' ∧
      Le m m' ∧
      (∀ c c', InPart g k0 k1 c → InPart g (k0 + 1) (k1 + 1) c' → Linked diagonal (zoneOf g v) c c' → Merged g results m' c c') ∧
      (∀ c c', InPart g k0 (k1 + 1) c → InPart g (k0 + 1) k1 c' → Linked diagonal (zoneOf g v) c c' → Merged g results m' c c') := by
  by_cases hs : diagonal = true ∧ k0 + 1 < g.n0 ∧ k1 + 1 < g.n1
  · obtain ⟨rfl, s0, s1⟩ := hs
    obtain ⟨nw, nw1, nw2⟩ := hf.result h0 h1
    obtain ⟨ne, ne1, ne2⟩ := hf.result h0 s1
    obtain ⟨sw, sw1, sw2⟩ := hf.result s0 h1
    obtain ⟨se, se1, se2⟩ := hf.result s0 s1
    have hr0 := rows_pos hg k0
    have hr0' := rows_pos hg (k0 + 1)
    have hr1 := cols_pos hg k1
    have hr1' := cols_pos hg (k1 + 1)
    have er0 := rows_eq s0
    have er1 := cols_eq s1
    have hm0 : (k0 + 1) * g.p0 = k0 * g.p0 + g.p0 := by rw [Nat.add_mul, Nat.one_mul]
    have hm1 : (k1 + 1) * g.p1 = k1 * g.p1 + g.p1 := by rw [Nat.add_mul, Nat.one_mul]
    have cnw : IsCell g ((k0 + 1) * g.p0 - 1) ((k1 + 1) * g.p1 - 1) k0 k1 (g.rows k0 - 1) (g.cols k1 - 1) :=
      ⟨h0, h1, by omega, by omega, by omega, by omega⟩
    have cne : IsCell g ((k0 + 1) * g.p0 - 1) ((k1 + 1) * g.p1 - 1 + 1) k0 (k1 + 1) (g.rows k0 - 1) 0 :=
      ⟨h0, s1, by omega, by omega, by omega, by omega⟩
    have csw : IsCell g ((k0 + 1) * g.p0 - 1 + 1) ((k1 + 1) * g.p1 - 1) (k0 + 1) k1 0 (g.cols k1 - 1) :=
      ⟨s0, h1, by omega, by omega, by omega, by omega⟩
    have cse : IsCell g ((k0 + 1) * g.p0 - 1 + 1) ((k1 + 1) * g.p1 - 1 + 1) (k0 + 1) (k1 + 1) 0 0 :=
      ⟨s0, s1, by omega, by omega, by omega, by omega⟩
    have zz : ∀ {p : Local Z} {i j k0 k1 l0 l1 : Nat}, PartOk g true v k0 k1 p → IsCell g i j k0 k1 l0 l1 →
        get (g.cols k1) p.zones l0 l1 = .ok (zoneOf g v (i, j)) := fun {p i j k0 k1 l0 l1} hp hc => by
      rw [zoneOf_cell hg hc, hc.i_eq, hc.j_eq, ← hp.zone l0 l1 hc.l0_lt hc.l1_lt]
      exact get_ok hp.zones_len hc.l0_lt hc.l1_lt
    have cc : ∀ {p : Local Z} {i j k0 k1 l0 l1 : Nat}, PartOk g true v k0 k1 p → IsCell g i j k0 k1 l0 l1 →
        get (g.cols k1) p.clumps l0 l1 = .ok (at2 (g.cols k1) p.clumps (l0, l1)) := fun {p i j k0 k1 l0 l1} hp hc =>
      get_ok hp.clumps_len hc.l0_lt hc.l1_lt
    obtain ⟨m', e1, e2, e3, e4, e5⟩ := corners_ok (i := (k0 + 1) * g.p0 - 1) (j := (k1 + 1) * g.p1 - 1) hg hf h
      (nw := ⟨k0, k1, nw, at2 (g.cols k1) nw.clumps (g.rows k0 - 1, g.cols k1 - 1)⟩) (ne := ⟨k0, k1 + 1, ne, at2 (g.cols (k1 + 1)) ne.clumps (g.rows k0 - 1, 0)⟩)
      (sw := ⟨k0 + 1, k1, sw, at2 (g.cols k1) sw.clumps (0, g.cols k1 - 1)⟩) (se := ⟨k0 + 1, k1 + 1, se, at2 (g.cols (k1 + 1)) se.clumps (0, 0)⟩)
      ⟨nw1, _, _, cnw, rfl⟩ ⟨ne1, _, _, cne, rfl⟩ ⟨sw1, _, _, csw, rfl⟩ ⟨se1, _, _, cse, rfl⟩ hfuel
    have near : ∀ {c c' : Nat × Nat} {a b a' b' : Nat}, Adjacent true c c' → InPart g a b c → InPart g a' b' c' →
        (a + 1 < g.n0 → a' = a + 1 → c.1 = (a + 1) * g.p0 - 1 ∧ c'.1 = (a + 1) * g.p0 - 1 + 1) ∧
        (b + 1 < g.n1 → b' = b + 1 → c.2 = (b + 1) * g.p1 - 1 ∧ c'.2 = (b + 1) * g.p1 - 1 + 1) ∧
        (b' + 1 < g.n1 → b = b' + 1 → c'.2 = (b' + 1) * g.p1 - 1 ∧ c.2 = (b' + 1) * g.p1 - 1 + 1) := by
      rintro c c' a b a' b' hadj ⟨l0, l1, hc⟩ ⟨l0', l1', hc'⟩
      have a1 := hc.i_eq; have a2 := hc.j_eq; have a3 := hc.l0_lt; have a4 := hc.l1_lt
      have b1 := hc'.i_eq; have b2 := hc'.j_eq; have b3 := hc'.l0_lt; have b4 := hc'.l1_lt
      unfold Adjacent at hadj
      refine ⟨fun n e => ?_, fun n e => ?_, fun n e => ?_⟩
      · rw [rows_eq n] at a3; subst e; rw [Nat.add_mul, Nat.one_mul] at b1 ⊢; omega
      · rw [cols_eq n] at a4; subst e; rw [Nat.add_mul, Nat.one_mul] at b2 ⊢; omega
      · rw [cols_eq n] at b4; subst e; rw [Nat.add_mul, Nat.one_mul] at a2 ⊢; omega
    refine ⟨m', ?_, e2, e3, ?_, ?_⟩
    · unfold mergeSouthEast
      rw [if_pos (by simp; omega), resultAt_ok h1 nw1, M.bind_ok, resultAt_ok s1 ne1, M.bind_ok, resultAt_ok h1 sw1, M.bind_ok,
        resultAt_ok s1 se1, M.bind_ok, nw2.nc, nw2.nr, ne2.nc, ne2.nr, sw2.nc, se2.nc]
      rw [zz nw2 cnw, M.bind_ok, zz ne2 cne, M.bind_ok, zz sw2 csw, M.bind_ok, zz se2 cse, M.bind_ok,
        cc nw2 cnw, M.bind_ok, cc ne2 cne, M.bind_ok, cc sw2 csw, M.bind_ok, cc se2 cse, M.bind_ok]
      exact e1
    · intro c c' hc hc' hl
      obtain ⟨n1, n2, _⟩ := near hl.1 hc hc'
      obtain ⟨a1, a2⟩ := n1 s0 rfl
      obtain ⟨b1, b2⟩ := n2 s1 rfl
      rw [show c = ((k0 + 1) * g.p0 - 1, (k1 + 1) * g.p1 - 1) from Prod.ext a1 b1,
        show c' = ((k0 + 1) * g.p0 - 1 + 1, (k1 + 1) * g.p1 - 1 + 1) from Prod.ext a2 b2] at hl ⊢
      exact e4 hl
    · intro c c' hc hc' hl
      obtain ⟨n1, _, n2⟩ := near hl.1 hc hc'
      obtain ⟨a1, a2⟩ := n1 s0 rfl
      obtain ⟨b1, b2⟩ := n2 s1 rfl
      rw [show c = ((k0 + 1) * g.p0 - 1, (k1 + 1) * g.p1 - 1 + 1) from Prod.ext a1 b2,
        show c' = ((k0 + 1) * g.p0 - 1 + 1, (k1 + 1) * g.p1 - 1) from Prod.ext a2 b1] at hl ⊢
      exact e5 hl
  · refine ⟨m, ?_, h, Le.refl _, ?_, ?_⟩
    · unfold mergeSouthEast
      rw [if_neg]
      simp only [Bool.and_eq_true, decide_eq_true_eq]
      rintro ⟨d, e1, e2⟩
      exact hs ⟨d, by omega, by omega⟩
    · rintro c c' ⟨l0, l1, hc⟩ ⟨l0', l1', hc'⟩ hl
      exfalso
      refine hs ⟨?_, hc'.k0_lt, hc'.k1_lt⟩
      cases hd : diagonal with
      | true => rfl
      | false =>
        have a1 := hc.i_eq; have a2 := hc.j_eq; have a3 := hc.l0_lt; have a4 := hc.l1_lt
        have b1 := hc'.i_eq; have b2 := hc'.j_eq
        rw [rows_eq hc'.k0_lt] at a3; rw [cols_eq hc'.k1_lt] at a4
        rw [Nat.add_mul, Nat.one_mul] at b1 b2
        have hadj := hl.1
        rw [hd] at hadj
        simp only [Adjacent, Bool.false_eq_true, false_and, or_false] at hadj
        omega
    · rintro c c' ⟨l0, l1, hc⟩ ⟨l0', l1', hc'⟩ hl
      exfalso
      refine hs ⟨?_, hc'.k0_lt, hc.k1_lt⟩
      cases hd : diagonal with
      | true => rfl
      | false =>
        have a1 := hc.i_eq; have a2 := hc.j_eq; have a3 := hc.l0_lt
        have b1 := hc'.i_eq; have b2 := hc'.j_eq; have b4 := hc'.l1_lt
        rw [rows_eq hc'.k0_lt] at a3; rw [cols_eq hc.k1_lt] at b4
        rw [Nat.add_mul, Nat.one_mul] at b1 a2
        have hadj := hl.1
        rw [hd] at hadj
        simp only [Adjacent, Bool.false_eq_true, false_and, or_false] at hadj
        omega

/-- All pairs of neighbouring cells at the south and east side of the partition have been handled. -/
structure Handled (g : Grid) (diagonal : Bool) (v : Arr (Option Z)) (results : List (Local Z)) (m : Merges) (k0 k1 : Nat) : Prop where
  south : ∀ c c', InPart g k0 k1 c → InPart g (k0 + 1) k1 c' → Linked diagonal (zoneOf g v) c c' → Merged g results m c c'
  east : ∀ c c', InPart g k0 k1 c → InPart g k0 (k1 + 1) c' → Linked diagonal (zoneOf g v) c c' → Merged g results m c c'
  southEast : ∀ c c', InPart g k0 k1 c → InPart g (k0 + 1) (k1 + 1) c' → Linked diagonal (zoneOf g v) c c' → Merged g results m c c'
  southWest : ∀ c c', InPart g k0 (k1 + 1) c → InPart g (k0 + 1) k1 c' → Linked diagonal (zoneOf g v) c c' → Merged g results m c c'

omit [DecidableEq Z] in
theorem Handled.mono {m m' : Merges} {k0 k1 : Nat} (h : Handled g diagonal v results m k0 k1) (hle : Le m m') :
    Handled g diagonal v results m' k0 k1 :=
  ⟨fun c c' h1 h2 h3 => (h.south c c' h1 h2 h3).mono hle, fun c c' h1 h2 h3 => (h.east c c' h1 h2 h3).mono hle,
    fun c c' h1 h2 h3 => (h.southEast c c' h1 h2 h3).mono hle, fun c c' h1 h2 h3 => (h.southWest c c' h1 h2 h3).mono hle⟩

theorem mergeBorders_ok (hg : g.Ok) (hf : Found g diagonal v results) {fuel : Nat} (hfuel : 4 * (2 * (g.a0 + g.a1)) + 2 < fuel) :
    ∃ m, mergeBorders fuel g.n0 g.n1 diagonal results = .ok m ∧ MInv (Gid g.n1 results) (SameClump g diagonal v results) m ∧
      ∀ k0 k1, k0 < g.n0 → k1 < g.n1 → Handled g diagonal v results m k0 k1 := by
  have hpos0 := hg.pos0
  have hpos1 := hg.pos1
  have hle0 := hg.le0
  have hle1 := hg.le1
  obtain ⟨m, e1, e2, e3⟩ := forLoop_inv (n := g.n0)
    (body := fun row m => forLoop g.n1 (fun col m => do
      let m ← mergeSouth fuel g.n0 g.n1 diagonal results row col m
      let m ← mergeEast fuel g.n1 diagonal results row col m
      mergeSouthEast fuel g.n0 g.n1 diagonal results row col m) m)
    (fun i m => MInv (Gid g.n1 results) (SameClump g diagonal v results) m ∧
      ∀ k0 k1, k0 < i → k1 < g.n1 → Handled g diagonal v results m k0 k1)
    (fun i hi m ⟨i1, i2⟩ => by
      obtain ⟨m', f1, f2, f3, f4⟩ := forLoop_inv (n := g.n1)
        (body := fun col m => do
          let m ← mergeSouth fuel g.n0 g.n1 diagonal results i col m
          let m ← mergeEast fuel g.n1 diagonal results i col m
          mergeSouthEast fuel g.n0 g.n1 diagonal results i col m)
        (fun j m' => MInv (Gid g.n1 results) (SameClump g diagonal v results) m' ∧ Le m m' ∧
          ∀ k1, k1 < j → Handled g diagonal v results m' i k1)
        (fun j hj m' ⟨j1, j2, j3⟩ => by
          obtain ⟨b0, b1⟩ := size_bound hg hi hj
          obtain ⟨m1, a1, a2, a3, a4⟩ := mergeSouth_ok (fuel := fuel) hg hf j1 hi hj (by omega)
          obtain ⟨m2, c1, c2, c3, c4⟩ := mergeEast_ok (fuel := fuel) hg hf a2 hi hj (by omega)
          obtain ⟨m3, d1, d2, d3, d4, d5⟩ := mergeSouthEast_ok (fuel := fuel) hg hf c2 hi hj (by omega)
          refine ⟨m3, by rw [a1, M.bind_ok, c1, M.bind_ok, d1], d2, j2.trans (a3.trans (c3.trans d3)), fun k1 hk => ?_⟩
          by_cases he : k1 = j
          · subst he
            exact ⟨fun c c' h1 h2 h3 => (a4 c c' h1 h2 h3).mono (c3.trans d3), fun c c' h1 h2 h3 => (c4 c c' h1 h2 h3).mono d3, d4, d5⟩
          · exact (j3 k1 (by omega)).mono (a3.trans (c3.trans d3)))
        m ⟨i1, Le.refl _, fun k1 hk => by omega⟩
      refine ⟨m', f1, f2, fun k0 k1 h0 h1 => ?_⟩
      by_cases he : k0 = i
      · subst he; exact f4 k1 h1
      · exact (i2 k0 k1 (by omega) h1).mono f3)
    ⟨[], []⟩ ⟨minv_empty, fun k0 k1 h => by omega⟩
  exact ⟨m, e1, e2, e3⟩

/-- Partitions of cells at distance at most one are neighbours. -/
theorem near_parts {a p i i' k k' l l' : Nat} (hp : 0 < p) (hk : k < a / p) (hk' : k' < a / p) (hl : l < Dim.extent a p k)
    (hl' : l' < Dim.extent a p k') (hi : i = k * p + l) (hi' : i' = k' * p + l') (h : i ≤ i' + 1) (h' : i' ≤ i + 1) :
    (i = i' → k = k') ∧ (k = k' ∨ k' = k + 1 ∨ k = k' + 1) := by
  have key : ∀ {k k' l l' : Nat}, k < k' → k' < a / p → l < Dim.extent a p k →
      k * p + l < (k + 1) * p ∧ (k + 1) * p ≤ k' * p + l' ∧ (k' ≠ k + 1 → (k + 1) * p + p ≤ k' * p + l') := by
    intro k k' l l' hlt hk' hl
    rw [Dim.extent_of_not_last (by omega)] at hl
    have e1 : (k + 1) * p ≤ k' * p := Nat.mul_le_mul_right _ hlt
    refine ⟨by rw [Nat.add_mul, Nat.one_mul]; omega, by omega, fun hne => ?_⟩
    have e2 : (k + 2) * p ≤ k' * p := Nat.mul_le_mul_right _ (by omega)
    rw [Nat.add_mul] at e2 ⊢
    omega
  rcases Nat.lt_trichotomy k k' with hlt | he | hlt
  · obtain ⟨e1, e2, e3⟩ := key (l' := l') hlt hk' hl
    refine ⟨fun he => by omega, ?_⟩
    by_cases hne : k' = k + 1
    · exact .inr (.inl hne)
    · have := e3 hne; omega
  · exact ⟨fun _ => he, .inl he⟩
  · obtain ⟨e1, e2, e3⟩ := key (l' := l) hlt hk hl'
    refine ⟨fun he => by omega, ?_⟩
    by_cases hne : k = k' + 1
    · exact .inr (.inr hne)
    · have := e3 hne; omega

omit [DecidableEq Z] in
/-- All neighbouring cells in different partitions have been handled. -/
theorem merged_of_handled (hg : g.Ok) {m : Merges}
    (h : ∀ k0 k1, k0 < g.n0 → k1 < g.n1 → Handled g diagonal v results m k0 k1) {c c' : Nat × Nat} {k0 k1 k0' k1' : Nat}
    (hc : InPart g k0 k1 c) (hc' : InPart g k0' k1' c') (hl : Linked diagonal (zoneOf g v) c c') (hne : ¬ (k0 = k0' ∧ k1 = k1')) :
    Merged g results m c c' := by
  obtain ⟨l0, l1, ic⟩ := hc
  obtain ⟨l0', l1', ic'⟩ := hc'
  have hadj : c.1 ≤ c'.1 + 1 ∧ c'.1 ≤ c.1 + 1 ∧ c.2 ≤ c'.2 + 1 ∧ c'.2 ≤ c.2 + 1 := by
    have := hl.1; unfold Adjacent at this; omega
  obtain ⟨_, e0⟩ := near_parts hg.pos0 ic.k0_lt ic'.k0_lt ic.l0_lt ic'.l0_lt ic.i_eq ic'.i_eq hadj.1 hadj.2.1
  obtain ⟨_, e1⟩ := near_parts hg.pos1 ic.k1_lt ic'.k1_lt ic.l1_lt ic'.l1_lt ic.j_eq ic'.j_eq hadj.2.2.1 hadj.2.2.2
  have hin : InPart g k0 k1 c := ⟨l0, l1, ic⟩
  have hin' : InPart g k0' k1' c' := ⟨l0', l1', ic'⟩
  rcases e0 with rfl | rfl | rfl <;> rcases e1 with rfl | rfl | rfl
  · exact absurd ⟨rfl, rfl⟩ hne
  · exact (h _ _ ic.k0_lt ic.k1_lt).east c c' hin hin' hl
  · exact ((h _ _ ic'.k0_lt ic'.k1_lt).east c' c hin' hin hl.symm).symm
  · exact (h _ _ ic.k0_lt ic.k1_lt).south c c' hin hin' hl
  · exact (h _ _ ic.k0_lt ic.k1_lt).southEast c c' hin hin' hl
  · exact (h _ _ ic.k0_lt ic'.k1_lt).southWest c c' hin hin' hl
  · exact ((h _ _ ic'.k0_lt ic'.k1_lt).south c' c hin' hin hl.symm).symm
  · exact ((h _ _ ic'.k0_lt ic.k1_lt).southWest c' c hin' hin hl.symm).symm
  · exact ((h _ _ ic'.k0_lt ic'.k1_lt).southEast c' c hin' hin hl.symm).symm

end Lue.Clump

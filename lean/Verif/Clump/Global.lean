import Verif.Clump.Union

/-!
C24: the cells of the whole array.
-/
namespace Lue.Clump

open Relation Lue.Decomposition

variable {Z : Type}

/-- The zone of a location. There are no zones outside of the array. -/
def zoneOf {α : Type} (g : Grid) (v : Arr (Option α)) (c : Nat × Nat) : Option α := if c.1 < g.a0 ∧ c.2 < g.a1 then v c.1 c.2 else none

theorem zoneOf_cell {α : Type} {g : Grid} (hg : g.Ok) {v : Arr (Option α)} {i j k0 k1 l0 l1 : Nat} (h : IsCell g i j k0 k1 l0 l1) :
    zoneOf g v (i, j) = v i j := if_pos (h.lt hg)

theorem isCell_of_zone {g : Grid} (hg : g.Ok) {v : Arr (Option Z)} {c : Nat × Nat} (h : zoneOf g v c ≠ none) :
    ∃ k0 k1 l0 l1, IsCell g c.1 c.2 k0 k1 l0 l1 := by
  unfold zoneOf at h
  split at h
  · rename_i h'; exact exists_isCell hg h'.1 h'.2
  · exact absurd rfl h

/-- A map between arrays which preserves zones and neighbours preserves paths. -/
theorem path_map {diagonal : Bool} {z z' : Nat × Nat → Option Z} (f : Nat × Nat → Nat × Nat)
    (hadj : ∀ c c', Adjacent diagonal c c' → Adjacent diagonal (f c) (f c')) (hz : ∀ c, z c ≠ none → z' (f c) = z c)
    {c c' : Nat × Nat} (h : ReflTransGen (Linked diagonal z) c c') : ReflTransGen (Linked diagonal z') (f c) (f c') := by
  induction h with
  | refl => exact .refl
  | tail _ h ih =>
    refine ih.tail ⟨hadj _ _ h.1, ?_, ?_⟩
    · rw [hz _ h.2.1]; exact h.2.1
    · rw [hz _ h.2.1, hz _ h.symm.2.1]; exact h.2.2

/-- The clumps in partition (k0, k1) have been found. -/
structure PartOk (g : Grid) (diagonal : Bool) (v : Arr (Option Z)) (k0 k1 : Nat) (p : Local Z) : Prop where
  nr : p.nr = g.rows k0
  nc : p.nc = g.cols k1
  zones_len : p.zones.length = g.rows k0 * g.cols k1
  clumps_len : p.clumps.length = g.rows k0 * g.cols k1
  zone : ∀ l0 l1, l0 < g.rows k0 → l1 < g.cols k1 → at2 (g.cols k1) p.zones (l0, l1) = v (k0 * g.p0 + l0) (k1 * g.p1 + l1)
  clumps : ∃ n, IsClumps diagonal (at2 (g.cols k1) p.zones) (at2 (g.cols k1) p.clumps) n ∧
    ∀ id, (∃ gid, p.lut.get id = some gid) ↔ id < n

/-- The clumps in the partitions have been found, and have been given global ids. -/
structure Found (g : Grid) (diagonal : Bool) (v : Arr (Option Z)) (results : List (Local Z)) : Prop where
  len : results.length = g.n0 * g.n1
  part : ∀ k0 k1 p, k0 < g.n0 → k1 < g.n1 → results[k0 * g.n1 + k1]? = some p → PartOk g diagonal v k0 k1 p
  inj : ∀ k k' gid, Gid g.n1 results k gid → Gid g.n1 results k' gid → k = k'

/-- The key of the clump a cell is part of. -/
def CellKey (g : Grid) (results : List (Local Z)) (c : Nat × Nat) (k : Key) : Prop :=
  ∃ (l0 l1 : Nat) (p : Local Z), IsCell g c.1 c.2 k.1 k.2.1 l0 l1 ∧ results[k.1 * g.n1 + k.2.1]? = some p ∧
    at2 (g.cols k.2.1) p.clumps (l0, l1) = some k.2.2

/-- The global ids of clumps which are connected -/
def SameClump (g : Grid) (diagonal : Bool) (v : Arr (Option Z)) (results : List (Local Z)) (a b : Nat) : Prop :=
  ∃ c c' k k', CellKey g results c k ∧ Gid g.n1 results k a ∧ CellKey g results c' k' ∧ Gid g.n1 results k' b ∧
    ReflTransGen (Linked diagonal (zoneOf g v)) c c'

theorem Gid.unique {n1 : Nat} {results : List (Local Z)} {k : Key} {a b : Nat} (h : Gid n1 results k a) (h' : Gid n1 results k b) :
    a = b := by
  obtain ⟨_, p, e1, e2⟩ := h
  obtain ⟨_, p', e1', e2'⟩ := h'
  rw [e1] at e1'; cases e1'
  rw [e2] at e2'; exact Option.some.inj e2'

theorem adjacent_add {diagonal : Bool} {a b : Nat} {c c' : Nat × Nat} :
    Adjacent diagonal (a + c.1, b + c.2) (a + c'.1, b + c'.2) ↔ Adjacent diagonal c c' := by
  unfold Adjacent; cases diagonal <;> simp <;> omega

section

variable {g : Grid} {diagonal : Bool} {v : Arr (Option Z)} {results : List (Local Z)}

theorem CellKey.unique (hg : g.Ok) {c : Nat × Nat} {k k' : Key} (h : CellKey g results c k) (h' : CellKey g results c k') : k = k' := by
  obtain ⟨l0, l1, p, e1, e2, e3⟩ := h
  obtain ⟨l0', l1', p', f1, f2, f3⟩ := h'
  obtain ⟨a1, a2, a3, a4⟩ := e1.unique hg f1
  rw [a1, a2, f2] at e2
  cases e2
  subst a3; subst a4
  rw [a2, f3] at e3
  exact Prod.ext a1 (Prod.ext a2 (Option.some.inj e3).symm)

/-- Cells of the same local clump are connected. -/
theorem Found.path (hg : g.Ok) (hf : Found g diagonal v results) {c c' : Nat × Nat} {k : Key} (h : CellKey g results c k)
    (h' : CellKey g results c' k) : ReflTransGen (Linked diagonal (zoneOf g v)) c c' := by
  obtain ⟨l0, l1, p, e1, e2, e3⟩ := h
  obtain ⟨l0', l1', p', f1, f2, f3⟩ := h'
  rw [e2] at f2; cases f2
  have hp := hf.part _ _ p e1.k0_lt e1.k1_lt e2
  obtain ⟨n, hc, _⟩ := hp.clumps
  have hz : ∀ l, at2 (g.cols k.2.1) p.clumps l = some k.2.2 → at2 (g.cols k.2.1) p.zones l ≠ none := fun l hl hn => by
    rw [(hc.noData l).2 hn] at hl; cases hl
  have hpath := (hc.same (l0, l1) (l0', l1') (hz _ e3) (hz _ f3)).1 (by rw [e3, f3])
  have := path_map (z' := zoneOf g v) (fun l => (k.1 * g.p0 + l.1, k.2.1 * g.p1 + l.2)) (fun _ _ h => adjacent_add.2 h)
    (fun l hl => by
      obtain ⟨a, ha⟩ := Option.ne_none_iff_exists'.1 hl
      obtain ⟨b1, b2⟩ := lt_of_cell hp.zones_len ha
      rw [hp.zone l.1 l.2 b1 b2]
      exact zoneOf_cell hg (v := v) (⟨e1.k0_lt, e1.k1_lt, b1, b2, rfl, rfl⟩ : IsCell g (k.1 * g.p0 + l.1) (k.2.1 * g.p1 + l.2) k.1 k.2.1 l.1 l.2)) hpath
  have hc1 : c = (k.1 * g.p0 + l0, k.2.1 * g.p1 + l1) := Prod.ext e1.i_eq e1.j_eq
  have hc2 : c' = (k.1 * g.p0 + l0', k.2.1 * g.p1 + l1') := Prod.ext f1.i_eq f1.j_eq
  rw [hc1, hc2]; exact this

theorem Found.result (hf : Found g diagonal v results) {k0 k1 : Nat} (h0 : k0 < g.n0) (h1 : k1 < g.n1) :
    ∃ p, results[k0 * g.n1 + k1]? = some p ∧ PartOk g diagonal v k0 k1 p := by
  have hlt : k0 * g.n1 + k1 < results.length := by rw [hf.len]; exact idx_lt h0 h1
  exact ⟨_, List.getElem?_eq_getElem hlt, hf.part k0 k1 _ h0 h1 (List.getElem?_eq_getElem hlt)⟩

/-- The cell in the partition has a key if and only if it has a zone. -/
theorem Found.cell (hg : g.Ok) (hf : Found g diagonal v results) {c : Nat × Nat} :
    zoneOf g v c ≠ none ↔ ∃ k, CellKey g results c k := by
  constructor
  · intro h
    obtain ⟨k0, k1, l0, l1, hc⟩ := isCell_of_zone hg h
    obtain ⟨p, e1, e2⟩ := hf.result hc.k0_lt hc.k1_lt
    obtain ⟨n, hcl, _⟩ := e2.clumps
    have hz : at2 (g.cols k1) p.zones (l0, l1) ≠ none := by
      rw [e2.zone l0 l1 hc.l0_lt hc.l1_lt, ← hc.i_eq, ← hc.j_eq, ← zoneOf_cell hg (v := v) hc]; exact h
    obtain ⟨id, hid⟩ := Option.ne_none_iff_exists'.1 (fun hn => hz ((hcl.noData (l0, l1)).1 hn))
    exact ⟨(k0, k1, id), l0, l1, p, hc, e1, hid⟩
  · rintro ⟨k, l0, l1, p, e1, e2, e3⟩
    have hp := hf.part _ _ p e1.k0_lt e1.k1_lt e2
    obtain ⟨n, hcl, _⟩ := hp.clumps
    have : zoneOf g v c = at2 (g.cols k.2.1) p.zones (l0, l1) := by
      rw [hp.zone l0 l1 e1.l0_lt e1.l1_lt, ← e1.i_eq, ← e1.j_eq]; exact zoneOf_cell hg e1
    rw [this]
    intro hn
    rw [(hcl.noData (l0, l1)).2 hn] at e3; cases e3

theorem Found.gid (hf : Found g diagonal v results) {c : Nat × Nat} {k : Key} (h : CellKey g results c k) :
    ∃ a, Gid g.n1 results k a := by
  obtain ⟨l0, l1, p, e1, e2, e3⟩ := h
  obtain ⟨n, hcl, hn⟩ := (hf.part _ _ p e1.k0_lt e1.k1_lt e2).clumps
  obtain ⟨a, ha⟩ := (hn k.2.2).2 ((hcl.ids _).1 ⟨_, e3⟩)
  exact ⟨a, e1.k1_lt, p, e2, ha⟩

/-- Neighbouring cells in a partition with the same zone are in the same local clump. -/
theorem Found.linked (hg : g.Ok) (hf : Found g diagonal v results) {c c' : Nat × Nat} {k k' : Key} (h : CellKey g results c k)
    (h' : CellKey g results c' k') (hl : Linked diagonal (zoneOf g v) c c') (h0 : k.1 = k'.1) (h1 : k.2.1 = k'.2.1) : k = k' := by
  obtain ⟨l0, l1, p, e1, e2, e3⟩ := h
  obtain ⟨l0', l1', p', f1, f2, f3⟩ := h'
  rw [← h0, ← h1] at f1 f2
  rw [← h1] at f3
  rw [e2] at f2; cases f2
  have hp := hf.part _ _ p e1.k0_lt e1.k1_lt e2
  obtain ⟨n, hcl, _⟩ := hp.clumps
  have hz : ∀ l0 l1 (c : Nat × Nat), IsCell g c.1 c.2 k.1 k.2.1 l0 l1 → at2 (g.cols k.2.1) p.zones (l0, l1) = zoneOf g v c :=
    fun l0 l1 c hc => by
      rw [hp.zone l0 l1 hc.l0_lt hc.l1_lt, ← hc.i_eq, ← hc.j_eq]; exact (zoneOf_cell hg hc).symm
  have hz1 := hz _ _ _ e1
  have hz2 := hz _ _ _ f1
  have hadj : Adjacent diagonal (l0, l1) (l0', l1') := by
    have := hl.1
    rw [show c = (k.1 * g.p0 + l0, k.2.1 * g.p1 + l1) from Prod.ext e1.i_eq e1.j_eq,
      show c' = (k.1 * g.p0 + l0', k.2.1 * g.p1 + l1') from Prod.ext f1.i_eq f1.j_eq] at this
    exact adjacent_add.1 this
  have hll : Linked diagonal (at2 (g.cols k.2.1) p.zones) (l0, l1) (l0', l1') := ⟨hadj, by rw [hz1]; exact hl.2.1, by
    rw [hz1, hz2]; exact hl.2.2⟩
  have := (hcl.same _ _ hll.2.1 hll.symm.2.1).2 (.single hll)
  rw [e3, f3] at this
  exact Prod.ext h0 (Prod.ext h1 (Option.some.inj this))

theorem Found.related (hg : g.Ok) (hf : Found g diagonal v results) :
    Related (Gid g.n1 results) (SameClump g diagonal v results) where
  unique _ _ _ h h' := h.unique h'
  symm a b := by
    rintro ⟨c, c', k, k', h1, h2, h3, h4, h5⟩
    exact ⟨c', c, k', k, h3, h4, h1, h2, path_symm h5⟩
  trans a b d := by
    rintro ⟨c, c', k, k', h1, h2, h3, h4, h5⟩ ⟨e, e', q, q', g1, g2, g3, g4, g5⟩
    have := hf.inj _ _ _ h4 g2
    subst this
    exact ⟨c, e', k, q', h1, h2, g3, g4, h5.trans ((hf.path hg h3 g1).trans g5)⟩

theorem SameClump.path (hg : g.Ok) (hf : Found g diagonal v results) {a b : Nat} (h : SameClump g diagonal v results a b)
    {c c' : Nat × Nat} {k k' : Key} (h1 : CellKey g results c k) (h2 : Gid g.n1 results k a) (h3 : CellKey g results c' k')
    (h4 : Gid g.n1 results k' b) : ReflTransGen (Linked diagonal (zoneOf g v)) c c' := by
  obtain ⟨e, e', q, q', g1, g2, g3, g4, g5⟩ := h
  have := hf.inj _ _ _ g2 h2
  subst this
  have := hf.inj _ _ _ g4 h4
  subst this
  exact (hf.path hg h1 g1).trans (g5.trans (hf.path hg g3 h3))

/-- The ids of two cells are in the same collection, and the collections are known for the local clumps. -/
structure Merged (g : Grid) (results : List (Local Z)) (m : Merges) (c c' : Nat × Nat) : Prop where
  joined : ∀ k k' a b, CellKey g results c k → CellKey g results c' k' → Gid g.n1 results k a → Gid g.n1 results k' b → Joined m a b
  left : ∀ k, CellKey g results c k → HasKey m k
  right : ∀ k, CellKey g results c' k → HasKey m k

theorem Merged.symm {m : Merges} {c c' : Nat × Nat} (h : Merged g results m c c') : Merged g results m c' c :=
  ⟨fun k k' a b h1 h2 h3 h4 => by
    obtain ⟨i, s, e1, e2, e3⟩ := h.joined k' k b a h2 h1 h4 h3
    exact ⟨i, s, e1, e3, e2⟩, h.right, h.left⟩

theorem Merged.mono {m m' : Merges} {c c' : Nat × Nat} (h : Merged g results m c c') (hle : Le m m') : Merged g results m' c c' :=
  ⟨fun k k' a b h1 h2 h3 h4 => (h.joined k k' a b h1 h2 h3 h4).mono hle, fun k hk => (h.left k hk).mono hle,
    fun k hk => (h.right k hk).mono hle⟩

/-- `side` contains the ids, and `zones` the zones, of cells `f 0`, `f 1`, ... -/
def SideOf (g : Grid) (results : List (Local Z)) (side : Side Z) (zones : List (Option Z)) (nc : Nat) (f : Nat → Nat × Nat) : Prop :=
  zones.length = nc ∧ results[side.row * g.n1 + side.col]? = some side.result ∧
    ∀ j, j < nc → ∃ l0 l1, IsCell g (f j).1 (f j).2 side.row side.col l0 l1 ∧
      side.ids[j]? = some (at2 (g.cols side.col) side.result.clumps (l0, l1)) ∧
      zones[j]? = some (at2 (g.cols side.col) side.result.zones (l0, l1))

theorem SideOf.key (hg : g.Ok) {side : Side Z} {zones : List (Option Z)} {nc : Nat} {f : Nat → Nat × Nat}
    (h : SideOf g results side zones nc f) {j : Nat} (hj : j < nc) (k : Key) : SideKey side j k ↔ CellKey g results (f j) k := by
  obtain ⟨_, hr, hc⟩ := h
  obtain ⟨l0, l1, e1, e2, e3⟩ := hc j hj
  constructor
  · rintro ⟨id, h1, rfl⟩
    rw [e2] at h1
    exact ⟨l0, l1, side.result, e1, hr, Option.some.inj h1⟩
  · rintro ⟨l0', l1', p, f1, f2, f3⟩
    obtain ⟨a1, a2, a3, a4⟩ := e1.unique hg f1
    rw [← a1, ← a2, hr] at f2
    cases f2
    rw [← a2, ← a3, ← a4] at f3
    exact ⟨k.2.2, by rw [e2, f3], Prod.ext a1.symm (Prod.ext a2.symm rfl)⟩

theorem SideOf.gid (hg : g.Ok) {side : Side Z} {zones : List (Option Z)} {nc : Nat} {f : Nat → Nat × Nat}
    (h : SideOf g results side zones nc f) {j : Nat} (hj : j < nc) (a : Nat) :
    SideGid (Gid g.n1 results) side j a ↔ ∃ k, CellKey g results (f j) k ∧ Gid g.n1 results k a := by
  constructor
  · rintro ⟨id, h1, h2, h3⟩
    exact ⟨_, (h.key hg hj _).1 ⟨id, h1, rfl⟩, h3⟩
  · rintro ⟨k, h1, h2⟩
    obtain ⟨id, e1, rfl⟩ := (h.key hg hj _).2 h1
    refine ⟨id, e1, ?_, h2⟩
    obtain ⟨_, p, f1, f2⟩ := h2
    rw [h.2.1] at f1; cases f1
    exact f2

theorem SideOf.zone (hg : g.Ok) (hf : Found g diagonal v results) {side : Side Z} {zones : List (Option Z)} {nc : Nat} {f : Nat → Nat × Nat}
    (h : SideOf g results side zones nc f) {j : Nat} (hj : j < nc) : zones[j]? = some (zoneOf g v (f j)) := by
  obtain ⟨_, hr, hc⟩ := h
  obtain ⟨l0, l1, e1, e2, e3⟩ := hc j hj
  have hp := hf.part _ _ _ e1.k0_lt e1.k1_lt hr
  rw [e3, hp.zone l0 l1 e1.l0_lt e1.l1_lt, ← e1.i_eq, ← e1.j_eq, ← zoneOf_cell hg (v := v) e1]

theorem at2_append {α : Type} {nc : Nat} {a b : List (Option α)} (ha : a.length = nc) (hb : b.length = nc) (c : Nat × Nat) :
    at2 nc (a ++ b) c = if c.2 < nc then (if c.1 = 0 then (a[c.2]?).join else if c.1 = 1 then (b[c.2]?).join else none) else none := by
  unfold at2
  by_cases h : c.2 < nc
  · rw [if_pos h, cell_eq h]
    by_cases h0 : c.1 = 0
    · rw [if_pos h0, h0, Nat.zero_mul, Nat.zero_add, List.getElem?_append_left (by omega)]
    · rw [if_neg h0]
      by_cases h1 : c.1 = 1
      · rw [if_pos h1, h1, Nat.one_mul, List.getElem?_append_right (by omega), ha, Nat.add_sub_cancel_left]
      · rw [if_neg h1, List.getElem?_eq_none]
        · rfl
        · have : 2 * nc ≤ c.1 * nc := Nat.mul_le_mul_right _ (by omega)
          rw [List.length_append]; omega
  · rw [if_neg h, cell, if_neg h]

theorem border_ok [DecidableEq Z] (hg : g.Ok) (hf : Found g diagonal v results) {m : Merges}
    (h : MInv (Gid g.n1 results) (SameClump g diagonal v results) m) {north south : Side Z} {nz sz : List (Option Z)} {nc : Nat}
    {f : Nat × Nat → Nat × Nat} (hn : SideOf g results north nz nc (fun j => f (0, j))) (hs : SideOf g results south sz nc (fun j => f (1, j)))
    (hadj : ∀ c c', Adjacent diagonal (f c) (f c') ↔ Adjacent diagonal c c') {fuel : Nat} (hfuel : 4 * (2 * nc) + 2 < fuel) :
    ∃ m', mergeBorder fuel diagonal north south nz sz m = .ok m' ∧ MInv (Gid g.n1 results) (SameClump g diagonal v results) m' ∧
      Le m m' ∧ ∀ j j', j < nc → j' < nc → Linked diagonal (zoneOf g v) (f (0, j)) (f (1, j')) → Merged g results m' (f (0, j)) (f (1, j')) := by
  have hz : ∀ c, at2 nc (nz ++ sz) c ≠ none → c.1 < 2 ∧ c.2 < nc := fun c hc => by
    rw [at2_append hn.1 hs.1] at hc
    split at hc
    · rename_i h2
      split at hc
      · exact ⟨by omega, h2⟩
      · split at hc
        · exact ⟨by omega, h2⟩
        · exact absurd rfl hc
    · exact absurd rfl hc
  have hzone : ∀ c, c.1 < 2 → c.2 < nc → at2 nc (nz ++ sz) c = zoneOf g v (f c) := fun c h1 h2 => by
    rw [at2_append hn.1 hs.1, if_pos h2]
    by_cases h0 : c.1 = 0
    · rw [if_pos h0, hn.zone hg hf h2, show c = (0, c.2) from Prod.ext h0 rfl]; rfl
    · have h1 : c.1 = 1 := by omega
      rw [if_neg h0, if_pos h1, hs.zone hg hf h2, show c = (1, c.2) from Prod.ext h1 rfl]; rfl
  have hgid : ∀ c a, c.2 < nc → (BorderGid (Gid g.n1 results) north south c a → ∃ k, CellKey g results (f c) k ∧ Gid g.n1 results k a) := by
    rintro c a hc (⟨h0, h1⟩ | ⟨h0, h1⟩)
    · rw [show c = (0, c.2) from Prod.ext h0 rfl]; exact (hn.gid hg hc a).1 h1
    · rw [show c = (1, c.2) from Prod.ext h0 rfl]; exact (hs.gid hg hc a).1 h1
  obtain ⟨m', e1, e2, e3, e4⟩ := mergeBorder_ok (north := north) (south := south) (diagonal := diagonal) (hf.related hg) h hn.1 hs.1 hfuel (fun c h1 h2 h3 => by
      rw [hzone c h1 h2] at h3
      obtain ⟨k, hk⟩ := (hf.cell hg).1 h3
      obtain ⟨a, ha⟩ := hf.gid hk
      refine ⟨a, ?_⟩
      by_cases h0 : c.1 = 0
      · rw [show c = (0, c.2) from Prod.ext h0 rfl] at hk
        exact .inl ⟨h0, (hn.gid hg h2 a).2 ⟨k, hk, ha⟩⟩
      · have h1' : c.1 = 1 := by omega
        rw [show c = (1, c.2) from Prod.ext h1' rfl] at hk
        exact .inr ⟨h1', (hs.gid hg h2 a).2 ⟨k, hk, ha⟩⟩)
    (fun c c' a b hp hc ha hb => by
      have hc' : at2 nc (nz ++ sz) c' ≠ none := by rw [← path_zone hp]; exact hc
      obtain ⟨k, k1, k2⟩ := hgid c a (hz c hc).2 ha
      obtain ⟨k', k1', k2'⟩ := hgid c' b (hz c' hc').2 hb
      exact ⟨f c, f c', k, k', k1, k2, k1', k2', path_map f (fun _ _ h => (hadj _ _).2 h)
        (fun c hc => (hzone c (hz c hc).1 (hz c hc).2).symm) hp⟩)
  refine ⟨m', e1, e2, e3, fun j j' hj hj' hl => ?_⟩
  obtain ⟨a1, a2, a3⟩ := e4 j j' ⟨(hadj _ _).1 hl.1, by rw [hzone _ (by simp) hj]; exact hl.2.1, by
    rw [hzone _ (by simp) hj, hzone _ (by simp) hj']; exact hl.2.2⟩
  refine ⟨fun k k' a b h1 h2 h3 h4 => a1 a b ((hn.gid hg hj a).2 ⟨k, h1, h3⟩) ((hs.gid hg hj' b).2 ⟨k', h2, h4⟩), fun k hk => ?_, fun k hk => ?_⟩
  · exact a2 k ((hn.key hg hj k).2 hk)
  · exact a3 k ((hs.key hg hj' k).2 hk)

end

end Lue.Clump

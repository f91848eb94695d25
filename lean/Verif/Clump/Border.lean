import Verif.Clump.Collections

/-!
C24: borders and corners.
-/
namespace Lue.Clump

open Relation

variable {Z : Type} [DecidableEq Z] {gids : Key → Nat → Prop} {same : Nat → Nat → Prop}

/-- Ids are related in case cells with these ids are connected. -/
structure Related (gids : Key → Nat → Prop) (same : Nat → Nat → Prop) : Prop where
  unique : ∀ k a b, gids k a → gids k b → a = b
  symm : ∀ a b, same a b → same b a
  trans : ∀ a b c, same a b → same b c → same a c

/-- The global id of a cell along a border: row 0 contains the cells in one partition, row 1 the cells in the other. -/
def BorderGid (gids : Key → Nat → Prop) (north south : Side Z) (c : Nat × Nat) (g : Nat) : Prop :=
  (c.1 = 0 ∧ SideGid gids north c.2 g) ∨ (c.1 = 1 ∧ SideGid gids south c.2 g)

theorem getElem_at2 {α : Type} {nr nc : Nat} {data : List (Option α)} (hl : data.length = nr * nc) {i j : Nat} (hi : i < nr) (hj : j < nc) :
    data[i * nc + j]? = some (at2 nc data (i, j)) := by
  have h : i * nc + j < data.length := by rw [hl]; exact idx_lt hi hj
  unfold at2
  rw [cell_eq hj, List.getElem?_eq_getElem h]; rfl

theorem visitRow_ok {nc : Nat} {zones : List (Option Z)} (hz : zones.length = 2 * nc) (diagonal : Bool) {fuel : Nat}
    (hfuel : 4 * (2 * nc) + 2 < fuel) :
    ∃ s, forLoop nc (fun col s => visit fuel 2 nc diagonal zones 0 col s) (List.replicate (2 * nc) none, 0) = .ok s ∧
      VisitInv 2 nc diagonal zones (fun c => c.1 = 0 ∧ c.2 < nc) s := by
  apply forLoop_inv (fun j => VisitInv 2 nc diagonal zones (fun c => c.1 = 0 ∧ c.2 < j))
  · intro j hj s hs
    obtain ⟨s', h1, h2⟩ := visit_ok hz (by omega) hj hfuel hs (fun c hc => ⟨rfl, by simp only; omega⟩)
    refine ⟨s', h1, h2.congr fun c => ?_⟩
    have : c = (0, j) ↔ c.1 = 0 ∧ c.2 = j := by
      constructor
      · rintro rfl; exact ⟨rfl, rfl⟩
      · rintro ⟨e1, e2⟩; exact Prod.ext e1 e2
    rw [this]; omega
  · refine ⟨List.length_replicate, ?_, fun c h => by omega, ?_, ?_, ?_, ?_⟩
    · intro c h; exact absurd (at2_replicate _ c) h
    · intro c c' _; rw [at2_replicate, at2_replicate]
    · intro c c' id h; rw [at2_replicate] at h; cases h
    · intro id
      constructor
      · rintro ⟨c, h⟩; rw [at2_replicate] at h; cases h
      · intro h; omega
    · intro c h; exact absurd (at2_replicate _ c) h

theorem mergeBorder_ok (hrel : Related gids same) {m : Merges} (h : MInv gids same m) {diagonal : Bool} {north south : Side Z}
    {nc : Nat} {northZones southZones : List (Option Z)} (hln : northZones.length = nc) (hls : southZones.length = nc) {fuel : Nat}
    (hfuel : 4 * (2 * nc) + 2 < fuel)
    (hgid : ∀ c, c.1 < 2 → c.2 < nc → at2 nc (northZones ++ southZones) c ≠ none → ∃ g, BorderGid gids north south c g)
    (hsame : ∀ c c' g g', ReflTransGen (Linked diagonal (at2 nc (northZones ++ southZones))) c c' →
      at2 nc (northZones ++ southZones) c ≠ none →
      BorderGid gids north south c g → BorderGid gids north south c' g' → same g g') :
    ∃ m', mergeBorder fuel diagonal north south northZones southZones m = .ok m' ∧ MInv gids same m' ∧ Le m m' ∧
      ∀ j j', Linked diagonal (at2 nc (northZones ++ southZones)) (0, j) (1, j') →
        (∀ g g', SideGid gids north j g → SideGid gids south j' g' → Joined m' g g') ∧
        (∀ k, SideKey north j k → HasKey m' k) ∧ (∀ k, SideKey south j' k → HasKey m' k) := by
  have hz : (northZones ++ southZones).length = 2 * nc := by rw [List.length_append, hln, hls]; omega
  obtain ⟨⟨clumps, n⟩, v1, v2⟩ := visitRow_ok hz diagonal hfuel
  have hcl : clumps.length = 2 * nc := v2.len
  have hget0 : ∀ j, j < nc → clumps[j]? = some (at2 nc clumps (0, j)) := fun j hj => by
    have := getElem_at2 hcl (show 0 < 2 by omega) hj
    rwa [Nat.zero_mul, Nat.zero_add] at this
  have hget1 : ∀ j, j < nc → clumps[nc + j]? = some (at2 nc clumps (1, j)) := fun j hj => by
    have := getElem_at2 hcl (show 1 < 2 by omega) hj
    rwa [Nat.one_mul] at this
  obtain ⟨⟨handled, m'⟩, l1, l2, l3, l4, l5⟩ := forLoop_inv (n := nc) (body := mergeIdx north south nc clumps)
    (fun j (s : List Nat × Merges) => MInv gids same s.2 ∧ Le m s.2 ∧
      (∀ i < j, ∀ id, at2 nc clumps (0, i) = some id → id ∈ s.1) ∧
      ∀ id ∈ s.1, ∀ j1 j2, j1 < nc → j2 < nc → at2 nc clumps (0, j1) = some id → at2 nc clumps (1, j2) = some id →
        (∀ g g', SideGid gids north j1 g → SideGid gids south j2 g' → Joined s.2 g g') ∧
        (∀ k, SideKey north j1 k → HasKey s.2 k) ∧ (∀ k, SideKey south j2 k → HasKey s.2 k))
    (fun j hj s ⟨i1, i2, i3, i4⟩ => by
      unfold mergeIdx
      rw [rd_ok (hget0 j hj), M.bind_ok]
      cases hid : at2 nc clumps (0, j) with
      | none =>
        refine ⟨s, rfl, i1, i2, fun i hi id h' => ?_, i4⟩
        by_cases hij : i = j
        · rw [hij, hid] at h'; cases h'
        · exact i3 i (by omega) id h'
      | some id =>
        by_cases hc : s.1.contains id = true
        · refine ⟨s, by simp only [hc, if_true], i1, i2, fun i hi id' h' => ?_, i4⟩
          by_cases hij : i = j
          · rw [hij, hid] at h'; cases h'
            exact List.contains_iff_mem.1 hc
          · exact i3 i (by omega) id' h'
        · have hnot : id ∉ s.1 := fun hm => hc (List.contains_iff_mem.2 hm)
          have hfirst : ∀ i, i < nc → at2 nc clumps (0, i) = some id → j ≤ i := fun i _ h' => by
            by_contra hlt
            exact hnot (i3 i (by omega) id h')
          have hdl : (clumps.drop nc).length = nc := by rw [List.length_drop, hcl]; omega
          have hsfirst : ∀ i, i < nc → at2 nc clumps (1, i) = some id →
              (clumps.drop nc).findIdx (· == some id) ≤ i := fun i hi h' => by
            by_contra hlt
            have hlt' : i < (clumps.drop nc).findIdx (· == some id) := by omega
            have h1 := List.not_of_lt_findIdx hlt'
            have hgi := hget1 i hi
            rw [h', ← List.getElem?_drop] at hgi
            rw [(List.getElem?_eq_some_iff.1 hgi).2] at h1
            simp at h1
          by_cases hs : (clumps.drop nc).findIdx (· == some id) = nc
          · refine ⟨(id :: s.1, s.2), ?_, i1, i2, ?_, ?_⟩
            · simp only [hc, hs, mergeIf, ne_eq, not_true_eq_false, decide_false, Bool.false_eq_true, if_false, M.bind_ok]; rfl
            · intro i hi id' h'
              by_cases hij : i = j
              · rw [hij, hid] at h'; cases h'; simp
              · exact List.mem_cons_of_mem _ (i3 i (by omega) id' h')
            · intro id' hm j1 j2 g1 g2 g3 g4
              rcases List.mem_cons.1 hm with rfl | hm
              · have := hsfirst j2 g2 g4; omega
              · exact i4 id' hm j1 j2 g1 g2 g3 g4
          · have hslt : (clumps.drop nc).findIdx (· == some id) < nc := by
              have := List.findIdx_le_length (xs := clumps.drop nc) (p := (· == some id))
              omega
            have hz0 : ∀ c, at2 nc clumps c = some id → at2 nc (northZones ++ southZones) c ≠ none := fun c h' =>
              v2.zone c (by rw [h']; simp)
            obtain ⟨m1, a1, a2, a3, a4, a5, a6⟩ := mergeClump_ok (north := north) (south := south) i1 hrel.unique hrel.symm hrel.trans hcl hj hslt
              (by rw [hget0 j hj, hid])
              (fun i hi h' => by
                rw [hget0 i hi] at h'
                obtain ⟨g, ⟨_, hg⟩ | ⟨e, _⟩⟩ := hgid (0, i) (by simp) hi (hz0 _ (Option.some.inj h'))
                · exact ⟨g, hg⟩
                · simp at e)
              (fun i hi h' => by
                rw [hget1 i hi] at h'
                obtain ⟨g, ⟨e, _⟩ | ⟨_, hg⟩⟩ := hgid (1, i) (by simp) hi (hz0 _ (Option.some.inj h'))
                · simp at e
                · exact ⟨g, hg⟩)
              (fun i i' g g' hi hi' h1 h2 g1 g2 => by
                rw [hget0 i hi] at h1
                rw [hget0 i' hi'] at h2
                exact hsame _ _ g g' (v2.same _ _ id (Option.some.inj h1) (Option.some.inj h2)) (hz0 _ (Option.some.inj h1))
                  (.inl ⟨rfl, g1⟩) (.inl ⟨rfl, g2⟩))
              (fun i i' g g' hi hi' h1 h2 g1 g2 => by
                rw [hget0 i hi] at h1
                rw [hget1 i' hi'] at h2
                exact hsame _ _ g g' (v2.same _ _ id (Option.some.inj h1) (Option.some.inj h2)) (hz0 _ (Option.some.inj h1))
                  (.inl ⟨rfl, g1⟩) (.inr ⟨rfl, g2⟩))
            refine ⟨(id :: s.1, m1), ?_, a2, i2.trans a3, ?_, ?_⟩
            · simp only [hc, hs, mergeIf, ne_eq, not_false_eq_true, decide_true, if_true, Bool.false_eq_true, if_false, a1, M.bind_ok]; rfl
            · intro i hi id' h'
              by_cases hij : i = j
              · rw [hij, hid] at h'; cases h'; simp
              · exact List.mem_cons_of_mem _ (i3 i (by omega) id' h')
            · intro id' hm j1 j2 g1 g2 g3 g4
              by_cases he : id' = id
              · subst he
                refine ⟨fun g g' e1 e2 => ?_, ?_, ?_⟩
                · exact a6 j1 j2 g g' (hfirst j1 g1 g3) g1 (hsfirst j2 g2 g4) g2 (by rw [hget0 j1 g1, g3]) (by rw [hget1 j2 g2, g4])
                    e1 e2
                · exact a4 j1 (hfirst j1 g1 g3) g1 (by rw [hget0 j1 g1, g3])
                · exact a5 j2 (hsfirst j2 g2 g4) g2 (by rw [hget1 j2 g2, g4])
              · obtain ⟨b1, b2, b3⟩ := i4 id' (by
                  rcases List.mem_cons.1 hm with rfl | hm
                  · exact absurd rfl he
                  · exact hm) j1 j2 g1 g2 g3 g4
                exact ⟨fun g g' e1 e2 => (b1 g g' e1 e2).mono a3, fun k hk => (b2 k hk).mono a3, fun k hk => (b3 k hk).mono a3⟩)
    ([], m) ⟨h, Le.refl _, fun i hi => by omega, fun id hid => by simp at hid⟩
  refine ⟨m', ?_, l2, l3, ?_⟩
  · unfold mergeBorder
    subst hln
    simp only [hls, ne_eq, not_true_eq_false, if_false, v1, M.bind_ok, l1]
    rfl
  · intro j j' hl
    have hj : j < nc := by
      by_contra hn
      refine hl.2.1 ?_
      exact cell_none_of_ge hz (by simp; omega)
    have hj' : j' < nc := by
      by_contra hn
      refine hl.symm.2.1 ?_
      exact cell_none_of_ge hz (by simp; omega)
    have hd := v2.done (0, j) ⟨rfl, hj⟩ hl.2.1
    obtain ⟨id, hid⟩ := Option.ne_none_iff_exists'.1 hd
    have hid' : at2 nc clumps (1, j') = some id := by
      rw [← hid]; exact (v2.linked _ _ hl).symm
    exact l5 id (l4 j hj id hid) j j' hj hj' hid hid'

/-- The id of a local clump in a corner -/
def CornerGid (gids : Key → Nat → Prop) (c : Corner Z) (g : Nat) : Prop :=
  ∃ localId, c.id = some localId ∧ c.result.lut.get localId = some g ∧ gids (c.row, c.col, localId) g

def CornerKey (c : Corner Z) (k : Key) : Prop := ∃ localId, c.id = some localId ∧ k = (c.row, c.col, localId)

omit [DecidableEq Z] in
theorem mergeCorner_ok (hrel : Related gids same) {m : Merges} (h : MInv gids same m) {a b : Corner Z} {ga gb : Nat}
    (ha : CornerGid gids a ga) (hb : CornerGid gids b gb) (hab : same ga gb) :
    ∃ m', mergeCorner a b m = .ok m' ∧ MInv gids same m' ∧ Le m m' ∧ Joined m' ga gb ∧
      (∀ k, CornerKey a k → HasKey m' k) ∧ (∀ k, CornerKey b k → HasKey m' k) := by
  obtain ⟨la, a1, a2, a3⟩ := ha
  obtain ⟨lb, b1, b2, b3⟩ := hb
  have hT : ∀ x y, same x ga → same y ga → same x y := fun x y h1 h2 => hrel.trans x ga y h1 (hrel.symm y ga h2)
  have hba : same gb ga := hrel.symm _ _ hab
  have haa : same ga ga := hrel.trans _ _ _ hab hba
  -- Insert both ids in a collection
  have insert2 : ∀ (m : Merges) (i : Nat) (s : List Nat), MInv gids same m → m.sets[i]? = some s → (∀ x ∈ s, same x ga) →
      ∃ m1 m2 s', insertId m i ga = .ok m1 ∧ insertId m1 i gb = .ok m2 ∧ MInv gids same m2 ∧ Le m m2 ∧ m2.keys = m.keys ∧
        m2.sets[i]? = some s' ∧ ga ∈ s' ∧ gb ∈ s' ∧ (∀ x ∈ s', same x ga) := by
    intro m i s h hs hTs
    obtain ⟨m1, e1, e2, e3, e4, e5, e6⟩ := insertId_ok (T := fun x => same x ga) h hs hTs haa hT
    have hTs' : ∀ x ∈ setInsert ga s, same x ga := fun x hx => by
      rcases mem_setInsert.1 hx with rfl | hx
      · exact haa
      · exact hTs x hx
    obtain ⟨m2, f1, f2, f3, f4, f5, f6⟩ := insertId_ok (T := fun x => same x ga) e2 e6 hTs' hba hT
    refine ⟨m1, m2, _, e1, f1, f2, e3.trans f3, f4.trans e4, f6, ?_, ?_, ?_⟩
    · exact mem_setInsert.2 (.inr (mem_setInsert.2 (.inl rfl)))
    · exact mem_setInsert.2 (.inl rfl)
    · intro x hx
      rcases mem_setInsert.1 hx with rfl | hx
      · exact hba
      · exact hTs' x hx
  have inColl : ∀ (k : Key) (i g : Nat), m.keys.get k = some i → gids k g → same g ga →
      ∃ s : List Nat, m.sets[i]? = some s ∧ g ∈ s ∧ ∀ x ∈ s, same x ga := by
    intro k i g hk hg hgs
    obtain ⟨s, g', e1, e2, e3⟩ := h.keys k i hk
    rw [hrel.unique k g g' hg e2] at *
    exact ⟨s, e1, e3, fun x hx => hrel.trans _ _ _ (h.rel s (List.mem_of_getElem? e1) x hx g' e3) hgs⟩
  have hcomp : ∀ m1 m2 m3 m4 i j m0, cornerCollections (a.row, a.col, la) (b.row, b.col, lb) m = (i, j, m0) →
      insertId m0 i ga = .ok m1 → insertId m1 i gb = .ok m2 → insertId m2 j ga = .ok m3 → insertId m3 j gb = .ok m4 →
      mergeCorner a b m = .ok m4 := by
    intro m1 m2 m3 m4 i j m0 h0 h1 h2 h3 h4
    unfold mergeCorner
    simp only [a1, b1, Option.getD_some, h0, Local.globalClumpId, a2, b2, M.bind_ok, h1, h2, h3, h4]
  have hfin : ∀ (m' : Merges), HasKey m' (a.row, a.col, la) → HasKey m' (b.row, b.col, lb) →
      (∀ k, CornerKey a k → HasKey m' k) ∧ (∀ k, CornerKey b k → HasKey m' k) := by
    intro m' h1 h2
    refine ⟨fun k ⟨l, e1, e2⟩ => ?_, fun k ⟨l, e1, e2⟩ => ?_⟩
    · rw [a1] at e1; cases e1; rw [e2]; exact h1
    · rw [b1] at e1; cases e1; rw [e2]; exact h2
  cases hka : m.keys.get (a.row, a.col, la) with
  | some i =>
    obtain ⟨si, i1, i2, i3⟩ := inColl _ _ _ hka a3 haa
    obtain ⟨m1, m2, s', e1, e2, e3, e4, e5, e6, e7, e8, e9⟩ := insert2 m i si h i1 i3
    cases hkb : m.keys.get (b.row, b.col, lb) with
    | some j =>
      obtain ⟨sj, j1, j2, j3⟩ := inColl _ _ _ hkb b3 hba
      obtain ⟨sj', j4, j5⟩ := e4.sets j sj j1
      have j6 : ∀ x ∈ sj', same x ga := fun x hx =>
        hrel.trans x gb ga (e3.rel sj' (List.mem_of_getElem? j4) x hx gb (j5 gb j2)) hba
      obtain ⟨m3, m4, s'', f1, f2, f3, f4, f5, f6, f7, f8, f9⟩ := insert2 m2 j sj' e3 j4 j6
      have hle := e4.trans f4
      refine ⟨m4, hcomp m1 m2 m3 m4 i j m (by simp only [cornerCollections, hka, hkb]) e1 e2 f1 f2, f3, hle,
        ⟨j, s'', f6, f7, f8⟩, hfin m4 ⟨i, hle.keys _ _ hka⟩ ⟨j, hle.keys _ _ hkb⟩⟩
    | none =>
      -- The key is added before the id is
      obtain ⟨m3, m4, s'', f1, f2, f3, f4, f5, f6, f7, f8, f9⟩ := insert2 m2 i s' e3 e6 e9
      -- Same steps, with the key added
      have key : ∀ (x y : Merges) (c g : Nat), insertId x c g = .ok y →
          insertId { x with keys := x.keys.put (b.row, b.col, lb) i } c g = .ok { y with keys := y.keys.put (b.row, b.col, lb) i } := by
        intro x y c g hxy
        unfold insertId at hxy ⊢
        simp only
        revert hxy
        cases rd x.sets c with
        | error e => intro h; cases h
        | ok t =>
          simp only [M.bind_ok]
          cases wr x.sets c (setInsert g t) with
          | error e => intro h; cases h
          | ok t' => intro h; simp only [M.bind_ok] at h ⊢; cases h; rfl
      have hkb4 : m4.keys.get (b.row, b.col, lb) = none := by rw [f5, e5, hkb]
      refine ⟨{ m4 with keys := m4.keys.put (b.row, b.col, lb) i },
        hcomp _ _ _ _ i i { m with keys := m.keys.put (b.row, b.col, lb) i } (by simp only [cornerCollections, hka, hkb])
          (key _ _ _ _ e1) (key _ _ _ _ e2) (key _ _ _ _ f1) (key _ _ _ _ f2), put_ok f3 f6 b3 f8,
        (e4.trans f4).trans (le_put hkb4), ⟨i, s'', f6, f7, f8⟩, hfin _ ?_ ?_⟩
      · exact ⟨i, (le_put hkb4).keys _ _ ((e4.trans f4).keys _ _ hka)⟩
      · exact ⟨i, by simp [AMap.get_put]⟩
  | none =>
    have key : ∀ (k : Key) (i : Nat) (x y : Merges) (c g : Nat), insertId x c g = .ok y →
        insertId { x with keys := x.keys.put k i } c g = .ok { y with keys := y.keys.put k i } := by
      intro k i x y c g hxy
      unfold insertId at hxy ⊢
      simp only
      revert hxy
      cases rd x.sets c with
      | error e => intro h; cases h
      | ok t =>
        simp only [M.bind_ok]
        cases wr x.sets c (setInsert g t) with
        | error e => intro h; cases h
        | ok t' => intro h; simp only [M.bind_ok] at h ⊢; cases h; rfl
    cases hkb : m.keys.get (b.row, b.col, lb) with
    | some j =>
      obtain ⟨sj, j1, j2, j3⟩ := inColl _ _ _ hkb b3 hba
      obtain ⟨m1, m2, s', e1, e2, e3, e4, e5, e6, e7, e8, e9⟩ := insert2 m j sj h j1 j3
      obtain ⟨m3, m4, s'', f1, f2, f3, f4, f5, f6, f7, f8, f9⟩ := insert2 m2 j s' e3 e6 e9
      have hka4 : m4.keys.get (a.row, a.col, la) = none := by rw [f5, e5, hka]
      refine ⟨{ m4 with keys := m4.keys.put (a.row, a.col, la) j },
        hcomp _ _ _ _ j j { m with keys := m.keys.put (a.row, a.col, la) j } (by simp only [cornerCollections, hka, hkb])
          (key _ _ _ _ _ _ e1) (key _ _ _ _ _ _ e2) (key _ _ _ _ _ _ f1) (key _ _ _ _ _ _ f2), put_ok f3 f6 a3 f7,
        (e4.trans f4).trans (le_put hka4), ⟨j, s'', f6, f7, f8⟩, hfin _ ?_ ?_⟩
      · exact ⟨j, by simp [AMap.get_put]⟩
      · exact ⟨j, (le_put hka4).keys _ _ ((e4.trans f4).keys _ _ hkb)⟩
    | none =>
      have hE : MInv gids same { m with sets := m.sets ++ [[]] } := h.addEmpty
      have hEi : ({ m with sets := m.sets ++ [[]] } : Merges).sets[m.sets.length]? = some [] := by simp
      obtain ⟨m1, m2, s', e1, e2, e3, e4, e5, e6, e7, e8, e9⟩ := insert2 _ m.sets.length [] hE hEi (by simp)
      obtain ⟨m3, m4, s'', f1, f2, f3, f4, f5, f6, f7, f8, f9⟩ := insert2 m2 m.sets.length s' e3 e6 e9
      have hka4 : m4.keys.get (a.row, a.col, la) = none := by rw [f5, e5]; exact hka
      have hkb4 : m4.keys.get (b.row, b.col, lb) = none := by rw [f5, e5]; exact hkb
      have hA : MInv gids same { m4 with keys := m4.keys.put (a.row, a.col, la) m.sets.length } := put_ok f3 f6 a3 f7
      have hleA : Le m { m4 with keys := m4.keys.put (a.row, a.col, la) m.sets.length } :=
        ((le_addEmpty m).trans (e4.trans f4)).trans (le_put hka4)
      have hB := put_ok (k := (b.row, b.col, lb)) (i := m.sets.length) hA (show _ = some s'' from f6) b3 f8
      refine ⟨{ m4 with keys := (m4.keys.put (a.row, a.col, la) m.sets.length).put (b.row, b.col, lb) m.sets.length },
        hcomp _ _ _ _ m.sets.length m.sets.length
          ⟨(m.keys.put (a.row, a.col, la) m.sets.length).put (b.row, b.col, lb) m.sets.length, m.sets ++ [[]]⟩
          (by simp only [cornerCollections, hka, hkb])
          (key _ _ _ _ _ _ (key _ _ _ _ _ _ e1)) (key _ _ _ _ _ _ (key _ _ _ _ _ _ e2))
          (key _ _ _ _ _ _ (key _ _ _ _ _ _ f1)) (key _ _ _ _ _ _ (key _ _ _ _ _ _ f2)), hB, ⟨?_, ?_⟩,
        ⟨m.sets.length, s'', f6, f7, f8⟩, hfin _ ?_ ?_⟩
      · exact hleA.sets
      · intro k i hk
        simp only [AMap.get_put]
        split
        · rename_i he; subst he; rw [hkb] at hk; cases hk
        · split
          · rename_i he; subst he; rw [hka] at hk; cases hk
          · rw [f5, e5]; exact hk
      · by_cases he : (b.row, b.col, lb) = (a.row, a.col, la)
        · exact ⟨m.sets.length, by simp [AMap.get_put, he]⟩
        · exact ⟨m.sets.length, by simp only [AMap.get_put, if_neg he, if_true]⟩
      · exact ⟨m.sets.length, by simp [AMap.get_put]⟩

theorem mergeCorners_ok (hrel : Related gids same) {m : Merges} (h : MInv gids same m) {nw ne sw se : Corner Z}
    {zones : List (Option Z)} (hz : zones.length = 4) {fuel : Nat} (hfuel : 18 < fuel)
    (hnw : at2 2 zones (0, 0) ≠ none → ∃ g, CornerGid gids nw g) (hne : at2 2 zones (0, 1) ≠ none → ∃ g, CornerGid gids ne g)
    (hsw : at2 2 zones (1, 0) ≠ none → ∃ g, CornerGid gids sw g) (hse : at2 2 zones (1, 1) ≠ none → ∃ g, CornerGid gids se g)
    (hsame1 : ∀ g g', ReflTransGen (Linked true (at2 2 zones)) (0, 0) (1, 1) → at2 2 zones (0, 0) ≠ none → CornerGid gids nw g →
      CornerGid gids se g' → same g g')
    (hsame2 : ∀ g g', ReflTransGen (Linked true (at2 2 zones)) (0, 1) (1, 0) → at2 2 zones (0, 1) ≠ none → CornerGid gids ne g →
      CornerGid gids sw g' → same g g') :
    ∃ m', mergeCorners fuel nw ne sw se zones m = .ok m' ∧ MInv gids same m' ∧ Le m m' ∧
      (Linked true (at2 2 zones) (0, 0) (1, 1) → (∀ g g', CornerGid gids nw g → CornerGid gids se g' → Joined m' g g') ∧
        (∀ k, CornerKey nw k → HasKey m' k) ∧ (∀ k, CornerKey se k → HasKey m' k)) ∧
      (Linked true (at2 2 zones) (0, 1) (1, 0) → (∀ g g', CornerGid gids ne g → CornerGid gids sw g' → Joined m' g g') ∧
        (∀ k, CornerKey ne k → HasKey m' k) ∧ (∀ k, CornerKey sw k → HasKey m' k)) := by
  obtain ⟨clumps, n, c1, c2, c3⟩ := clumpCells_ok (nr := 2) (nc := 2) hz true (fuel := fuel) (by omega)
  have funq : ∀ (c : Corner Z) g g', CornerGid gids c g → CornerGid gids c g' → g = g' := by
    rintro c g g' ⟨l, e1, e2, _⟩ ⟨l', f1, f2, _⟩
    rw [e1] at f1; cases f1
    rw [e2] at f2; exact Option.some.inj f2
  -- A single step
  have step : ∀ (x y : Corner Z) (p q : Nat × Nat) (m : Merges), MInv gids same m →
      (at2 2 zones p ≠ none → ∃ g, CornerGid gids x g) → (at2 2 zones q ≠ none → ∃ g, CornerGid gids y g) →
      (∀ g g', ReflTransGen (Linked true (at2 2 zones)) p q → at2 2 zones p ≠ none → CornerGid gids x g →
        CornerGid gids y g' → same g g') →
      ∃ m', mergeIf ((at2 2 clumps p).isSome && (at2 2 clumps q).isSome && at2 2 clumps p == at2 2 clumps q) (mergeCorner x y) m = .ok m' ∧
        MInv gids same m' ∧ Le m m' ∧
        (Linked true (at2 2 zones) p q → (∀ g g', CornerGid gids x g → CornerGid gids y g' → Joined m' g g') ∧
          (∀ k, CornerKey x k → HasKey m' k) ∧ (∀ k, CornerKey y k → HasKey m' k)) := by
    intro x y p q m hm hx hy hs
    by_cases hc : ((at2 2 clumps p).isSome && (at2 2 clumps q).isSome && at2 2 clumps p == at2 2 clumps q) = true
    · simp only [Bool.and_eq_true, beq_iff_eq, Option.isSome_iff_ne_none] at hc
      obtain ⟨⟨hc1, hc2⟩, hc3⟩ := hc
      have hzp : at2 2 zones p ≠ none := fun hn => hc1 ((c3.noData p).2 hn)
      have hzq : at2 2 zones q ≠ none := fun hn => hc2 ((c3.noData q).2 hn)
      obtain ⟨g, hg⟩ := hx hzp
      obtain ⟨g', hg'⟩ := hy hzq
      obtain ⟨m', e1, e2, e3, e4, e5, e6⟩ := mergeCorner_ok hrel hm hg hg' (hs g g' ((c3.same p q hzp hzq).1 hc3) hzp hg hg')
      refine ⟨m', ?_, e2, e3, fun _ => ⟨fun a a' ha ha' => ?_, e5, e6⟩⟩
      · unfold mergeIf
        rw [if_pos]
        · exact e1
        · simp only [Bool.and_eq_true, beq_iff_eq, Option.isSome_iff_ne_none]
          exact ⟨⟨hc1, hc2⟩, hc3⟩
      · rw [funq x a g ha hg, funq y a' g' ha' hg']; exact e4
    · refine ⟨m, ?_, hm, Le.refl _, fun hl => ?_⟩
      · unfold mergeIf
        rw [if_neg hc]
      · exfalso
        apply hc
        have hzq : at2 2 zones q ≠ none := hl.symm.2.1
        simp only [Bool.and_eq_true, beq_iff_eq, Option.isSome_iff_ne_none]
        exact ⟨⟨fun hn => hl.2.1 ((c3.noData p).1 hn), fun hn => hzq ((c3.noData q).1 hn)⟩, (c3.same p q hl.2.1 hzq).2 (.single hl)⟩
  obtain ⟨m1, e1, e2, e3, e4⟩ := step nw se (0, 0) (1, 1) m h hnw hse hsame1
  obtain ⟨m2, f1, f2, f3, f4⟩ := step ne sw (0, 1) (1, 0) m1 e2 hne hsw hsame2
  have hcl : clumps.length = 2 * 2 := c2
  refine ⟨m2, ?_, f2, e3.trans f3, fun hl => ?_, f4⟩
  · unfold mergeCorners
    rw [c1, M.bind_ok]
    have g0 := getElem_at2 hcl (show 0 < 2 by omega) (show 0 < 2 by omega)
    have g1 := getElem_at2 hcl (show 0 < 2 by omega) (show 1 < 2 by omega)
    have g2 := getElem_at2 hcl (show 1 < 2 by omega) (show 0 < 2 by omega)
    have g3 := getElem_at2 hcl (show 1 < 2 by omega) (show 1 < 2 by omega)
    simp only [rd_ok g0, rd_ok g1, rd_ok g2, rd_ok g3, M.bind_ok, e1, f1]
  · obtain ⟨a1, a2, a3⟩ := e4 hl
    exact ⟨fun g g' h1 h2 => (a1 g g' h1 h2).mono f3, fun k hk => (a2 k hk).mono f3, fun k hk => (a3 k hk).mono f3⟩

end Lue.Clump

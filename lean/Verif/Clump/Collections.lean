import Verif.Clump.Sets
import Verif.Clump.Cells

/-!
C24: the collections of ids to merge.
-/
namespace Lue.Clump

variable {Z : Type}

/-- Collections contain related ids, and each local clump for which a collection is known is in this collection. -/
structure MInv (gids : Key → Nat → Prop) (same : Nat → Nat → Prop) (m : Merges) : Prop where
  sorted : ∀ s ∈ m.sets, Sorted s
  rel : ∀ s ∈ m.sets, ∀ a ∈ s, ∀ b ∈ s, same a b
  keys : ∀ k i, m.keys.get k = some i → ∃ (s : List Nat) (g : Nat), m.sets[i]? = some s ∧ gids k g ∧ g ∈ s
  ok : m.keys.Ok

/-- Nothing is removed from collections. -/
structure Le (m m' : Merges) : Prop where
  sets : ∀ (i : Nat) (s : List Nat), m.sets[i]? = some s → ∃ s' : List Nat, m'.sets[i]? = some s' ∧ ∀ a ∈ s, a ∈ s'
  keys : ∀ k i, m.keys.get k = some i → m'.keys.get k = some i

theorem Le.refl (m : Merges) : Le m m := ⟨fun _ s h => ⟨s, h, fun _ h => h⟩, fun _ _ h => h⟩

theorem Le.trans {m1 m2 m3 : Merges} (h : Le m1 m2) (h' : Le m2 m3) : Le m1 m3 where
  sets i s hs := by
    obtain ⟨s2, e1, e2⟩ := h.sets i s hs
    obtain ⟨s3, e3, e4⟩ := h'.sets i s2 e1
    exact ⟨s3, e3, fun a ha => e4 a (e2 a ha)⟩
  keys k i hk := h'.keys k i (h.keys k i hk)

/-- Both ids are in the same collection. -/
def Joined (m : Merges) (a b : Nat) : Prop := ∃ (i : Nat) (s : List Nat), m.sets[i]? = some s ∧ a ∈ s ∧ b ∈ s

/-- A collection is known for the local clump. -/
def HasKey (m : Merges) (k : Key) : Prop := ∃ i, m.keys.get k = some i

theorem Joined.mono {m m' : Merges} {a b : Nat} (h : Joined m a b) (hle : Le m m') : Joined m' a b := by
  obtain ⟨i, s, e1, e2, e3⟩ := h
  obtain ⟨s', e4, e5⟩ := hle.sets i s e1
  exact ⟨i, s', e4, e5 a e2, e5 b e3⟩

theorem HasKey.mono {m m' : Merges} {k : Key} (h : HasKey m k) (hle : Le m m') : HasKey m' k := by
  obtain ⟨i, e⟩ := h
  exact ⟨i, hle.keys k i e⟩

section

variable {gids : Key → Nat → Prop} {same : Nat → Nat → Prop}

theorem minv_empty : MInv gids same ⟨[], []⟩ :=
  ⟨by simp, by simp, fun k i h => by (rw [AMap.get_nil] at h; cases h), AMap.ok_nil⟩

theorem MInv.addEmpty {m : Merges} (h : MInv gids same m) : MInv gids same { m with sets := m.sets ++ [[]] } where
  sorted s hs := by
    rcases List.mem_append.1 hs with hs | hs
    · exact h.sorted s hs
    · rw [List.mem_singleton.1 hs]; exact sorted_nil
  rel s hs := by
    rcases List.mem_append.1 hs with hs | hs
    · exact h.rel s hs
    · rw [List.mem_singleton.1 hs]; simp
  keys k i hk := by
    obtain ⟨s, g, e1, e2, e3⟩ := h.keys k i hk
    refine ⟨s, g, ?_, e2, e3⟩
    simp only
    rw [List.getElem?_append_left (List.getElem?_eq_some_iff.1 e1).1, e1]
  ok := h.ok

theorem le_addEmpty (m : Merges) : Le m { m with sets := m.sets ++ [[]] } where
  sets i s hs := ⟨s, by simp only; rw [List.getElem?_append_left (List.getElem?_eq_some_iff.1 hs).1, hs], fun _ h => h⟩
  keys _ _ h := h

theorem insertId_ok {m : Merges} (h : MInv gids same m) {i g : Nat} {s : List Nat} (hs : m.sets[i]? = some s) {T : Nat → Prop}
    (hT : ∀ a ∈ s, T a) (hg : T g) (hTT : ∀ a b, T a → T b → same a b) :
    ∃ m', insertId m i g = .ok m' ∧ MInv gids same m' ∧ Le m m' ∧ m'.keys = m.keys ∧
      m'.sets.length = m.sets.length ∧ m'.sets[i]? = some (setInsert g s) := by
  have hi := (List.getElem?_eq_some_iff.1 hs).1
  have hmem : s ∈ m.sets := List.mem_of_getElem? hs
  have hset : ∀ j, (m.sets.set i (setInsert g s))[j]? = if j = i then some (setInsert g s) else m.sets[j]? := by
    intro j
    by_cases hj : j = i
    · rw [hj, List.getElem?_set_self hi, if_pos rfl]
    · rw [List.getElem?_set_ne (Ne.symm hj), if_neg hj]
  have hle : Le m { m with sets := m.sets.set i (setInsert g s) } := by
    refine ⟨fun j t ht => ?_, fun _ _ hk => hk⟩
    simp only [hset]
    by_cases hj : j = i
    · refine ⟨setInsert g s, if_pos hj, fun a ha => ?_⟩
      rw [hj, hs] at ht; cases ht
      exact mem_setInsert.2 (.inr ha)
    · exact ⟨t, by rw [if_neg hj, ht], fun _ ha => ha⟩
  refine ⟨{ m with sets := m.sets.set i (setInsert g s) }, ?_, ⟨?_, ?_, ?_, h.ok⟩, hle, rfl, by simp, by rw [hset, if_pos rfl]⟩
  · rw [insertId, rd_ok hs, M.bind_ok, wr_ok _ hi]; rfl
  · intro t ht
    rcases List.mem_or_eq_of_mem_set ht with ht | rfl
    · exact h.sorted t ht
    · exact sorted_setInsert (h.sorted s hmem)
  · intro t ht a ha b hb
    rcases List.mem_or_eq_of_mem_set ht with ht | rfl
    · exact h.rel t ht a ha b hb
    · refine hTT a b ?_ ?_
      · rcases mem_setInsert.1 ha with rfl | ha
        · exact hg
        · exact hT a ha
      · rcases mem_setInsert.1 hb with rfl | hb
        · exact hg
        · exact hT b hb
  · intro k j hk
    obtain ⟨t, g', e1, e2, e3⟩ := h.keys k j hk
    obtain ⟨t', e4, e5⟩ := hle.sets j t e1
    exact ⟨t', g', e4, e2, e5 g' e3⟩

theorem put_ok {m : Merges} (h : MInv gids same m) {k : Key} {i g : Nat} {s : List Nat} (hs : m.sets[i]? = some s) (hk : gids k g)
    (hg : g ∈ s) : MInv gids same { m with keys := m.keys.put k i } where
  sorted := h.sorted
  rel := h.rel
  ok := h.ok.put k i
  keys k' j hj := by
    simp only [AMap.get_put] at hj
    split at hj
    · rename_i he; subst he; cases hj; exact ⟨s, g, hs, hk, hg⟩
    · exact h.keys k' j hj

theorem le_put {m : Merges} {k : Key} {i : Nat} (h : m.keys.get k = none) : Le m { m with keys := m.keys.put k i } where
  sets j t ht := ⟨t, ht, fun _ h => h⟩
  keys k' j hk := by
    simp only [AMap.get_put]
    split
    · rename_i he; subst he; rw [h] at hk; cases hk
    · exact hk

theorem addKey_ok {m : Merges} (h : MInv gids same m) {k : Key} {i g : Nat} {s : List Nat} (hs : m.sets[i]? = some s)
    (hk : gids k g) (hg : g ∈ s) :
    MInv gids same (addKey m k i) ∧ Le m (addKey m k i) ∧ (addKey m k i).sets = m.sets ∧ HasKey (addKey m k i) k := by
  unfold addKey
  cases hkk : m.keys.get k with
  | none => exact ⟨put_ok h hs hk hg, le_put hkk, rfl, i, by simp [AMap.get_put]⟩
  | some j => exact ⟨h, Le.refl _, rfl, j, hkk⟩

/-- The id of a local clump along a border -/
def SideGid (gids : Key → Nat → Prop) (side : Side Z) (idx g : Nat) : Prop :=
  ∃ localId, side.ids[idx]? = some (some localId) ∧ side.result.lut.get localId = some g ∧ gids (side.row, side.col, localId) g

/-- The key of a local clump along a border -/
def SideKey (side : Side Z) (idx : Nat) (k : Key) : Prop :=
  ∃ localId, side.ids[idx]? = some (some localId) ∧ k = (side.row, side.col, localId)

theorem addIds_ok {side : Side Z} {boundary : List (Option Nat)} {id collection : Nat} {T : Nat → Prop}
    (hTT : ∀ a b, T a → T b → same a b) : ∀ (idxs : List Nat) (m : Merges) (s : List Nat), MInv gids same m →
    m.sets[collection]? = some s → (∀ a ∈ s, T a) → (∀ idx ∈ idxs, idx < boundary.length) →
    (∀ idx ∈ idxs, boundary[idx]? = some (some id) → ∃ g, SideGid gids side idx g ∧ T g) →
    ∃ m' s', addIds side boundary id collection idxs m = .ok m' ∧ MInv gids same m' ∧ Le m m' ∧
      m'.sets.length = m.sets.length ∧ m'.sets[collection]? = some s' ∧ (∀ a ∈ s', T a) ∧ (∀ a ∈ s, a ∈ s') ∧
      ∀ idx ∈ idxs, boundary[idx]? = some (some id) → (∀ g, SideGid gids side idx g → g ∈ s') ∧
        ∀ k, SideKey side idx k → HasKey m' k
  | [], m, s, h, hs, hT, _, _ => ⟨m, s, rfl, h, Le.refl _, rfl, hs, hT, fun _ h => h, by simp⟩
  | idx :: idxs, m, s, h, hs, hT, hlen, hid => by
    unfold addIds
    have hidx := hlen idx (by simp)
    rw [rd_ok (List.getElem?_eq_getElem hidx), M.bind_ok]
    by_cases hb : boundary[idx] = some id
    · have hb' : boundary[idx]? = some (some id) := by rw [List.getElem?_eq_getElem hidx, hb]
      obtain ⟨g, ⟨l, e1, e2, e3⟩, hg⟩ := hid idx (by simp) hb'
      obtain ⟨m1, f1, f2, f3, f4, f5, f6⟩ := insertId_ok h hs hT hg hTT
      obtain ⟨k1, k2, k3, k4⟩ := addKey_ok f2 f6 e3 (mem_setInsert.2 (.inl rfl))
      obtain ⟨m', s', g1, g2, g3, g4, g5, g6, g7, g8⟩ := addIds_ok hTT idxs (addKey m1 (side.row, side.col, l) collection)
        (setInsert g s) k1 (by rw [k3, f6]) (fun a ha => by
          rcases mem_setInsert.1 ha with rfl | ha
          · exact hg
          · exact hT a ha) (fun i hi => hlen i (by simp [hi])) (fun i hi => hid i (by simp [hi]))
      refine ⟨m', s', ?_, g2, f3.trans (k2.trans g3), by rw [g4, k3, f5], g5, g6,
        fun a ha => g7 a (mem_setInsert.2 (.inr ha)), ?_⟩
      · rw [if_pos hb, rd_ok e1]
        simp only [M.bind_ok, Local.globalClumpId, e2, f1, Option.getD_some]
        exact g1
      · intro i hi hbi
        rcases List.mem_cons.1 hi with rfl | hi
        · refine ⟨fun g' ⟨l', e1', e2', _⟩ => ?_, fun k ⟨l', e1', e2'⟩ => ?_⟩
          · rw [e1] at e1'; cases e1'
            rw [e2] at e2'; cases e2'
            exact g7 g (mem_setInsert.2 (.inl rfl))
          · rw [e1] at e1'; cases e1'
            subst e2'
            exact k4.mono g3
        · exact g8 i hi hbi
    · obtain ⟨m', s', g1, g2, g3, g4, g5, g6, g7, g8⟩ := addIds_ok hTT idxs m s h hs hT (fun i hi => hlen i (by simp [hi]))
        (fun i hi => hid i (by simp [hi]))
      refine ⟨m', s', by rw [if_neg hb]; exact g1, g2, g3, g4, g5, g6, g7, ?_⟩
      intro i hi hbi
      rcases List.mem_cons.1 hi with rfl | hi
      · rw [List.getElem?_eq_getElem hidx] at hbi
        exact absurd (Option.some.inj hbi) hb
      · exact g8 i hi hbi

theorem findCollection_ok {m : Merges} {side : Side Z} {boundary : List (Option Nat)} {id : Nat} {T : Nat → Prop}
    (h : MInv gids same m) (hfun : ∀ k a b, gids k a → gids k b → a = b) (hTs : ∀ a b, T a → same b a → T b) :
    ∀ (idxs : List Nat), (∀ idx ∈ idxs, idx < boundary.length) →
    (∀ idx ∈ idxs, boundary[idx]? = some (some id) → ∃ g, SideGid gids side idx g ∧ T g) →
    ∃ r, findCollection m.keys side boundary id idxs = .ok r ∧
      ∀ i, r = some i → ∃ s, m.sets[i]? = some s ∧ ∀ a ∈ s, T a
  | [], _, _ => ⟨none, rfl, fun i h => by cases h⟩
  | idx :: idxs, hlen, hid => by
    unfold findCollection
    have hidx := hlen idx (by simp)
    obtain ⟨r, h1, h2⟩ := findCollection_ok (side := side) (boundary := boundary) (id := id) h hfun hTs idxs
      (fun i hi => hlen i (by simp [hi])) (fun i hi => hid i (by simp [hi]))
    rw [rd_ok (List.getElem?_eq_getElem hidx), M.bind_ok]
    by_cases hb : boundary[idx] = some id
    · have hb' : boundary[idx]? = some (some id) := by rw [List.getElem?_eq_getElem hidx, hb]
      obtain ⟨g, ⟨l, e1, e2, e3⟩, hg⟩ := hid idx (by simp) hb'
      rw [if_pos hb, rd_ok e1, M.bind_ok]
      cases hk : m.keys.get (side.row, side.col, l) with
      | none => exact ⟨r, by simp only [hk, h1], h2⟩
      | some i =>
        refine ⟨some i, by simp only [hk], fun j hj => ?_⟩
        cases hj
        obtain ⟨s, g', f1, f2, f3⟩ := h.keys _ _ hk
        refine ⟨s, f1, fun a ha => hTs g a hg ?_⟩
        rw [hfun _ g g' e3 f2]
        exact h.rel s (List.mem_of_getElem? f1) a ha g' f3
    · exact ⟨r, by rw [if_neg hb, h1], h2⟩

theorem mergeClump_ok {m : Merges} (h : MInv gids same m) (hfun : ∀ k a b, gids k a → gids k b → a = b)
    (hsymm : ∀ a b, same a b → same b a) (htrans : ∀ a b c, same a b → same b c → same a c)
    {north south : Side Z} {nc : Nat} {clumps : List (Option Nat)} (hl : clumps.length = 2 * nc) {id ni si : Nat} (hni : ni < nc)
    (hsi : si < nc) (hn : clumps[ni]? = some (some id))
    (hnorth : ∀ j < nc, clumps[j]? = some (some id) → ∃ g, SideGid gids north j g)
    (hsouth : ∀ j < nc, clumps[nc + j]? = some (some id) → ∃ g, SideGid gids south j g)
    (hnn : ∀ j j' g g', j < nc → j' < nc → clumps[j]? = some (some id) → clumps[j']? = some (some id) → SideGid gids north j g →
      SideGid gids north j' g' → same g g')
    (hns : ∀ j j' g g', j < nc → j' < nc → clumps[j]? = some (some id) → clumps[nc + j']? = some (some id) →
      SideGid gids north j g → SideGid gids south j' g' → same g g') :
    ∃ m', mergeClump north ni south si nc clumps m = .ok m' ∧ MInv gids same m' ∧ Le m m' ∧
      (∀ j, ni ≤ j → j < nc → clumps[j]? = some (some id) → ∀ k, SideKey north j k → HasKey m' k) ∧
      (∀ j, si ≤ j → j < nc → clumps[nc + j]? = some (some id) → ∀ k, SideKey south j k → HasKey m' k) ∧
      ∀ j j' g g', ni ≤ j → j < nc → si ≤ j' → j' < nc → clumps[j]? = some (some id) → clumps[nc + j']? = some (some id) →
        SideGid gids north j g → SideGid gids south j' g' → Joined m' g g' := by
  obtain ⟨g0, hg0⟩ := hnorth ni hni hn
  have hT : ∀ a b, same a g0 → same b g0 → same a b := fun a b h1 h2 => htrans a g0 b h1 (hsymm b g0 h2)
  have hT' : ∀ a b, same a g0 → same b a → same b g0 := fun a b h1 h2 => htrans b a g0 h2 h1
  have htake : ∀ j, j < nc → (clumps.take nc)[j]? = clumps[j]? := fun j hj => by rw [List.getElem?_take_of_lt hj]
  have hdrop : ∀ j, (clumps.drop nc)[j]? = clumps[nc + j]? := fun j => by rw [List.getElem?_drop]
  have nmem : ∀ idx, idx ∈ List.range' ni (nc - ni) ↔ ni ≤ idx ∧ idx < nc := fun idx => by
    rw [List.mem_range'_1]; omega
  have smem : ∀ idx, idx ∈ List.range' si (nc - si) ↔ si ≤ idx ∧ idx < nc := fun idx => by
    rw [List.mem_range'_1]; omega
  have n1 : ∀ idx ∈ List.range' ni (nc - ni), idx < (clumps.take nc).length := fun idx hi => by
    have := (nmem idx).1 hi
    rw [List.length_take]; omega
  have s1 : ∀ idx ∈ List.range' si (nc - si), idx < (clumps.drop nc).length := fun idx hi => by
    have := (smem idx).1 hi
    rw [List.length_drop]; omega
  have n2 : ∀ idx ∈ List.range' ni (nc - ni), (clumps.take nc)[idx]? = some (some id) →
      ∃ g, SideGid gids north idx g ∧ same g g0 := fun idx hi hb => by
    have hi' := (nmem idx).1 hi
    rw [htake idx hi'.2] at hb
    obtain ⟨g, hg⟩ := hnorth idx hi'.2 hb
    exact ⟨g, hg, hnn idx ni g g0 hi'.2 hni hb hn hg hg0⟩
  have s2 : ∀ idx ∈ List.range' si (nc - si), (clumps.drop nc)[idx]? = some (some id) →
      ∃ g, SideGid gids south idx g ∧ same g g0 := fun idx hi hb => by
    have hi' := (smem idx).1 hi
    rw [hdrop idx] at hb
    obtain ⟨g, hg⟩ := hsouth idx hi'.2 hb
    exact ⟨g, hg, hsymm _ _ (hns ni idx g0 g hni hi'.2 hn hb hg0 hg)⟩
  obtain ⟨r1, a1, a2⟩ := findCollection_ok (T := fun a => same a g0) h hfun hT' _ n1 n2
  obtain ⟨r2, b1, b2⟩ := findCollection_ok (T := fun a => same a g0) h hfun hT' _ s1 s2
  -- The collection to use
  have hcoll : ∃ r, otherwise r1 (findCollection m.keys south (clumps.drop nc) id (List.range' si (nc - si))) = .ok r ∧
      ∀ i, r = some i → ∃ s, m.sets[i]? = some s ∧ ∀ a ∈ s, same a g0 := by
    cases r1 with
    | some i => exact ⟨some i, rfl, a2⟩
    | none => exact ⟨r2, b1, b2⟩
  obtain ⟨r, c1, c2⟩ := hcoll
  obtain ⟨coll, m1, s, d0, d1, d2, d3, d4⟩ : ∃ coll m1 s, useCollection r m = (coll, m1) ∧ MInv gids same m1 ∧ Le m m1 ∧
      m1.sets[coll]? = some s ∧ ∀ a ∈ s, same a g0 := by
    cases r with
    | some i =>
      obtain ⟨s, e1, e2⟩ := c2 i rfl
      exact ⟨i, m, s, rfl, h, Le.refl _, e1, e2⟩
    | none => exact ⟨m.sets.length, _, [], rfl, h.addEmpty, le_addEmpty m, by simp, by simp⟩
  obtain ⟨m2, s', e1, e2, e3, e4, e5, e6, e7, e8⟩ := addIds_ok hT _ m1 s d1 d3 d4 n1 n2
  obtain ⟨m3, s'', f1, f2, f3, f4, f5, f6, f7, f8⟩ := addIds_ok hT _ m2 s' e2 e5 e6 s1 s2
  refine ⟨m3, ?_, f2, d2.trans (e3.trans f3), ?_, ?_, ?_⟩
  · unfold mergeClump
    rw [rd_ok hn, M.bind_ok]
    simp only [a1, M.bind_ok, c1, d0, e1]
    exact f1
  · intro j h1 h2 h3 k hk
    exact ((e8 j ((nmem j).2 ⟨h1, h2⟩) (by rw [htake j h2]; exact h3)).2 k hk).mono f3
  · intro j h1 h2 h3 k hk
    exact (f8 j ((smem j).2 ⟨h1, h2⟩) (by rw [hdrop j]; exact h3)).2 k hk
  · intro j j' g g' h1 h2 h3 h4 h5 h6 h7 h8
    refine ⟨coll, s'', f5, f7 g ?_, ?_⟩
    · exact (e8 j ((nmem j).2 ⟨h1, h2⟩) (by rw [htake j h2]; exact h5)).1 g h7
    · exact (f8 j' ((smem j').2 ⟨h3, h4⟩) (by rw [hdrop j']; exact h6)).1 g' h8

end

end Lue.Clump

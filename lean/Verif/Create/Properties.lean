import Verif.Create.Model

/-!
# Creating partitioned arrays: every partition is created once, at the right place
-/
namespace Lue.Create

open Lue.Localities Lue.Decomposition

theorem mapM_ok {α β : Type} {f : α → M β} {g : α → β} : ∀ {l : List α}, (∀ x ∈ l, f x = .ok (g x)) →
    l.mapM f = .ok (l.map g)
  | [], _ => rfl
  | a :: l, h => by
    rw [List.mapM_cons, h a (by simp), M.bind_ok, mapM_ok (fun x hx => h x (by simp [hx])), M.bind_ok]
    rfl

/-- C05: the number of recursive calls allowed in `curve` suffices. -/
theorem curve_ok (n0 n1 : Nat) : ∃ cells, curve n0 n1 = .ok cells ∧ cells.Nodup ∧
    (∀ c : Nat × Nat, c ∈ cells ↔ c.1 < n0 ∧ c.2 < n1) := by
  have key : ∃ l, hilbertCurve (n0 + n1) n0 n1 = some l ∧ l.Nodup ∧
      ∀ i j : Int, (i, j) ∈ l ↔ (0 ≤ i ∧ i < n0) ∧ (0 ≤ j ∧ j < n1) := by
    by_cases h : n0 * n1 > 0
    · have hn : 0 < n0 := Nat.pos_of_ne_zero (by rintro rfl; simp at h)
      have hm : 0 < n1 := Nat.pos_of_ne_zero (by rintro rfl; simp at h)
      by_cases hge : n1 ≥ n0
      · obtain ⟨l, hl, c⟩ := hilbert_covers (n1 + n0) (n0 + n1) n1 n0 0 0 1 0 0 1 (Nat.le_refl _)
          (by omega) hm hn (.inl ⟨rfl, rfl, .inl rfl, .inl rfl⟩)
        refine ⟨l, ?_, c.1, ?_⟩
        · rw [hilbertCurve, if_pos h, if_pos hge]; simpa using hl
        · intro i j
          rw [c.2]
          constructor
          · rintro ⟨s, t, h1, h2, h3, h4, he⟩
            simp [pt] at he
            omega
          · rintro ⟨⟨h1, h2⟩, h3, h4⟩
            exact ⟨j, i, h3, h4, h1, h2, by simp [pt]⟩
      · obtain ⟨l, hl, c⟩ := hilbert_covers (n0 + n1) (n0 + n1) n0 n1 0 0 0 1 1 0 (Nat.le_refl _) (Nat.le_refl _) hn hm
          (.inr ⟨rfl, rfl, .inl rfl, .inl rfl⟩)
        refine ⟨l, ?_, c.1, ?_⟩
        · rw [hilbertCurve, if_pos h, if_neg hge]; simpa using hl
        · intro i j
          rw [c.2]
          constructor
          · rintro ⟨s, t, h1, h2, h3, h4, he⟩
            simp [pt] at he
            omega
          · rintro ⟨⟨h1, h2⟩, h3, h4⟩
            exact ⟨i, j, h1, h2, h3, h4, by simp [pt]⟩
    · refine ⟨[], by rw [hilbertCurve, if_neg h], List.nodup_nil, ?_⟩
      intro i j
      simp only [List.not_mem_nil, false_iff]
      rintro ⟨⟨h1, h2⟩, h3, h4⟩
      have : 0 < n0 * n1 := Nat.mul_pos (by omega) (by omega)
      omega
  obtain ⟨l, h1, h2, h3⟩ := key
  refine ⟨l.map fun c => (c.1.toNat, c.2.toNat), by simp only [curve, h1], ?_, ?_⟩
  · refine List.Nodup.map_on ?_ h2
    rintro ⟨i, j⟩ hx ⟨i', j'⟩ hy he
    have hx' := (h3 i j).mp hx
    have hy' := (h3 i' j').mp hy
    simp only [Prod.mk.injEq] at he ⊢
    omega
  · rintro ⟨c0, c1⟩
    simp only [List.mem_map, Prod.exists, Prod.mk.injEq]
    constructor
    · rintro ⟨i, j, hm, rfl, rfl⟩
      have := (h3 i j).mp hm
      omega
    · intro h
      exact ⟨c0, c1, (h3 c0 c1).mpr (by omega), by omega, by omega⟩

theorem curve_length {n0 n1 : Nat} {cells : List (Nat × Nat)} (hn : cells.Nodup)
    (hc : ∀ c : Nat × Nat, c ∈ cells ↔ c.1 < n0 ∧ c.2 < n1) : cells.length = n0 * n1 := by
  have hp : cells.Perm (cellIdxs n0 n1) := by
    rw [List.perm_ext_iff_of_nodup hn (nodup_cellIdxs _ _)]
    intro c
    rw [hc, mem_cellIdxs]
  rw [hp.length_eq]
  clear hp hc
  simp [cellIdxs]

/-- The partitions assigned, one after the other. -/
def assignAll {α : Type} (n1 : Nat) (s : List (Option Nat) × List (Option (Part α)))
    (l : List ((Nat × Nat) × Nat × Part α)) : M (List (Option Nat) × List (Option (Part α))) :=
  l.foldlM (fun s e => assignPartition n1 s e.1 e.2.1 e.2.2) s

theorem assignAll_ok {α : Type} {n0 n1 : Nat} : ∀ (l : List ((Nat × Nat) × Nat × Part α))
    (s : List (Option Nat) × List (Option (Part α))),
    (∀ e ∈ l, e.1.1 < n0 ∧ e.1.2 < n1) → (l.map (·.1)).Nodup → s.1.length = n0 * n1 → s.2.length = n0 * n1 →
    ∃ s', assignAll n1 s l = .ok s' ∧ s'.1.length = n0 * n1 ∧ s'.2.length = n0 * n1 ∧
      (∀ e ∈ l, s'.1[e.1.1 * n1 + e.1.2]? = some (some e.2.1) ∧ s'.2[e.1.1 * n1 + e.1.2]? = some (some e.2.2)) ∧
      (∀ c : Nat × Nat, c.1 < n0 → c.2 < n1 → c ∉ l.map (·.1) →
        s'.1[c.1 * n1 + c.2]? = s.1[c.1 * n1 + c.2]? ∧ s'.2[c.1 * n1 + c.2]? = s.2[c.1 * n1 + c.2]?) := by
  intro l
  induction l with
  | nil => intro s _ _ h1 h2; exact ⟨s, rfl, h1, h2, by simp, fun _ _ _ _ => ⟨rfl, rfl⟩⟩
  | cons e l ih =>
    intro s hb hn h1 h2
    have hin := hb e (by simp)
    have hlt := idx_lt hin.1 hin.2
    simp only [List.map_cons, List.nodup_cons] at hn
    obtain ⟨s', e1, e2, e3, e4, e5⟩ := ih (s.1.set (e.1.1 * n1 + e.1.2) (some e.2.1),
      s.2.set (e.1.1 * n1 + e.1.2) (some e.2.2)) (fun x hx => hb x (by simp [hx])) hn.2 (by simp [h1]) (by simp [h2])
    refine ⟨s', ?_, e2, e3, ?_, ?_⟩
    · unfold assignAll at e1 ⊢
      rw [List.foldlM_cons, assignPartition, wr_ok _ (by omega), M.bind_ok, wr_ok _ (by omega), M.bind_ok, M.bind_ok]
      exact e1
    · intro x hx
      rcases List.mem_cons.1 hx with rfl | hx
      · have := e5 x.1 hin.1 hin.2 hn.1
        rw [this.1, this.2]
        simp [h1, h2, hlt]
      · exact e4 x hx
    · intro c hc0 hc1 hc
      simp only [List.map_cons, List.mem_cons, not_or] at hc
      have := e5 c hc0 hc1 hc.2
      have hne : e.1.1 * n1 + e.1.2 ≠ c.1 * n1 + c.2 := by
        intro hh
        apply hc.1
        have a := @idx_div n1 e.1.1 e.1.2 hin.2
        have b := @idx_mod n1 e.1.1 e.1.2 hin.2
        rw [hh, idx_div hc1] at a
        rw [hh, idx_mod hc1] at b
        exact Prod.ext a b
      rw [this.1, this.2]
      simp [List.getElem?_set_ne hne]

theorem assignAll_append {α : Type} {n1 : Nat} (s : List (Option Nat) × List (Option (Part α)))
    (l l' : List ((Nat × Nat) × Nat × Part α)) :
    assignAll n1 s (l ++ l') = assignAll n1 s l >>= fun s => assignAll n1 s l' := by
  unfold assignAll
  rw [List.foldlM_append]

/-- Loops over the elements of collections. -/
theorem forLoop_eq_foldlM {σ β : Type} (l : List β) (step : σ → β → M σ) (body : Nat → σ → M σ)
    (h : ∀ i b, l[i]? = some b → ∀ s, body i s = step s b) (s : σ) : forLoop l.length body s = l.foldlM step s := by
  have key : ∀ k ≤ l.length, ∀ s, forLoop k body s = (l.take k).foldlM step s := by
    intro k
    induction k with
    | zero => intro _ s; simp [forLoop]
    | succ k ih =>
      intro hk s
      have hl : l[k]? = some l[k] := by simp
      rw [List.take_add_one, hl]
      unfold forLoop at ih ⊢
      rw [List.range_succ, List.foldlM_append, ih (by omega), List.foldlM_append]
      congr 1
      funext s'
      simp only [List.foldlM_cons, List.foldlM_nil, Option.toList_some]
      rw [h k _ hl]
  rw [key _ (Nat.le_refl _)]
  simp

/-- What ends up in the array, if the entries cover all partitions. -/
theorem finish_ok {α : Type} {a : Nat × Nat} {n0 n1 : Nat} {l : List ((Nat × Nat) × Nat × Part α)}
    (hb : ∀ c : Nat × Nat, c ∈ l.map (·.1) ↔ c.1 < n0 ∧ c.2 < n1) (hn : (l.map (·.1)).Nodup)
    {loc : Nat → Nat} {part : Nat → Part α}
    (hv : ∀ e ∈ l, e.2.1 = loc (e.1.1 * n1 + e.1.2) ∧ e.2.2 = part (e.1.1 * n1 + e.1.2)) :
    (assignAll n1 (List.replicate (n0 * n1) (none : Option Nat), List.replicate (n0 * n1) (none : Option (Part α))) l >>=
      finish a (n0, n1)) =
      .ok ⟨a, (n0, n1), (List.range (n0 * n1)).map loc, (List.range (n0 * n1)).map part⟩ := by
  obtain ⟨s', e1, e2, e3, e4, _⟩ := assignAll_ok l
    (List.replicate (n0 * n1) (none : Option Nat), List.replicate (n0 * n1) (none : Option (Part α)))
    (n0 := n0) (n1 := n1)
    (fun e he => (hb e.1).mp (List.mem_map_of_mem (f := (·.1)) he)) hn (by simp) (by simp)
  have hall : ∀ k < n0 * n1, s'.1[k]? = some (some (loc k)) ∧ s'.2[k]? = some (some (part k)) := by
    intro k hk
    obtain ⟨h0, h1, he⟩ := idx_split hk
    obtain ⟨e, hel, hec⟩ := List.mem_map.1 ((hb (k / n1, k % n1)).mpr ⟨h0, h1⟩)
    have h4 := e4 e hel
    rw [(hv e hel).1, (hv e hel).2, hec] at h4
    simp only [he] at h4
    exact h4
  have h1 : s'.1 = ((List.range (n0 * n1)).map loc).map some := by
    apply List.ext_getElem?
    intro k
    by_cases hk : k < n0 * n1
    · rw [(hall k hk).1]; simp [hk]
    · rw [List.getElem?_eq_none (by omega), List.getElem?_eq_none (by simp; omega)]
  have h2 : s'.2 = ((List.range (n0 * n1)).map part).map some := by
    apply List.ext_getElem?
    intro k
    by_cases hk : k < n0 * n1
    · rw [(hall k hk).2]; simp [hk]
    · rw [List.getElem?_eq_none (by omega), List.getElem?_eq_none (by simp; omega)]
  have hm : ∀ {β : Type} (l : List β), (l.map some).mapM filled = .ok l := by
    intro β l
    induction l with
    | nil => rfl
    | cons a l ih => rw [List.map_cons, List.mapM_cons, filled, M.bind_ok, ih]; rfl
  rw [e1, M.bind_ok, finish, h1, h2, hm, M.bind_ok, hm, M.bind_ok]

/-! ### Locations -/

/-- Offset of a partition, given its linear index. -/
def offsetOf (g : Grid) (k : Nat) : Nat × Nat := (k / g.n1 * g.p0, k % g.n1 * g.p1)

/-- Shape of a partition, given its linear index. -/
def shapeOf (g : Grid) (k : Nat) : Nat × Nat := (g.rows (k / g.n1), g.cols (k % g.n1))

/-- `locs` are the localities of the partitions of a grid, as assigned along the curve: the locality of the `i`-th
partition along the curve is the one given by C04. -/
def LocalitiesAlongCurve (g : Grid) (nrLocalities : Nat) (loc : Nat → Nat) : Prop :=
  ∃ cells, curve g.n0 g.n1 = .ok cells ∧
    ∀ i c, cells[i]? = some c → loc (c.1 * g.n1 + c.2) = localityIdx (g.n0 * g.n1) nrLocalities i

/-- Index along the curve of a partition, given its linear index. -/
def AlongCurve (g : Grid) (along : Nat → Nat) : Prop :=
  ∃ cells, curve g.n0 g.n1 = .ok cells ∧ ∀ i c, cells[i]? = some c → along (c.1 * g.n1 + c.2) = i

theorem exists_along {n0 n1 : Nat} {cells : List (Nat × Nat)} (hn : cells.Nodup)
    (hc : ∀ c : Nat × Nat, c ∈ cells ↔ c.1 < n0 ∧ c.2 < n1) :
    ∃ along : Nat → Nat, ∀ i c, cells[i]? = some c → along (c.1 * n1 + c.2) = i := by
  refine ⟨fun k => cells.idxOf (k / n1, k % n1), ?_⟩
  intro i c hi
  have hm := (hc c).mp (List.mem_of_getElem? hi)
  simp only [idx_div hm.2, idx_mod hm.2]
  obtain ⟨hil, rfl⟩ := List.getElem?_eq_some_iff.1 hi
  exact hn.idxOf_getElem i hil

/-- Creating the partitions one locality at a time: whatever the number of localities, if the functor creates the
partitions asked for, partition `k` of the array is the one created for the offset and shape of partition `k`. -/
theorem createPerLocality_ok {α : Type} {g : Grid} (hg : g.Ok) {nrLocalities : Nat} (h0 : 0 < nrLocalities)
    (hn : nrLocalities ≤ g.n0 * g.n1)
    {instantiate : Nat → List (Nat × Nat) → List (Nat × Nat) → M (List (Part α))} {f : Nat → Nat → Part α}
    (hi : ∀ l ks, l < nrLocalities → ks ≠ [] → (∀ k ∈ ks, k < g.n0 * g.n1) →
      instantiate l (ks.map (offsetOf g)) (ks.map (shapeOf g)) = .ok (ks.map (f l))) :
    ∃ loc, LocalitiesAlongCurve g nrLocalities loc ∧
      createPerLocality (g.a0, g.a1) (g.p0, g.p1) nrLocalities instantiate =
        .ok ⟨(g.a0, g.a1), (g.n0, g.n1), (List.range (g.n0 * g.n1)).map loc,
          (List.range (g.n0 * g.n1)).map fun k => f (loc k) k⟩ := by
  obtain ⟨shapes, hs, hsp⟩ := g.shapes_eq hg
  obtain ⟨cells, hcur, hnd, hmem⟩ := curve_ok g.n0 g.n1
  have hlen := curve_length hnd hmem
  obtain ⟨along, hal⟩ := exists_along hnd hmem
  obtain ⟨requests, hr, hflat, hne, hpw⟩ := instantiate_each_once nrLocalities cells h0 (by omega)
  rw [hlen] at hflat
  let loc : Nat → Nat := fun k => localityIdx (g.n0 * g.n1) nrLocalities (along k)
  have hreq : ∀ r ∈ requests, ∀ c ∈ r.2, (c.1 < g.n0 ∧ c.2 < g.n1) ∧ r.1 = loc (c.1 * g.n1 + c.2) ∧ r.1 < nrLocalities := by
    intro r hrr c hcr
    have : (r.1, c) ∈ requests.flatMap fun r => r.2.map fun c => (r.1, c) :=
      List.mem_flatMap.2 ⟨r, hrr, List.mem_map.2 ⟨c, hcr, rfl⟩⟩
    rw [hflat] at this
    obtain ⟨⟨c', i⟩, hci, he⟩ := List.mem_map.1 this
    rw [List.mem_zipIdx_iff_getElem?] at hci
    simp only [Prod.mk.injEq] at he
    obtain ⟨he1, rfl⟩ := he
    have hm := (hmem c').mp (List.mem_of_getElem? hci)
    have hil := (List.getElem?_eq_some_iff.1 hci).1
    refine ⟨hm, ?_, ?_⟩
    · rw [← he1]; simp only [loc, hal i c' hci]
    · rw [← he1]; exact localityIdx_lt _ _ _ h0 hn (by simp only at hil; omega)
  refine ⟨loc, ⟨cells, hcur, fun i c hc => by simp only [loc, hal i c hc]⟩, ?_⟩
  let entries : List ((Nat × Nat) × Nat × Part α) :=
    requests.flatMap fun r => r.2.map fun c => (c, r.1, f r.1 (c.1 * g.n1 + c.2))
  have hfold : ∀ (rs : List (Nat × List (Nat × Nat))) (s : List (Option Nat) × List (Option (Part α))),
      (∀ r ∈ rs, r ∈ requests) →
      rs.foldlM (fun s (r : Nat × List (Nat × Nat)) => do
        let offsets ← r.2.mapM (offset shapes)
        let partitionShapes ← r.2.mapM (partitionShape shapes)
        let partitions ← instantiate r.1 offsets partitionShapes
        if partitions.length = r.2.length then
          forLoop partitions.length (fun i s => do
            let idxs ← rd r.2 i
            let partition ← rd partitions i
            assignPartition g.n1 s idxs r.1 partition) s
        else .error .thrown) s =
      assignAll g.n1 s (rs.flatMap fun r => r.2.map fun c => (c, r.1, f r.1 (c.1 * g.n1 + c.2))) := by
    intro rs
    induction rs with
    | nil => intro s _; rfl
    | cons r rs ih =>
      intro s hrs
      rw [List.foldlM_cons, List.flatMap_cons, assignAll_append]
      have hrr := hrs r (by simp)
      have ho : r.2.mapM (offset shapes) = .ok ((r.2.map fun c => c.1 * g.n1 + c.2).map (offsetOf g)) := by
        rw [List.map_map]
        apply mapM_ok
        intro c hc
        have hm := (hreq r hrr c hc).1
        simp only [offset, (hsp _ _ hm.1 hm.2).2, Function.comp_apply, offsetOf, idx_div hm.2, idx_mod hm.2]
      have hsh : r.2.mapM (partitionShape shapes) = .ok ((r.2.map fun c => c.1 * g.n1 + c.2).map (shapeOf g)) := by
        rw [List.map_map]
        apply mapM_ok
        intro c hc
        have hm := (hreq r hrr c hc).1
        simp only [partitionShape, (hsp _ _ hm.1 hm.2).1, Function.comp_apply, shapeOf, idx_div hm.2, idx_mod hm.2]
      obtain ⟨c0, hc0⟩ := List.exists_mem_of_ne_nil _ (hne r hrr)
      rw [ho, M.bind_ok, hsh, M.bind_ok, hi r.1 _ (hreq r hrr c0 hc0).2.2 (by simp [hne r hrr])
        (by
          intro k hk
          obtain ⟨c, hc, rfl⟩ := List.mem_map.1 hk
          have hm := (hreq r hrr c hc).1
          exact idx_lt hm.1 hm.2), M.bind_ok, if_pos (by simp), List.length_map, List.length_map]
      rw [forLoop_eq_foldlM r.2 (fun s c => assignPartition g.n1 s c r.1 (f r.1 (c.1 * g.n1 + c.2)))
        (h := by
          intro i c hc s
          rw [rd_ok hc, M.bind_ok, rd_ok (x := f r.1 (c.1 * g.n1 + c.2)) (by simp [hc]), M.bind_ok])]
      have : ∀ s, r.2.foldlM (fun s c => assignPartition g.n1 s c r.1 (f r.1 (c.1 * g.n1 + c.2))) s =
          assignAll g.n1 s (r.2.map fun c => (c, r.1, f r.1 (c.1 * g.n1 + c.2))) := by
        intro s; unfold assignAll; rw [List.foldlM_map]
      rw [this]
      congr 1
      funext s'
      exact ih s' (fun x hx => hrs x (by simp [hx]))
  have hent : entries.map (·.1) = cells := by
    have : entries.map (·.1) = (requests.flatMap fun r => r.2.map fun c => (r.1, c)).map (·.2) := by
      simp only [entries, List.map_flatMap, List.map_map]
      rfl
    rw [this, hflat, List.map_map]
    have h2 : ((fun x : Nat × Nat × Nat => x.2) ∘ fun x : (Nat × Nat) × Nat =>
        (localityIdx (g.n0 * g.n1) nrLocalities x.2, x.1)) = Prod.fst := rfl
    rw [h2, List.zipIdx_map_fst]
  rw [createPerLocality, hs]
  simp only [orThrow, M.bind_ok, hcur, hr]
  rw [hfold requests _ (fun r h => h)]
  refine finish_ok (l := entries) (loc := loc) (part := fun k => f (loc k) k) ?_ ?_ ?_
  · intro c; rw [hent]; exact hmem c
  · rw [hent]; exact hnd
  · intro e he
    simp only [entries, List.mem_flatMap, List.mem_map] at he
    obtain ⟨r, hrr, c, hcr, rfl⟩ := he
    have := (hreq r hrr c hcr).2.1
    exact ⟨this, by simp only; rw [this]⟩

/-- Creating the partitions one by one. -/
theorem createEach_ok {α : Type} {g : Grid} (hg : g.Ok) {nrLocalities : Nat} (h0 : 0 < nrLocalities)
    (hn : nrLocalities ≤ g.n0 * g.n1)
    {instantiate : Nat → Nat × Nat → Nat × Nat → Nat → Nat → Nat × Nat → Nat × Nat → M (Part α)}
    {f : Nat → Nat → Nat → Part α}
    (hi : ∀ l i k, l < nrLocalities → i < g.n0 * g.n1 → k < g.n0 * g.n1 →
      instantiate l (g.a0, g.a1) (g.n0, g.n1) i k (offsetOf g k) (shapeOf g k) = .ok (f l i k)) :
    ∃ loc along, LocalitiesAlongCurve g nrLocalities loc ∧ AlongCurve g along ∧
      createEach (g.a0, g.a1) (g.p0, g.p1) nrLocalities instantiate =
        .ok ⟨(g.a0, g.a1), (g.n0, g.n1), (List.range (g.n0 * g.n1)).map loc,
          (List.range (g.n0 * g.n1)).map fun k => f (loc k) (along k) k⟩ := by
  obtain ⟨shapes, hs, hsp⟩ := g.shapes_eq hg
  obtain ⟨cells, hcur, hnd, hmem⟩ := curve_ok g.n0 g.n1
  have hlen := curve_length hnd hmem
  obtain ⟨along, hal⟩ := exists_along hnd hmem
  let loc : Nat → Nat := fun k => localityIdx (g.n0 * g.n1) nrLocalities (along k)
  refine ⟨loc, along, ⟨cells, hcur, fun i c hc => by simp only [loc, hal i c hc]⟩, ⟨cells, hcur, hal⟩, ?_⟩
  rw [createEach, hs]
  simp only [orThrow, M.bind_ok, hcur]
  rw [if_neg (by omega), forLoop_eq_foldlM cells (fun s c => assignPartition g.n1 s c (loc (c.1 * g.n1 + c.2))
    (f (loc (c.1 * g.n1 + c.2)) (along (c.1 * g.n1 + c.2)) (c.1 * g.n1 + c.2)))
    (h := by
      intro i c hc s
      have hm := (hmem c).mp (List.mem_of_getElem? hc)
      have hil := (List.getElem?_eq_some_iff.1 hc).1
      have ho : offset shapes c = .ok (offsetOf g (c.1 * g.n1 + c.2)) := by
        simp only [offset, (hsp _ _ hm.1 hm.2).2, offsetOf, idx_div hm.2, idx_mod hm.2]
      have hsh : partitionShape shapes c = .ok (shapeOf g (c.1 * g.n1 + c.2)) := by
        simp only [partitionShape, (hsp _ _ hm.1 hm.2).1, shapeOf, idx_div hm.2, idx_mod hm.2]
      have hloc : loc (c.1 * g.n1 + c.2) = localityIdx cells.length nrLocalities i := by
        simp only [loc, hal i c hc, hlen]
      rw [rd_ok hc, M.bind_ok, ho, M.bind_ok, hsh, M.bind_ok, hi _ i _ (by
          rw [hlen]; exact localityIdx_lt _ _ _ h0 hn (by omega)) (by omega) (idx_lt hm.1 hm.2), M.bind_ok, hloc,
        hal i c hc])]
  have : ∀ s, cells.foldlM (fun s c => assignPartition g.n1 s c (loc (c.1 * g.n1 + c.2))
      (f (loc (c.1 * g.n1 + c.2)) (along (c.1 * g.n1 + c.2)) (c.1 * g.n1 + c.2))) s =
      assignAll g.n1 s (cells.map fun c => (c, loc (c.1 * g.n1 + c.2),
        f (loc (c.1 * g.n1 + c.2)) (along (c.1 * g.n1 + c.2)) (c.1 * g.n1 + c.2))) := by
    intro s; unfold assignAll; rw [List.foldlM_map]
  rw [this]
  refine finish_ok (loc := loc) (part := fun k => f (loc k) (along k) k) ?_ ?_ ?_
  · intro c
    rw [List.map_map]
    have : ((fun e : (Nat × Nat) × Nat × Part α => e.1) ∘ fun c : Nat × Nat => (c, loc (c.1 * g.n1 + c.2),
        f (loc (c.1 * g.n1 + c.2)) (along (c.1 * g.n1 + c.2)) (c.1 * g.n1 + c.2))) = id := rfl
    rw [this, List.map_id]; exact hmem c
  · rw [List.map_map]
    have : ((fun e : (Nat × Nat) × Nat × Part α => e.1) ∘ fun c : Nat × Nat => (c, loc (c.1 * g.n1 + c.2),
        f (loc (c.1 * g.n1 + c.2)) (along (c.1 * g.n1 + c.2)) (c.1 * g.n1 + c.2))) = id := rfl
    rw [this, List.map_id]; exact hnd
  · intro e he
    obtain ⟨c, hc, rfl⟩ := List.mem_map.1 he
    exact ⟨rfl, rfl⟩

/-- A created array consists of the partitions of a grid, at their offsets, and holds certain elements. -/
structure Holds {α : Type} (x : Created α) (g : Grid) (v : Arr α) : Prop where
  ok : g.Ok
  shape : x.shape = (g.a0, g.a1)
  shapeInPartitions : x.shapeInPartitions = (g.n0, g.n1)
  parts : ∀ k < g.n0 * g.n1, ∃ p, x.partitions[k]? = some p ∧ p.offset = offsetOf g k ∧ p.shape = shapeOf g k
  represents : Represents ⟨g, x.partitions.map (·.data)⟩ v

/-- `Holds`, given the partitions. -/
theorem holds_of_parts {α : Type} {g : Grid} (hg : g.Ok) {locs : List Nat} {part : Nat → Part α} {v : Arr α}
    (hp : ∀ k < g.n0 * g.n1, (part k).offset = offsetOf g k ∧ (part k).shape = shapeOf g k)
    (hv : ∀ k0 k1, k0 < g.n0 → k1 < g.n1 → (part (k0 * g.n1 + k1)).data.length = g.rows k0 * g.cols k1 ∧
      ∀ l0 l1, l0 < g.rows k0 → l1 < g.cols k1 →
        (part (k0 * g.n1 + k1)).data[l0 * g.cols k1 + l1]? = some (v (k0 * g.p0 + l0) (k1 * g.p1 + l1))) :
    Holds ⟨(g.a0, g.a1), (g.n0, g.n1), locs, (List.range (g.n0 * g.n1)).map part⟩ g v := by
  refine ⟨hg, rfl, rfl, fun k hk => ⟨part k, by simp [hk], hp k hk⟩, ?_⟩
  obtain ⟨parts, hr, hrep⟩ := runTasks_represents hg (order := List.range (g.n0 * g.n1)) (List.Perm.refl _)
    (task := fun k => .ok (part k).data) (w := v)
    (fun k0 k1 h0 h1 => ⟨_, rfl, (hv k0 k1 h0 h1).1, (hv k0 k1 h0 h1).2⟩)
  rw [runTasks_ok (List.Perm.refl _) (r := fun k => (part k).data) (fun k _ => rfl)] at hr
  simp only [Except.ok.injEq] at hr
  rw [← hr] at hrep
  rw [List.map_map]
  exact hrep

/-- Creating an array fails if the shapes don't go together (C01), or if there are more localities than partitions. -/
theorem createPerLocality_throws {α : Type} (a p : Nat × Nat) (nrLocalities : Nat)
    (instantiate : Nat → List (Nat × Nat) → List (Nat × Nat) → M (List (Part α)))
    (h : ¬ (0 < p.1 ∧ 0 < p.2 ∧ p.1 ≤ a.1 ∧ p.2 ≤ a.2) ∨ a.1 / p.1 * (a.2 / p.2) < nrLocalities) :
    createPerLocality a p nrLocalities instantiate = .error .thrown := by
  by_cases hok : 0 < p.1 ∧ 0 < p.2 ∧ p.1 ≤ a.1 ∧ p.2 ≤ a.2
  · have hlt := h.resolve_left (by simpa using hok)
    have hg : (Grid.mk a.1 a.2 p.1 p.2).Ok := ⟨hok.1, hok.2.1, hok.2.2.1, hok.2.2.2⟩
    obtain ⟨shapes, hs, _⟩ := (Grid.mk a.1 a.2 p.1 p.2).shapes_eq hg
    simp only [Grid.n0, Grid.n1] at hs
    obtain ⟨cells, hcur, hnd, hmem⟩ := curve_ok (a.1 / p.1) (a.2 / p.2)
    have hlen := curve_length hnd hmem
    obtain ⟨msg, hm⟩ := instantiate_throws nrLocalities cells (by omega)
    rw [createPerLocality, hs]
    simp only [orThrow, M.bind_ok, hcur, hm]
    rfl
  · have : ¬ ∃ r, partitionShapes [a.1, a.2] [p.1, p.2] = .ok r := by
      rw [partitionShapes_succeeds_iff [a.1, a.2] [p.1, p.2] rfl (by simp)]
      rintro ⟨_, hp, hle⟩
      simp only [List.forall₂_cons, List.Forall₂.nil, and_true] at hle
      exact hok ⟨Nat.pos_of_ne_zero (hp _ (by simp)), Nat.pos_of_ne_zero (hp _ (by simp)), hle.1, hle.2⟩
    rw [createPerLocality]
    cases hps : partitionShapes [a.1, a.2] [p.1, p.2] with
    | ok r => exact absurd ⟨r, hps⟩ this
    | error e => rfl

end Lue.Create

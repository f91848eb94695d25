import Verif.Numpy.Proofs
import Verif.Position.Properties

/-!
# C47: NumPy arrays and partitioned arrays are converted into each other without changing values
-/
namespace Lue.Numpy

open Lue.Create Lue.GdalIO

theorem fromNumpy_eq {α : Type} (T : ElementType α) {a : NumpyArray α} {g : Grid} (hg : g.Ok) (ha : a.Valid g.a0 g.a1)
    {ps : Option (List Nat)} (nd : Option α) {nrLocalities nrThreads : Nat}
    (hps : selectPartitionShape (g.a0, g.a1) nrThreads ps = .ok (g.p0, g.p1)) (hl : 0 < nrLocalities)
    (hn : nrLocalities ≤ g.n0 * g.n1) (garbage : Nat → Nat → α) :
    ∃ x v, fromNumpy T a ps nd nrLocalities nrThreads garbage = .ok x ∧ Holds x g v ∧
      ∀ i j e, a.HasCell i j e → v i j = imported T nd e := by
  obtain ⟨hs, hlen⟩ := ha
  by_cases hd : a.data = []
  · exfalso
    rw [hd] at hlen
    have h0 := hg.pos0; have h1 := hg.pos1; have h2 := hg.le0; have h3 := hg.le1
    have : 0 < g.a0 * g.a1 := Nat.mul_pos (by omega) (by omega)
    simp at hlen
    omega
  obtain ⟨e0, he0⟩ := List.exists_mem_of_ne_nil _ hd
  let w : Arr α := fun i j => a.data.getD (i * g.a1 + j) e0
  obtain ⟨buffer, b1, b2, b3, -⟩ := copyN_ok (source := a.data) (from_ := 0) (n := g.a0 * g.a1) (to_ := 0)
    (destination := uninitialised (g.a0 * g.a1) (garbage 0)) (val := fun i => a.data.getD i e0) (by
      intro i hi
      rw [Nat.zero_add, List.getElem?_eq_getElem (by omega), List.getD_eq_getElem]) (by simp [uninitialised])
  have hb : ∀ i j, i < g.a0 → j < g.a1 → buffer[i * g.a1 + j]? = some (w i j) := by
    intro i j hi hj
    have := b3 (i * g.a1 + j) (idx_lt hi hj)
    rw [Nat.zero_add] at this
    exact this
  have hinst := fun k hk => instantiateFromBuffer_ok T nd hg hb (k := k) hk (garbage (k + 1))
  choose f hf1 hf2 hf3 using hinst
  let part : Nat → Create.Part α := fun k => if hk : k < g.n0 * g.n1 then ⟨offsetOf g k, shapeOf g k, f k hk⟩ else
    ⟨(0, 0), (0, 0), []⟩
  obtain ⟨loc, along, -, -, hce⟩ := createEach_ok hg hl hn
    (instantiate := fun _ arrayShape _ _ k offset pshape =>
      instantiateFromBuffer T buffer nd arrayShape offset pshape (garbage (k + 1)))
    (f := fun _ _ k => part k) (by
      intro l i k _ _ hk
      simp only [part, dif_pos hk]
      exact hf1 k hk)
  refine ⟨_, fun i j => imported T nd (w i j), ?_, holds_of_parts hg (v := fun i j => imported T nd (w i j)) (part := part)
    (locs := (List.range (g.n0 * g.n1)).map loc) ?_ ?_, ?_⟩
  · unfold fromNumpy
    rw [hs]
    simp only [twoExtents, M.bind_ok, hps, b1, hce]
  · intro k hk
    simp only [part, dif_pos hk]
    exact ⟨trivial, trivial⟩
  · intro k0 k1 h0 h1
    have hk := idx_lt h0 h1
    simp only [part, dif_pos hk]
    have q2 := hf2 _ hk
    have q3 := hf3 _ hk
    rw [idx_div h1, idx_mod h1] at q2 q3
    exact ⟨q2, q3⟩
  · rintro i j e ⟨rows, cols, hsh, hi, hj, he⟩
    rw [hs] at hsh
    simp only [List.cons.injEq, and_true] at hsh
    obtain ⟨rfl, rfl⟩ := hsh
    simp only [w]
    rw [List.getD_eq_getElem?_getD, he, Option.getD_some]

/-- C47: `from_numpy` returns, for every NumPy array of rank 2, partition shape that fits the array, and number of
localities not larger than the number of partitions, an array with in each cell the value in the corresponding cell of
the NumPy array, or no-data if that is the value passed in for representing no-data. No element outside of the buffer of
the NumPy array is read. -/
theorem fromNumpy_holds {α : Type} {T : ElementType α} (hT : T.Lawful) {a : NumpyArray α} {rows cols p0 p1 : Nat}
    (ha : a.Valid rows cols) (h0 : 0 < p0 ∧ p0 ≤ rows) (h1 : 0 < p1 ∧ p1 ≤ cols) (nd : Option α)
    {nrLocalities : Nat} (nrThreads : Nat) (hl : 0 < nrLocalities) (hn : nrLocalities ≤ rows / p0 * (cols / p1))
    (garbage : Nat → Nat → α) :
    ∃ x v, fromNumpy T a (some [p0, p1]) nd nrLocalities nrThreads garbage = .ok x ∧
      Holds x ⟨rows, cols, p0, p1⟩ v ∧ ∀ i j e, a.HasCell i j e → Imports T nd e (v i j) := by
  obtain ⟨x, v, h, hx, hv⟩ := fromNumpy_eq T (g := ⟨rows, cols, p0, p1⟩) ⟨h0.1, h1.1, h0.2, h1.2⟩ ha (ps := some [p0, p1])
    nd (nrThreads := nrThreads) rfl hl hn garbage
  refine ⟨x, v, h, hx, fun i j e he => ?_⟩
  rw [hv i j e he]
  exact imported_imports hT nd e

/-- C47: if no partition shape is passed in, the default one is used (C31). -/
theorem fromNumpy_default {α : Type} {T : ElementType α} (hT : T.Lawful) {a : NumpyArray α} {rows cols p0 p1 : Nat}
    (ha : a.Valid rows cols) (nd : Option α) {nrLocalities nrThreads : Nat}
    (hp : Decomposition.defaultPartitionShape (2000 * 2000) 2000 [rows, cols] nrThreads = [p0, p1])
    (h0 : 0 < p0 ∧ p0 ≤ rows) (h1 : 0 < p1 ∧ p1 ≤ cols)
    (hl : 0 < nrLocalities) (hn : nrLocalities ≤ rows / p0 * (cols / p1)) (garbage : Nat → Nat → α) :
    ∃ x v, fromNumpy T a none nd nrLocalities nrThreads garbage = .ok x ∧
      Holds x ⟨rows, cols, p0, p1⟩ v ∧ ∀ i j e, a.HasCell i j e → Imports T nd e (v i j) := by
  obtain ⟨x, v, h, hx, hv⟩ := fromNumpy_eq T (g := ⟨rows, cols, p0, p1⟩) ⟨h0.1, h1.1, h0.2, h1.2⟩ ha (ps := none)
    nd (nrThreads := nrThreads) (by rw [selectPartitionShape, hp]; rfl) hl hn garbage
  refine ⟨x, v, h, hx, fun i j e he => ?_⟩
  rw [hv i j e he]
  exact imported_imports hT nd e

/-- C47: NumPy arrays of another rank, partition shapes of another rank, and partition shapes which don't fit are
refused, and so are arrays with fewer partitions than there are localities. -/
theorem fromNumpy_throws {α : Type} (T : ElementType α) (a : NumpyArray α) (nd : Option α) (nrLocalities nrThreads : Nat)
    (ps : List Nat) (garbage : Nat → Nat → α)
    (h : a.shape.length ≠ 2 ∨ ps.length ≠ 2 ∨ (a.shape.length = 2 ∧ a.data.length = a.shape.prod ∧ ps.length = 2 ∧
      ((∃ d, d < 2 ∧ (ps.getD d 0 = 0 ∨ a.shape.getD d 0 < ps.getD d 0)) ∨
        a.shape.getD 0 0 / ps.getD 0 0 * (a.shape.getD 1 0 / ps.getD 1 0) < nrLocalities))) :
    fromNumpy T a (some ps) nd nrLocalities nrThreads garbage = .error .thrown := by
  have two : ∀ l : List Nat, l.length = 2 → ∃ x y, l = [x, y] := by
    intro l hl
    match l, hl with
    | [x, y], _ => exact ⟨x, y, rfl⟩
  have ntwo : ∀ l : List Nat, l.length ≠ 2 → twoExtents l = .error .thrown := by
    intro l hl
    match l, hl with
    | [], _ => rfl
    | [_], _ => rfl
    | _ :: _ :: _ :: _, _ => rfl
    | [_, _], h => simp at h
  by_cases ha : a.shape.length = 2
  swap
  · unfold fromNumpy
    rw [ntwo _ ha]; rfl
  obtain ⟨a0, a1, has⟩ := two _ ha
  by_cases hp : ps.length = 2
  swap
  · unfold fromNumpy
    rw [has, twoExtents, M.bind_ok, selectPartitionShape, ntwo _ hp]
    rfl
  obtain ⟨p0, p1, rfl⟩ := two _ hp
  have h3 : a.data.length = a0 * a1 ∧ ((∃ d, d < 2 ∧ ([p0, p1].getD d 0 = 0 ∨ [a0, a1].getD d 0 < [p0, p1].getD d 0)) ∨
      a0 / p0 * (a1 / p1) < nrLocalities) := by
    rcases h with h | h | h
    · exact absurd ha h
    · exact absurd hp h
    · rw [has] at h
      refine ⟨by simpa using h.2.1, h.2.2.2⟩
  obtain ⟨buffer, b1⟩ : ∃ buffer, copyN a.data 0 (a0 * a1) (uninitialised (a0 * a1) (garbage 0)) 0 = .ok buffer := by
    by_cases hd : a.data = []
    · have : a0 * a1 = 0 := by rw [← h3.1, hd]; rfl
      rw [this]
      exact ⟨_, rfl⟩
    · obtain ⟨e0, he0⟩ := List.exists_mem_of_ne_nil _ hd
      obtain ⟨buffer, b1, -⟩ := copyN_ok (source := a.data) (from_ := 0) (n := a0 * a1) (to_ := 0)
        (destination := uninitialised (a0 * a1) (garbage 0)) (val := fun i => a.data.getD i e0) (by
          intro i hi
          rw [Nat.zero_add, List.getElem?_eq_getElem (by omega), List.getD_eq_getElem]) (by simp [uninitialised])
      exact ⟨buffer, b1⟩
  unfold fromNumpy
  rw [has]
  simp only [twoExtents, M.bind_ok, selectPartitionShape, b1]
  apply createEach_throws
  rcases h3.2 with ⟨d, hd, hh⟩ | hh
  · left
    rcases Nat.lt_succ_iff_lt_or_eq.1 hd with hd | rfl
    · obtain rfl : d = 0 := by omega
      simp at hh
      simp only; omega
    · simp at hh
      simp only; omega
  · exact Or.inr hh

/-- C47: `to_numpy` returns a NumPy array of the same shape with in each cell the value in the corresponding cell of the
array, or the value passed in for representing no-data, if any, if it is no-data. Nothing is written outside of the
buffer, and no uninitialised memory is left. -/
theorem toNumpy_exports {α : Type} {T : ElementType α} (hT : T.Lawful) {x : Created α} {g : Grid} {v : Arr α}
    (hx : Holds x g v) (nd : Option α) (garbage : Nat → α) :
    ∃ a, toNumpy T x nd garbage = .ok a ∧ a.Valid g.a0 g.a1 ∧
      ∀ i j, i < g.a0 → j < g.a1 → ∃ e, a.HasCell i j e ∧ Exports T nd (v i j) e := by
  have hnp : x.partitions.length = g.n0 * g.n1 := by
    have h2 := hx.represents.nr_parts
    simp only [List.length_map] at h2
    exact h2
  obtain ⟨out, e1, e2, e3⟩ := forLoop_inv (n := x.partitions.length)
    (body := fun k result => do
      let partition ← rd x.partitions k
      copyPartition T nd x.shape partition result)
    (fun k (out : List α) => out.length = g.a0 * g.a1 ∧
      ∀ i j k0 k1 l0 l1, IsCell g i j k0 k1 l0 l1 → k0 * g.n1 + k1 < k → out[i * g.a1 + j]? = some (exported T nd (v i j)))
    (by
      intro k hk out ⟨g1, g2⟩
      rw [hnp] at hk
      obtain ⟨p, hp, ho, hsh⟩ := hx.parts k hk
      obtain ⟨h0, h1, hsplit⟩ := idx_split hk
      have b0 := rows_end hx.ok h0
      have b1 := cols_end hx.ok h1
      obtain ⟨d, hd, _, hv⟩ := hx.represents.part h0 h1
      rw [hsplit] at hd
      simp only [List.getElem?_map, hp, Option.map_some, Option.some.injEq] at hd
      obtain ⟨out', q1, q2, q3⟩ := copyPartition_ok T nd (data := p.data) (v := v) b0 b1 g1 (by rw [hd]; exact hv)
      refine ⟨out', ?_, q2, ?_⟩
      · rw [rd_ok hp, M.bind_ok, hx.shape, ← q1]
        congr 1
        obtain ⟨po, ps, pd⟩ := p
        simp only at ho hsh ⊢
        subst ho; subst hsh
        rfl
      · intro i j k0 k1 l0 l1 hc hlt
        obtain ⟨hi, hj⟩ := hc.lt hx.ok
        rw [q3 i j hi hj]
        split
        · rfl
        · rename_i hno
          refine g2 i j k0 k1 l0 l1 hc ?_
          by_cases hkk : k0 * g.n1 + k1 = k
          · exfalso
            apply hno
            have e0 : k / g.n1 = k0 := by rw [← hkk]; exact idx_div hc.k1_lt
            have e1 : k % g.n1 = k1 := by rw [← hkk]; exact idx_mod hc.k1_lt
            rw [e0, e1]
            have r0 := hc.i_eq
            have r1 := hc.j_eq
            have r2 := hc.l0_lt
            have r3 := hc.l1_lt
            omega
          · omega)
    (uninitialised (x.shape.1 * x.shape.2) garbage) ⟨by simp [uninitialised, hx.shape], by intros; omega⟩
  refine ⟨⟨[x.shape.1, x.shape.2], out⟩, ?_, ⟨by simp [hx.shape], e2⟩, ?_⟩
  · unfold toNumpy
    simp only [e1, M.bind_ok]
  · intro i j hi hj
    obtain ⟨k0, k1, l0, l1, hc⟩ := exists_isCell hx.ok hi hj
    refine ⟨exported T nd (v i j), ⟨g.a0, g.a1, by simp [hx.shape], hi, hj, ?_⟩, exported_exports hT nd _⟩
    exact e3 i j k0 k1 l0 l1 hc (by rw [hnp]; exact idx_lt hc.k0_lt hc.k1_lt)

theorem numpy_ext {α : Type} {a b : NumpyArray α} {rows cols : Nat} (ha : a.Valid rows cols) (hb : b.Valid rows cols)
    (h : ∀ i j x y, a.HasCell i j x → b.HasCell i j y → x = y) : a = b := by
  obtain ⟨as, ad⟩ := a
  obtain ⟨bs, bd⟩ := b
  obtain ⟨rfl, hal⟩ := ha
  obtain ⟨rfl, hbl⟩ := hb
  simp only at hal hbl
  congr 1
  apply List.ext_getElem (by omega)
  intro k hk1 hk2
  obtain ⟨h0, h1, hs⟩ := idx_split (show k < rows * cols by omega)
  exact h (k / cols) (k % cols) _ _ ⟨rows, cols, rfl, h0, h1, by rw [hs]; exact List.getElem?_eq_getElem hk1⟩
    ⟨rows, cols, rfl, h0, h1, by rw [hs]; exact List.getElem?_eq_getElem hk2⟩

/-- C47: converting a NumPy array to an array and back gives the same NumPy array, for every partitioning and number of
localities, if no no-data value is passed in. -/
theorem numpy_round_trip {α : Type} {T : ElementType α} (hT : T.Lawful) {a : NumpyArray α} {rows cols p0 p1 : Nat}
    (ha : a.Valid rows cols) (h0 : 0 < p0 ∧ p0 ≤ rows) (h1 : 0 < p1 ∧ p1 ≤ cols) {nrLocalities : Nat} (nrThreads : Nat)
    (hl : 0 < nrLocalities) (hn : nrLocalities ≤ rows / p0 * (cols / p1)) (garbage : Nat → Nat → α)
    (garbage' : Nat → α) :
    ∃ x, fromNumpy T a (some [p0, p1]) none nrLocalities nrThreads garbage = .ok x ∧
      toNumpy T x none garbage' = .ok a := by
  obtain ⟨x, v, h, hx, hv⟩ := fromNumpy_holds hT ha h0 h1 none nrThreads hl hn garbage
  obtain ⟨b, hb, hbv, hbe⟩ := toNumpy_exports hT hx none garbage'
  refine ⟨x, h, ?_⟩
  rw [hb]
  congr 1
  refine numpy_ext (rows := rows) (cols := cols) hbv ha ?_
  rintro i j y z ⟨r, c, hs, hi, hj, hy⟩ hz
  rw [hbv.1] at hs
  simp only [List.cons.injEq, and_true] at hs
  obtain ⟨rfl, rfl⟩ := hs
  obtain ⟨e, ⟨r', c', hs', -, -, he⟩, hee⟩ := hbe i j hi hj
  rw [hbv.1] at hs'
  simp only [List.cons.injEq, and_true] at hs'
  obtain ⟨rfl, rfl⟩ := hs'
  rw [hy] at he
  cases he
  rw [hee.2 (Or.inl rfl)]
  exact (hv i j z hz).2 (fun ⟨_, h, _⟩ => by simp at h)

/-- C47: with no-data values passed in, the elements that are returned are: the second no-data value in case the element
is the first no-data value, or LUE's own representation of no-data; and otherwise the element itself. -/
theorem numpy_round_trip_noData {α : Type} {T : ElementType α} (hT : T.Lawful) {a : NumpyArray α} {rows cols p0 p1 : Nat}
    (ha : a.Valid rows cols) (h0 : 0 < p0 ∧ p0 ≤ rows) (h1 : 0 < p1 ∧ p1 ≤ cols) {nrLocalities : Nat} (nrThreads : Nat)
    (hl : 0 < nrLocalities) (hn : nrLocalities ≤ rows / p0 * (cols / p1)) (nd m : α) (garbage : Nat → Nat → α)
    (garbage' : Nat → α) :
    ∃ x b, fromNumpy T a (some [p0, p1]) (some nd) nrLocalities nrThreads garbage = .ok x ∧
      toNumpy T x (some m) garbage' = .ok b ∧ b.Valid rows cols ∧
      ∀ i j e, a.HasCell i j e →
        ∃ e', b.HasCell i j e' ∧ ((Missing T (some nd) e ∨ IsNoData T e) → e' = m) ∧
          (¬ (Missing T (some nd) e ∨ IsNoData T e) → e' = e) := by
  obtain ⟨x, v, h, hx, hv⟩ := fromNumpy_holds hT ha h0 h1 (some nd) nrThreads hl hn garbage
  obtain ⟨b, hb, hbv, hbe⟩ := toNumpy_exports hT hx (some m) garbage'
  refine ⟨x, b, h, hb, hbv, ?_⟩
  intro i j e he
  have hij : i < rows ∧ j < cols := by
    obtain ⟨r, c, hs, hi, hj, -⟩ := he
    rw [ha.1] at hs
    simp only [List.cons.injEq, and_true] at hs
    obtain ⟨rfl, rfl⟩ := hs
    exact ⟨hi, hj⟩
  obtain ⟨e', he', hee⟩ := hbe i j hij.1 hij.2
  refine ⟨e', he', ?_, ?_⟩
  · intro hm
    refine hee.1 m rfl ?_
    by_cases hmi : Missing T (some nd) e
    · exact (hv i j e he).1 hmi
    · rw [(hv i j e he).2 hmi]
      exact hm.resolve_left hmi
  · intro hm
    have hve := (hv i j e he).2 (fun hh => hm (Or.inl hh))
    rw [hve] at hee
    exact hee.2 (Or.inr fun hh => hm (Or.inr hh))

/-- C47: converting an array to a NumPy array and back, with the same no-data value, gives an array which is the same,
except that values in the array which equal the no-data value become no-data. -/
theorem array_round_trip {α : Type} {T : ElementType α} (hT : T.Lawful) {x : Created α} {g : Grid} {v : Arr α}
    (hx : Holds x g v) (nd : α) {p0 p1 : Nat} (h0 : 0 < p0 ∧ p0 ≤ g.a0) (h1 : 0 < p1 ∧ p1 ≤ g.a1) {nrLocalities : Nat}
    (nrThreads : Nat) (hl : 0 < nrLocalities) (hn : nrLocalities ≤ g.a0 / p0 * (g.a1 / p1)) (garbage : Nat → α)
    (garbage' : Nat → Nat → α) :
    ∃ a y w, toNumpy T x (some nd) garbage = .ok a ∧
      fromNumpy T a (some [p0, p1]) (some nd) nrLocalities nrThreads garbage' = .ok y ∧
      Holds y ⟨g.a0, g.a1, p0, p1⟩ w ∧
      ∀ i j, i < g.a0 → j < g.a1 →
        (IsNoData T (w i j) ↔ IsNoData T (v i j) ∨ T.eq (v i j) nd = true) ∧
        (¬ IsNoData T (w i j) → w i j = v i j) := by
  obtain ⟨a, ha, hav, hae⟩ := toNumpy_exports hT hx (some nd) garbage
  obtain ⟨y, w, hy, hyh, hw⟩ := fromNumpy_holds hT hav h0 h1 (some nd) nrThreads hl hn garbage'
  refine ⟨a, y, w, ha, hy, hyh, ?_⟩
  intro i j hi hj
  obtain ⟨e, he, hex⟩ := hae i j hi hj
  have hi := hw i j e he
  have hself : ∀ z, Missing T (some z) z := by
    intro z
    refine ⟨z, rfl, ?_⟩
    by_cases hz : T.isNaN z = true
    · exact Or.inr ⟨hz, hz⟩
    · exact Or.inl (hT.eq_refl z (by simpa using hz))
  by_cases hv : IsNoData T (v i j)
  · obtain rfl := hex.1 nd rfl hv
    have := hi.1 (hself e)
    exact ⟨⟨fun _ => Or.inl hv, fun _ => this⟩, fun h => absurd this h⟩
  · obtain rfl := hex.2 (Or.inr hv)
    by_cases hm : Missing T (some nd) (v i j)
    · have hn := hi.1 hm
      refine ⟨⟨fun _ => ?_, fun _ => hn⟩, fun h => absurd hn h⟩
      obtain ⟨z, hz, h | h⟩ := hm
      · cases hz; exact Or.inr h
      · exact absurd (Or.inl h.1) hv
    · rw [hi.2 hm]
      refine ⟨⟨fun h => Or.inl h, ?_⟩, fun _ => rfl⟩
      rintro (h | h)
      · exact h
      · exact absurd ⟨nd, rfl, Or.inl h⟩ hm

/-! ### Filled arrays -/

/-- C47: the element types which can be used are those of which the kind and size are known and which are supported. -/
theorem selectElement_iff (supported : DType → Bool) (d e : DType) :
    selectElement supported d = some e ↔
      e = d ∧ supported d = true ∧ ((d.kind ∈ ['i', 'u'] ∧ d.itemsize ∈ [1, 2, 4, 8]) ∨
        (d.kind = 'f' ∧ d.itemsize ∈ [4, 8])) := by
  obtain ⟨k, n⟩ := d
  unfold selectElement
  simp only
  split <;> (try split) <;> (try split) <;> simp_all <;> try (intro h; subst h; simp_all)
  all_goals (try constructor <;> (intro h; first | exact h.symm | (subst h; rfl)))

/-- C47: `create_array` gives an array of the element type asked for, with the fill value in each of its cells. -/
theorem createArray_holds {α β : Type} {supported : DType → Bool} {cast : DType → β → M α} {rows cols p0 p1 : Nat}
    {dtype : DType} {fillValue : β} {value : α} (hc : cast dtype fillValue = .ok value)
    (hd : selectElement supported dtype = some dtype)
    (h0 : 0 < p0 ∧ p0 ≤ rows) (h1 : 0 < p1 ∧ p1 ≤ cols) {nrLocalities : Nat} (nrThreads : Nat) (hl : 0 < nrLocalities)
    (hn : nrLocalities ≤ rows / p0 * (cols / p1)) :
    ∃ x, createArray supported cast [rows, cols] dtype fillValue (some [p0, p1]) nrLocalities nrThreads = .ok (dtype, x) ∧
      Holds x ⟨rows, cols, p0, p1⟩ fun _ _ => value := by
  let g : Grid := ⟨rows, cols, p0, p1⟩
  have hg : g.Ok := ⟨h0.1, h1.1, h0.2, h1.2⟩
  let part : Nat → Create.Part α := fun k =>
    ⟨offsetOf g k, shapeOf g k, List.replicate ((shapeOf g k).1 * (shapeOf g k).2) value⟩
  obtain ⟨loc, along, -, -, hce⟩ := createEach_ok hg hl hn
    (instantiate := fun _ _ _ _ _ offset pshape =>
      (.ok ⟨offset, pshape, List.replicate (pshape.1 * pshape.2) value⟩ : M (Create.Part α)))
    (f := fun _ _ k => part k) (fun _ _ _ _ _ _ => rfl)
  refine ⟨_, ?_, holds_of_parts hg (v := fun _ _ => value) (part := part)
    (locs := (List.range (g.n0 * g.n1)).map loc) (fun k hk => ⟨rfl, rfl⟩) ?_⟩
  · unfold createArray
    simp only [twoExtents, M.bind_ok, selectPartitionShape, hd, hc]
    change (createEach (g.a0, g.a1) (g.p0, g.p1) nrLocalities _ >>= _) = _
    rw [hce, M.bind_ok]
  · intro k0 k1 hk0 hk1
    simp only [part, shapeOf, idx_div hk1, idx_mod hk1, List.length_replicate]
    refine ⟨trivial, fun l0 l1 hl0 hl1 => ?_⟩
    rw [List.getElem?_replicate, if_pos (idx_lt hl0 hl1)]

/-- C47: if the fill value can't be converted or the element type isn't supported, there is no array. -/
theorem createArray_refused {α β : Type} (supported : DType → Bool) (cast : DType → β → M α) (shape : List Nat)
    (dtype : DType) (fillValue : β) (ps : Option (List Nat)) (nrLocalities nrThreads : Nat)
    (h : selectElement supported dtype = none ∨ ∃ e, cast dtype fillValue = .error e) :
    ∀ r, createArray supported cast shape dtype fillValue ps nrLocalities nrThreads ≠ .ok r := by
  intro r hr
  unfold createArray at hr
  cases h1 : twoExtents shape with
  | error e => rw [h1] at hr; cases hr
  | ok s =>
    rw [h1, M.bind_ok] at hr
    cases h2 : selectPartitionShape s nrThreads ps with
    | error e => rw [h2] at hr; cases hr
    | ok p =>
      rw [h2, M.bind_ok] at hr
      rcases h with h | ⟨e, h⟩
      · rw [h] at hr; cases hr
      · cases hs : selectElement supported dtype with
        | none => rw [hs] at hr; cases hr
        | some d =>
          rw [hs] at hr
          have := ((selectElement_iff supported dtype d).mp hs).1
          subst this
          simp only [h] at hr
          cases hr

/-! ### Examples -/

/-- 3 × 5 cells. -/
def example35 : NumpyArray Int := ⟨[3, 5], [0, 1, 2, 3, 4, 10, 11, 12, 13, 14, 20, 21, -128, 23, 24]⟩

example : (fromNumpy (integral (-128)) example35 (some [2, 2]) (some 13) 2 4 fun _ _ => 7).toOption.map (·.partitions) =
    some [⟨(0, 0), (3, 2), [0, 1, 10, 11, 20, 21]⟩, ⟨(0, 2), (3, 3), [2, 3, 4, 12, -128, 14, -128, 23, 24]⟩] := by decide

/-- Value -128 happens to be LUE's own representation of no-data: it is not returned. -/
example : (fromNumpy (integral (-128)) example35 (some [2, 2]) (some 13) 2 4 (fun _ _ => 7) >>= fun x =>
    toNumpy (integral (-128)) x (some 99) fun _ => 7) =
    .ok ⟨[3, 5], [0, 1, 2, 3, 4, 10, 11, 12, 99, 14, 20, 21, 99, 23, 24]⟩ := by decide

/-- Floating point elements: NaN is no-data, also if it is not the no-data value passed in. -/
example : (fromNumpy floating ⟨[1, 3], [some 5, none, some 6]⟩ (some [1, 2]) (some (some 6)) 1 4 (fun _ _ => none) >>=
    fun x => toNumpy floating x (some (some 9)) fun _ => none) = .ok ⟨[1, 3], [some 5, some 9, some 9]⟩ := by decide

example : example35.Valid 3 5 := ⟨rfl, rfl⟩

example : fromNumpy (integral (-128)) example35 (some [2, 6]) none 1 4 (fun _ _ => 7) = .error .thrown := by rfl
example : fromNumpy (integral (-128)) example35 (some [2]) none 1 4 (fun _ _ => 7) = .error .thrown := by rfl

/-- The hypotheses of the theorems are met. -/
example : ∃ x, fromNumpy (integral (-128)) example35 (some [2, 2]) none 2 1 (fun _ _ => 7) = .ok x ∧
    toNumpy (integral (-128)) x none (fun _ => 8) = .ok example35 :=
  numpy_round_trip (integral_lawful (-128)) (a := example35) (rows := 3) (cols := 5) ⟨rfl, rfl⟩ (by decide) (by decide)
    1 (by decide) (by decide) _ _

example : (createArray (fun d => d.itemsize ≥ 4) (fun _ (x : Int) => .ok x) [2, 3] ⟨'i', 4⟩ (5 : Int) (some [1, 2]) 1
    4).toOption.map (fun r => (r.1, r.2.partitions)) =
    some (⟨'i', 4⟩, [⟨(0, 0), (1, 3), [5, 5, 5]⟩, ⟨(1, 0), (1, 3), [5, 5, 5]⟩]) := by decide

/-- The result of `partition_count_unique` (C41), if the last partition is larger than the other ones, is not converted
correctly: the number of unique values in the last partition ends up in the cell of the first one, and the last
cell contains whatever was in the memory of the new NumPy array (here: 7). Without an enlarged last partition this does
not happen. -/
example : (Position.partitionCountUnique false (· == (-1)) 999 Position.example25 [1, 0] >>= fun x =>
    toNumpy ⟨false, fun _ => false, fun x y => x == y, 999⟩ x none fun _ => 7) = .ok ⟨[1, 2], [3, 7]⟩ := by decide

end Lue.Numpy

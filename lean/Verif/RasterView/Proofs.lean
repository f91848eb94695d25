import Verif.RasterView.Spec

namespace Lue.RasterView

open Lue.DataModel Lue.LueIO

variable {α β τ : Type}

/-! ### Representation of rasters by files -/

/-- The property set in a file -/
def File.pset (d : File α β τ) (p s : Name) : Option (PropertySet α β τ) :=
  (d.phenomena p).bind fun ph => ph.propertySets s

/-- Time grid of a raster -/
def timeGrids : Option (τ × Nat) → Items ShapeProperty
  | none => fun _ => none
  | some t => insert (fun _ => none) timeGrid ⟨true, [1], [[t.2]], none, none⟩

/-- A property set represents a raster. -/
structure RepSet (a : Rasters α β τ) (p s : Name) (ps : PropertySet α β τ) (r : Raster α β τ) : Prop where
  ids : ∃ id is, a.ids p = some (id :: is) ∧ ∀ k n x, (r.layers k).get n = some x →
    ∃ prop, (ps.layers k).get n = some prop ∧ (prop.time, prop.space) = layerDiscr (p, s) k ∧
      prop.value.child (name id) = some x
  space : ps.space = some ⟨true, true, false, [r.box]⟩
  time : ps.time = r.time.map fun t => ⟨true, [t.1]⟩
  same : ps.same = insert (fun _ => none) spaceGrid (gridProperty r.grid)
  sameConstant : ps.sameConstant = timeGrids r.time
  others : ps.others = fun _ => false
  okF : ∀ k, (ps.layers k).Ok
  okS : ∀ k, (r.layers k).Ok
  reserved : ∀ k n, n ∈ r.reserved k → (r.layers k).get n = none ∧ ∃ prop, (ps.layers k).get n = some prop
  other : ∀ k n prop, (ps.layers k).get n = some prop → (r.layers k).get n = none →
    n ∈ r.reserved k ∧ prop.time = none ∧ ∀ reg l, prop.space = some ⟨reg, l⟩ →
      l.coll = .same ∧ l.property = spaceGrid ∧ (a.raster l.phenomenon l.propertySet).isSome ∧
      ¬(reg = true ∧ l.phenomenon = p ∧ l.propertySet = s)

/-- A file represents a collection of rasters. -/
structure Rep (d : File α β τ) (a : Rasters α β τ) : Prop where
  ids : ∀ p, (d.phenomena p).map Phenomenon.ids = a.ids p
  sets : ∀ p s, Option.Rel (RepSet a p s) (d.pset p s) (a.raster p s)

/-- A view is a view on a raster. -/
structure ViewRep (a : Rasters α β τ) (v : View β τ) : Prop where
  raster : ∃ r, a.raster v.phenomenon v.propertySet = some r ∧ v.box = r.box ∧ v.grid = [r.grid.1, r.grid.2] ∧
    (v.kind = .varying → v.time = r.time) ∧ ∀ n ∈ v.layers, ((r.layers v.kind).get n).isSome
  ids : ∃ is, a.ids v.phenomenon = some (v.objectId :: is)

/-- Rasters are only added, or get more layers or properties. -/
structure Grows (a a' : Rasters α β τ) : Prop where
  ids : ∀ p i is, a.ids p = some (i :: is) → a'.ids p = some (i :: is)
  raster : ∀ p s r, a.raster p s = some r → ∃ r', a'.raster p s = some r' ∧ r'.box = r.box ∧ r'.grid = r.grid ∧
    r'.time = r.time ∧ ∀ k n, ((r.layers k).get n).isSome → ((r'.layers k).get n).isSome

theorem Grows.refl (a : Rasters α β τ) : Grows a a := ⟨fun _ _ _ h => h, fun _ _ r h => ⟨r, h, rfl, rfl, rfl, fun _ _ h => h⟩⟩

theorem ViewRep.mono {a a' : Rasters α β τ} {v : View β τ} (h : ViewRep a v) (g : Grows a a') : ViewRep a' v := by
  obtain ⟨r, h1, h2, h3, h4, h5⟩ := h.raster
  obtain ⟨is, h6⟩ := h.ids
  obtain ⟨r', g1, g2, g3, g4, g5⟩ := g.raster _ _ _ h1
  exact ⟨⟨r', g1, h2.trans g2.symm, by rw [h3, g3], fun h => (h4 h).trans g4.symm, fun n hn => g5 _ _ (h5 n hn)⟩,
    ⟨is, g.ids _ _ _ h6⟩⟩

theorem RepSet.mono {a a' : Rasters α β τ} {p s : Name} {ps : PropertySet α β τ} {r : Raster α β τ}
    (h : RepSet a p s ps r) (g : Grows a a') : RepSet a' p s ps r := by
  obtain ⟨id, is, h1, h2⟩ := h.ids
  refine ⟨⟨id, is, g.ids _ _ _ h1, h2⟩, h.space, h.time, h.same, h.sameConstant, h.others, h.okF, h.okS, h.reserved, ?_⟩
  intro k n prop h3 h4
  obtain ⟨h5, h6, h7⟩ := h.other k n prop h3 h4
  refine ⟨h5, h6, fun reg l hl => ?_⟩
  obtain ⟨h8, h9, h10, h11⟩ := h7 reg l hl
  refine ⟨h8, h9, ?_, h11⟩
  obtain ⟨r1, hr1⟩ := Option.isSome_iff_exists.mp h10
  obtain ⟨r', g1, _⟩ := g.raster _ _ _ hr1
  rw [g1]; rfl

/-- Storing a property set. -/
theorem pset_set (d : File α β τ) (p s : Name) (ph : Phenomenon α β τ) (ps : PropertySet α β τ)
    (hp : ∀ s', ph.propertySets s' = d.pset p s') (p' s' : Name) :
    (d.setPropertySet p s ph ps).pset p' s' = if p' = p ∧ s' = s then some ps else d.pset p' s' := by
  unfold File.pset File.setPropertySet insert
  dsimp only
  by_cases h1 : p' = p
  · subst h1
    simp only [if_true, Option.bind_some, true_and]
    by_cases h2 : s' = s
    · simp [h2]
    · simp only [h2, if_false]
      exact hp s'
  · simp [h1]

theorem Rep.pset_some {d : File α β τ} {a : Rasters α β τ} (h : Rep d a) {p s : Name} {r : Raster α β τ}
    (hr : a.raster p s = some r) : ∃ ph ps, d.phenomena p = some ph ∧ ph.propertySets s = some ps ∧ RepSet a p s ps r := by
  have h1 := h.sets p s
  rw [hr] at h1
  cases h2 : d.phenomena p with
  | none => simp [File.pset, h2] at h1
  | some ph =>
    cases h3 : ph.propertySets s with
    | none => simp [File.pset, h2, h3] at h1
    | some ps =>
      simp only [File.pset, h2, h3, Option.bind_some] at h1
      cases h1 with
      | some h1 => exact ⟨ph, ps, rfl, h3, h1⟩

theorem Rep.pset_none {d : File α β τ} {a : Rasters α β τ} (h : Rep d a) {p s : Name}
    (hr : a.raster p s = none) : d.pset p s = none := by
  have h1 := h.sets p s
  rw [hr] at h1
  cases h2 : d.pset p s with
  | none => rfl
  | some x => rw [h2] at h1; cases h1

/-- The rasters after storing one of them. -/
theorem grows_set (a : Rasters α β τ) (p s : Name) (r : Raster α β τ)
    (h : ∀ r0, a.raster p s = some r0 → r.box = r0.box ∧ r.grid = r0.grid ∧ r.time = r0.time ∧
      ∀ k n, ((r0.layers k).get n).isSome → ((r.layers k).get n).isSome) : Grows a (a.set p s r) := by
  refine ⟨fun _ _ _ h => h, fun p' s' r' h' => ?_⟩
  by_cases hh : p' = p ∧ s' = s
  · obtain ⟨rfl, rfl⟩ := hh
    refine ⟨r, by simp [Rasters.set], ?_⟩
    exact h r' h'
  · exact ⟨r', by simp [Rasters.set, hh, h'], rfl, rfl, rfl, fun _ _ h => h⟩

theorem Rep.set {d : File α β τ} {a : Rasters α β τ} (h : Rep d a) {p s : Name} {ph : Phenomenon α β τ}
    {ps : PropertySet α β τ} {r : Raster α β τ} (hp : d.phenomena p = some ph) (g : Grows a (a.set p s r))
    (hr : RepSet (a.set p s r) p s ps r) : Rep (d.setPropertySet p s ph ps) (a.set p s r) := by
  refine ⟨fun p' => ?_, fun p' s' => ?_⟩
  · have := h.ids p'
    show _ = a.ids p'
    rw [← this]
    unfold File.setPropertySet insert
    dsimp only
    by_cases h1 : p' = p
    · subst h1; simp [hp]
    · simp [h1]
  · rw [pset_set d p s ph ps (fun s' => by simp [File.pset, hp])]
    show Option.Rel _ _ (if p' = p ∧ s' = s then some r else a.raster p' s')
    by_cases hh : p' = p ∧ s' = s
    · rw [if_pos hh, if_pos hh]
      obtain ⟨rfl, rfl⟩ := hh
      exact .some hr
    · rw [if_neg hh, if_neg hh]
      have h1 := h.sets p' s'
      revert h1
      cases d.pset p' s' with
      | none =>
        intro h1
        cases h2 : a.raster p' s' with
        | none => exact .none
        | some y => rw [h2] at h1; cases h1
      | some x =>
        intro h1
        cases h2 : a.raster p' s' with
        | none => rw [h2] at h1; cases h1
        | some y =>
          rw [h2] at h1
          cases h1 with
          | some h1 => exact .some (h1.mono g)

/-! ### Opening views -/

theorem mem_names {χ : Type} (m : AMap Name χ) (n : Name) : n ∈ names m ↔ (m.get n).isSome := by
  rw [names, List.mem_insertionSort, ← AMap.get_isSome, Option.isSome_iff_exists]

theorem sorted_names {χ : Type} (m : AMap Name χ) : (names m).Pairwise (· ≤ ·) := List.pairwise_insertionSort _ _

theorem nodup_names {χ : Type} {m : AMap Name χ} (h : m.Ok) : (names m).Nodup :=
  (List.perm_insertionSort _ _).nodup_iff.mpr h

/-- Scanning properties results in the names of those which are layers. -/
theorem scan_ok (m : AMap Name (Property α)) (f : Property α → M Bool) (q : Name → Bool) (ns : List Name)
    (h : ∀ n ∈ ns, ∃ x, m.get n = some x ∧ f x = .ok (q n)) : scan m f ns = .ok (ns.filter q) := by
  induction ns with
  | nil => rfl
  | cons n ns ih =>
    obtain ⟨x, hx, hf⟩ := h n (by simp)
    rw [scan, ih fun n' hn' => h n' (by simp [hn'])]
    simp only [item, hx, bind, Except.bind, hf, List.filter_cons]

theorem scan_names (m : AMap Name (Property α)) (m' : AMap Name (Dataset α)) (f : Property α → M Bool)
    (hm : m.Ok) (hm' : m'.Ok)
    (h1 : ∀ n x, m'.get n = some x → ∃ y, m.get n = some y ∧ f y = .ok true)
    (h2 : ∀ n y, m.get n = some y → m'.get n = none → f y = .ok false) : scan m f (names m) = .ok (names m') := by
  rw [scan_ok m f (fun n => (m'.get n).isSome)]
  · congr 1
    apply List.Perm.eq_of_pairwise (le := (· ≤ ·))
    · intro a b _ _ hab hba
      exact le_antisymm hab hba
    · exact (sorted_names m).filter _
    · exact sorted_names m'
    · rw [List.perm_ext_iff_of_nodup ((nodup_names hm).filter _) (nodup_names hm')]
      intro n
      rw [List.mem_filter, mem_names, mem_names]
      constructor
      · exact fun h => h.2
      · intro h
        obtain ⟨x, hx⟩ := Option.isSome_iff_exists.mp h
        obtain ⟨y, hy, _⟩ := h1 n x hx
        exact ⟨by rw [hy]; rfl, h⟩
  · intro n hn
    rw [mem_names] at hn
    obtain ⟨y, hy⟩ := Option.isSome_iff_exists.mp hn
    refine ⟨y, hy, ?_⟩
    cases h3 : m'.get n with
    | none => exact h2 n y hy h3
    | some x =>
      obtain ⟨y', hy', hf⟩ := h1 n x h3
      rw [hy] at hy'
      cases hy'
      exact hf

theorem exists_grid {d : File α β τ} {a : Rasters α β τ} (h : Rep d a) {l : Path} (hc : l.coll = .same)
    (hp : l.property = spaceGrid) (hr : (a.raster l.phenomenon l.propertySet).isSome) : d.exists l = true := by
  obtain ⟨r, hr⟩ := Option.isSome_iff_exists.mp hr
  obtain ⟨ph, ps, h1, h2, h3⟩ := h.pset_some hr
  unfold File.exists
  rw [h1]; dsimp only
  rw [h2]; dsimp only
  rw [hc]; dsimp only
  rw [hp, h3.same]
  simp [insert]

theorem openView_eq {d : File α β τ} {a : Rasters α β τ} (h : Rep d a) (k : Kind) (p s : Name) :
    (openView d k p s).toOption = a.view k p s := by
  cases hr : a.raster p s with
  | none =>
    have h1 := h.pset_none hr
    have h2 : ∃ e, openBase d k p s = .error e := by
      unfold openBase item
      unfold File.pset at h1
      cases h3 : d.phenomena p with
      | none => exact ⟨_, rfl⟩
      | some ph =>
        rw [h3] at h1
        simp only [Option.bind_some] at h1
        simp only [bind, Except.bind, h1]
        exact ⟨_, rfl⟩
    obtain ⟨e, he⟩ := h2
    cases k <;> simp [openView, openConstant, openVariable, he, bind, Except.bind, Except.toOption, Rasters.view, hr]
  | some r =>
    obtain ⟨ph, ps, h1, h2, h3⟩ := h.pset_some hr
    obtain ⟨id, is, h4, h5⟩ := h3.ids
    have h6 : ph.ids = id :: is := by
      have := h.ids p
      rw [h1, h4] at this
      simpa using this
    have hgrid : ps.same spaceGrid = some (gridProperty r.grid) := by rw [h3.same]; simp [insert]
    have h7 : openBase d k p s = .ok ⟨k, p, s, id, r.box, [r.grid.1, r.grid.2], none, []⟩ := by
      unfold openBase
      simp [item, h1, h2, h6, first, h3.space, deref, hgrid, gridProperty, bind, Except.bind]
    have hlink : linksTo d ⟨p, s, .same, spaceGrid⟩ ⟨p, s, .same, spaceGrid⟩ = .ok true := by
      unfold linksTo
      rw [exists_grid h rfl rfl (by show (a.raster p s).isSome; rw [hr]; rfl)]
      simp
    cases k with
    | constant =>
      have h8 : scan (ps.layers .constant) (isConstantLayer d ⟨p, s, .same, spaceGrid⟩) (names (ps.layers .constant)) =
          .ok (names (r.layers .constant)) := by
        apply scan_names _ _ _ (h3.okF _) (h3.okS _)
        · intro n x hx
          obtain ⟨prop, h9, h10, _⟩ := h5 _ _ _ hx
          refine ⟨prop, h9, ?_⟩
          simp only [layerDiscr, Prod.mk.injEq] at h10
          simp only [isConstantLayer, h10.2]
          exact hlink
        · intro n y hy hn
          obtain ⟨_, _, h11⟩ := h3.other _ _ _ hy hn
          unfold isConstantLayer
          split
          · rename_i l hl
            obtain ⟨h12, h13, h14, h15⟩ := h11 _ _ hl
            unfold linksTo
            rw [exists_grid h h12 h13 h14]
            simp only [if_true, Except.ok.injEq, beq_eq_false_iff_ne, ne_eq]
            rintro rfl
            exact h15 ⟨rfl, rfl, rfl⟩
          · rfl
      simp [openView, openConstant, h7, item, h1, h2, hgrid, h8, bind, Except.bind, Except.toOption, Rasters.view, hr, h4]
    | varying =>
      cases ht : r.time with
      | none =>
        have : ps.time = none := by rw [h3.time, ht]; rfl
        simp [openView, openVariable, h7, item, h1, h2, this, deref, bind, Except.bind, Except.toOption, Rasters.view, hr, h4,
          ht]
      | some t =>
        have h9 : ps.time = some ⟨true, [t.1]⟩ := by rw [h3.time, ht]; rfl
        have h10 : ps.sameConstant timeGrid = some ⟨true, [1], [[t.2]], none, none⟩ := by
          rw [h3.sameConstant, ht]; simp [timeGrids, insert]
        have htime : linksTo d ⟨p, s, .sameConstant, timeGrid⟩ ⟨p, s, .sameConstant, timeGrid⟩ = .ok true := by
          have : d.exists ⟨p, s, .sameConstant, timeGrid⟩ = true := by
            unfold File.exists
            dsimp only
            rw [h1]; dsimp only
            rw [h2]; dsimp only
            rw [h10]; rfl
          unfold linksTo
          rw [this]
          simp
        have h8 : scan (ps.layers .varying)
            (isVariableLayer d ⟨p, s, .sameConstant, timeGrid⟩ ⟨p, s, .same, spaceGrid⟩) (names (ps.layers .varying)) =
            .ok (names (r.layers .varying)) := by
          apply scan_names _ _ _ (h3.okF _) (h3.okS _)
          · intro n x hx
            obtain ⟨prop, h9, h10, _⟩ := h5 _ _ _ hx
            refine ⟨prop, h9, ?_⟩
            simp only [layerDiscr, Prod.mk.injEq] at h10
            simp only [isVariableLayer, h10.1, h10.2]
            rw [htime, hlink]; rfl
          · intro n y hy hn
            obtain ⟨_, h12, _⟩ := h3.other _ _ _ hy hn
            simp only [isVariableLayer, h12]
        simp [openView, openVariable, h7, item, h1, h2, hgrid, h8, h9, h10, deref, first, bind, Except.bind, Except.toOption,
          Rasters.view, hr, h4, ht]

theorem view_rep {d : File α β τ} {a : Rasters α β τ} (_h : Rep d a) {k : Kind} {p s : Name} {v : View β τ}
    (hv : a.view k p s = some v) : ViewRep a v := by
  unfold Rasters.view at hv
  simp only [Option.bind_eq_bind, Option.bind_eq_some_iff] at hv
  obtain ⟨r, hr, ids, hids, id, hid, hv⟩ := hv
  have h1 : ∃ is, ids = id :: is := by
    cases ids with
    | nil => simp at hid
    | cons i is => simp at hid; exact ⟨is, by rw [hid]⟩
  obtain ⟨is, rfl⟩ := h1
  cases k with
  | constant =>
    simp only [Option.some.injEq] at hv
    subst hv
    exact ⟨⟨r, hr, rfl, rfl, by simp, fun n hn => (mem_names _ _).mp hn⟩, ⟨is, hids⟩⟩
  | varying =>
    simp only [Option.bind_eq_some_iff, Option.some.injEq] at hv
    obtain ⟨t, ht, hv⟩ := hv
    subst hv
    exact ⟨⟨r, hr, rfl, rfl, fun _ => ht.symm, fun n hn => (mem_names _ _).mp hn⟩, ⟨is, hids⟩⟩

end Lue.RasterView

import Verif.RasterView.Proofs
import Verif.DataModel.Proofs

namespace Lue.RasterView

open Lue.DataModel Lue.LueIO

variable {α β τ : Type}

/-- The rasters and views after an operation are represented by the file and views after it. -/
structure Sim (st : File α β τ × List (View β τ)) (sa : Rasters α β τ × List (View β τ)) : Prop where
  rep : Rep st.1 sa.1
  views : st.2 = sa.2
  view : ∀ v ∈ sa.2, ViewRep sa.1 v

theorem views_mono {a a' : Rasters α β τ} (g : Grows a a') {vs : List (View β τ)} (h : ∀ v ∈ vs, ViewRep a v) :
    ∀ v ∈ vs, ViewRep a' v := fun v hv => (h v hv).mono g

/-! ### Phenomena -/

/-- Changing the objects of a phenomenon without objects. -/
theorem rep_ids {d : File α β τ} {a : Rasters α β τ} (h : Rep d a) {p : Name} {ids : List Nat} {ph : Phenomenon α β τ}
    (hp : ph.propertySets = ((d.phenomena p).getD ⟨[], fun _ => none⟩).propertySets) (hi : ph.ids = ids)
    (hids : ∀ i is, a.ids p = some (i :: is) → ids = i :: is) :
    Rep ⟨insert d.phenomena p ph⟩ { a with ids := insert a.ids p ids } ∧ Grows a { a with ids := insert a.ids p ids } := by
  have g : Grows a { a with ids := insert a.ids p ids } := by
    refine ⟨fun p' i is h' => ?_, fun _ _ r hr => ⟨r, hr, rfl, rfl, rfl, fun _ _ h => h⟩⟩
    show insert _ _ _ _ = _
    unfold insert
    by_cases hh : p' = p
    · subst hh
      simp [hids i is h']
    · simp [hh, h']
  refine ⟨⟨fun p' => ?_, fun p' s' => ?_⟩, g⟩
  · show Option.map _ (insert _ _ _ _) = insert _ _ _ _
    unfold insert
    by_cases hh : p' = p
    · simp [hh, hi]
    · simp only [hh, if_false]; exact h.ids p'
  · have h1 : File.pset ⟨insert d.phenomena p ph⟩ p' s' = d.pset p' s' := by
      unfold File.pset insert
      dsimp only
      by_cases hh : p' = p
      · subst hh
        simp only [if_true, Option.bind_some, hp]
        cases d.phenomena p' <;> rfl
      · simp [hh]
    rw [h1]
    have h2 := h.sets p' s'
    show Option.Rel _ _ (a.raster p' s')
    revert h2
    cases d.pset p' s' with
    | none =>
      intro h2
      cases h3 : a.raster p' s' with
      | none => exact .none
      | some y => rw [h3] at h2; cases h2
    | some x =>
      intro h2
      cases h3 : a.raster p' s' with
      | none => rw [h3] at h2; cases h2
      | some y =>
        rw [h3] at h2
        cases h2 with
        | some h2 => exact .some (h2.mono g)

theorem prepare_ids {d : File α β τ} {a : Rasters α β τ} (h : Rep d a) (p : Name) :
    (preparePhenomenon d p).ids = idsWith (a.ids p) ∧
      (preparePhenomenon d p).propertySets = ((d.phenomena p).getD ⟨[], fun _ => none⟩).propertySets := by
  have h1 := h.ids p
  unfold preparePhenomenon
  rw [← h1]
  cases h2 : d.phenomena p with
  | none => simp [idsWith]
  | some ph =>
    obtain ⟨ids, ps⟩ := ph
    cases ids with
    | nil => simp [idsWith]
    | cons i is => simp [idsWith]

theorem rep_prepare {d : File α β τ} {a : Rasters α β τ} (h : Rep d a) (p : Name) :
    Rep ⟨insert d.phenomena p (preparePhenomenon d p)⟩ { a with ids := insert a.ids p (idsWith (a.ids p)) } ∧
      Grows a { a with ids := insert a.ids p (idsWith (a.ids p)) } := by
  obtain ⟨h1, h2⟩ := prepare_ids h p
  exact rep_ids h h2 h1 fun i is h3 => by rw [h3]; rfl

/-- The property set of a new raster -/
def newSet (tracker : Validate.Tracker) (grid : Nat × Nat) (box : β) (time : Option (τ × Nat)) : PropertySet α β τ :=
  { tracker := tracker
    time := time.map fun t => ⟨true, [t.1]⟩
    space := some ⟨true, true, false, [box]⟩
    same := insert (fun _ => none) spaceGrid (gridProperty grid)
    sameConstant := timeGrids time
    layers := fun _ => []
    others := fun _ => false }

/-- Creating a raster of some kind -/
def createView (d : File α β τ) (p s : Name) (grid : Nat × Nat) (box : β) (time : Option (τ × Nat)) :
    M (View β τ) × File α β τ :=
  match time with
  | none => createConstant d p s grid box
  | some (t, nr) => createVariable d p s nr t grid box

theorem createView_eq (d : File α β τ) (p s : Name) (grid : Nat × Nat) (box : β) (time : Option (τ × Nat)) :
    createView d p s grid box time =
      match (preparePhenomenon d p).propertySets s with
      | some _ => (.error .thrown, ⟨insert d.phenomena p (preparePhenomenon d p)⟩)
      | none =>
        let d' := d.setPropertySet p s (preparePhenomenon d p)
          (newSet (if time.isSome then ⟨[0], [5], [0]⟩ else ⟨[], [], []⟩) grid box time)
        (openView d' (if time.isSome then .varying else .constant) p s, d') := by
  cases time with
  | none =>
    simp only [createView, createConstant]
    cases (preparePhenomenon d p).propertySets s <;> rfl
  | some t =>
    obtain ⟨t, nr⟩ := t
    simp only [createView, createVariable]
    cases (preparePhenomenon d p).propertySets s <;> rfl

theorem insert_insert {χ : Type} (m : Items χ) (k : Name) (x y : χ) : insert (insert m k x) k y = insert m k y := by
  funext n
  simp only [insert]
  split <;> rfl

theorem create_sim {d : File α β τ} {a : Rasters α β τ} (h : Rep d a) (p s : Name) (grid : Nat × Nat) (box : β)
    (time : Option (τ × Nat)) :
    (createView d p s grid box time).1.toOption = (a.create p s grid box time).1 ∧
      Rep (createView d p s grid box time).2 (a.create p s grid box time).2 ∧
      Grows a (a.create p s grid box time).2 ∧
      ∀ v, (a.create p s grid box time).1 = some v → ViewRep (a.create p s grid box time).2 v := by
  obtain ⟨h1, h2⟩ := rep_prepare h p
  set a1 : Rasters α β τ := { a with ids := insert a.ids p (idsWith (a.ids p)) } with ha1
  set d1 : File α β τ := ⟨insert d.phenomena p (preparePhenomenon d p)⟩ with hd1
  have hph : d1.phenomena p = some (preparePhenomenon d p) := by simp [hd1, insert]
  have hcreate : a.create p s grid box time =
      match a1.raster p s with
      | some _ => (none, a1)
      | none => ((a1.set p s ⟨box, grid, time, fun _ => [], fun _ => []⟩).view
          (if time.isSome then .varying else .constant) p s, a1.set p s ⟨box, grid, time, fun _ => [], fun _ => []⟩) := rfl
  rw [createView_eq, hcreate]
  cases hr : a1.raster p s with
  | some r =>
    obtain ⟨ph, ps, h3, h4, _⟩ := h1.pset_some hr
    rw [hph, Option.some.injEq] at h3
    subst h3
    rw [h4]
    exact ⟨rfl, h1, h2, by simp⟩
  | none =>
    have h3 := h1.pset_none hr
    have h4 : (preparePhenomenon d p).propertySets s = none := by
      simpa [File.pset, hph] using h3
    rw [h4]
    dsimp only
    have h5 : d.setPropertySet p s (preparePhenomenon d p)
        (newSet (if time.isSome then ⟨[0], [5], [0]⟩ else ⟨[], [], []⟩) grid box time) =
        d1.setPropertySet p s (preparePhenomenon d p)
        (newSet (if time.isSome then ⟨[0], [5], [0]⟩ else ⟨[], [], []⟩) grid box time) := by
      simp only [File.setPropertySet, hd1, insert_insert]
    rw [h5]
    have g : Grows a1 (a1.set p s ⟨box, grid, time, fun _ => [], fun _ => []⟩) := by
      apply grows_set
      intro r0 hr0
      rw [hr] at hr0
      simp at hr0
    have hrep : Rep (d1.setPropertySet p s (preparePhenomenon d p)
        (newSet (if time.isSome then ⟨[0], [5], [0]⟩ else ⟨[], [], []⟩) grid box time))
        (a1.set p s ⟨box, grid, time, fun _ => [], fun _ => []⟩) := by
      apply h1.set hph g
      refine ⟨?_, rfl, rfl, rfl, rfl, rfl, fun _ => AMap.ok_nil, fun _ => AMap.ok_nil, by simp, ?_⟩
      · have : ∃ id is, idsWith (a.ids p) = id :: is := by
          unfold idsWith
          split <;> exact ⟨_, _, rfl⟩
        obtain ⟨id, is, h6⟩ := this
        refine ⟨id, is, ?_, by simp [AMap.get_nil]⟩
        show insert _ _ _ _ = _
        simp [insert, h6]
      · intro k n prop hn
        simp [newSet, AMap.get_nil] at hn
    refine ⟨openView_eq hrep _ p s, hrep, ?_, fun v hv => view_rep hrep hv⟩
    refine ⟨fun p' i is h' => g.ids _ _ _ (h2.ids _ _ _ h'), fun p' s' r hr' => ?_⟩
    obtain ⟨r1, h6, h7, h8, h9, h10⟩ := h2.raster _ _ _ hr'
    obtain ⟨r2, g6, g7, g8, g9, g10⟩ := g.raster _ _ _ h6
    exact ⟨r2, g6, g7.trans h7, g8.trans h8, g9.trans h9, fun k n hn => g10 k n (h10 k n hn)⟩

/-! ### Layers -/

theorem sameShape_expand_create (shape : List Nat) (x : α) (n : Nat) :
    SameShape.expand (SameShape.create shape x) n = ⟨⟨n :: shape, fun _ => x⟩, x⟩ := by
  simp [SameShape.expand, SameShape.create, createDataset, resize]
  funext i
  exact ite_self x

theorem newValue_eq (zero : α) (v : View β τ) (noData : Option α) :
    (newValue zero v noData).1 = .ok () ∧ (newValue zero v noData).2.child (name v.objectId) =
      some (match v.kind with
        | .constant => ⟨⟨v.grid, fun _ => noData.getD zero⟩, noData.getD zero⟩
        | .varying => ⟨⟨1 :: v.time.elim 0 Prod.snd :: v.grid, fun _ => zero⟩, zero⟩) := by
  unfold newValue
  cases v.kind with
  | constant => simp [DifferentShape.expandOne, expandGroup, createChildren, createChild, createGroup, createDataset]
  | varying =>
    simp [DifferentShapeConstantShape.expand, expandGroup, createChildren, createChild, createGroup,
      sameShape_expand_create]

theorem findGrids_ok {a : Rasters α β τ} {p s : Name} {ps : PropertySet α β τ} {r : Raster α β τ} (h : RepSet a p s ps r)
    (k : Kind) (hk : k = .varying → r.time.isSome) : findGrids ps k = .ok () := by
  have hgrid : ps.same spaceGrid = some (gridProperty r.grid) := by rw [h.same]; simp [insert]
  cases k with
  | constant => simp [findGrids, item, hgrid, bind, Except.bind]
  | varying =>
    obtain ⟨t, ht⟩ := Option.isSome_iff_exists.mp (hk rfl)
    have h10 : ps.sameConstant timeGrid = some ⟨true, [1], [[t.2]], none, none⟩ := by
      rw [h.sameConstant, ht]; simp [timeGrids, insert]
    simp [findGrids, item, hgrid, h10, bind, Except.bind]

theorem put_layers (r : Raster α β τ) (k : Kind) (n : Name) (x : Dataset α) (k' : Kind) (n' : Name) :
    ((r.put k n x).layers k').get n' = if k' = k ∧ n' = n then some x else (r.layers k').get n' := by
  unfold Raster.put
  dsimp only
  by_cases h1 : k' = k
  · subst h1
    by_cases h2 : n' = n
    · subst h2; simp [AMap.get_put]
    · simp [AMap.get_put, h2, Ne.symm h2]
  · simp [h1]

theorem setLayer_layers (ps : PropertySet α β τ) (k : Kind) (n : Name) (x : Property α) (k' : Kind) (n' : Name) :
    ((ps.setLayer k n x).layers k').get n' = if k' = k ∧ n' = n then some x else (ps.layers k').get n' := by
  unfold PropertySet.setLayer
  dsimp only
  by_cases h1 : k' = k
  · subst h1
    by_cases h2 : n' = n
    · subst h2; simp [AMap.get_put]
    · simp [AMap.get_put, h2, Ne.symm h2]
  · simp [h1]

/-- Storing the array of a layer -/
theorem repSet_put {a : Rasters α β τ} {p s : Name} {ps : PropertySet α β τ} {r : Raster α β τ} (h : RepSet a p s ps r)
    {id : Nat} {is : List Nat} (hid : a.ids p = some (id :: is)) (k : Kind) (n : Name) (prop : Property α) (x : Dataset α)
    (hd : (prop.time, prop.space) = layerDiscr (p, s) k) (hx : prop.value.child (name id) = some x)
    (hn : n ∉ r.reserved k) : RepSet a p s (ps.setLayer k n prop) (r.put k n x) := by
  obtain ⟨id', is', h1, h2⟩ := h.ids
  rw [hid] at h1
  simp only [Option.some.injEq, List.cons.injEq] at h1
  obtain ⟨rfl, rfl⟩ := h1
  refine ⟨⟨id, is, hid, ?_⟩, h.space, h.time, h.same, h.sameConstant, h.others, ?_, ?_, ?_, ?_⟩
  · intro k' n' x' hx'
    rw [put_layers] at hx'
    rw [setLayer_layers]
    by_cases hh : k' = k ∧ n' = n
    · rw [if_pos hh] at hx' ⊢
      obtain ⟨rfl, rfl⟩ := hh
      cases hx'
      exact ⟨prop, rfl, hd, hx⟩
    · rw [if_neg hh] at hx' ⊢
      exact h2 k' n' x' hx'
  · intro k'
    unfold PropertySet.setLayer
    dsimp only
    split
    · exact (h.okF k').put _ _
    · exact h.okF k'
  · intro k'
    unfold Raster.put
    dsimp only
    split
    · exact (h.okS k').put _ _
    · exact h.okS k'
  · intro k' n' hn'
    have hn'' : n' ∈ r.reserved k' := hn'
    obtain ⟨h3, y, h4⟩ := h.reserved k' n' hn''
    have hne : ¬(k' = k ∧ n' = n) := by
      rintro ⟨rfl, rfl⟩
      exact hn hn''
    rw [put_layers, setLayer_layers, if_neg hne, if_neg hne]
    exact ⟨h3, y, h4⟩
  · intro k' n' y hy hy'
    rw [setLayer_layers] at hy
    rw [put_layers] at hy'
    by_cases hh : k' = k ∧ n' = n
    · rw [if_pos hh] at hy'; cases hy'
    · rw [if_neg hh] at hy hy'
      exact h.other k' n' y hy hy'

theorem grows_put {a : Rasters α β τ} {p s : Name} {r : Raster α β τ} (hr : a.raster p s = some r) (k : Kind) (n : Name)
    (x : Dataset α) : Grows a (a.set p s (r.put k n x)) := by
  apply grows_set
  intro r0 hr0
  rw [hr] at hr0
  cases hr0
  refine ⟨rfl, rfl, rfl, fun k' n' h => ?_⟩
  rw [put_layers]
  split
  · rfl
  · exact h

theorem addLayer_sim (zero : α) {d : File α β τ} {a : Rasters α β τ} (h : Rep d a) {v : View β τ} (hv : ViewRep a v)
    (hk : v.kind = .varying → v.time.isSome) (n : Name) (noData : Option α) :
    match addLayer zero d v n noData, a.addLayer zero v n noData with
    | .ok (v', d'), some (v'', a') => v' = v'' ∧ Rep d' a' ∧ Grows a a' ∧ ViewRep a' v'' ∧
        v''.kind = v.kind ∧ v''.time = v.time
    | .error _, none => True
    | _, _ => False := by
  obtain ⟨r, hr, hbox, hgrid, htime, hlayers⟩ := hv.raster
  obtain ⟨is, hids⟩ := hv.ids
  obtain ⟨ph, ps, h1, h2, h3⟩ := h.pset_some hr
  have hspec : a.addLayer zero v n noData = if n ∈ v.layers ∨ ((r.layers v.kind).get n).isSome ∨ n ∈ r.reserved v.kind then
      none else some ({ v with layers := v.layers ++ [n] },
        a.set v.phenomenon v.propertySet (r.put v.kind n (r.newLayer zero noData v.kind))) := by
    simp [Rasters.addLayer, hr]
  rw [hspec]
  unfold addLayer
  by_cases hn : n ∈ v.layers
  · simp [hn]
  · simp only [List.contains_eq_mem, hn, decide_false, Bool.false_eq_true, if_false, false_or, item, h1, h2, bind, Except.bind]
    unfold addLayerTo
    rw [findGrids_ok h3 v.kind fun hh => by rw [← htime hh]; exact hk hh]
    simp only [bind, Except.bind]
    have hex : ((ps.layers v.kind).get n).isSome ↔ ((r.layers v.kind).get n).isSome ∨ n ∈ r.reserved v.kind := by
      constructor
      · intro hh
        obtain ⟨y, hy⟩ := Option.isSome_iff_exists.mp hh
        cases hc : (r.layers v.kind).get n with
        | none => exact .inr (h3.other _ _ _ hy hc).1
        | some x => exact .inl rfl
      · rintro (hh | hh)
        · obtain ⟨x, hx⟩ := Option.isSome_iff_exists.mp hh
          obtain ⟨_, _, _, h5⟩ := h3.ids
          obtain ⟨prop, h6, _⟩ := h5 _ _ _ hx
          rw [h6]; rfl
        · obtain ⟨_, y, h6⟩ := h3.reserved _ _ hh
          rw [h6]; rfl
    by_cases hc : ((r.layers v.kind).get n).isSome ∨ n ∈ r.reserved v.kind
    · rw [if_pos (hex.mpr hc), if_pos hc]; trivial
    · rw [if_neg (fun hh => hc (hex.mp hh)), if_neg hc]
      obtain ⟨hv1, hv2⟩ := newValue_eq zero v noData
      rcases hnv : newValue zero v noData with ⟨e, value⟩
      rw [hnv] at hv1 hv2
      dsimp only at hv1 hv2
      subst hv1
      dsimp only
      have hg := grows_put hr v.kind n (r.newLayer zero noData v.kind)
      refine ⟨rfl, ?_, hg, ?_, rfl, rfl⟩
      · apply h.set h1 hg
        apply repSet_put (h3.mono hg) (id := v.objectId) (is := is) hids _ _ _ _ rfl
        · dsimp only
          rw [hv2]
          congr 1
          cases hkind : v.kind with
          | constant => simp [Raster.newLayer, hgrid]
          | varying => simp [Raster.newLayer, hgrid, htime hkind]
        · exact fun hh => hc (.inr hh)
      · refine ⟨⟨r.put v.kind n (r.newLayer zero noData v.kind), by simp [Rasters.set], hbox, hgrid, htime, ?_⟩, is, hids⟩
        intro n' hn'
        dsimp only at hn' ⊢
        rw [put_layers]
        simp only [true_and]
        split
        · rfl
        · rename_i hne
          simp only [List.mem_append, List.mem_singleton, hne, or_false] at hn'
          exact hlayers n' hn'

theorem layer_eq {d : File α β τ} {a : Rasters α β τ} (h : Rep d a) {v : View β τ} (hv : ViewRep a v) (n : Name) :
    (layer d v n).toOption = a.layer v n := by
  obtain ⟨r, hr, hbox, hgrid, htime, hlayers⟩ := hv.raster
  obtain ⟨is, hids⟩ := hv.ids
  obtain ⟨ph, ps, h1, h2, h3⟩ := h.pset_some hr
  unfold layer Rasters.layer
  by_cases hn : n ∈ v.layers
  · obtain ⟨x, hx⟩ := Option.isSome_iff_exists.mp (hlayers n hn)
    obtain ⟨id, is', h4, h5⟩ := h3.ids
    rw [hids] at h4
    simp only [Option.some.injEq, List.cons.injEq] at h4
    obtain ⟨rfl, rfl⟩ := h4
    obtain ⟨prop, h6, h7, h8⟩ := h5 _ _ _ hx
    simp [hn, item, h1, h2, hr, hx, h6, openChild, h8, bind, Except.bind, Except.toOption]
  · simp [hn, Except.toOption]

theorem write_sim {d : File α β τ} {a : Rasters α β τ} (h : Rep d a) {v : View β τ} (hv : ViewRep a v) (n : Name)
    (hs : Hyperslab) (buffer : List α) :
    match writeLayer d v n hs buffer, a.write v n hs buffer with
    | .ok d', some a' => Rep d' a' ∧ Grows a a'
    | .error _, none => True
    | _, _ => False := by
  obtain ⟨r, hr, hbox, hgrid, htime, hlayers⟩ := hv.raster
  obtain ⟨is, hids⟩ := hv.ids
  obtain ⟨ph, ps, h1, h2, h3⟩ := h.pset_some hr
  have h0 := layer_eq h hv n
  unfold writeLayer Rasters.write
  cases hl : layer d v n with
  | error e =>
    rw [hl] at h0
    rw [← h0]
    simp [Except.toOption, bind, Except.bind]
  | ok x =>
    rw [hl] at h0
    rw [← h0]
    have hx : (r.layers v.kind).get n = some x := by
      have : a.layer v n = some x := h0.symm
      unfold Rasters.layer at this
      rw [hr] at this
      split at this
      · exact this
      · cases this
    obtain ⟨id, is', h4, h5⟩ := h3.ids
    rw [hids] at h4
    simp only [Option.some.injEq, List.cons.injEq] at h4
    obtain ⟨rfl, rfl⟩ := h4
    obtain ⟨prop, h6, h7, h8⟩ := h5 _ _ _ hx
    cases hw : writeHyperslab x hs buffer with
    | error e => simp [Except.toOption, bind, Except.bind, hr, hw]
    | ok y =>
      have hg := grows_put hr v.kind n y
      simp only [Except.toOption, bind, Except.bind, hr, hw, Option.bind_some, item, h1, h2, h6]
      refine ⟨?_, hg⟩
      apply h.set h1 hg
      apply repSet_put (h3.mono hg) (id := v.objectId) (is := is) hids
      · exact h7
      · simp [setChild]
      · intro hh
        have := (h3.reserved _ _ hh).1
        rw [hx] at this
        cases this

theorem reserve_sim {d : File α β τ} {a : Rasters α β τ} (h : Rep d a) (p s : Name) (k : Kind) (n : Name)
    (discr : Option (Bool × Name × Name)) (hd : discr ≠ some (true, p, s)) :
    match addProperty d p s k n discr, a.reserve p s k n discr with
    | .ok d', some a' => Rep d' a' ∧ Grows a a'
    | .error _, none => True
    | _, _ => False := by
  cases hr : a.raster p s with
  | none =>
    have h1 := h.pset_none hr
    have h2 : addProperty d p s k n discr = .error .thrown := by
      unfold addProperty item
      unfold File.pset at h1
      cases h3 : d.phenomena p with
      | none => rfl
      | some ph =>
        rw [h3] at h1
        simp only [Option.bind_some] at h1
        simp only [bind, Except.bind, h1]
    rw [h2]
    simp [Rasters.reserve, hr]
  | some r =>
    obtain ⟨ph, ps, h1, h2, h3⟩ := h.pset_some hr
    have hspec : a.reserve p s k n discr = if ((r.layers k).get n).isSome ∨ n ∈ r.reserved k then none
      else if ∀ d ∈ discr, (a.raster d.2.1 d.2.2).isSome then
        some (a.set p s { r with reserved := fun k' => if k' = k then n :: r.reserved k' else r.reserved k' })
      else none := by
      simp only [Rasters.reserve, hr]
      rfl
    rw [hspec]
    have hex : ((ps.layers k).get n).isSome ↔ ((r.layers k).get n).isSome ∨ n ∈ r.reserved k := by
      constructor
      · intro hh
        obtain ⟨y, hy⟩ := Option.isSome_iff_exists.mp hh
        cases hc : (r.layers k).get n with
        | none => exact .inr (h3.other _ _ _ hy hc).1
        | some x => exact .inl rfl
      · rintro (hh | hh)
        · obtain ⟨x, hx⟩ := Option.isSome_iff_exists.mp hh
          obtain ⟨_, _, _, h5⟩ := h3.ids
          obtain ⟨prop, h6, _⟩ := h5 _ _ _ hx
          rw [h6]; rfl
        · obtain ⟨_, y, h6⟩ := h3.reserved _ _ hh
          rw [h6]; rfl
    unfold addProperty
    simp only [item, h1, h2, bind, Except.bind]
    by_cases hc : ((r.layers k).get n).isSome ∨ n ∈ r.reserved k
    · rw [if_pos (hex.mpr hc), if_pos hc]; trivial
    · rw [if_neg (fun hh => hc (hex.mp hh)), if_neg hc]
      have hlayer : (r.layers k).get n = none := by
        cases hx : (r.layers k).get n with
        | none => rfl
        | some x => exact absurd (.inl (by rw [hx]; rfl)) hc
      have hg : Grows a (a.set p s { r with reserved := fun k' => if k' = k then n :: r.reserved k' else r.reserved k' }) := by
        apply grows_set
        intro r0 hr0
        rw [hr] at hr0
        cases hr0
        exact ⟨rfl, rfl, rfl, fun _ _ h => h⟩
      have key : ∀ sp : Option Discr,
          (∀ reg l, sp = some ⟨reg, l⟩ → l.coll = .same ∧ l.property = spaceGrid ∧
            (a.raster l.phenomenon l.propertySet).isSome ∧ ¬(reg = true ∧ l.phenomenon = p ∧ l.propertySet = s)) →
          Rep (d.setPropertySet p s ph (ps.setLayer k n ⟨none, sp, createGroup⟩))
            (a.set p s { r with reserved := fun k' => if k' = k then n :: r.reserved k' else r.reserved k' }) := by
        intro sp hsp
        apply h.set h1 hg
        have h4 := h3.mono hg
        obtain ⟨id, is, h5, h6⟩ := h4.ids
        refine ⟨⟨id, is, h5, ?_⟩, h3.space, h3.time, h3.same, h3.sameConstant, h3.others, ?_, h3.okS, ?_, ?_⟩
        · intro k' n' x hx
          have hne : ¬(k' = k ∧ n' = n) := by
            rintro ⟨rfl, rfl⟩
            rw [hlayer] at hx
            cases hx
          rw [setLayer_layers, if_neg hne]
          exact h6 k' n' x hx
        · intro k'
          unfold PropertySet.setLayer
          dsimp only
          split
          · exact (h3.okF k').put _ _
          · exact h3.okF k'
        · intro k' n' hn'
          rw [setLayer_layers]
          dsimp only at hn' ⊢
          by_cases hh : k' = k ∧ n' = n
          · rw [if_pos hh]
            obtain ⟨rfl, rfl⟩ := hh
            exact ⟨hlayer, _, rfl⟩
          · rw [if_neg hh]
            apply h3.reserved
            split at hn'
            · rename_i hk
              simp only [List.mem_cons] at hn'
              rcases hn' with hn' | hn'
              · exact absurd ⟨hk, hn'⟩ hh
              · exact hn'
            · exact hn'
        · intro k' n' prop hprop hnone
          rw [setLayer_layers] at hprop
          dsimp only at hnone ⊢
          by_cases hh : k' = k ∧ n' = n
          · rw [if_pos hh] at hprop
            obtain ⟨rfl, rfl⟩ := hh
            cases hprop
            refine ⟨by simp, rfl, fun reg l hl => ?_⟩
            obtain ⟨h7, h8, h9, h10⟩ := hsp reg l hl
            refine ⟨h7, h8, ?_, h10⟩
            obtain ⟨r1, hr1⟩ := Option.isSome_iff_exists.mp h9
            obtain ⟨r', g1, _⟩ := hg.raster _ _ _ hr1
            rw [g1]; rfl
          · rw [if_neg hh] at hprop
            obtain ⟨h7, h8, h9⟩ := h4.other k' n' prop hprop hnone
            refine ⟨?_, h8, h9⟩
            split
            · exact List.mem_cons_of_mem _ h7
            · exact h7
      cases discr with
      | none =>
        simp only [Option.mem_def, reduceCtorEq, IsEmpty.forall_iff, implies_true, if_true]
        exact ⟨key none (by simp), hg⟩
      | some x =>
        obtain ⟨reg, p', s'⟩ := x
        have : (∀ d ∈ some (reg, p', s'), (a.raster d.2.1 d.2.2).isSome) ↔ (a.raster p' s').isSome := by simp
        cases hr' : a.raster p' s' with
        | none =>
          rw [if_neg (by rw [this, hr']; simp)]
          have h4 := h.pset_none hr'
          unfold File.pset at h4
          dsimp only
          cases h5 : d.phenomena p' with
          | none => trivial
          | some ph' =>
            rw [h5] at h4
            simp only [Option.bind_some] at h4
            dsimp only
            rw [h4]
            trivial
        | some r' =>
          rw [if_pos (by rw [this, hr']; rfl)]
          obtain ⟨ph', ps', h4, h5, h6⟩ := h.pset_some hr'
          have hgrid : ps'.same spaceGrid = some (gridProperty r'.grid) := by rw [h6.same]; simp [insert]
          simp only [h4, h5, hgrid]
          refine ⟨key (some ⟨reg, ⟨p', s', .same, spaceGrid⟩⟩) ?_, hg⟩
          intro reg' l hl
          cases hl
          refine ⟨rfl, rfl, by rw [hr']; rfl, ?_⟩
          rintro ⟨rfl, rfl, rfl⟩
          exact hd rfl

/-! ### Recognizing rasters -/

theorem contains_eq {d : File α β τ} {a : Rasters α β τ} (h : Rep d a) (k : Kind) (p s : Name) :
    (containsRaster d k p s).toOption = a.contains k p s := by
  cases hr : a.raster p s with
  | none =>
    have h1 := h.pset_none hr
    have h2 : containsRasterBase d p s = .error .thrown := by
      unfold containsRasterBase item
      unfold File.pset at h1
      cases h3 : d.phenomena p with
      | none => rfl
      | some ph =>
        rw [h3] at h1
        simp only [Option.bind_some] at h1
        simp only [bind, Except.bind, h1]
    cases k <;> simp [containsRaster, containsConstant, containsVariable, h2, bind, Except.bind, Except.toOption,
      Rasters.contains, hr]
  | some r =>
    obtain ⟨ph, ps, h1, h2, h3⟩ := h.pset_some hr
    have h4 : a.ids p = some ph.ids := by rw [← h.ids p, h1]; rfl
    have hgrid : ps.same spaceGrid = some (gridProperty r.grid) := by rw [h3.same]; simp [insert]
    have hbase : containsRasterBase d p s = .ok (decide (ph.ids.length = 1)) := by
      unfold containsRasterBase
      simp only [item, h1, h2, bind, Except.bind, spaceDomainOk, h3.space, hgrid, gridOk, gridProperty]
      simp
      rfl
    have hsame : ps.same timeGrid = none := by
      rw [h3.same]
      simp [insert, timeGrid, spaceGrid]
    have hkind : ∀ k, ((ps.layers k).get timeGrid).isSome =
        !(((r.layers k).get timeGrid).isNone && !(r.reserved k).contains timeGrid) := by
      intro k
      cases hc : (ps.layers k).get timeGrid with
      | none =>
        have h5 : (r.layers k).get timeGrid = none := by
          cases hx : (r.layers k).get timeGrid with
          | none => rfl
          | some x =>
            obtain ⟨_, _, _, h6⟩ := h3.ids
            obtain ⟨prop, h7, _⟩ := h6 _ _ _ hx
            rw [hc] at h7; cases h7
        have h6 : timeGrid ∉ r.reserved k := by
          intro hh
          obtain ⟨_, y, h7⟩ := h3.reserved _ _ hh
          rw [hc] at h7; cases h7
        simp [h5, h6]
      | some y =>
        cases hx : (r.layers k).get timeGrid with
        | none =>
          have := (h3.other _ _ _ hc hx).1
          simp [this]
        | some x => simp
    cases k with
    | constant =>
      simp only [containsRaster, containsConstant, hbase, bind, Except.bind, Rasters.contains, hr, h4, Option.bind_some]
      by_cases hl : ph.ids.length = 1
      · simp only [hl, decide_true, if_true, item, h1, h2, Except.toOption, Option.some.injEq, Bool.true_and]
        unfold PropertySet.contains
        rw [hsame, h3.sameConstant, h3.others, hkind, hkind]
        cases ht : r.time with
        | none => simp [timeGrids]
        | some t => simp [timeGrids, insert]
      · simp [hl, Except.toOption]
    | varying =>
      simp only [containsRaster, containsVariable, hbase, bind, Except.bind, Rasters.contains, hr, h4, Option.bind_some]
      by_cases hl : ph.ids.length = 1
      · simp only [hl, decide_true, if_true, item, h1, h2, Except.toOption, Option.some.injEq, Bool.true_and]
        rw [hsame, h3.sameConstant]
        cases ht : r.time with
        | none => simp [timeDomainOk, h3.time, ht]
        | some t => simp [timeDomainOk, h3.time, ht, timeGrids, insert, gridOk]
      · simp [hl, Except.toOption]

/-! ### Histories -/

/-- In addition to `Sim`: variable views have a period. -/
structure Sim' (st : File α β τ × List (View β τ)) (sa : Rasters α β τ × List (View β τ)) : Prop extends Sim st sa where
  timed : ∀ v ∈ sa.2, v.kind = .varying → v.time.isSome

theorem view_timed {a : Rasters α β τ} {k : Kind} {p s : Name} {v : View β τ} (hv : a.view k p s = some v)
    (hk : v.kind = .varying) : v.time.isSome := by
  unfold Rasters.view at hv
  simp only [Option.bind_eq_bind, Option.bind_eq_some_iff] at hv
  obtain ⟨r, hr, ids, hids, id, hid, hv⟩ := hv
  cases k with
  | constant =>
    simp only [Option.some.injEq] at hv
    subst hv
    cases hk
  | varying =>
    simp only [Option.bind_eq_some_iff, Option.some.injEq] at hv
    obtain ⟨t, ht, hv⟩ := hv
    subst hv
    rfl

theorem create_timed {a : Rasters α β τ} {p s : Name} {grid : Nat × Nat} {box : β} {time : Option (τ × Nat)} {v : View β τ}
    (hv : (a.create p s grid box time).1 = some v) (hk : v.kind = .varying) : v.time.isSome := by
  unfold Rasters.create at hv
  dsimp only at hv
  split at hv
  · cases hv
  · exact view_timed hv hk

theorem forall_append {P : View β τ → Prop} {vs : List (View β τ)} {v : View β τ} (h : ∀ v ∈ vs, P v) (hv : P v) :
    ∀ w ∈ vs ++ [v], P w := by
  intro w hw
  rw [List.mem_append, List.mem_singleton] at hw
  rcases hw with hw | hw
  · exact h w hw
  · rw [hw]; exact hv

theorem forall_set {P : View β τ → Prop} {vs : List (View β τ)} {v : View β τ} (i : Nat) (h : ∀ v ∈ vs, P v) (hv : P v) :
    ∀ w ∈ vs.set i v, P w := by
  intro w hw
  rcases List.mem_or_eq_of_mem_set hw with hw | hw
  · exact h w hw
  · rw [hw]; exact hv

theorem step_create (zero : α) (st : File α β τ × List (View β τ)) (p s : Name) (grid : Nat × Nat) (box : β)
    (time : Option (τ × Nat)) : step zero st (.create p s grid box time) =
      match createView st.1 p s grid box time with
      | (.ok v, d) => (some (.view v), (d, st.2 ++ [v]))
      | (.error _, d) => (none, (d, st.2)) := by
  rcases time with - | ⟨t, nr⟩ <;> rfl

theorem step_sim (zero : α) {st : File α β τ × List (View β τ)} {sa : Rasters α β τ × List (View β τ)} (h : Sim' st sa)
    (o : Op α β τ) (ho : o.Ok) :
    (step zero st o).1 = (expected zero sa o).1 ∧ Sim' (step zero st o).2 (expected zero sa o).2 ∧
      Grows sa.1 (expected zero sa o).2.1 := by
  obtain ⟨d, vs⟩ := st
  obtain ⟨a, vs'⟩ := sa
  have hvs := h.views
  have hrep := h.rep
  have hview := h.view
  have htimed := h.timed
  dsimp only at hvs hrep hview htimed
  subst hvs
  cases o with
  | addPhenomenon p ids =>
    have h1 := hrep.ids p
    simp only [step, expected, addPhenomenon]
    rw [← h1]
    cases h2 : d.phenomena p with
    | some ph => exact ⟨rfl, h, .refl _⟩
    | none =>
      have h3 : a.ids p = none := by rw [← h1, h2]; rfl
      obtain ⟨h4, h5⟩ := rep_ids hrep (p := p) (ids := ids) (ph := ⟨ids, fun _ => none⟩) (by rw [h2]; rfl) rfl
        (by rw [h3]; simp)
      exact ⟨rfl, ⟨⟨h4, rfl, views_mono h5 hview⟩, htimed⟩, h5⟩
  | addProperty p s k n discr =>
    have h1 := reserve_sim hrep p s k n discr ho
    simp only [step, expected]
    cases h2 : addProperty d p s k n discr with
    | error e =>
      cases h3 : a.reserve p s k n discr with
      | none => exact ⟨rfl, h, .refl _⟩
      | some a' => rw [h2, h3] at h1; exact h1.elim
    | ok d' =>
      cases h3 : a.reserve p s k n discr with
      | none => rw [h2, h3] at h1; exact h1.elim
      | some a' =>
        rw [h2, h3] at h1
        exact ⟨rfl, ⟨⟨h1.1, rfl, views_mono h1.2 hview⟩, htimed⟩, h1.2⟩
  | create p s grid box time =>
    rw [step_create]
    simp only [expected]
    obtain ⟨h1, h2, h3, h4⟩ := create_sim hrep p s grid box time
    have h5 := fun v => create_timed (a := a) (p := p) (s := s) (grid := grid) (box := box) (time := time) (v := v)
    rcases hc : createView d p s grid box time with ⟨e, d'⟩
    rcases hc' : a.create p s grid box time with ⟨e', a'⟩
    rw [hc, hc'] at h1 h2
    rw [hc'] at h3 h4 h5
    dsimp only at h1 h2 h3 h4 h5
    subst h1
    cases e with
    | error e => exact ⟨rfl, ⟨⟨h2, rfl, views_mono h3 hview⟩, htimed⟩, h3⟩
    | ok v =>
      exact ⟨rfl, ⟨⟨h2, rfl, forall_append (views_mono h3 hview) (h4 v rfl)⟩, forall_append htimed (h5 v rfl)⟩, h3⟩
  | openView k p s =>
    have h1 := openView_eq hrep k p s
    simp only [step, expected]
    rw [← h1]
    cases h2 : openView d k p s with
    | error e => exact ⟨rfl, h, .refl _⟩
    | ok v =>
      rw [h2] at h1
      exact ⟨rfl, ⟨⟨hrep, rfl, forall_append hview (view_rep hrep h1.symm)⟩, forall_append htimed (view_timed h1.symm)⟩, .refl _⟩
  | contains k p s =>
    have h1 := contains_eq hrep k p s
    simp only [step, expected]
    rw [← h1]
    cases containsRaster d k p s <;> exact ⟨rfl, h, .refl _⟩
  | addLayer i n noData =>
    simp only [step, expected]
    cases hi : vs[i]? with
    | none => exact ⟨rfl, h, .refl _⟩
    | some v =>
      have hm := List.mem_of_getElem? hi
      have h1 := addLayer_sim zero hrep (hview v hm) (htimed v hm) n noData
      dsimp only
      cases h2 : addLayer zero d v n noData with
      | error e =>
        cases h3 : a.addLayer zero v n noData with
        | none => exact ⟨rfl, h, .refl _⟩
        | some x => rw [h2, h3] at h1; exact h1.elim
      | ok x =>
        cases h3 : a.addLayer zero v n noData with
        | none => rw [h2, h3] at h1; exact h1.elim
        | some y =>
          rw [h2, h3] at h1
          obtain ⟨v', d'⟩ := x
          obtain ⟨v'', a'⟩ := y
          obtain ⟨rfl, h4, h5, h6, h7, h8⟩ := h1
          dsimp only
          refine ⟨rfl, ⟨⟨h4, rfl, forall_set _ (views_mono h5 hview) h6⟩, forall_set _ htimed ?_⟩, h5⟩
          rw [h7, h8]
          exact htimed v hm
  | write i n hs buffer =>
    simp only [step, expected]
    cases hi : vs[i]? with
    | none => exact ⟨rfl, h, .refl _⟩
    | some v =>
      have hm := List.mem_of_getElem? hi
      have h1 := write_sim hrep (hview v hm) n hs buffer
      dsimp only
      cases h2 : writeLayer d v n hs buffer with
      | error e =>
        cases h3 : a.write v n hs buffer with
        | none => exact ⟨rfl, h, .refl _⟩
        | some x => rw [h2, h3] at h1; exact h1.elim
      | ok x =>
        cases h3 : a.write v n hs buffer with
        | none => rw [h2, h3] at h1; exact h1.elim
        | some y =>
          rw [h2, h3] at h1
          exact ⟨rfl, ⟨⟨h1.1, rfl, views_mono h1.2 hview⟩, htimed⟩, h1.2⟩
  | read i n hs buffer =>
    simp only [step, expected]
    cases hi : vs[i]? with
    | none => exact ⟨rfl, h, .refl _⟩
    | some v =>
      have hm := List.mem_of_getElem? hi
      have h1 := layer_eq hrep (hview v hm) n
      dsimp only
      rw [← h1]
      unfold readLayer
      cases h2 : layer d v n with
      | error e => exact ⟨rfl, h, .refl _⟩
      | ok x =>
        simp only [Except.toOption, bind, Except.bind, Option.bind_some]
        cases readHyperslab x hs buffer with
        | error e => exact ⟨rfl, h, .refl _⟩
        | ok xs => exact ⟨rfl, h, .refl _⟩
  | reopen => exact ⟨rfl, ⟨⟨hrep, rfl, by simp [expected]⟩, by simp [expected]⟩, .refl _⟩

theorem sim_new : Sim' ((newFile : File α β τ), []) (Rasters.empty, []) :=
  ⟨⟨⟨fun _ => rfl, fun _ _ => .none⟩, rfl, by simp⟩, by simp⟩

theorem run_sim (zero : α) (ops : List (Op α β τ)) (ho : ∀ o ∈ ops, o.Ok) {st : File α β τ × List (View β τ)}
    {sa : Rasters α β τ × List (View β τ)} (h : Sim' st sa) :
    (runAll (step zero) st ops).1 = (runAll (expected zero) sa ops).1 ∧
      Sim' (runAll (step zero) st ops).2 (runAll (expected zero) sa ops).2 := by
  induction ops generalizing st sa with
  | nil => exact ⟨rfl, h⟩
  | cons o ops ih =>
    obtain ⟨h1, h2, _⟩ := step_sim zero h o (ho o (by simp))
    obtain ⟨h3, h4⟩ := ih (fun o' ho' => ho o' (by simp [ho'])) h2
    exact ⟨by simp only [runAll, h1, h3], h4⟩

/-! ### Arrays of layers -/

theorem Grows.trans {a b c : Rasters α β τ} (h : Grows a b) (h' : Grows b c) : Grows a c := by
  refine ⟨fun p i is hi => h'.ids _ _ _ (h.ids _ _ _ hi), fun p s r hr => ?_⟩
  obtain ⟨r1, a1, a2, a3, a4, a5⟩ := h.raster p s r hr
  obtain ⟨r2, b1, b2, b3, b4, b5⟩ := h'.raster p s r1 a1
  exact ⟨r2, b1, b2.trans a2, b3.trans a3, b4.trans a4, fun k n hn => b5 k n (a5 k n hn)⟩

theorem run_grows (zero : α) (ops : List (Op α β τ)) (ho : ∀ o ∈ ops, o.Ok) {st : File α β τ × List (View β τ)}
    {sa : Rasters α β τ × List (View β τ)} (h : Sim' st sa) : Grows sa.1 (runAll (expected zero) sa ops).2.1 := by
  induction ops generalizing st sa with
  | nil => exact .refl _
  | cons o ops ih =>
    obtain ⟨_, h2, h3⟩ := step_sim zero h o (ho o (by simp))
    exact h3.trans (ih (fun o' ho' => ho o' (by simp [ho'])) h2)

theorem run_append {σ ω ρ : Type} (f : σ → ω → ρ × σ) (st : σ) (l l' : List ω) :
    (runAll f st (l ++ l')).2 = (runAll f (runAll f st l).2 l').2 := by
  induction l generalizing st with
  | nil => rfl
  | cons o l ih => exact ih _

/-- The array of a layer -/
def Rasters.array (a : Rasters α β τ) (p s : Name) (k : Kind) (n : Name) : Option (Dataset α) :=
  (a.raster p s).bind fun r => (r.layers k).get n

theorem array_set (a : Rasters α β τ) (p s : Name) (r : Raster α β τ) (p' s' : Name) (k : Kind) (n : Name) :
    (a.set p s r).array p' s' k n = if p' = p ∧ s' = s then (r.layers k).get n else a.array p' s' k n := by
  unfold Rasters.array Rasters.set
  dsimp only
  split <;> rfl

theorem write_spec {a a' : Rasters α β τ} {v : View β τ} {n : Name} {hs : Hyperslab} {buffer : List α}
    (h : a.write v n hs buffer = some a') : ∃ x y r, a.layer v n = some x ∧ a.raster v.phenomenon v.propertySet = some r ∧
      writeHyperslab x hs buffer = .ok y ∧ a' = a.set v.phenomenon v.propertySet (r.put v.kind n y) := by
  unfold Rasters.write at h
  simp only [Option.bind_eq_bind, Option.bind_eq_some_iff, Option.some.injEq] at h
  obtain ⟨x, hx, r, hr, y, hy, rfl⟩ := h
  refine ⟨x, y, r, hx, hr, ?_, rfl⟩
  cases hw : writeHyperslab x hs buffer with
  | error e => rw [hw] at hy; cases hy
  | ok z => rw [hw] at hy; cases hy; rfl

/-- Whether an operation writes a layer -/
def Writes (vs : List (View β τ)) (p s : Name) (k : Kind) (n : Name) : Op α β τ → Prop
  | .write i m _ _ => m = n ∧ ∃ v, vs[i]? = some v ∧ v.phenomenon = p ∧ v.propertySet = s ∧ v.kind = k
  | _ => False

/-- Arrays are only changed by writing them. -/
theorem expected_keep (zero : α) (sa : Rasters α β τ × List (View β τ)) (o : Op α β τ) (p s : Name) (k : Kind) (n : Name)
    (x : Dataset α) (hx : sa.1.array p s k n = some x) (hw : ¬Writes sa.2 p s k n o) :
    (expected zero sa o).2.1.array p s k n = some x := by
  obtain ⟨a, vs⟩ := sa
  dsimp only at hx hw
  cases o with
  | addPhenomenon p' ids =>
    simp only [expected]
    split <;> exact hx
  | addProperty p' s' k' n' discr =>
    simp only [expected]
    split
    · rename_i a' ha
      unfold Rasters.reserve at ha
      simp only [Option.bind_eq_bind, Option.bind_eq_some_iff] at ha
      obtain ⟨r, hr, ha⟩ := ha
      split at ha
      · cases ha
      · split at ha
        · simp only [Option.some.injEq] at ha
          subst ha
          dsimp only
          rw [array_set]
          split
          · rename_i hh
            obtain ⟨rfl, rfl⟩ := hh
            simpa [Rasters.array, hr] using hx
          · exact hx
        · cases ha
    · exact hx
  | create p' s' grid box time =>
    have key : (a.create p' s' grid box time).2.array p s k n = some x := by
      unfold Rasters.create
      dsimp only
      cases hr : a.raster p' s' with
      | some r => exact hx
      | none =>
        dsimp only
        rw [array_set, if_neg]
        · exact hx
        · rintro ⟨rfl, rfl⟩
          simp [Rasters.array, hr] at hx
    simp only [expected]
    rcases hc : a.create p' s' grid box time with ⟨e, a'⟩
    rw [hc] at key
    cases e <;> exact key
  | openView k' p' s' =>
    simp only [expected]
    split <;> exact hx
  | contains k' p' s' =>
    simp only [expected]
    split <;> exact hx
  | addLayer i n' noData =>
    simp only [expected]
    split
    · exact hx
    · split
      · rename_i v hi _ v' a' ha
        unfold Rasters.addLayer at ha
        simp only [Option.bind_eq_bind, Option.bind_eq_some_iff] at ha
        obtain ⟨r, hr, ha⟩ := ha
        split at ha
        · cases ha
        · rename_i hn
          simp only [Option.some.injEq, Prod.mk.injEq] at ha
          obtain ⟨_, rfl⟩ := ha
          dsimp only
          rw [array_set]
          split
          · rename_i hh
            obtain ⟨rfl, rfl⟩ := hh
            have hx' : (r.layers k).get n = some x := by simpa [Rasters.array, hr] using hx
            rw [put_layers, if_neg]
            · exact hx'
            · rintro ⟨rfl, rfl⟩
              exact hn (.inr (.inl (by rw [hx']; rfl)))
          · exact hx
      · exact hx
  | write i n' hs buffer =>
    simp only [expected]
    split
    · exact hx
    · split
      · rename_i v hi _ a' ha
        obtain ⟨y, z, r, h1, h2, h3, rfl⟩ := write_spec ha
        dsimp only
        rw [array_set]
        split
        · rename_i hh
          obtain ⟨rfl, rfl⟩ := hh
          have hx' : (r.layers k).get n = some x := by simpa [Rasters.array, h2] using hx
          rw [put_layers, if_neg]
          · exact hx'
          · rintro ⟨rfl, rfl⟩
            exact hw ⟨rfl, v, hi, rfl, rfl, rfl⟩
        · exact hx
      · exact hx
  | read i n' hs buffer =>
    simp only [expected]
    split
    · exact hx
    · split <;> exact hx
  | reopen => exact hx

/-- The shape of the arrays of layers -/
def Raster.shape (r : Raster α β τ) : Kind → List Nat
  | .constant => [r.grid.1, r.grid.2]
  | .varying => [1, r.time.elim 0 Prod.snd, r.grid.1, r.grid.2]

/-- All arrays have the shape of the raster. -/
def Shaped (a : Rasters α β τ) : Prop := ∀ p s r k n x, a.raster p s = some r → (r.layers k).get n = some x →
  x.shape = r.shape k

theorem write_shape {x y : Dataset α} {hs : Hyperslab} {buffer : List α} (h : writeHyperslab x hs buffer = .ok y) :
    y.shape = x.shape := by
  unfold writeHyperslab at h
  split at h
  · simp only [bind, Except.bind] at h
    split at h
    · cases h
    · cases h
      exact apply_shape _ _
  · cases h

theorem shaped_set {a : Rasters α β τ} (h : Shaped a) (p s : Name) (r : Raster α β τ)
    (hr : ∀ k n x, (r.layers k).get n = some x → x.shape = r.shape k) : Shaped (a.set p s r) := by
  intro p' s' r' k n x hr' hx
  unfold Rasters.set at hr'
  dsimp only at hr'
  split at hr'
  · cases hr'
    exact hr k n x hx
  · exact h p' s' r' k n x hr' hx

theorem expected_shaped (zero : α) (sa : Rasters α β τ × List (View β τ)) (o : Op α β τ) (h : Shaped sa.1) :
    Shaped (expected zero sa o).2.1 := by
  obtain ⟨a, vs⟩ := sa
  dsimp only at h
  cases o with
  | addPhenomenon p' ids =>
    simp only [expected]
    split <;> exact h
  | addProperty p' s' k' n' discr =>
    simp only [expected]
    split
    · rename_i a' ha
      unfold Rasters.reserve at ha
      simp only [Option.bind_eq_bind, Option.bind_eq_some_iff] at ha
      obtain ⟨r, hr, ha⟩ := ha
      split at ha
      · cases ha
      · split at ha
        · simp only [Option.some.injEq] at ha
          subst ha
          exact shaped_set h _ _ _ fun k n x hx => h _ _ r k n x hr hx
        · cases ha
    · exact h
  | create p' s' grid box time =>
    have key : Shaped (a.create p' s' grid box time).2 := by
      unfold Rasters.create
      dsimp only
      cases hr : a.raster p' s' with
      | some r => exact h
      | none =>
        exact shaped_set (a := { a with ids := _ }) h _ _ _ fun k n x hx => by simp [AMap.get_nil] at hx
    simp only [expected]
    rcases hc : a.create p' s' grid box time with ⟨e, a'⟩
    rw [hc] at key
    cases e <;> exact key
  | openView k' p' s' =>
    simp only [expected]
    split <;> exact h
  | contains k' p' s' =>
    simp only [expected]
    split <;> exact h
  | addLayer i n' noData =>
    simp only [expected]
    split
    · exact h
    · split
      · rename_i v hi _ v' a' ha
        unfold Rasters.addLayer at ha
        simp only [Option.bind_eq_bind, Option.bind_eq_some_iff] at ha
        obtain ⟨r, hr, ha⟩ := ha
        split at ha
        · cases ha
        · simp only [Option.some.injEq, Prod.mk.injEq] at ha
          obtain ⟨_, rfl⟩ := ha
          refine shaped_set h _ _ _ fun k n x hx => ?_
          rw [put_layers] at hx
          split at hx
          · rename_i hh
            cases hx
            rw [hh.1]
            cases v.kind <;> rfl
          · exact h _ _ r k n x hr hx
      · exact h
  | write i n' hs buffer =>
    simp only [expected]
    split
    · exact h
    · split
      · rename_i v hi _ a' ha
        obtain ⟨y, z, r, h1, h2, h3, rfl⟩ := write_spec ha
        refine shaped_set h _ _ _ fun k n x hx => ?_
        rw [put_layers] at hx
        split at hx
        · rename_i hh
          cases hx
          obtain ⟨rfl, rfl⟩ := hh
          rw [write_shape h3]
          unfold Rasters.layer at h1
          split at h1
          · rw [h2] at h1
            exact h _ _ r _ _ _ h2 h1
          · cases h1
        · exact h _ _ r k n x h2 hx
      · exact h
  | read i n' hs buffer =>
    simp only [expected]
    split
    · exact h
    · split <;> exact h
  | reopen => exact h

theorem run_shaped (zero : α) (ops : List (Op α β τ)) (sa : Rasters α β τ × List (View β τ)) (h : Shaped sa.1) :
    Shaped (runAll (expected zero) sa ops).2.1 := by
  induction ops generalizing sa with
  | nil => exact h
  | cons o ops ih => exact ih _ (expected_shaped zero sa o h)

end Lue.RasterView

import Verif.JsonImport.Spec
import Mathlib.Tactic.Linarith

/-!
C59: importing a document extends each collection by what is listed for it, and changes nothing else.
-/
namespace Lue.JsonImport

variable {V : Type} {fill : V} {coord : ℚ → V}

theorem map_ok {α β : Type} {x : M α} {f : α → β} {b : β} (h : x.map f = .ok b) : ∃ a, x = .ok a ∧ b = f a := by
  cases x with
  | error e => cases h
  | ok a => exact ⟨a, rfl, (Except.ok.inj h).symm⟩

theorem bind_ok {α β : Type} {x : M α} {f : α → M β} {b : β} (h : x >>= f = .ok b) : ∃ a, x = .ok a ∧ f a = .ok b := by
  cases x with
  | error e => cases h
  | ok a => exact ⟨a, rfl, h⟩

/-- If each step extends the content, then a loop does. -/
theorem fold_content {S X P I : Type} (inv : S → Prop) (ok : X → Prop) (c : S → P → List I) (l : X → P → List I)
    (f : S → X → M S)
    (hf : ∀ s x s', inv s → ok x → f s x = .ok s' → inv s' ∧ ∀ p, c s' p = c s p ++ l x p) :
    ∀ (xs : List X) (s s' : S), inv s → (∀ x ∈ xs, ok x) → xs.foldlM f s = .ok s' →
      inv s' ∧ ∀ p, c s' p = c s p ++ xs.flatMap (fun x => l x p) := by
  intro xs
  induction xs with
  | nil =>
    intro s s' hs _ h
    obtain rfl := Except.ok.inj h
    exact ⟨hs, fun p => by simp⟩
  | cons x xs ih =>
    intro s s' hs hx h
    rw [List.foldlM_cons] at h
    obtain ⟨s1, h1, h2⟩ := bind_ok h
    obtain ⟨i1, c1⟩ := hf s x s1 hs (hx x (by simp)) h1
    obtain ⟨i2, c2⟩ := ih s1 s' i1 (fun y hy => hx y (by simp [hy])) h2
    exact ⟨i2, fun p => by rw [c2, c1]; simp⟩

/-! ### Arrays -/

theorem chunks_length (k n : Nat) (data : List V) : (chunks k n data).length = n := by simp [chunks]

theorem chunks_flatten (k n : Nat) (data : List V) : (chunks k n data).flatten = data.take (n * k) := by
  induction n with
  | zero => simp [chunks]
  | succ n ih =>
    have : chunks k (n + 1) data = chunks k n data ++ [(data.drop (n * k)).take k] := by
      simp [chunks, List.range_succ]
    rw [this, List.flatten_append, ih, List.flatten_singleton, Nat.add_mul, Nat.one_mul, List.take_add]

theorem chunks_row {k n : Nat} {data : List V} (h : n * k ≤ data.length) : ∀ row ∈ chunks k n data, row.length = k := by
  intro row hrow
  obtain ⟨i, hi, rfl⟩ := List.mem_map.mp hrow
  have hi' := List.mem_range.mp hi
  rw [List.length_take, List.length_drop]
  have : (i + 1) * k ≤ n * k := Nat.mul_le_mul_right k (by omega)
  rw [Nat.add_mul, Nat.one_mul] at this
  omega

theorem append_spec {c c' : Coll V} {shape : Shape} {n : Nat} {data : List V} (hc : c.Shaped shape)
    (h : c.append fill n data = .ok c') (hn : n * size shape = data.length) :
    c'.Shaped shape ∧ c'.rows.flatten = c.rows.flatten ++ data := by
  unfold Coll.append Coll.write at h
  have e1 : (c.expand fill n).shape = shape := hc.1
  rw [e1] at h
  have e2 : (c.expand fill n).rows.length = c.rows.length + n := by simp [Coll.expand]
  rw [e2, if_neg (by omega), show c.rows.length + n - c.rows.length = n by omega, if_neg (by omega)] at h
  obtain rfl := Except.ok.inj h
  have e3 : (c.expand fill n).rows.take c.rows.length = c.rows := by simp [Coll.expand]
  have e4 : (c.expand fill n).rows.drop (c.rows.length + n) = [] := by
    rw [List.drop_eq_nil_iff, e2]
  refine ⟨⟨rfl, ?_⟩, ?_⟩
  · dsimp only
    rw [e3, e4, List.append_nil]
    intro row hrow
    rcases List.mem_append.mp hrow with h' | h'
    · exact hc.2 row h'
    · exact chunks_row (le_of_eq hn) row h'
  · dsimp only
    rw [e3, e4, List.append_nil, List.flatten_append, chunks_flatten, hn, List.take_length]

theorem append_ok {c : Coll V} {shape : Shape} {n : Nat} {data : List V} (hc : c.shape = shape)
    (hn : n * size shape ≤ data.length) : ∃ c', c.append fill n data = .ok c' := by
  unfold Coll.append Coll.write
  have e1 : (c.expand fill n).shape = shape := hc
  have e2 : (c.expand fill n).rows.length = c.rows.length + n := by simp [Coll.expand]
  rw [e1, e2, if_neg (by omega), show c.rows.length + n - c.rows.length = n by omega, if_neg (by omega)]
  exact ⟨_, rfl⟩

/-- Adding a property with arrays with the same shape -/
theorem addSame_spec {props props' : AMap Name (Coll V)} {σ : Name → Shape} {name : Name} {shape : Option Shape}
    {values : List V} (hp : ∀ p c, props.get p = some c → c.Shaped (σ p)) (hs : shape.getD [] = σ name)
    (h : addSame fill props name shape values = .ok props') :
    (∀ p c, props'.get p = some c → c.Shaped (σ p)) ∧
    ∀ p, Coll.items (props'.get p) = Coll.items (props.get p) ++ if p = name then values.map Item.value else [] := by
  unfold addSame at h
  rw [hs] at h
  by_cases hk : size (σ name) = 0
  · rw [if_pos hk] at h; cases h
  rw [if_neg hk] at h
  by_cases hm : values.length % size (σ name) ≠ 0
  · rw [if_pos hm] at h; cases h
  rw [if_neg hm] at h
  obtain ⟨c', hc', rfl⟩ := map_ok h
  have hsh : ((props.get name).getD ⟨σ name, []⟩).Shaped (σ name) := by
    cases hg : props.get name with
    | none => exact ⟨rfl, by simp⟩
    | some c => exact hp name c hg
  have hn : values.length / size (σ name) * size (σ name) = values.length :=
    Nat.div_mul_cancel (Nat.dvd_of_mod_eq_zero (not_not.mp hm))
  obtain ⟨s1, s2⟩ := append_spec hsh hc' hn
  refine ⟨?_, ?_⟩
  · intro p c hc
    rw [AMap.get_put] at hc
    by_cases e : name = p
    · rw [if_pos e] at hc
      obtain rfl := Option.some.inj hc
      rw [← e]; exact s1
    · rw [if_neg e] at hc
      exact hp p c hc
  · intro p
    rw [AMap.get_put]
    by_cases e : name = p
    · subst e
      rw [if_pos rfl, if_pos rfl]
      show c'.rows.flatten.map Item.value = _
      rw [s2, List.map_append]
      congr 1
      cases hg : props.get name with
      | none => rfl
      | some c => rfl
    · rw [if_neg e, if_neg (Ne.symm e), List.append_nil]

/-- C59: values are accepted if and only if they form a whole number of arrays, given that the shape is the one of the
values already stored -/
theorem addSame_iff {props : AMap Name (Coll V)} {name : Name} {shape : Option Shape}
    {values : List V} (hp : ∀ c, props.get name = some c → c.shape = shape.getD []) (h0 : size (shape.getD []) ≠ 0) :
    (∃ props', addSame fill props name shape values = .ok props') ↔ size (shape.getD []) ∣ values.length := by
  unfold addSame
  rw [if_neg h0]
  by_cases hm : values.length % size (shape.getD []) ≠ 0
  · rw [if_pos hm]
    constructor
    · rintro ⟨_, h⟩; cases h
    · intro h; exact absurd (Nat.mod_eq_zero_of_dvd h) hm
  · rw [if_neg hm]
    have hd := Nat.dvd_of_mod_eq_zero (not_not.mp hm)
    refine ⟨fun _ => hd, fun _ => ?_⟩
    have hsh : ((props.get name).getD ⟨shape.getD [], []⟩).shape = shape.getD [] := by
      cases hg : props.get name with
      | none => rfl
      | some c => exact hp c hg
    obtain ⟨c', hc'⟩ := append_ok (fill := fill) hsh (le_of_eq (Nat.div_mul_cancel hd))
    rw [hc']
    exact ⟨_, rfl⟩

/-! ### Arrays per object -/

theorem addObject_spec {m m' : Objects V} {id : Nat} {shape : Shape} {values : List V}
    (h : (expandObjects fill m id shape >>= fun m => writeObject m id values) = .ok m') :
    m' = m ++ [(id, shape, values.take (size shape))] := by
  obtain ⟨m1, h1, h2⟩ := bind_ok h
  unfold expandObjects at h1
  split at h1
  · cases h1
  rename_i hn
  obtain rfl := Except.ok.inj h1
  unfold writeObject at h2
  split at h2
  · cases h2
  obtain rfl := Except.ok.inj h2
  rw [List.map_append]
  congr 1
  · conv => rhs; rw [← List.map_id m]
    refine List.map_congr_left fun e he => if_neg fun hc => hn ?_
    rw [List.any_eq_true]
    exact ⟨e, he, by simp [hc]⟩
  · simp

theorem addDifferentObject_spec {m m' : Objects V} {o : ObjectJson V} (h : addDifferentObject fill m o = .ok m') :
    Objects.items (some m') = Objects.items (some m) ++ [o.item] := by
  unfold addDifferentObject at h
  cases hs : o.source with
  | dataset s v =>
    rw [hs] at h
    rw [addObject_spec h]
    simp [Objects.items, ObjectJson.item, hs]
  | inline s v =>
    rw [hs] at h
    rw [addObject_spec h]
    simp [Objects.items, ObjectJson.item, hs]

theorem flatMap_single {α β : Type} (f : α → β) (l : List α) : l.flatMap (fun x => [f x]) = l.map f := by
  induction l with
  | nil => rfl
  | cons a l ih => rw [List.flatMap_cons, ih]; rfl

theorem items_getD (o : Option (Objects V)) : Objects.items (some (o.getD [])) = Objects.items o := by
  cases o <;> rfl

theorem addDifferent_spec {props props' : AMap Name (Objects V)} {name : Name} {objects : List (ObjectJson V)}
    (h : addDifferent fill props name objects = .ok props') (p : Name) :
    Objects.items (props'.get p) = Objects.items (props.get p) ++ if p = name then objects.map ObjectJson.item else [] := by
  unfold addDifferent at h
  obtain ⟨m', hm, rfl⟩ := map_ok h
  have := (fold_content (P := Unit) (fun _ => True) (fun _ => True) (fun m _ => Objects.items (some m))
    (fun (o : ObjectJson V) _ => [o.item]) (addDifferentObject fill)
    (fun s x s' _ _ h => ⟨trivial, fun _ => addDifferentObject_spec h⟩) objects _ m' trivial (fun _ _ => trivial) hm).2 ()
  rw [AMap.get_put]
  by_cases e : name = p
  · subst e
    rw [if_pos rfl, if_pos rfl, this, items_getD]
    rw [flatMap_single]
  · rw [if_neg e, if_neg (Ne.symm e), List.append_nil]

theorem addConstantObject_spec {s s' : Objects V × Shape × List V} {o : ObjectJson V}
    (ho : ∃ sh v, o.source = .dataset sh v) (h : addConstantObject fill s o = .ok s') :
    Objects.items (some s'.1) = Objects.items (some s.1) ++ [o.item] := by
  obtain ⟨sh, v, ho⟩ := ho
  unfold addConstantObject at h
  rw [ho] at h
  obtain ⟨m1, h1, h2⟩ := bind_ok h
  obtain ⟨m2, h3, rfl⟩ := map_ok h2
  have : (expandObjects fill s.1 o.id sh >>= fun m => writeObject m o.id v) = .ok m2 := by
    rw [h1, M.bind_ok]; exact h3
  rw [addObject_spec this]
  simp [Objects.items, ObjectJson.item, ho]

theorem addDifferentConstant_spec {props props' : AMap Name (Objects V)} {name : Name} {objects : List (ObjectJson V)}
    (ho : ∀ o ∈ objects, ∃ sh v, o.source = .dataset sh v)
    (h : addDifferentConstant fill props name objects = .ok props') (p : Name) :
    Objects.items (props'.get p) = Objects.items (props.get p) ++ if p = name then objects.map ObjectJson.item else [] := by
  unfold addDifferentConstant at h
  obtain ⟨s', hm, rfl⟩ := map_ok h
  have := (fold_content (P := Unit) (fun _ => True) (fun o : ObjectJson V => ∃ sh v, o.source = .dataset sh v)
    (fun s _ => Objects.items (some s.1))
    (fun (o : ObjectJson V) _ => [o.item]) (addConstantObject fill)
    (fun s x s' _ ho h => ⟨trivial, fun _ => addConstantObject_spec ho h⟩) objects _ s' trivial ho hm).2 ()
  rw [AMap.get_put]
  by_cases e : name = p
  · subst e
    rw [if_pos rfl, if_pos rfl, this, items_getD]
    rw [flatMap_single]
  · rw [if_neg e, if_neg (Ne.symm e), List.append_nil]

theorem expandAll {l : List (Nat × Shape)} : ∀ {m m' : Objects V},
    l.foldlM (fun m e => expandObjects fill m e.1 e.2) m = .ok m' →
      m' = m ++ l.map (fun e => (e.1, e.2, List.replicate (size e.2) fill)) ∧ (l.map Prod.fst).Nodup ∧
        ∀ i ∈ l.map Prod.fst, ∀ e ∈ m, e.1 ≠ i := by
  induction l with
  | nil =>
    intro m m' h
    obtain rfl := Except.ok.inj h
    simp
  | cons e l ih =>
    intro m m' h
    rw [List.foldlM_cons] at h
    obtain ⟨m1, h1, h2⟩ := bind_ok h
    unfold expandObjects at h1
    split at h1
    · cases h1
    rename_i hn
    obtain rfl := Except.ok.inj h1
    obtain ⟨i1, i2, i3⟩ := ih h2
    have hn' : ∀ a ∈ m, a.1 ≠ e.1 := by
      intro a ha hc
      apply hn
      rw [List.any_eq_true]
      exact ⟨a, ha, by simp [hc]⟩
    refine ⟨by rw [i1]; simp, ?_, ?_⟩
    · rw [List.map_cons, List.nodup_cons]
      refine ⟨fun hc => ?_, i2⟩
      exact i3 _ hc (e.1, e.2, List.replicate (size e.2) fill) (by simp) rfl
    · intro i hi a ha
      rw [List.map_cons, List.mem_cons] at hi
      rcases hi with rfl | hi
      · exact hn' a ha
      · exact i3 i hi a (by simp [ha])

theorem writeAll {l : List ((Nat × Shape) × List V)} : ∀ {done m' : Objects V},
    (l.map fun e => e.1.1).Nodup → (∀ e ∈ l, ∀ a ∈ done, a.1 ≠ e.1.1) →
    l.foldlM (fun m e => writeObject m e.1.1 e.2)
      (done ++ l.map fun e => (e.1.1, e.1.2, List.replicate (size e.1.2) fill)) = .ok m' →
    m' = done ++ l.map fun e => (e.1.1, e.1.2, e.2.take (size e.1.2)) := by
  induction l with
  | nil =>
    intro done m' _ _ h
    obtain rfl := Except.ok.inj h
    simp
  | cons e l ih =>
    intro done m' hnd hd h
    rw [List.foldlM_cons] at h
    obtain ⟨m1, h1, h2⟩ := bind_ok h
    unfold writeObject at h1
    split at h1
    · cases h1
    have e1 := Except.ok.inj h1
    rw [List.map_cons, List.nodup_cons] at hnd
    have : m1 = (done ++ [(e.1.1, e.1.2, e.2.take (size e.1.2))]) ++
        l.map fun e => (e.1.1, e.1.2, List.replicate (size e.1.2) fill) := by
      rw [← e1, List.map_append, List.map_cons, List.map_cons]
      rw [show List.map (fun e_1 : Nat × Shape × List V =>
          if e_1.1 = e.1.1 then (e_1.1, e_1.2.1, e.2.take (size e_1.2.1)) else e_1) done = done from by
        conv => rhs; rw [← List.map_id done]
        exact List.map_congr_left fun a ha => if_neg (hd e (by simp) a ha)]
      rw [List.map_map, List.append_assoc]
      congr 1
      simp only [if_true, List.singleton_append, List.cons.injEq, true_and]
      refine List.map_congr_left fun a ha => ?_
      exact if_neg fun hc => hnd.1 (List.mem_map.mpr ⟨a, ha, hc⟩)
    rw [this] at h2
    have := ih hnd.2 (by
      intro a ha b hb
      rcases List.mem_append.mp hb with hb | hb
      · exact hd a (by simp [ha]) b hb
      · rw [List.mem_singleton.mp hb]
        intro hc
        exact hnd.1 (List.mem_map.mpr ⟨a, ha, hc.symm⟩)) h2
    rw [this]; simp

theorem zip_locationOf : ∀ (ids : List Nat) (shapes : List Shape) (values : List (List V)),
    (((ids.zip shapes).zip values).map fun e => (e.1.1, e.1.2, e.2.take (size e.1.2))) = locationOf ids shapes values := by
  intro ids
  induction ids with
  | nil => intro shapes values; cases shapes <;> cases values <;> rfl
  | cons i ids ih =>
    intro shapes values
    cases shapes with
    | nil => cases values <;> rfl
    | cons s shapes =>
      cases values with
      | nil => rfl
      | cons v values =>
        show _ :: _ = _ :: _
        rw [← ih shapes values]
        rfl

theorem map_fst_zip_take {α β : Type} : ∀ (l : List α) (k : List β), k.length ≤ l.length →
    (l.zip k).map Prod.fst = l.take k.length := by
  intro l
  induction l with
  | nil => intro k h; simp
  | cons a l ih =>
    intro k h
    cases k with
    | nil => simp
    | cons b k =>
      simp only [List.length_cons, Nat.add_le_add_iff_right] at h
      simp [ih k h]

theorem addLocation_spec {ids : List Nat} {shapes : List Shape} {values : List (List V)} {o : Objects V}
    (h : addLocation fill ids shapes values = .ok o) :
    o = locationOf ids shapes values ∧ shapes.length ≤ ids.length ∧ shapes.length ≤ values.length ∧
      (ids.take shapes.length).Nodup := by
  unfold addLocation at h
  split at h
  · cases h
  rename_i h1
  split at h
  · cases h
  rename_i h2
  obtain ⟨m, hm, hw⟩ := bind_ok h
  obtain ⟨e1, e2, -⟩ := expandAll hm
  rw [List.nil_append] at e1
  have hz : ((ids.zip shapes).zip values).map Prod.fst = ids.zip shapes := by
    rw [List.map_fst_zip]
    rw [List.length_zip]; omega
  have e3 : m = ((ids.zip shapes).zip values).map
      fun e => (e.1.1, e.1.2, List.replicate (size e.1.2) fill) := by
    rw [e1]
    conv => lhs; rw [← hz]
    rw [List.map_map]; rfl
  have hnd : (((ids.zip shapes).zip values).map fun e => e.1.1).Nodup := by
    have : (((ids.zip shapes).zip values).map fun e => e.1.1) = (ids.zip shapes).map Prod.fst := by
      conv => rhs; rw [← hz]
      rw [List.map_map]; rfl
    rw [this]; exact e2
  rw [e3] at hw
  have := writeAll (done := []) hnd (by simp) (by simpa using hw)
  rw [List.nil_append, zip_locationOf] at this
  refine ⟨this, by omega, by omega, ?_⟩
  have hf : (ids.zip shapes).map Prod.fst = ids.take shapes.length := by
    exact map_fst_zip_take ids shapes (by omega)
  rw [← hf]; exact e2

/-! ### Properties -/

theorem addProperty_spec {σ : Shapes} {ps ps' : PropertySet V} {p : PropJson V} (hv : ps.Valid σ) (hp : p.Fits σ)
    (h : addProperty fill ps p = .ok ps') :
    ps'.Valid σ ∧ ∀ w, ps'.content w = ps.content w ++ p.listed w := by
  cases p with
  | same name datatype shape values =>
    unfold addProperty at h
    dsimp only at h
    split at h
    swap
    · cases h
    obtain ⟨m, hm, rfl⟩ := map_ok h
    obtain ⟨i1, i2⟩ := addSame_spec (σ := fun p => σ (.same p)) hv.same hp hm
    refine ⟨⟨i1, hv.sameConstant, hv.boxes, hv.tracker⟩, fun w => ?_⟩
    cases w with
    | same q =>
      show Coll.items (m.get q) = _
      rw [i2]
      by_cases e : q = name <;> simp [PropJson.listed, PropertySet.content, e]
    | _ => simp [PropertySet.content, PropJson.listed]
  | different name datatype rank objects =>
    unfold addProperty at h
    dsimp only at h
    split at h
    swap
    · cases h
    obtain ⟨m, hm, rfl⟩ := map_ok h
    refine ⟨⟨hv.same, hv.sameConstant, hv.boxes, hv.tracker⟩, fun w => ?_⟩
    cases w with
    | different q =>
      show Objects.items (m.get q) = _
      rw [addDifferent_spec hm]
      by_cases e : q = name <;> simp [PropJson.listed, PropertySet.content, e]
    | _ => simp [PropertySet.content, PropJson.listed]
  | sameConstant name datatype shape values =>
    unfold addProperty at h
    dsimp only at h
    split at h
    swap
    · cases h
    obtain ⟨m, hm, rfl⟩ := map_ok h
    obtain ⟨i1, i2⟩ := addSame_spec (σ := fun p => σ (.sameConstant p)) hv.sameConstant hp hm
    refine ⟨⟨hv.same, i1, hv.boxes, hv.tracker⟩, fun w => ?_⟩
    cases w with
    | sameConstant q =>
      show Coll.items (m.get q) = _
      rw [i2]
      by_cases e : q = name <;> simp [PropJson.listed, PropertySet.content, e]
    | _ => simp [PropertySet.content, PropJson.listed]
  | sameVariable => cases h
  | differentConstant name datatype rank objects =>
    obtain ⟨rfl, ho⟩ := hp
    unfold addProperty at h
    dsimp only at h
    rw [if_pos (by simp)] at h
    obtain ⟨m, hm, rfl⟩ := map_ok h
    refine ⟨⟨hv.same, hv.sameConstant, hv.boxes, hv.tracker⟩, fun w => ?_⟩
    cases w with
    | differentConstant q =>
      show Objects.items (m.get q) = _
      rw [addDifferentConstant_spec ho hm]
      by_cases e : q = name <;> simp [PropJson.listed, PropertySet.content, e]
    | _ => simp [PropertySet.content, PropJson.listed]
  | differentVariable name datatype rank ids shapes values =>
    unfold addProperty at h
    dsimp only at h
    split at h
    swap
    · cases h
    obtain ⟨m, hm, rfl⟩ := map_ok h
    unfold addDifferentVariable at hm
    obtain ⟨o, ho, rfl⟩ := map_ok hm
    obtain ⟨rfl, -⟩ := addLocation_spec ho
    refine ⟨⟨hv.same, hv.sameConstant, hv.boxes, hv.tracker⟩, fun w => ?_⟩
    cases w with
    | differentVariable q =>
      show ((AMap.get _ q).getD []).map Item.location = _
      rw [AMap.get_put]
      by_cases e : name = q
      · subst e
        rw [if_pos rfl]
        simp [PropJson.listed, PropertySet.content]
      · rw [if_neg e]
        simp [PropJson.listed, PropertySet.content, Ne.symm e]
    | _ => simp [PropertySet.content, PropJson.listed]

/-! ### Active sets -/

theorem slice_left {a b : Nat} {ids more : List Nat} (hb : b ≤ ids.length) :
    ((ids ++ more).take b).drop a = (ids.take b).drop a := by
  rw [List.take_append_of_le_length hb]

theorem activeSets_shift (ids more : List Nat) : ∀ l : List Nat,
    activeSets (l.map (· + ids.length)) (ids ++ more) = activeSets l more := by
  intro l
  induction l with
  | nil => rfl
  | cons a l ih =>
    cases l with
    | nil =>
      show [(ids ++ more).drop (a + ids.length)] = [more.drop a]
      rw [List.drop_append, List.drop_eq_nil_of_le (by omega)]
      simp
    | cons b l =>
      show ((ids ++ more).take (b + ids.length)).drop (a + ids.length) ::
        activeSets ((b :: l).map (· + ids.length)) (ids ++ more) = (more.take b).drop a :: activeSets (b :: l) more
      rw [ih]
      congr 1
      rw [List.take_append, List.take_of_length_le (by omega), List.drop_append, List.drop_eq_nil_of_le (by omega)]
      simp

/-- Appending active sets: the indices of the new ones are shifted. -/
theorem activeSets_append {idxs ids new more : List Nat} (h : ∀ i ∈ idxs, i ≤ ids.length)
    (hn : match new with | [] => more = [] | i :: _ => i = 0) :
    activeSets (idxs ++ new.map (· + ids.length)) (ids ++ more) = activeSets idxs ids ++ activeSets new more := by
  induction idxs with
  | nil => rw [List.nil_append, activeSets_shift]; rfl
  | cons a idxs ih =>
    have ih := ih fun i hi => h i (by simp [hi])
    have ha := h a (by simp)
    cases idxs with
    | nil =>
      cases new with
      | nil =>
        have hm : more = [] := hn
        subst hm
        simp [activeSets]
      | cons i new =>
        obtain rfl : i = 0 := hn
        show ((ids ++ more).take (0 + ids.length)).drop a :: activeSets ((0 :: new).map (· + ids.length)) (ids ++ more) =
          [ids.drop a] ++ activeSets (0 :: new) more
        rw [activeSets_shift]
        simp
    | cons b idxs =>
      have hb := h b (by simp)
      show ((ids ++ more).take b).drop a :: activeSets ((b :: idxs) ++ new.map (· + ids.length)) (ids ++ more) =
        (ids.take b).drop a :: activeSets (b :: idxs) ids ++ _
      rw [ih, slice_left hb]
      rfl

theorem addTracker_setIndex (t : Tracker) (j : TrackerJson) :
    (addTracker t j).setIndex = t.setIndex ++ (j.setIndex.getD []).map (· + t.ids.length) ∧
    (addTracker t j).ids = t.ids ++ j.ids.getD [] := by
  unfold addTracker addIds addObjectIndex addSetIndex
  cases h1 : j.setIndex <;> cases h2 : j.objectIndex <;> cases h3 : j.ids <;> simp

theorem addTracker_valid {t : Tracker} {j : TrackerJson} (ht : t.Valid) (hj : j.Fits) : (addTracker t j).Valid := by
  obtain ⟨e1, e2⟩ := addTracker_setIndex t j
  intro i hi
  rw [e1] at hi
  rw [e2, List.length_append]
  rcases List.mem_append.mp hi with h | h
  · have := ht i h; omega
  · obtain ⟨a, ha, rfl⟩ := List.mem_map.mp h
    have := hj.1 a ha
    omega

/-- C59: the active sets listed are appended -/
theorem addTracker_spec {t : Tracker} {j : TrackerJson} (ht : t.Valid) (hj : j.Fits) :
    activeSets (addTracker t j).setIndex (addTracker t j).ids =
      activeSets t.setIndex t.ids ++ activeSets (j.setIndex.getD []) (j.ids.getD []) := by
  obtain ⟨e1, e2⟩ := addTracker_setIndex t j
  rw [e1, e2]
  exact activeSets_append ht hj.2

theorem addTime_spec {σ : Shapes} {ps : PropertySet V} {time : Option TimeJson} (hv : ps.Valid σ)
    (ht : ∀ t, time = some t → t.tracker.Fits) :
    (addTime ps time).Valid σ ∧ ∀ w, (addTime ps time).content w = ps.content w ++ timeListed time w := by
  cases time with
  | none => exact ⟨hv, fun w => by simp [addTime, timeListed]⟩
  | some t =>
    have hf := ht t rfl
    refine ⟨⟨hv.same, hv.sameConstant, hv.boxes, addTracker_valid hv.tracker hf⟩, fun w => ?_⟩
    cases w with
    | points => simp [addTime, PropertySet.content, timeListed, TimeJson.listed]
    | activeIds =>
      show ((addTracker ps.tracker t.tracker).ids).map Item.id = _
      rw [(addTracker_setIndex _ _).2]
      simp [PropertySet.content, timeListed, TimeJson.listed]
    | activeSets =>
      show (activeSets (addTracker ps.tracker t.tracker).setIndex (addTracker ps.tracker t.tracker).ids).map Item.active = _
      rw [addTracker_spec hv.tracker hf]
      simp [PropertySet.content, timeListed, TimeJson.listed]
    | _ => simp [addTime, PropertySet.content, timeListed, TimeJson.listed]

/-! ### Space -/

theorem size_single (n : Nat) : size [n] = n := by simp [size]

theorem spaceBoxes_length (l : List Raster) : (l.flatMap (spaceBox coord)).length = l.length * 4 := by
  induction l with
  | nil => rfl
  | cons r l ih => rw [List.flatMap_cons, List.length_append, ih]; simp [spaceBox]; omega

theorem addBoxes_spec {s : SpaceJson V} {c : Coll V} (hs : s.Fits) (h : addBoxes fill coord s = .ok c) :
    c.Shaped [2 * s.rank] ∧ c.rows.flatten.map Item.value = s.boxes.listed coord := by
  unfold addBoxes at h
  by_cases he : s.boxes.isEmpty = true
  · rw [if_pos he] at h
    obtain rfl := Except.ok.inj h
    refine ⟨⟨rfl, by simp⟩, ?_⟩
    cases hb : s.boxes with
    | rasters l =>
      rw [hb] at he
      have : l = [] := List.isEmpty_iff.mp he
      subst this; rfl
    | inline l =>
      rw [hb] at he
      have : l = [] := List.isEmpty_iff.mp he
      subst this; rfl
  · rw [if_neg he] at h
    obtain ⟨values, h1, h2⟩ := bind_ok h
    have key : 2 * s.rank ∣ values.length ∧ values.map Item.value = s.boxes.listed coord := by
      cases hb : s.boxes with
      | rasters l =>
        rw [hb] at h1 he
        unfold SpaceJson.Fits at hs
        rw [hb] at hs
        rcases hs with rfl | hr
        · exact absurd rfl he
        rw [hr] at h1
        unfold boxesOf boxValues at h1
        dsimp only at h1
        rw [spaceBoxes_length, if_neg (by omega), Nat.sub_self, List.replicate_zero, List.append_nil] at h1
        obtain rfl := Except.ok.inj h1
        refine ⟨?_, rfl⟩
        rw [spaceBoxes_length, hr]
        exact Dvd.intro_left _ rfl
      | inline l =>
        rw [hb] at h1
        unfold boxesOf at h1
        dsimp only at h1
        split at h1
        · cases h1
        split at h1
        · cases h1
        rename_i hm
        obtain rfl := Except.ok.inj h1
        exact ⟨Nat.dvd_of_mod_eq_zero (not_not.mp hm), rfl⟩
    obtain ⟨i1, i2⟩ := append_spec (c := ⟨[2 * s.rank], []⟩) (shape := [2 * s.rank]) ⟨rfl, by simp⟩ h2
      (by rw [size_single]; exact Nat.div_mul_cancel key.1)
    refine ⟨i1, ?_⟩
    rw [i2]
    simpa using key.2

theorem new_valid (σ : Shapes) (time : Option Clock) : (PropertySet.new V time).Valid σ where
  same := by intro p c h; cases h
  sameConstant := by intro p c h; cases h
  boxes := by intro c h; cases h
  tracker := by intro i h; cases h

theorem new_content (time : Option Clock) (w : What) : (PropertySet.new V time).content w = [] := by
  cases w <;> rfl

theorem newSpace_spec {σ : Shapes} {time : Option Clock} {s : SpaceJson V} {ps : PropertySet V} (hs : s.Fits)
    (h : newSpace fill coord time s = .ok ps) :
    ps.Valid σ ∧ ps.time = time ∧ ∀ w, ps.content w = s.listed coord w := by
  unfold newSpace at h
  obtain ⟨c, hc, rfl⟩ := map_ok h
  obtain ⟨i1, i2⟩ := addBoxes_spec hs hc
  have hn := new_valid (V := V) σ time
  refine ⟨⟨hn.same, hn.sameConstant, ?_, hn.tracker⟩, rfl, fun w => ?_⟩
  · intro c' h'
    obtain rfl := Option.some.inj h'
    exact ⟨_, i1⟩
  · cases w with
    | boxes =>
      show c.rows.flatten.map Item.value = _
      rw [i2]; rfl
    | _ => simp [PropertySet.new, PropertySet.content, SpaceJson.listed, Coll.items, Objects.items, AMap.get_nil, activeSets]

/-- What an existing or new property set contains -/
def before (existing : Option (PropertySet V)) (w : What) : List (Item V) :=
  match existing with
  | none => []
  | some ps => ps.content w

theorem findPropertySet_spec {σ : Shapes} {existing : Option (PropertySet V)} {time : Option TimeJson}
    {space : Option (SpaceJson V)} {ps : PropertySet V} (hv : ∀ ps, existing = some ps → ps.Valid σ)
    (hs : ∀ s, space = some s → s.Fits) (h : findPropertySet fill coord existing time space = .ok ps) :
    ps.Valid σ ∧ (∀ e, existing = some e → ps = e) ∧ (∀ t, time = some t → ps.time = some t.clock) ∧
      ∀ w, ps.content w = before existing w ++ spaceListed coord space w := by
  cases existing with
  | none =>
    cases time with
    | none =>
      cases space with
      | none =>
        obtain rfl := Except.ok.inj h
        exact ⟨new_valid σ none, by simp, by simp, fun w => by simp [before, new_content, spaceListed]⟩
      | some s =>
        obtain ⟨i1, i2, i3⟩ := newSpace_spec (σ := σ) (hs s rfl) h
        exact ⟨i1, by simp, by simp, fun w => by simp [before, i3, spaceListed]⟩
    | some t =>
      cases space with
      | none =>
        obtain rfl := Except.ok.inj h
        exact ⟨new_valid σ _, by simp, by rintro t' h; cases h; rfl, fun w => by simp [before, new_content, spaceListed]⟩
      | some s =>
        obtain ⟨i1, i2, i3⟩ := newSpace_spec (σ := σ) (hs s rfl) h
        exact ⟨i1, by simp, by rintro t' h; cases h; exact i2, fun w => by simp [before, i3, spaceListed]⟩
  | some e =>
    have he := hv e rfl
    cases time with
    | none =>
      cases space with
      | none =>
        obtain rfl := Except.ok.inj h
        exact ⟨he, by rintro e h; exact Option.some.inj h, by simp, fun w => by simp [before, spaceListed]⟩
      | some s => cases h
    | some t =>
      cases space with
      | none =>
        unfold findPropertySet verifyTime at h
        dsimp only at h
        cases hc : e.time with
        | none => rw [hc] at h; cases h
        | some c =>
        rw [hc] at h
        dsimp only at h
        split at h
        swap
        · cases h
        rename_i hcl
        have ht : e.time = some t.clock := by rw [hc, hcl]
        obtain rfl := Except.ok.inj h
        exact ⟨he, by rintro e h; exact Option.some.inj h, by rintro t' h; cases h; exact ht, fun w => by simp [before, spaceListed]⟩
      | some s =>
        obtain ⟨_, -, h2⟩ := bind_ok h
        cases h2

/-- C59: a property set with a space domain which exists already is refused -/
theorem existing_space_refused (e : PropertySet V) (time : Option TimeJson) (s : SpaceJson V)
    (ht : time.isSome = true → e.time.isSome = true) :
    findPropertySet fill coord (some e) time (some s) = .error .thrown := by
  cases time with
  | none => rfl
  | some t =>
    show (verifyTime e t.clock >>= fun _ => Except.error Err.thrown) = (Except.error .thrown : M (PropertySet V))
    unfold verifyTime
    cases hc : e.time with
    | none => rw [hc] at ht; exact absurd (ht rfl) (by simp)
    | some c => dsimp only; split <;> rfl

/-- C59: a property set with another clock is refused -/
theorem other_clock_refused (e : PropertySet V) (t : TimeJson) (c : Clock) (hc : e.time = some c) (h : c ≠ t.clock)
    (space : Option (SpaceJson V)) : findPropertySet fill coord (some e) (some t) space = .error .thrown := by
  cases space with
  | none =>
    show verifyTime e t.clock = _
    unfold verifyTime
    rw [hc]
    exact if_neg h
  | some s => exact existing_space_refused e (some t) s (by simp [hc])

/-- C59, finding: adding items with a time domain to a property set without one is not refused, but undefined -/
theorem no_clock_undefined (e : PropertySet V) (t : TimeJson) (h : e.time = none) (space : Option (SpaceJson V)) :
    findPropertySet fill coord (some e) (some t) space = .error .outOfBounds := by
  have : verifyTime e t.clock = .error .outOfBounds := by unfold verifyTime; rw [h]
  cases space with
  | none => exact this
  | some s =>
    show (verifyTime e t.clock >>= fun _ => Except.error Err.thrown) = (Except.error .outOfBounds : M (PropertySet V))
    rw [this]; rfl

theorem addPropertySet_spec {σ : Name → Shapes} {sets sets' : AMap Name (PropertySet V)} {j : PropSetJson V}
    (hv : SetsValid σ sets) (hj : j.Fits (σ j.name)) (h : addPropertySet fill coord sets j = .ok sets') :
    SetsValid σ sets' ∧ ∀ n w, setContent sets' n w = setContent sets n w ++ if j.name = n then j.listed coord w else [] := by
  unfold addPropertySet at h
  obtain ⟨ps, h1, h2⟩ := bind_ok h
  obtain ⟨ps', h3, rfl⟩ := map_ok h2
  obtain ⟨v1, -, -, c1⟩ := findPropertySet_spec (σ := σ j.name) (fun ps hp => hv j.name ps hp) hj.space h1
  obtain ⟨v2, c2⟩ := addTime_spec v1 hj.time
  obtain ⟨v3, c3⟩ := fold_content (fun ps : PropertySet V => ps.Valid (σ j.name)) (fun p => p.Fits (σ j.name))
    PropertySet.content PropJson.listed (addProperty fill) (fun s x s' hs hx h => addProperty_spec hs hx h)
    j.properties _ ps' v2 hj.properties h3
  refine ⟨?_, ?_⟩
  · intro n q hq
    rw [AMap.get_put] at hq
    by_cases e : j.name = n
    · rw [if_pos e] at hq
      obtain rfl := Option.some.inj hq
      rw [← e]; exact v3
    · rw [if_neg e] at hq
      exact hv n q hq
  · intro n w
    unfold setContent
    rw [AMap.get_put]
    by_cases e : j.name = n
    · subst e
      rw [if_pos rfl, if_pos rfl]
      dsimp only
      rw [c3, c2, c1]
      show before (sets.get j.name) w ++ spaceListed coord j.space w ++ timeListed j.time w ++ _ =
        before (sets.get j.name) w ++ (timeListed j.time w ++ spaceListed coord j.space w ++ _)
      -- boxes are stored in another place than the time domain
      have : spaceListed coord j.space w ++ timeListed j.time w = timeListed j.time w ++ spaceListed coord j.space w := by
        cases j.time <;> cases j.space <;> simp [spaceListed, timeListed]
        cases w <;> simp [SpaceJson.listed, TimeJson.listed]
      rw [← this]
      simp only [List.append_assoc]
    · rw [if_neg e, if_neg e, List.append_nil]

/-- C59: the clock of an existing property set does not change, and a property set gets the clock listed -/
theorem clock_kept {sets sets' : AMap Name (PropertySet V)} {j : PropSetJson V} {σ : Name → Shapes}
    (hv : SetsValid σ sets) (hj : j.Fits (σ j.name)) (h : addPropertySet fill coord sets j = .ok sets') :
    ∃ ps', sets'.get j.name = some ps' ∧ (∀ e, sets.get j.name = some e → ps'.time = e.time) ∧
      (∀ t, j.time = some t → ps'.time = some t.clock) := by
  have key : ∀ (l : List (PropJson V)) (p p' : PropertySet V), l.foldlM (addProperty fill) p = .ok p' → p'.time = p.time := by
    intro l
    induction l with
    | nil => intro p p' h; rw [← Except.ok.inj h]
    | cons x l ih =>
      intro p p' h
      rw [List.foldlM_cons] at h
      obtain ⟨p1, h1, h2⟩ := bind_ok h
      rw [ih p1 p' h2]
      cases x with
      | sameVariable => cases h1
      | differentConstant a b c d =>
        unfold addProperty at h1
        dsimp only at h1
        split at h1
        · obtain ⟨m, -, rfl⟩ := map_ok h1; rfl
        · rw [← Except.ok.inj h1]
      | _ =>
        unfold addProperty at h1
        dsimp only at h1
        split at h1
        · obtain ⟨m, -, rfl⟩ := map_ok h1; rfl
        · cases h1
  unfold addPropertySet at h
  obtain ⟨ps, h1, h2⟩ := bind_ok h
  obtain ⟨ps', h3, rfl⟩ := map_ok h2
  obtain ⟨-, e1, e2, -⟩ := findPropertySet_spec (σ := σ j.name) (fun ps hp => hv j.name ps hp) hj.space h1
  have ht : ps'.time = ps.time := by
    rw [key _ _ _ h3]
    cases j.time <;> rfl
  refine ⟨ps', by rw [AMap.get_put, if_pos rfl], ?_, ?_⟩
  · intro e he; rw [ht, e1 e he]
  · intro t hh; rw [ht, e2 t hh]

/-! ### Phenomena and universes -/

theorem new_phenomenon_content (p : PhPath) : (Phenomenon.new V).content p = [] := by
  cases p with
  | ids => rfl
  | inSet b n w => cases b <;> rfl

theorem addPhenomenon_spec {σ : Name → Bool → Name → Shapes} {m m' : AMap Name (Phenomenon V)} {j : PhenomenonJson V}
    (hv : PhenomenaValid σ m) (hj : j.Fits (σ j.name)) (h : addPhenomenon fill coord m j = .ok m') :
    PhenomenaValid σ m' ∧ ∀ q : Name × PhPath, phenomenonContent m' q.1 q.2 =
      phenomenonContent m q.1 q.2 ++ if j.name = q.1 then j.listed coord q.2 else [] := by
  unfold addPhenomenon at h
  dsimp only at h
  obtain ⟨cs, h1, h2⟩ := bind_ok h
  obtain ⟨ss, h3, rfl⟩ := map_ok h2
  have hp : SetsValid (σ j.name true) ((m.get j.name).getD (Phenomenon.new V)).collectionSets ∧
      SetsValid (σ j.name false) ((m.get j.name).getD (Phenomenon.new V)).sets := by
    cases hg : m.get j.name with
    | none => constructor <;> intro n ps h <;> cases h
    | some ph => exact hv j.name ph hg
  have hc : ∀ q, ((m.get j.name).getD (Phenomenon.new V)).content q = phenomenonContent m j.name q := by
    intro q
    unfold phenomenonContent
    cases hg : m.get j.name with
    | none => exact new_phenomenon_content q
    | some ph => rfl
  obtain ⟨v1, c1⟩ := fold_content (P := Name × What) (SetsValid (σ j.name true))
    (fun s : PropSetJson V => s.Fits (σ j.name true s.name)) (fun s q => setContent s q.1 q.2)
    (fun (x : PropSetJson V) q => if x.name = q.1 then x.listed coord q.2 else []) (addPropertySet fill coord)
    (fun s x s' hs hx h => ⟨(addPropertySet_spec hs hx h).1, fun q => (addPropertySet_spec hs hx h).2 q.1 q.2⟩)
    j.collectionSets _ cs hp.1 hj.1 h1
  obtain ⟨v2, c2⟩ := fold_content (P := Name × What) (SetsValid (σ j.name false))
    (fun s : PropSetJson V => s.Fits (σ j.name false s.name)) (fun s q => setContent s q.1 q.2)
    (fun (x : PropSetJson V) q => if x.name = q.1 then x.listed coord q.2 else []) (addPropertySet fill coord)
    (fun s x s' hs hx h => ⟨(addPropertySet_spec hs hx h).1, fun q => (addPropertySet_spec hs hx h).2 q.1 q.2⟩)
    j.sets _ ss hp.2 hj.2 h3
  refine ⟨?_, ?_⟩
  · intro n ph hph
    rw [AMap.get_put] at hph
    by_cases e : j.name = n
    · rw [if_pos e] at hph
      obtain rfl := Option.some.inj hph
      rw [← e]; exact ⟨v1, v2⟩
    · rw [if_neg e] at hph
      exact hv n ph hph
  · rintro ⟨n, q⟩
    dsimp only
    by_cases e : j.name = n
    · subst e
      rw [if_pos rfl, ← hc q]
      unfold phenomenonContent
      rw [AMap.get_put, if_pos rfl]
      cases q with
      | ids => simp [Phenomenon.content, PhenomenonJson.listed]
      | inSet b n w =>
        cases b with
        | true => exact c1 (n, w)
        | false => exact c2 (n, w)
    · rw [if_neg e, List.append_nil]
      unfold phenomenonContent
      rw [AMap.get_put, if_neg e]

theorem addPhenomena_spec {σ : Name → Bool → Name → Shapes} {m m' : AMap Name (Phenomenon V)}
    {l : List (PhenomenonJson V)} (hv : PhenomenaValid σ m) (hl : ∀ j ∈ l, j.Fits (σ j.name))
    (h : l.foldlM (addPhenomenon fill coord) m = .ok m') :
    PhenomenaValid σ m' ∧ ∀ n q, phenomenonContent m' n q = phenomenonContent m n q ++ phenomenaListed coord l n q := by
  obtain ⟨v, c⟩ := fold_content (P := Name × PhPath) (PhenomenaValid σ) (fun j : PhenomenonJson V => j.Fits (σ j.name))
    (fun m q => phenomenonContent m q.1 q.2) (fun (j : PhenomenonJson V) q => if j.name = q.1 then j.listed coord q.2 else [])
    (addPhenomenon fill coord) (fun s x s' hs hx h => addPhenomenon_spec hs hx h) l m m' hv hl h
  exact ⟨v, fun n q => c (n, q)⟩

theorem addUniverse_spec {σ : Name → Name → Bool → Name → Shapes} {us us' : AMap Name (AMap Name (Phenomenon V))}
    {j : UniverseJson V} (hv : ∀ u m, us.get u = some m → PhenomenaValid (σ u) m)
    (hj : ∀ p ∈ j.phenomena, p.Fits (σ j.name p.name)) (h : addUniverse fill coord us j = .ok us') :
    (∀ u m, us'.get u = some m → PhenomenaValid (σ u) m) ∧
    ∀ q : Name × Name × PhPath, phenomenonContent ((us'.get q.1).getD []) q.2.1 q.2.2 =
      phenomenonContent ((us.get q.1).getD []) q.2.1 q.2.2 ++
        if j.name = q.1 then phenomenaListed coord j.phenomena q.2.1 q.2.2 else [] := by
  unfold addUniverse at h
  obtain ⟨m, h1, rfl⟩ := map_ok h
  obtain ⟨v, c⟩ := addPhenomena_spec (σ := σ j.name) (by
    cases hg : us.get j.name with
    | none => intro n ph h; cases h
    | some m => exact hv j.name m hg) hj h1
  refine ⟨?_, ?_⟩
  · intro u m' hm
    rw [AMap.get_put] at hm
    by_cases e : j.name = u
    · rw [if_pos e] at hm
      obtain rfl := Option.some.inj hm
      rw [← e]; exact v
    · rw [if_neg e] at hm
      exact hv u m' hm
  · rintro ⟨u, n, q⟩
    dsimp only
    rw [AMap.get_put]
    by_cases e : j.name = u
    · subst e
      rw [if_pos rfl, if_pos rfl]
      exact c n q
    · rw [if_neg e, if_neg e, List.append_nil]

/-- C59: importing a document extends each collection by exactly what is listed for it, in order -/
theorem import_spec {σ : Option Name → Name → Bool → Name → Shapes} {s s' : Dataset V} {d : Doc V} (hs : s.Valid σ)
    (hd : d.Fits σ) (h : translate fill coord d s = .ok s') :
    s'.Valid σ ∧ ∀ p, s'.content p = s.content p ++ d.listed coord p := by
  unfold translate at h
  obtain ⟨us, h1, h2⟩ := bind_ok h
  obtain ⟨ps, h3, rfl⟩ := map_ok h2
  obtain ⟨v1, c1⟩ := fold_content (P := Name × Name × PhPath)
    (fun us : AMap Name (AMap Name (Phenomenon V)) => ∀ u m, us.get u = some m → PhenomenaValid (σ (some u)) m)
    (fun j : UniverseJson V => ∀ p ∈ j.phenomena, p.Fits (σ (some j.name) p.name))
    (fun us q => phenomenonContent ((us.get q.1).getD []) q.2.1 q.2.2)
    (fun (j : UniverseJson V) q => if j.name = q.1 then phenomenaListed coord j.phenomena q.2.1 q.2.2 else [])
    (addUniverse fill coord) (fun s x s' hs hx h => addUniverse_spec (σ := fun u => σ (some u)) hs hx h)
    d.universes _ us hs.2 hd.2 h1
  obtain ⟨v2, c2⟩ := addPhenomena_spec hs.1 hd.1 h3
  refine ⟨⟨v2, v1⟩, ?_⟩
  rintro ⟨world, n, q⟩
  cases world with
  | none => exact c2 n q
  | some u => exact c1 (u, n, q)

/-! ### Findings -/

/-- C59, finding: indices of active objects which are already stored are overwritten -/
theorem objectIndex_overwritten (t : Tracker) (j : TrackerJson) {old new : List Nat} (ho : t.objectIndex = old)
    (hj : j.objectIndex = some new) (hl : old.length ≤ new.length) :
    (addTracker t j).objectIndex = new ++ List.replicate old.length 0 := by
  have : (addTracker t j).objectIndex = new ++ (old ++ List.replicate new.length 0).drop new.length := by
    unfold addTracker addIds addObjectIndex addSetIndex
    cases h1 : j.setIndex <;> cases h3 : j.ids <;> simp [hj, ho]
  rw [this, List.drop_append, List.drop_eq_nil_of_le hl, List.nil_append, List.drop_replicate]
  congr 2
  omega

/-- C59, finding: the boxes of rasters of which the rows are ordered from north to south (the height of cells is negative)
are located north of the raster -/
theorem box_not_south (r : Raster) (h : r.cellHeight < 0) (hr : 0 < r.nrRows) :
    ∃ s, spaceBox id r = [r.west, s, r.west + r.nrCols * r.cellWidth, r.north] ∧ r.north < s := by
  refine ⟨r.north - r.nrRows * r.cellHeight, rfl, ?_⟩
  have : (0 : ℚ) < r.nrRows := by exact_mod_cast hr
  nlinarith

/-- C59, finding: properties with a datatype which is not supported are skipped, instead of refused, in case the shape
differs between objects and does not change through time -/
theorem datatype_ignored (ps : PropertySet V) (name : Name) (datatype : String) (rank : Nat) (objects : List (ObjectJson V))
    (h : datatype ≠ "uint8") : addProperty fill ps (.differentConstant name datatype rank objects) = .ok ps := by
  unfold addProperty
  dsimp only
  rw [if_neg (by simpa using h)]

/-- C59, finding: values of such a property listed in the document itself are replaced by those of the previous object -/
theorem inline_ignored (m : Objects V) (i j : Nat) (s s' : Shape) (v v' : List V) (hi : ∀ e ∈ m, e.1 ≠ i)
    (hj : ∀ e ∈ m, e.1 ≠ j) (hne : i ≠ j) (hl : v.length = size s) :
    [(⟨i, .dataset s v⟩ : ObjectJson V), ⟨j, .inline s' v'⟩].foldlM (addConstantObject fill) (m, [], []) =
      .ok (m ++ [(i, s, v), (j, s, v)], s, v) := by
  have key : ∀ (m : Objects V) (k : Nat), (∀ e ∈ m, e.1 ≠ k) →
      (expandObjects fill m k s >>= fun m => (writeObject m k v).map fun m => (m, s, v)) =
        (.ok (m ++ [(k, s, v)], s, v) : M (Objects V × Shape × List V)) := by
    intro m k hk
    have h1 : (m.any fun e => e.1 == k) = false := by
      rw [List.any_eq_false]
      intro e he
      simpa using hk e he
    have h2 : ((m ++ [(k, s, List.replicate (size s) fill)]).any
        fun e => e.1 == k && decide (v.length < size e.2.1)) = false := by
      rw [List.any_append, Bool.or_eq_false_iff]
      refine ⟨?_, by simp [hl]⟩
      rw [List.any_eq_false]
      intro e he
      simp [hk e he]
    unfold expandObjects
    rw [if_neg (by rw [h1]; simp), M.bind_ok]
    unfold writeObject
    rw [if_neg (by rw [h2]; simp)]
    have h3 : (m ++ [(k, s, List.replicate (size s) fill)]).map
        (fun e => if e.1 = k then (e.1, e.2.1, v.take (size e.2.1)) else e) = m ++ [(k, s, v)] := by
      rw [List.map_append]
      congr 1
      · conv => rhs; rw [← List.map_id m]
        exact List.map_congr_left fun e he => if_neg (hk e he)
      · simp [← hl]
    rw [h3]; rfl
  rw [List.foldlM_cons]
  have e1 : addConstantObject fill (m, [], []) ⟨i, .dataset s v⟩ = .ok (m ++ [(i, s, v)], s, v) := key m i hi
  rw [e1, M.bind_ok, List.foldlM_cons]
  have e2 : addConstantObject fill (m ++ [(i, s, v)], s, v) ⟨j, .inline s' v'⟩ =
      .ok ((m ++ [(i, s, v)]) ++ [(j, s, v)], s, v) := by
    refine key _ j ?_
    intro e he
    rcases List.mem_append.mp he with he | he
    · exact hj e he
    · rw [List.mem_singleton.mp he]; exact hne
  rw [e2, M.bind_ok]
  simp [pure, Except.pure]

/-- C59, finding: if values are added to a property with another shape than the one listed, values are lost -/
theorem values_lost (v : List V) (hv : v.length = 8) (old : List V) :
    ∃ props', addSame fill [("p", ⟨[2], [old]⟩)] "p" (some [4]) v = .ok props' ∧
      ∃ c, props'.get "p" = some c ∧ c.rows.flatten = old ++ v.take 4 := by
  have e : addSame fill [("p", ⟨[2], [old]⟩)] "p" (some [4]) v =
      .ok [("p", ⟨[2], old :: chunks 2 2 v⟩)] := by
    unfold addSame
    simp [hv, size, AMap.get, Coll.append, Coll.write, Coll.expand, AMap.put]
    rfl
  refine ⟨_, e, _, rfl, ?_⟩
  rw [List.flatten_cons, chunks_flatten]

/-! ### Example -/

/-- A document with a phenomenon with two property sets -/
def exampleDoc : Doc Int where
  universes := []
  phenomena := [⟨"areas", some [1, 2], [],
    [⟨"constant", none, some ⟨2, .inline [0, 0, 10, 10, 5, 5, 7, 9]⟩,
        [.same "name" "uint32" none [11, 12], .different "map" "uint32" 2 [⟨1, .inline [1, 2] [5, 6]⟩]]⟩,
      ⟨"variable", some ⟨⟨"2020", "day", 1⟩, [10, 20], ⟨some [0, 2], none, some [1, 2, 2]⟩⟩, none,
        [.sameConstant "v" "float32" (some [2]) [1, 2, 3, 4, 5, 6],
          .differentVariable "w" "float64" 1 [1, 2] [[1], [2]] [[7], [8, 9]]]⟩]⟩]

def exampleShapes : Option Name → Name → Bool → Name → Shapes := fun _ _ _ _ w => if w = .sameConstant "v" then [2] else []

/-- The document is consistent, and can be imported. -/
example : exampleDoc.Fits exampleShapes ∧ (Dataset.new Int).Valid exampleShapes ∧
    ∃ s, translate 0 (fun q => q.num) exampleDoc (Dataset.new Int) = .ok s := by
  refine ⟨⟨?_, by simp [exampleDoc]⟩, ⟨?_, ?_⟩, ⟨_, rfl⟩⟩
  · intro j hj
    obtain rfl := List.mem_singleton.mp hj
    refine ⟨by simp, ?_⟩
    intro s hs
    rcases List.mem_cons.mp hs with rfl | hs
    · refine ⟨by simp, by rintro s h; cases h; trivial, ?_⟩
      intro p hp
      rcases List.mem_cons.mp hp with rfl | hp
      · rfl
      · obtain rfl := List.mem_singleton.mp hp; trivial
    · obtain rfl := List.mem_singleton.mp hs
      refine ⟨?_, by simp, ?_⟩
      · rintro t h; cases h
        refine ⟨?_, rfl⟩
        decide
      · intro p hp
        rcases List.mem_cons.mp hp with rfl | hp
        · rfl
        · obtain rfl := List.mem_singleton.mp hp; trivial
  · intro n ph h; cases h
  · intro u m h; cases h

example : activeSets [0, 2] [1, 2, 2] = [[1, 2], [2]] := rfl

end Lue.JsonImport

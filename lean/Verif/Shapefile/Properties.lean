import Verif.Shapefile.Spec
import Mathlib.Data.List.TakeWhile

/-!
# Properties of exporting to Shapefiles (C66)
-/
namespace Lue.Shapefile

open Lue.Validate

variable {V : Type}

/-! ### Selection -/

theorem bind_eq_ok {α β : Type} {x : M α} {f : α → M β} {b : β} : (x >>= f) = .ok b ↔ ∃ a, x = .ok a ∧ f a = .ok b := by
  cases x with
  | error e => constructor <;> intro h <;> simp [bind, Except.bind] at h
  | ok a => simp [bind, Except.bind]

theorem demand_ok (b : Bool) (u : Unit) : demand b = .ok u ↔ b = true := by cases b <;> simp [demand]

theorem member_ok (j : Json) (k : Str) (v : Json) : j.member k = .ok v ↔ Member j k v := by
  unfold Json.member Member
  cases j with
  | object l =>
    cases h : l.lookup k with
    | none => simp [h]
    | some x => simp [h]
  | _ => simp

theorem hasKey_iff (j : Json) (k : Str) : j.hasKey k = true ↔ ∃ v, Member j k v := by
  unfold Json.hasKey Member
  cases j <;> simp [Option.isSome_iff_exists]

theorem str_ok (j : Json) (k s : Str) : j.str k = .ok s ↔ Member j k (.string s) := by
  unfold Json.str
  rw [bind_eq_ok]
  constructor
  · rintro ⟨v, h1, h2⟩
    cases v <;> simp at h2
    subst h2
    exact (member_ok _ _ _).mp h1
  · intro h
    exact ⟨_, (member_ok _ _ _).mpr h, rfl⟩

theorem single_iff {j item : Json} {k : Str} {v : Json} (hm : Member item k v) :
    ((j.size == 1) = true ∧ j.front = .ok item) ↔ Single j item := by
  obtain ⟨l', rfl, _⟩ := hm
  unfold Single
  cases j with
  | null => simp [Json.size]
  | bool b => simp [Json.front]
  | number => simp [Json.front]
  | string s => simp [Json.front]
  | array l =>
    match l with
    | [] => simp [Json.size]
    | [x] => simp [Json.size, Json.front]
    | x :: y :: l => simp [Json.size]
  | object l =>
    match l with
    | [] => simp [Json.size]
    | [(k, x)] =>
      simp only [Json.size, Json.front, List.length_singleton, beq_self_eq_true, true_and, Except.ok.injEq, reduceCtorEq, false_or,
        Json.object.injEq, List.cons.injEq, Prod.mk.injEq, and_true]
      constructor
      · intro h; exact ⟨k, rfl, h⟩
      · rintro ⟨_, _, h⟩; exact h
    | x :: y :: l => simp [Json.size]

/-- C66: a property set is exported only if the metadata contains a single one, and then that one is exported. -/
theorem selection_iff (metadata : Json) (dataset phenomenon propertySet : Str) :
    selection metadata dataset = .ok (phenomenon, propertySet) ↔ Selects metadata dataset phenomenon propertySet := by
  unfold selection Selects
  simp only [bind_eq_ok, demand_ok, member_ok, str_ok, hasKey_iff]
  constructor
  · rintro ⟨_, _, d, h1, _, _, ph, h2, _, h3, p, h4, a, h5, _, _, sets, h6, _, h7, s, h8, b, h9, h10⟩
    cases h10
    exact ⟨d, ph, p, sets, s, h1, h2, (single_iff h5).mp ⟨h3, h4⟩, h5, h6, (single_iff h9).mp ⟨h7, h8⟩, h9⟩
  · rintro ⟨d, ph, p, sets, s, h1, h2, h3, h5, h6, h7, h9⟩
    obtain ⟨h3, h4⟩ := (single_iff h5).mpr h3
    obtain ⟨h7, h8⟩ := (single_iff h9).mpr h7
    exact ⟨(), ⟨d, h1⟩, d, h1, (), ⟨ph, h2⟩, ph, h2, (), h3, p, h4, _, h5, (), ⟨sets, h6⟩, sets, h6, (), h7, s, h8, _, h9, rfl⟩

/-- C66: the selection is unique. -/
theorem selects_unique {metadata : Json} {dataset p s p' s' : Str} (h : Selects metadata dataset p s) (h' : Selects metadata dataset p' s') :
    p = p' ∧ s = s' := by
  have h1 := (selection_iff _ _ _ _).mpr h
  have h2 := (selection_iff _ _ _ _).mpr h'
  rw [h1] at h2
  simpa using h2

/-! ### Names -/

theorem takeWhile_append_sep {sep : Char} (a b : Str) (h : sep ∉ a) : (a ++ sep :: b).takeWhile (· ≠ sep) = a := by
  induction a with
  | nil => simp
  | cons x a ih =>
    have hx : x ≠ sep := fun e => h (by simp [e])
    simp [hx]
    simpa using ih fun e => h (by simp [e])

theorem dropWhile_append_sep {sep : Char} (a b : Str) (h : sep ∉ a) : (a ++ sep :: b).dropWhile (· ≠ sep) = sep :: b := by
  induction a with
  | nil => simp
  | cons x a ih =>
    have hx : x ≠ sep := fun e => h (by simp [e])
    simp [hx]
    simpa using ih fun e => h (by simp [e])

theorem fileName_dir (dir f : Str) (h : '/' ∉ f) : fileName (dir ++ '/' :: f) = f := by
  unfold fileName
  rw [List.reverse_append, List.reverse_cons, List.append_assoc, List.singleton_append, takeWhile_append_sep _ _ (by simpa using h),
    List.reverse_reverse]

theorem fileName_base (f : Str) (h : '/' ∉ f) : fileName f = f := by
  unfold fileName
  rw [List.takeWhile_eq_self_iff.mpr, List.reverse_reverse]
  intro c hc
  have : c ≠ '/' := fun e => h (by rw [← e]; simpa using hc)
  simpa using this

theorem splitExtension_ext (base ext : Str) (hb : base ≠ []) (he : '.' ∉ ext) (hd : ext ≠ []) :
    splitExtension (base ++ '.' :: ext) = (base, '.' :: ext) := by
  unfold splitExtension
  have hr : (base ++ '.' :: ext).reverse = ext.reverse ++ '.' :: base.reverse := by simp
  rw [hr, dropWhile_append_sep _ _ (by simpa using he), takeWhile_append_sep _ _ (by simpa using he)]
  cases h1 : base.reverse with
  | nil => exact absurd (by simpa using h1) hb
  | cons c s =>
    dsimp only
    rw [if_neg, ← h1, List.reverse_reverse, List.reverse_reverse]
    intro h2
    have h3 : (base ++ '.' :: ext).length = 2 := by rw [h2]; rfl
    have h4 : 0 < base.length := List.length_pos_iff.mpr hb
    have h5 : 0 < ext.length := List.length_pos_iff.mpr hd
    simp at h3
    omega

/-- C66: the Shapefiles with points are written to a directory in the current working directory: the directory mentioned in the name of
the output is ignored. -/
theorem directory_ignored (dir base : Str) (hb : base ≠ []) (hs : '/' ∉ base) :
    outputName (dir ++ '/' :: base ++ ".shp".toList) = base ∧ outputName (base ++ ".shp".toList) = base := by
  have h1 : splitExtension (base ++ ".shp".toList) = (base, ".shp".toList) := splitExtension_ext base "shp".toList hb (by decide) (by decide)
  have hs' : '/' ∉ base ++ ".shp".toList := by
    intro h
    rcases List.mem_append.mp h with h | h
    · exact hs h
    · revert h; decide
  constructor
  · rw [List.append_assoc, List.cons_append]
    unfold outputName hasExtension stem
    rw [fileName_dir _ _ hs', h1, if_pos (by simp)]
  · unfold outputName hasExtension stem
    rw [fileName_base _ hs', h1, if_pos (by simp)]

theorem layerName_inj {s : Str} {a b : Nat} (h : layerName s a = layerName s b) : a = b := by
  unfold layerName at h
  have h1 := List.append_cancel_left h
  have := DataModel.name_inj (List.cons.inj h1).2
  omega

/-! ### Geometries -/

theorem mapM_range_ok {β : Type} {n : Nat} {f : Nat → M β} {v : Nat → β} (h : ∀ i < n, f i = .ok (v i)) :
    (List.range n).mapM f = .ok ((List.range n).map v) := by
  have key : ∀ l : List Nat, (∀ i ∈ l, i < n) → l.mapM f = .ok (l.map v) := by
    intro l hl
    induction l with
    | nil => rfl
    | cons a l ih =>
      rw [List.mapM_cons, h a (hl a (by simp)), M.bind_ok, ih fun i hi => hl i (by simp [hi])]
      rfl
  exact key _ fun i hi => List.mem_range.mp hi

theorem flatten_get {p : Nat} (rows : List (List V)) (h : ∀ row ∈ rows, row.length = p) {k i : Nat} {row : List V}
    (hk : rows[k]? = some row) (hi : i < p) : rows.flatten[p * k + i]? = row[i]? := by
  rw [DataModel.flatten_getElem? (by omega) rows h, Nat.mul_add_div (by omega), Nat.div_eq_of_lt hi, Nat.mul_add_mod, Nat.mod_eq_of_lt hi,
    Nat.add_zero, hk]
  rfl

theorem createLayer_ok {gdal : Gdal} {out : Out V} {name : Str} (h1 : gdal.refusesLayer name = false)
    (h2 : ∀ l ∈ out.layers, l.name ≠ name) : createLayer gdal out name = .ok () := by
  unfold createLayer
  rw [if_neg]
  simp only [h1, Bool.false_or, Bool.not_eq_true, List.any_eq_false, beq_iff_eq]
  exact h2

theorem addPointLayer_ok {gdal : Gdal} {out : Out V} {name : Str} (h1 : gdal.refusesLayer name = false)
    (h2 : ∀ l ∈ out.layers, l.name ≠ name) (rows : List (List V)) (hw : ∀ row ∈ rows, row.length = 2) :
    ∃ features, addPointLayer gdal out name rows.flatten = .ok ⟨out.name, out.layers ++ [⟨name, features⟩]⟩ ∧
      List.Forall₂ IsPoint features rows := by
  have hx : ∀ k (h : k < rows.length), ∃ x y, rows[k] = [x, y] := by
    intro k h
    have h3 : rows[k].length = 2 := hw _ (List.getElem_mem h)
    match hr : rows[k], h3 with
    | [x, y], _ => exact ⟨x, y, rfl⟩
  have hx' : ∀ k, ∃ g : Geometry V, k < rows.length → ∃ x y, rows[k]? = some [x, y] ∧ g = .point x y := by
    intro k
    by_cases h : k < rows.length
    · obtain ⟨x, y, h3⟩ := hx k h
      exact ⟨.point x y, fun _ => ⟨x, y, by rw [List.getElem?_eq_getElem h, h3], rfl⟩⟩
    · exact ⟨.polygon [], fun h' => absurd h' h⟩
  choose g hg using hx'
  have hl : (rows.flatten.length + 1) / 2 = rows.length := by rw [DataModel.flatten_length rows hw]; omega
  refine ⟨(List.range rows.length).map g, ?_, ?_⟩
  · unfold addPointLayer
    rw [createLayer_ok h1 h2, M.bind_ok, hl, mapM_range_ok (v := g) (by
      intro k hk
      obtain ⟨x, y, h3, h4⟩ := hg k hk
      have h5 := flatten_get rows hw h3 (i := 0) (by omega)
      have h6 := flatten_get rows hw h3 (i := 1) (by omega)
      rw [Nat.add_zero] at h5
      rw [rd_ok (x := x) (by rw [h5]; rfl), M.bind_ok, rd_ok (x := y) (by rw [h6]; rfl), M.bind_ok, h4])]
    rfl
  · rw [List.forall₂_iff_get]
    refine ⟨by simp, fun i h3 h4 => ?_⟩
    obtain ⟨x, y, h5, h6⟩ := hg i (by simpa using h4)
    refine ⟨x, y, ?_, by simpa using h6⟩
    rw [List.getElem?_eq_some_iff] at h5
    obtain ⟨_, h5⟩ := h5
    simpa using h5

theorem addBoxLayer_ok {gdal : Gdal} {out : Out V} {name : Str} (h1 : gdal.refusesLayer name = false)
    (h2 : ∀ l ∈ out.layers, l.name ≠ name) (rows : List (List V)) (hw : ∀ row ∈ rows, row.length = 4) :
    ∃ features, addBoxLayer gdal out name rows.flatten = .ok ⟨out.name, out.layers ++ [⟨name, features⟩]⟩ ∧
      List.Forall₂ IsBox features rows := by
  have hx' : ∀ k, ∃ g : Geometry V, k < rows.length → ∃ a b c d, rows[k]? = some [a, b, c, d] ∧
      g = .polygon [(a, b), (c, b), (c, d), (a, d), (a, b)] := by
    intro k
    by_cases h : k < rows.length
    · have h3 : rows[k].length = 4 := hw _ (List.getElem_mem h)
      match hr : rows[k], h3 with
      | [a, b, c, d], _ =>
        exact ⟨.polygon [(a, b), (c, b), (c, d), (a, d), (a, b)], fun _ => ⟨a, b, c, d, by rw [List.getElem?_eq_getElem h, hr], rfl⟩⟩
    · exact ⟨.polygon [], fun h' => absurd h' h⟩
  choose g hg using hx'
  have hl : (rows.flatten.length + 3) / 4 = rows.length := by rw [DataModel.flatten_length rows hw]; omega
  refine ⟨(List.range rows.length).map g, ?_, ?_⟩
  · unfold addBoxLayer
    rw [createLayer_ok h1 h2, M.bind_ok, hl, mapM_range_ok (v := g) (by
      intro k hk
      obtain ⟨a, b, c, d, h3, h4⟩ := hg k hk
      have h5 := flatten_get rows hw h3 (i := 0) (by omega)
      have h6 := flatten_get rows hw h3 (i := 1) (by omega)
      have h7 := flatten_get rows hw h3 (i := 2) (by omega)
      have h8 := flatten_get rows hw h3 (i := 3) (by omega)
      rw [Nat.add_zero] at h5
      rw [rd_ok (x := a) (by rw [h5]; rfl), M.bind_ok, rd_ok (x := b) (by rw [h6]; rfl), M.bind_ok,
        rd_ok (x := c) (by rw [h7]; rfl), M.bind_ok, rd_ok (x := d) (by rw [h8]; rfl), M.bind_ok, h4])]
    rfl
  · rw [List.forall₂_iff_get]
    refine ⟨by simp, fun i h3 h4 => ?_⟩
    obtain ⟨a, b, c, d, h5, h6⟩ := hg i (by simpa using h4)
    refine ⟨a, b, c, d, ?_, by simpa using h6⟩
    rw [List.getElem?_eq_some_iff] at h5
    obtain ⟨_, h5⟩ := h5
    simpa using h5

end Lue.Shapefile

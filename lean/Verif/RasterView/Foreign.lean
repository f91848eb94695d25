import Verif.RasterView.Proofs

/-!
# Raster views: files which were not written by this code

C49: what is recognized as a raster, and which properties are recognized as layers, for all files, whoever wrote them.
-/
namespace Lue.RasterView

open Lue.DataModel

variable {α β τ : Type}

/-! ### Specification -/

/-- The phenomenon has property set `ps`. -/
def Has (d : File α β τ) (p s : Name) (ids : List Nat) (ps : PropertySet α β τ) : Prop :=
  ∃ ph, d.phenomena p = some ph ∧ ph.propertySets s = some ps ∧ ph.ids = ids

/-- The property stores a single shape, of a grid with `n` dimensions, and is not discretized itself. -/
def StoresShape (n : Nat) (g : ShapeProperty) : Prop :=
  g.isCount = true ∧ g.arrayShape = [n] ∧ (∃ a, g.arrays = [a]) ∧ g.time = none

/-- A raster: a single object, with a single stationary box as space domain which is not discretized itself, and the shape
of a grid. The domain of a variable raster is a single time box, with a number of time steps. A constant raster does not
have a property with the name of the one with the number of time steps, in any of the collections. -/
def IsRaster (d : File α β τ) (k : Kind) (p s : Name) : Prop :=
  ∃ id ps box g, Has d p s [id] ps ∧ ps.space = some ⟨true, true, false, [box]⟩ ∧
    ps.same spaceGrid = some g ∧ StoresShape 2 g ∧ g.space = none ∧
    match k with
    | .constant => ps.same timeGrid = none ∧ ps.sameConstant timeGrid = none ∧
        (∀ k, (ps.layers k).get timeGrid = none) ∧ ps.others timeGrid = false
    | .varying => ∃ t g', ps.time = some ⟨true, [t]⟩ ∧ ps.same timeGrid = none ∧ ps.sameConstant timeGrid = some g' ∧
        StoresShape 1 g'

/-- A link in a property refers to an existing property, which is `target`. -/
def Links (d : File α β τ) (target : Path) : Option Discr → Prop
  | some ⟨true, l⟩ => l = target ∧ d.exists l = true
  | _ => False

/-- A property is a layer of a raster: it is discretized by the grid of that raster, in space and, in case of a variable
raster, in time. -/
def IsLayer (d : File α β τ) (k : Kind) (p s : Name) (x : Property α) : Prop :=
  Links d ⟨p, s, .same, spaceGrid⟩ x.space ∧
    match k with
    | .constant => True
    | .varying => Links d ⟨p, s, .sameConstant, timeGrid⟩ x.time

/-! ### Proofs -/

theorem item_ok {χ : Type} {m : Items χ} {k : Name} {x : χ} : item m k = .ok x ↔ m k = some x := by
  unfold item
  cases m k <;> simp

theorem bind_ok_iff {χ ψ : Type} {m : M χ} {f : χ → M ψ} {y : ψ} : (m >>= f) = .ok y ↔ ∃ x, m = .ok x ∧ f x = .ok y := by
  cases m with
  | ok x => simp [M.bind_ok]
  | error e =>
    constructor
    · intro h; cases h
    · rintro ⟨_, h, _⟩; cases h

theorem gridOk_iff {b : Bool} {n : Nat} {o : Option ShapeProperty} :
    gridOk b n o = true ↔ ∃ g, o = some g ∧ StoresShape n g ∧ (b = true → g.space = none) := by
  unfold gridOk StoresShape
  cases o with
  | none => simp
  | some g =>
    simp only [Bool.and_eq_true, Bool.or_eq_true, Bool.not_eq_true', beq_iff_eq, Option.isNone_iff_eq_none,
      List.length_eq_one_iff, Option.some.injEq, exists_eq_left']
    cases b <;> simp <;> tauto

theorem base_iff {d : File α β τ} {p s : Name} : containsRasterBase d p s = .ok true ↔
    ∃ id ps box g, Has d p s [id] ps ∧ ps.space = some ⟨true, true, false, [box]⟩ ∧
      ps.same spaceGrid = some g ∧ StoresShape 2 g ∧ g.space = none := by
  unfold containsRasterBase
  simp only [bind_ok_iff, item_ok]
  constructor
  · rintro ⟨ph, h1, ps, h2, h3⟩
    simp only [Except.ok.injEq, Bool.and_eq_true, beq_iff_eq, List.length_eq_one_iff, gridOk_iff] at h3
    obtain ⟨⟨id, h3⟩, h4, g, h5, h6, h7⟩ := h3
    unfold spaceDomainOk at h4
    match hs : ps.space, h4 with
    | some ⟨a, b, c, bs⟩, h4 =>
      simp only [Bool.and_eq_true, beq_iff_eq, List.length_eq_one_iff, Bool.not_eq_true'] at h4
      obtain ⟨⟨⟨rfl, rfl⟩, rfl⟩, box, rfl⟩ := h4
      exact ⟨id, ps, box, g, ⟨ph, h1, h2, h3⟩, hs, h5, h6, h7 trivial⟩
  · rintro ⟨id, ps, box, g, ⟨ph, h1, h2, h3⟩, h4, h5, h6, h7⟩
    refine ⟨ph, h1, ps, h2, ?_⟩
    have : gridOk true 2 (ps.same spaceGrid) = true := gridOk_iff.2 ⟨g, h5, h6, fun _ => h7⟩
    rw [this, h3]
    simp [spaceDomainOk, h4]

/-- C49: a property set is recognized as a raster if and only if it is one, for all files. -/
theorem contains_iff {d : File α β τ} {k : Kind} {p s : Name} : containsRaster d k p s = .ok true ↔ IsRaster d k p s := by
  have hb := base_iff (d := d) (p := p) (s := s)
  cases k with
  | constant =>
    unfold containsRaster containsConstant IsRaster
    simp only [bind_ok_iff]
    constructor
    · rintro ⟨b, h1, h2⟩
      cases b with
      | false => simp at h2
      | true =>
        obtain ⟨id, ps, box, g, hh, h3, h4, h5, h6⟩ := hb.1 h1
        refine ⟨id, ps, box, g, hh, h3, h4, h5, h6, ?_⟩
        obtain ⟨ph, e1, e2, e3⟩ := hh
        simp only [if_true, bind_ok_iff, item_ok, e1, Option.some.injEq, exists_eq_left', e2, Except.ok.injEq,
          PropertySet.contains, Bool.not_eq_true', Bool.or_eq_false_iff, Option.isSome_eq_false_iff,
          Option.isNone_iff_eq_none] at h2
        obtain ⟨⟨⟨⟨h2, h7⟩, h8⟩, h9⟩, h10⟩ := h2
        exact ⟨h2, h7, fun k => by cases k <;> assumption, h10⟩
    · rintro ⟨id, ps, box, g, hh, h3, h4, h5, h6, h7, h8, h9, h10⟩
      refine ⟨true, hb.2 ⟨id, ps, box, g, hh, h3, h4, h5, h6⟩, ?_⟩
      obtain ⟨ph, e1, e2, e3⟩ := hh
      simp [bind_ok_iff, item_ok, e1, e2, PropertySet.contains, h7, h8, h9, h10]
  | varying =>
    unfold containsRaster containsVariable IsRaster
    simp only [bind_ok_iff]
    constructor
    · rintro ⟨b, h1, h2⟩
      cases b with
      | false => simp at h2
      | true =>
        obtain ⟨id, ps, box, g, hh, h3, h4, h5, h6⟩ := hb.1 h1
        refine ⟨id, ps, box, g, hh, h3, h4, h5, h6, ?_⟩
        obtain ⟨ph, e1, e2, e3⟩ := hh
        simp only [if_true, bind_ok_iff, item_ok, e1, Option.some.injEq, exists_eq_left', e2, Except.ok.injEq,
          Bool.and_eq_true, Option.isNone_iff_eq_none, gridOk_iff] at h2
        obtain ⟨h2, h7, g', h8, h9, _⟩ := h2
        unfold timeDomainOk at h2
        match ht : ps.time, h2 with
        | some ⟨a, ts⟩, h2 =>
          simp only [Bool.and_eq_true, beq_iff_eq, List.length_eq_one_iff] at h2
          obtain ⟨rfl, t, rfl⟩ := h2
          exact ⟨t, g', rfl, h7, h8, h9⟩
    · rintro ⟨id, ps, box, g, hh, h3, h4, h5, h6, t, g', h7, h8, h9, h10⟩
      refine ⟨true, hb.2 ⟨id, ps, box, g, hh, h3, h4, h5, h6⟩, ?_⟩
      obtain ⟨ph, e1, e2, e3⟩ := hh
      have : gridOk false 1 (ps.sameConstant timeGrid) = true := gridOk_iff.2 ⟨g', h9, h10, fun h => by cases h⟩
      simp only [if_true, bind_ok_iff, item_ok, e1, Option.some.injEq, exists_eq_left', e2, this]
      simp [timeDomainOk, h7, h8]

theorem scan_mem {m : AMap Name (Property α)} {f : Property α → M Bool} {ns l : List Name} (h : scan m f ns = .ok l) :
    ∀ n, n ∈ l ↔ n ∈ ns ∧ ∃ x, m.get n = some x ∧ f x = .ok true := by
  induction ns generalizing l with
  | nil => simp [scan] at h; subst h; simp
  | cons a ns ih =>
    simp only [scan, bind_ok_iff, item_ok] at h
    obtain ⟨x, h1, b, h2, rest, h3, h4⟩ := h
    rw [Except.ok.injEq] at h4
    subst h4
    intro n
    cases b with
    | true =>
      simp only [if_true, List.mem_cons, ih h3 n]
      constructor
      · rintro (rfl | ⟨h, h'⟩)
        · exact ⟨.inl rfl, x, h1, h2⟩
        · exact ⟨.inr h, h'⟩
      · rintro ⟨rfl | h, h'⟩
        · exact .inl rfl
        · exact .inr ⟨h, h'⟩
    | false =>
      simp only [Bool.false_eq_true, if_false, List.mem_cons, ih h3 n]
      constructor
      · rintro ⟨h, h'⟩; exact ⟨.inr h, h'⟩
      · rintro ⟨rfl | h, x', h', h''⟩
        · rw [h1] at h'; cases h'; rw [h2] at h''; cases h''
        · exact ⟨h, x', h', h''⟩

theorem linksTo_iff {d : File α β τ} {l target : Path} : linksTo d l target = .ok true ↔ l = target ∧ d.exists l = true := by
  unfold linksTo
  cases d.exists l <;> simp

theorem isConstantLayer_iff {d : File α β τ} {p s : Name} {x : Property α} :
    isConstantLayer d ⟨p, s, .same, spaceGrid⟩ x = .ok true ↔ IsLayer d .constant p s x := by
  unfold isConstantLayer IsLayer Links
  rcases x.space with _ | ⟨_ | _, l⟩
  · simp
  · simp
  · simp [linksTo_iff]

theorem isVariableLayer_iff {d : File α β τ} {p s : Name} {x : Property α} :
    isVariableLayer d ⟨p, s, .sameConstant, timeGrid⟩ ⟨p, s, .same, spaceGrid⟩ x = .ok true ↔ IsLayer d .varying p s x := by
  unfold isVariableLayer IsLayer Links
  rcases x.time with _ | ⟨_ | _, lt⟩ <;> rcases x.space with _ | ⟨_ | _, ls⟩ <;>
    simp only [reduceCtorEq, Except.ok.injEq, Bool.false_eq_true, and_false, false_and]
  simp only [bind_ok_iff, Except.ok.injEq, Bool.and_eq_true]
  constructor
  · rintro ⟨bt, h1, bs, h2, rfl, rfl⟩
    exact ⟨linksTo_iff.1 h2, linksTo_iff.1 h1⟩
  · rintro ⟨h2, h1⟩
    exact ⟨true, linksTo_iff.2 h1, true, linksTo_iff.2 h2, rfl, rfl⟩

/-- C49: the layers listed by a view which was opened are exactly the properties which are layers of the raster, for all
files. -/
theorem open_layers {d : File α β τ} {k : Kind} {p s : Name} {v : View β τ} (h : openView d k p s = .ok v) (n : Name) :
    n ∈ v.layers ↔ ∃ ids ps x, Has d p s ids ps ∧ (ps.layers k).get n = some x ∧ IsLayer d k p s x := by
  have key : ∀ {ph : Phenomenon α β τ} {ps : PropertySet α β τ} {f : Property α → M Bool} {l : List Name},
      d.phenomena p = some ph → ph.propertySets s = some ps → (∀ x, f x = .ok true ↔ IsLayer d k p s x) →
      scan (ps.layers k) f (names (ps.layers k)) = .ok l →
      (n ∈ l ↔ ∃ ids ps x, Has d p s ids ps ∧ (ps.layers k).get n = some x ∧ IsLayer d k p s x) := by
    intro ph ps f l h1 h2 hf hl
    rw [scan_mem hl n, mem_names]
    constructor
    · rintro ⟨_, x, h3, h4⟩
      exact ⟨ph.ids, ps, x, ⟨ph, h1, h2, rfl⟩, h3, (hf x).1 h4⟩
    · rintro ⟨ids, ps', x, ⟨ph', h3, h4, _⟩, h5, h6⟩
      rw [h1] at h3
      cases h3
      rw [h2] at h4
      cases h4
      exact ⟨by rw [h5]; rfl, x, h5, (hf x).2 h6⟩
  cases k with
  | constant =>
    simp only [openView, openConstant, bind_ok_iff, item_ok] at h
    obtain ⟨w, _, ph, h1, ps, h2, _, _, l, h3, h4⟩ := h
    rw [Except.ok.injEq] at h4
    subst h4
    exact key h1 h2 (fun x => isConstantLayer_iff) h3
  | varying =>
    simp only [openView, openVariable, bind_ok_iff, item_ok] at h
    obtain ⟨w, _, ph, h1, ps, h2, t, _, h⟩ := h
    have h : ∃ tb : M τ, (tb >>= fun timeBox => do
        let timeProperty ← item ps.sameConstant timeGrid
        let timeSteps ← first timeProperty.arrays
        let nrTimeSteps ← first timeSteps
        let _ ← item ps.same spaceGrid
        let layers ← scan (ps.layers .varying)
          (isVariableLayer d ⟨p, s, .sameConstant, timeGrid⟩ ⟨p, s, .same, spaceGrid⟩) (names (ps.layers .varying))
        (.ok { w with time := some (timeBox, nrTimeSteps), layers := layers } : M (View β τ))) = .ok v := by
      by_cases ht : t.isBox = true
      · rw [if_pos ht] at h; exact ⟨_, h⟩
      · rw [if_neg ht] at h; exact ⟨_, h⟩
    simp only [bind_ok_iff, item_ok] at h
    obtain ⟨_, tb, _, tp, _, ts, _, nr, _, _, _, l, h3, h4⟩ := h
    rw [Except.ok.injEq] at h4
    subst h4
    exact key h1 h2 (fun x => isVariableLayer_iff) h3

/-! ### Examples -/

/-- A raster with grid cells which are 2 × 3, and one property -/
def exFile (time space : Option Discr) : File Nat Nat Nat :=
  ⟨fun _ => some ⟨[7], fun _ => some
    { tracker := ⟨[], [], []⟩
      time := some ⟨true, [4]⟩
      space := some ⟨true, true, false, [9]⟩
      same := fun n => if n = spaceGrid then some ⟨true, [2], [[2, 3]], none, none⟩ else none
      sameConstant := fun n => if n = timeGrid then some ⟨true, [1], [[5]], none, none⟩ else none
      layers := fun k => match k with
        | .constant => []
        | .varying => [(['l'], ⟨time, space, ⟨0, fun _ => none⟩⟩)]
      others := fun _ => false }⟩⟩

def exTime : Option Discr := some ⟨true, ⟨['p'], ['s'], .sameConstant, timeGrid⟩⟩
def exSpace : Option Discr := some ⟨true, ⟨['p'], ['s'], .same, spaceGrid⟩⟩

/-- Variable rasters, which are not constant ones; a property which only has one of the links is not a layer. -/
example : containsRaster (exFile exTime exSpace) .varying ['p'] ['s'] = .ok true ∧
    containsRaster (exFile exTime exSpace) .constant ['p'] ['s'] = .ok false ∧
    (openView (exFile exTime exSpace) .varying ['p'] ['s']).map View.layers = .ok [['l']] ∧
    (openView (exFile none exSpace) .varying ['p'] ['s']).map View.layers = .ok [] := ⟨rfl, rfl, rfl, rfl⟩

end Lue.RasterView

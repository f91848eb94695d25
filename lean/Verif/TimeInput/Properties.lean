import Verif.TimeInput.Spec

/-!
# C56: `timeinputscalar` returns the values in the row of the time step
-/
namespace Lue.TimeInput

variable {F G : Type}

/-! ### Text -/

theorem dropWhile_blank {a t : Str} (ha : Blank a) :
    (a ++ t).dropWhile Char.isWhitespace = t.dropWhile Char.isWhitespace := by
  induction a with
  | nil => rfl
  | cons x xs ih =>
    rw [List.cons_append, List.dropWhile_cons, if_pos (ha x (by simp))]
    exact ih (fun c hc => ha c (by simp [hc]))

theorem rstrip_line {l : Str} {c : Char} {a : Str} (hc : c.isWhitespace = false) (ha : Blank a) :
    rstrip (l ++ [c] ++ a) = l ++ [c] := by
  unfold rstrip
  rw [List.reverse_append, dropWhile_blank (by intro x hx; exact ha x (by simpa using hx)), List.reverse_append]
  simp [hc]

theorem rstrip_blank {a : Str} (ha : Blank a) : rstrip a = [] := by
  unfold rstrip
  have := dropWhile_blank (a := a.reverse) (t := []) (by intro x hx; exact ha x (by simpa using hx))
  rw [List.append_nil] at this
  rw [this]; rfl

/-- The lines which are not blank -/
theorem file_lines {ls f : List Str} (h : IsFile ls f) : (f.map rstrip).filter (fun l => l ≠ []) = ls := by
  induction h with
  | nil => rfl
  | blank ha _ ih =>
    rw [List.map_cons, rstrip_blank ha, List.filter_cons]
    simpa using ih
  | line hc ha _ ih =>
    rw [List.map_cons, rstrip_line hc ha, List.filter_cons, ih]
    simp

theorem wordsAux_blank {b : Str} (hb : Blank b) (t : Str) : wordsAux [] (b ++ t) = wordsAux [] t := by
  induction b with
  | nil => rfl
  | cons x xs ih =>
    rw [List.cons_append]
    conv_lhs => unfold wordsAux
    rw [if_pos (hb x (by simp)), if_pos rfl]
    exact ih (fun c hc => hb c (by simp [hc]))

theorem wordsAux_word {w : Str} (hw : ∀ c ∈ w, c.isWhitespace = false) (u t : Str) :
    wordsAux u (w ++ t) = wordsAux (u ++ w) t := by
  induction w generalizing u with
  | nil => simp
  | cons x xs ih =>
    rw [List.cons_append]
    conv_lhs => unfold wordsAux
    rw [if_neg (by rw [hw x (by simp)]; simp), ih (fun c hc => hw c (by simp [hc]))]
    simp

theorem wordsAux_end {w b t : Str} (hw : w ≠ []) (hb : Blank b) (hne : b ≠ []) :
    wordsAux w (b ++ t) = w :: wordsAux [] t := by
  cases b with
  | nil => exact absurd rfl hne
  | cons x xs =>
    rw [List.cons_append]
    conv_lhs => unfold wordsAux
    rw [if_pos (hb x (by simp)), if_neg hw, wordsAux_blank (fun c hc => hb c (by simp [hc]))]

/-- The words of a row -/
theorem row_words {ws : List Str} {t : Str} (h : IsRow ws t) : words t = ws := by
  unfold words
  induction h with
  | nil ha =>
    rename_i a
    have := wordsAux_blank ha []
    rw [List.append_nil] at this
    rw [this]; rfl
  | last ha hw =>
    rename_i a w
    rw [wordsAux_blank ha]
    have := wordsAux_word hw.2 [] []
    rw [List.append_nil] at this
    rw [this]
    simp [wordsAux, hw.1]
  | cons ha hw hb hne _ ih =>
    rename_i a w b ws t
    rw [List.append_assoc, List.append_assoc, wordsAux_blank ha, wordsAux_word hw.2, List.nil_append,
      wordsAux_end hw.1 hb hne, ih]

/-! ### The file -/

theorem index_ok {α : Type} {l : List α} {k : Nat} {x : α} (h : l[k]? = some x) : index l (k : Int) = .ok x := by
  unfold index
  rw [if_pos (by omega), Int.toNat_natCast, h]

/-- C56: the rows of a time series -/
theorem load_series (num : Numbers F G) {file : List Str} {rows : List (Str × List Str)}
    (h : IsSeries num file rows) :
    ∃ lines, load num file = .ok lines ∧
      List.Forall₂ (fun (r : Str × List Str) l => IsRow (r.1 :: r.2) l) rows lines := by
  obtain ⟨title, count, names, lines, h1, h2, h3⟩ := h
  refine ⟨lines, ?_, h3⟩
  unfold load
  dsimp only
  rw [file_lines h1]
  rw [show (1 : Int) = ((1 : Nat) : Int) from rfl, index_ok (x := count) (by rfl)]
  simp only [M.bind_ok, require, h2]
  unfold sliceFrom
  rw [if_neg (by omega)]
  congr 1
  have : ((names.length : Int) + 2).toNat = names.length + 2 := by omega
  rw [this]
  simp

theorem mapM_require {α β : Type} (f : α → Option β) (l : List α) (r : List β) :
    l.mapM (fun t => require (f t)) = .ok r ↔ List.Forall₂ (fun a b => f a = some b) l r := by
  induction l generalizing r with
  | nil =>
    constructor
    · intro h
      have : ([] : List β) = r := by injection h
      rw [← this]; exact List.Forall₂.nil
    · intro h; cases h; rfl
  | cons a l ih =>
    rw [List.mapM_cons]
    cases ha : f a with
    | none =>
      constructor
      · intro h; simp [require] at h; cases h
      · intro h; cases h with
        | cons h1 _ => rw [ha] at h1; cases h1
    | some b =>
      show (do let bs ← l.mapM (fun t => require (f t)); pure (b :: bs)) = _ ↔ _
      cases hl : l.mapM (fun t => require (f t)) with
      | error err =>
        constructor
        · intro h; cases h
        · intro h
          cases h with
          | cons h1 h2 => rw [(ih _).mpr h2] at hl; cases hl
      | ok bs =>
        constructor
        · intro h
          have : b :: bs = r := by injection h
          rw [← this]; exact List.Forall₂.cons ha ((ih bs).mp hl)
        · intro h
          cases h with
          | cons h1 h2 =>
            rw [(ih _).mpr h2] at hl
            have e1 := Except.ok.inj hl
            rw [ha] at h1
            have e2 := Option.some.inj h1
            rw [← e1, e2]; rfl

theorem zipIdx_get (vs : List F) (n : Nat) (i : Int) :
    AMap.get ((vs.zipIdx n).map (fun vi => ((vi.2 : Int) + 1, vi.1))) i =
      if (n : Int) + 1 ≤ i then vs[(i - 1 - n).toNat]? else none := by
  induction vs generalizing n with
  | nil => simp [AMap.get_nil]
  | cons v vs ih =>
    rw [List.zipIdx_cons, List.map_cons, AMap.get_cons, ih]
    by_cases h : (n : Int) + 1 = i
    · rw [if_pos h, if_pos (by omega)]
      have : (i - 1 - n).toNat = 0 := by omega
      rw [this]; rfl
    · rw [if_neg h]
      by_cases h2 : (n : Int) + 1 ≤ i
      · rw [if_pos h2, if_pos (by push_cast; omega)]
        have : (i - 1 - n).toNat = (i - 1 - ((n + 1 : Nat) : Int)).toNat + 1 := by push_cast; omega
        rw [this, List.getElem?_cons_succ]
      · rw [if_neg h2, if_neg (by push_cast; omega)]

/-- The table of a row, if all its values are numbers -/
theorem lookupTable_ok (num : Numbers F G) {lines : List Str} {rows : List (Str × List Str)}
    (h : List.Forall₂ (fun (r : Str × List Str) l => IsRow (r.1 :: r.2) l) rows lines) {k : Nat} {r : Str × List Str}
    (hr : rows[k]? = some r) {vs : List F} (hv : List.Forall₂ (fun t v => num.float t = some v) r.2 vs) :
    ∃ table, lookupTable num lines ((k : Int) + 1) = .ok table ∧
      table.map (·.1) = (List.range vs.length).map (fun i : Nat => (i : Int) + 1) ∧
      ∀ i v, table.get i = some v ↔ ValueAt num r.2 i v := by
  have hline : ∃ l, lines[k]? = some l ∧ IsRow (r.1 :: r.2) l := by
    clear hv
    induction h generalizing k with
    | nil => simp at hr
    | cons h1 _ ih =>
      cases k with
      | zero =>
        simp only [List.getElem?_cons_zero, Option.some.injEq] at hr
        subst hr
        exact ⟨_, rfl, h1⟩
      | succ k => simpa using ih (k := k) (by simpa using hr)
  obtain ⟨l, hl, hrow⟩ := hline
  refine ⟨vs.zipIdx.map (fun vi => ((vi.2 : Int) + 1, vi.1)), ?_, ?_, ?_⟩
  · unfold lookupTable
    rw [show (k : Int) + 1 - 1 = k by omega, index_ok hl, M.bind_ok, row_words hrow]
    have : ((r.1 :: r.2).drop 1).mapM (fun t => require (num.float t)) = .ok vs := (mapM_require num.float r.2 vs).mpr hv
    rw [this, M.bind_ok]
  · rw [List.map_map]
    apply List.ext_getElem?
    intro i
    by_cases h : i < vs.length
    · simp [h]
    · simp [h, List.getElem?_eq_none (Nat.not_lt.mp h)]
  · intro i v
    rw [zipIdx_get vs 0 i]
    have key : ∀ k : Nat, vs[k]? = some v ↔ ∃ t, r.2[k]? = some t ∧ num.float t = some v := by
      intro k
      have hv' := hv
      generalize r.2 = ts at hv' ⊢
      clear hv hrow hr
      induction hv' generalizing k with
      | nil => simp
      | cons h1 _ ih =>
        rename_i t0 v0 ts0 vs0 _
        cases k with
        | zero =>
          simp only [List.getElem?_cons_zero, Option.some.injEq]
          constructor
          · rintro rfl; exact ⟨t0, rfl, h1⟩
          · rintro ⟨t, rfl, ht⟩; rw [h1] at ht; exact Option.some.inj ht
        | succ k => simpa using ih k
    constructor
    · intro h
      split at h
      · refine ⟨(i - 1 - ((0 : Nat) : Int)).toNat, by omega, ?_⟩
        exact (key _).mp h
      · cases h
    · rintro ⟨k, hk, ht⟩
      rw [if_pos (by omega)]
      have : (i - 1 - ((0 : Nat) : Int)).toNat = k := by omega
      rw [this]
      exact (key k).mpr ht

/-! ### The operation -/

/-- The lines of a file which is read for the first time -/
theorem getLines_new (num : Numbers F G) {cache : Cache} {fs : Files} {path : Str} {file lines : List Str}
    (hc : cache.get path = none) (hf : fs path = some file) (hl : load num file = .ok lines) :
    getLines num cache fs path = (.ok lines, cache.put path lines) := by
  unfold getLines
  rw [hc, hf]
  simp only [require, M.bind_ok, hl]

/-- C56: given the number of a column, the value in this column of the row of the time step is returned -/
theorem timeinput_number (num : Numbers F G) (mark : G) (garbage : Nat → G) (order : List Nat) {cache : Cache}
    {fs : Files} {path : Str} {file : List Str} {rows : List (Str × List Str)} (hc : cache.get path = none)
    (hf : fs path = some file) (hs : IsSeries num file rows) {k : Nat} {r : Str × List Str} (hr : rows[k]? = some r)
    {vs : List F} (hv : List.Forall₂ (fun t v => num.float t = some v) r.2 vs) (i : Int) :
    (∀ v, ValueAt num r.2 i v →
      (timeinputscalar num mark garbage order cache fs path (.int i) ((k : Int) + 1)).1 = .ok (.number v)) ∧
    ((∀ v, ¬ValueAt num r.2 i v) →
      (timeinputscalar num mark garbage order cache fs path (.int i) ((k : Int) + 1)).1 = .error .thrown) := by
  obtain ⟨lines, h1, h2⟩ := load_series num hs
  obtain ⟨table, h3, h4, h5⟩ := lookupTable_ok num h2 hr hv
  unfold timeinputscalar
  rw [getLines_new num hc hf h1]
  simp only [M.bind_ok, h3, select]
  constructor
  · intro v hvv
    rw [(h5 i v).mpr hvv]; rfl
  · intro hno
    cases hg : AMap.get table i with
    | none => rfl
    | some v => exact absurd ((h5 i v).mp hg) (hno v)

/-- C56: given an array with numbers of columns, each cell gets the value in the column with the number, or no-data if
the cell is no-data or there is no such column. The array is refused if its elements can't represent the numbers of all
columns. -/
theorem timeinput_array (num : Numbers F G) (mark : G) (garbage : Nat → G) {order : List Nat} {cache : Cache}
    {fs : Files} {path : Str} {file : List Str} {rows : List (Str × List Str)} (hc : cache.get path = none)
    (hf : fs path = some file) (hs : IsSeries num file rows) {k : Nat} {r : Str × List Str} (hr : rows[k]? = some r)
    {vs : List F} (hv : List.Forall₂ (fun t v => num.float t = some v) r.2 vs) {fits isNoData : Int → Bool}
    {x : PArr Int} {ids : Arr Int} (hx : Represents x ids) (ho : IsOrder (x.grid.n0 * x.grid.n1) order) :
    ((∀ i : Nat, i < r.2.length → fits (i + 1) = true) →
      ∃ y u, (timeinputscalar num mark garbage order cache fs path (.array fits isNoData x) ((k : Int) + 1)).1
          = .ok (.array y) ∧ y.grid = x.grid ∧ Represents y u ∧
        (∀ a b v, isNoData (ids a b) = false → ValueAt num r.2 (ids a b) v → u a b = num.cast v) ∧
        (∀ a b, isNoData (ids a b) = true ∨ (∀ v, ¬ValueAt num r.2 (ids a b) v) → u a b = mark)) ∧
    ((∃ i : Nat, i < r.2.length ∧ fits (i + 1) = false) →
      (timeinputscalar num mark garbage order cache fs path (.array fits isNoData x) ((k : Int) + 1)).1
        = .error .thrown) := by
  obtain ⟨lines, h1, h2⟩ := load_series num hs
  obtain ⟨table, h3, h4, h5⟩ := lookupTable_ok num h2 hr hv
  have hlen : vs.length = r.2.length := hv.length_eq.symm
  have hall : table.all (fun e => fits e.1) = true ↔ ∀ i : Nat, i < r.2.length → fits (i + 1) = true := by
    rw [List.all_eq_true]
    constructor
    · intro h i hi
      have : ((i : Int) + 1) ∈ table.map (·.1) := by
        rw [h4]; exact List.mem_map.mpr ⟨i, by rw [List.mem_range]; omega, rfl⟩
      obtain ⟨e, he, hei⟩ := List.mem_map.mp this
      rw [← hei]; exact h e he
    · intro h e he
      have : e.1 ∈ table.map (·.1) := List.mem_map.mpr ⟨e, he, rfl⟩
      rw [h4] at this
      obtain ⟨i, hi, hie⟩ := List.mem_map.mp this
      rw [List.mem_range] at hi
      rw [← hie]; exact h i (by omega)
  have hget : ∀ i, AMap.get (table.map (fun e => (e.1, num.cast e.2))) i = (AMap.get table i).map num.cast := by
    intro i
    clear h3 h4 h5 hall
    induction table with
    | nil => rfl
    | cons e t ih =>
      obtain ⟨a, b⟩ := e
      rw [List.map_cons, AMap.get_cons, AMap.get_cons, ih]
      split <;> rfl
  unfold timeinputscalar
  rw [getLines_new num hc hf h1]
  simp only [M.bind_ok, h3, select]
  constructor
  · intro hfit
    rw [if_pos (hall.mpr hfit)]
    obtain ⟨y, e1, e2, e3⟩ := Zonal.reclassify_spec isNoData mark garbage
      (table.map (fun e => (e.1, num.cast e.2))) hx ho
    refine ⟨y, _, by rw [e1]; rfl, e2, e3, ?_, ?_⟩
    · intro a b v hnd hval
      simp only [hnd, Bool.false_eq_true, if_false, hget, (h5 _ _).mpr hval, Option.map_some, Option.getD_some]
    · intro a b hor
      rcases hor with hnd | hno
      · simp [hnd]
      · have : AMap.get table (ids a b) = none := by
          cases hg : AMap.get table (ids a b) with
          | none => rfl
          | some v => exact absurd ((h5 _ v).mp hg) (hno v)
        simp only [hget, this, Option.map_none, Option.getD_none]
        split <;> rfl
  · rintro ⟨i, hi, hf'⟩
    rw [if_neg]
    intro hc'
    rw [hall.mp hc' i hi] at hf'; cases hf'

/-- C56: a time step after the last row is refused -/
theorem timeinput_beyond (num : Numbers F G) (mark : G) (garbage : Nat → G) (order : List Nat) {cache : Cache}
    {fs : Files} {path : Str} {file : List Str} {rows : List (Str × List Str)} (hc : cache.get path = none)
    (hf : fs path = some file) (hs : IsSeries num file rows) (ids : Ids) {t : Int} (ht : (rows.length : Int) < t) :
    (timeinputscalar num mark garbage order cache fs path ids t).1 = .error .thrown := by
  obtain ⟨lines, h1, h2⟩ := load_series num hs
  unfold timeinputscalar
  rw [getLines_new num hc hf h1]
  have : index lines (t - 1) = .error .thrown := by
    unfold index
    rw [if_pos (by omega), List.getElem?_eq_none (by rw [← h2.length_eq]; omega)]
  simp only [M.bind_ok, lookupTable, this]
  rfl

/-! ### Files which have been read before -/

/-- A call: the files at the moment of the call, the path, and the other arguments -/
structure Call where
  fs : Files
  path : Str
  ids : Ids
  timestep : Int
  order : List Nat

/-- The cache after a number of calls -/
def cacheAfter (num : Numbers F G) (mark : G) (garbage : Nat → G) : Cache → List Call → Cache
  | cache, [] => cache
  | cache, c :: cs =>
    cacheAfter num mark garbage
      (timeinputscalar num mark garbage c.order cache c.fs c.path c.ids c.timestep).2 cs

/-- The lines of a file at the moment of a call, if it is the file of the call and it can be read -/
def readBy (num : Numbers F G) (path : Str) (c : Call) : Option (List Str) :=
  if c.path = path then
    match (c.fs path).map (load num) with
    | some (.ok lines) => some lines
    | _ => none
  else none

theorem cacheAfter_get (num : Numbers F G) (mark : G) (garbage : Nat → G) (cs : List Call) (cache : Cache)
    (path : Str) :
    (cacheAfter num mark garbage cache cs).get path =
      ((cache.get path).or (cs.findSome? (readBy num path))) := by
  induction cs generalizing cache with
  | nil => simp [cacheAfter]
  | cons c cs ih =>
    unfold cacheAfter
    rw [ih]
    have hstep : AMap.get (timeinputscalar num mark garbage c.order cache c.fs c.path c.ids c.timestep).2 path =
        (cache.get path).or (readBy num path c) := by
      unfold timeinputscalar getLines
      dsimp only
      cases hg : cache.get c.path with
      | some lines =>
        unfold readBy
        by_cases hp : c.path = path
        · rw [← hp, hg]; simp
        · simp [hp]
      | none =>
        dsimp only
        unfold readBy
        cases hf : c.fs c.path with
        | none =>
          by_cases hp : c.path = path
          · subst hp; simp [require, hf]; rfl
          · simp only [require, if_neg hp, Option.or_none]; rfl
        | some file =>
          simp only [require, M.bind_ok]
          cases hl : load num file with
          | error err =>
            by_cases hp : c.path = path
            · subst hp; simp [hf, hl]
            · simp [hp]
          | ok lines =>
            dsimp only
            rw [AMap.get_put]
            by_cases hp : c.path = path
            · subst hp; simp [hf, hl, hg]
            · simp [hp]
    rw [hstep, List.findSome?_cons]
    cases cache.get path with
    | some l => simp
    | none =>
      cases readBy num path c with
      | none => simp
      | some l => simp

/-- C56: a call uses the contents the file had at the moment it was read for the first time, whatever happened since -/
theorem timeinput_history (num : Numbers F G) (mark : G) (garbage : Nat → G) (cs : List Call) (path : Str)
    {lines : List Str} (h : cs.findSome? (readBy num path) = some lines) (fs : Files) (ids : Ids) (t : Int)
    (order : List Nat) :
    (timeinputscalar num mark garbage order (cacheAfter num mark garbage [] cs) fs path ids t).1 =
      lookupTable num lines t >>= (fun table => select num mark garbage order table ids) := by
  have hg := cacheAfter_get num mark garbage cs [] path
  rw [AMap.get_nil, Option.none_or, h] at hg
  unfold timeinputscalar getLines
  rw [hg]
  rfl

/-- … and a file which has not been read yet, or could not be read, is read now -/
theorem timeinput_first (num : Numbers F G) (mark : G) (garbage : Nat → G) (cs : List Call) (path : Str)
    (h : cs.findSome? (readBy num path) = none) : (cacheAfter num mark garbage [] cs).get path = none := by
  rw [cacheAfter_get, AMap.get_nil, Option.none_or, h]

/-! ### Examples -/

/-- Numbers without sign, with a single digit -/
def exampleNumbers : Numbers Int Int where
  int := fun t => match t with | [c] => if c.isDigit then some ((c.toNat : Int) - 48) else none | _ => none
  float := fun t => match t with | [c] => if c.isDigit then some ((c.toNat : Int) - 48) else none | _ => none
  cast := fun v => v

def exampleFile : List Str :=
  ["rain ".toList, "".toList, "3".toList, "time".toList, "a".toList, "b".toList, "1 4 5".toList, " 2 6 7 ".toList]

def exampleFiles : Files := fun p => if p = "rain.tss".toList then some exampleFile else none

def exampleNumber : M (Result Int Int) → Option Int
  | .ok (.number v) => some v
  | _ => none

example : exampleNumber (timeinputscalar exampleNumbers 0 (fun _ => 0) [] [] exampleFiles "rain.tss".toList (.int 2) 2).1
    = some 7 := by decide +kernel

theorem example_series : IsSeries exampleNumbers exampleFile
    [("1".toList, ["4".toList, "5".toList]), ("2".toList, ["6".toList, "7".toList])] := by
  refine ⟨"rain".toList, "3".toList, ["time".toList, "a".toList, "b".toList], ["1 4 5".toList, " 2 6 7".toList],
    ?_, by decide, ?_⟩
  · refine IsFile.line (l := "rai".toList) (c := 'n') (a := " ".toList) (by decide) (by unfold Blank; decide) ?_
    refine IsFile.blank (by unfold Blank; decide) ?_
    refine IsFile.line (l := []) (c := '3') (a := []) (by decide) (by unfold Blank; decide) ?_
    refine IsFile.line (l := "tim".toList) (c := 'e') (a := []) (by decide) (by unfold Blank; decide) ?_
    refine IsFile.line (l := []) (c := 'a') (a := []) (by decide) (by unfold Blank; decide) ?_
    refine IsFile.line (l := []) (c := 'b') (a := []) (by decide) (by unfold Blank; decide) ?_
    refine IsFile.line (l := "1 4 ".toList) (c := '5') (a := []) (by decide) (by unfold Blank; decide) ?_
    exact IsFile.line (l := " 2 6 ".toList) (c := '7') (a := " ".toList) (by decide) (by unfold Blank; decide) IsFile.nil
  · have hw : ∀ c : Char, c.isWhitespace = false → Word [c] := by
      intro c hc
      refine ⟨by simp, ?_⟩
      intro x hx; simp only [List.mem_singleton] at hx; rw [hx]; exact hc
    refine List.Forall₂.cons ?_ (List.Forall₂.cons ?_ List.Forall₂.nil)
    · refine IsRow.cons (a := []) (w := ['1']) (b := " ".toList) (by unfold Blank; decide) (hw _ (by decide))
        (by unfold Blank; decide) (by decide) ?_
      refine IsRow.cons (a := []) (w := ['4']) (b := " ".toList) (by unfold Blank; decide) (hw _ (by decide))
        (by unfold Blank; decide) (by decide) ?_
      exact IsRow.last (a := []) (w := ['5']) (by unfold Blank; decide) (hw _ (by decide))
    · refine IsRow.cons (a := " ".toList) (w := ['2']) (b := " ".toList) (by unfold Blank; decide) (hw _ (by decide))
        (by unfold Blank; decide) (by decide) ?_
      refine IsRow.cons (a := []) (w := ['6']) (b := " ".toList) (by unfold Blank; decide) (hw _ (by decide))
        (by unfold Blank; decide) (by decide) ?_
      exact IsRow.last (a := []) (w := ['7']) (by unfold Blank; decide) (hw _ (by decide))

/-- C56: for time step 0 the last row is used -/
theorem timestep_zero : exampleNumber (timeinputscalar exampleNumbers 0 (fun _ => 0) [] [] exampleFiles
    "rain.tss".toList (.int 2) 0).1 = some 7 := by decide +kernel

/-- C56: if a column has no name, the first row is taken to be part of the header: the values of the second time step are
returned for the first one -/
theorem unnamed_column : exampleNumber (timeinputscalar exampleNumbers 0 (fun _ => 0) [] []
    (fun _ => some ["rain".toList, "3".toList, "time".toList, "".toList, "b".toList, "1 4 5".toList, "2 6 7".toList])
    [] (.int 2) 1).1 = some 7 := by decide +kernel

/-- C56: the row is selected by its position, not by its time -/
theorem row_by_position : exampleNumber (timeinputscalar exampleNumbers 0 (fun _ => 0) [] []
    (fun _ => some ["rain".toList, "2".toList, "time".toList, "a".toList, "3 4".toList, "6 5".toList])
    [] (.int 1) 2).1 = some 5 := by decide +kernel

end Lue.TimeInput

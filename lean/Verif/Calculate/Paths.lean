import Verif.Calculate.Spec

/-!
# Paths and names of variables
-/
namespace Lue.Calculate

variable {κ γ V : Type}

theorem splitLast_none {c : Char} {t : Str} : splitLast c t = none ↔ c ∉ t := by
  induction t with
  | nil => simp [splitLast]
  | cons x xs ih =>
    unfold splitLast
    cases h : splitLast c xs with
    | some ab =>
      have : c ∈ xs := by by_contra hc; rw [ih.mpr hc] at h; cases h
      simp [this]
    | none =>
      have := ih.mp h
      by_cases hx : x = c
      · simp [hx]
      · simp [hx, this, Ne.symm hx]

theorem splitLast_some {c : Char} {t a b : Str} (h : splitLast c t = some (a, b)) :
    ∃ b', b = c :: b' ∧ t = a ++ c :: b' ∧ c ∉ b' := by
  induction t generalizing a with
  | nil => simp [splitLast] at h
  | cons x xs ih =>
    unfold splitLast at h
    cases h' : splitLast c xs with
    | some ab =>
      obtain ⟨a1, b1⟩ := ab
      rw [h'] at h
      simp only [Option.some.injEq, Prod.mk.injEq] at h
      obtain ⟨rfl, rfl⟩ := h
      obtain ⟨b', e1, e2, e3⟩ := ih h'
      exact ⟨b', e1, by rw [e2]; rfl, e3⟩
    | none =>
      rw [h'] at h
      simp only at h
      split at h
      · rename_i hx
        simp only [Option.some.injEq, Prod.mk.injEq] at h
        obtain ⟨rfl, rfl⟩ := h
        exact ⟨xs, by rw [hx], by rw [hx]; rfl, splitLast_none.mp h'⟩
      · cases h

/-- The last part of a path -/
theorem splitDir_eq {dir b : Str} (hd : IsDir dir) (hb : '/' ∉ b) : splitDir (dir ++ b) = (dir, b) := by
  unfold splitDir
  cases h : splitLast '/' (dir ++ b) with
  | none =>
    have hn := splitLast_none.mp h
    rcases hd with rfl | ⟨d', rfl⟩
    · rfl
    · exact absurd (by simp) hn
  | some ab =>
    obtain ⟨x, y⟩ := ab
    obtain ⟨y', e1, e2, e3⟩ := splitLast_some h
    subst e1
    rcases hd with rfl | ⟨d', rfl⟩
    · exact absurd (by rw [show b = x ++ '/' :: y' from e2]; simp) hb
    · simp only [List.drop_succ_cons, List.drop_zero, Prod.mk.injEq]
      have e2' : d' ++ '/' :: b = x ++ '/' :: y' := by rw [← e2]; simp
      rcases List.append_eq_append_iff.mp e2' with ⟨k, hk1, hk2⟩ | ⟨k, hk1, hk2⟩
      · cases k with
        | nil =>
          simp only [List.nil_append, List.cons.injEq, true_and] at hk2
          refine ⟨?_, hk2.symm⟩
          rw [hk1]; simp
        | cons z zs =>
          simp only [List.cons_append, List.cons.injEq] at hk2
          exact absurd (by rw [hk2.2]; simp) hb
      · cases k with
        | nil =>
          simp only [List.nil_append, List.cons.injEq, true_and] at hk2
          refine ⟨?_, hk2⟩
          rw [hk1]; simp
        | cons z zs =>
          simp only [List.cons_append, List.cons.injEq] at hk2
          exact absurd (by rw [hk2.2]; simp) e3

theorem splitDir_spec (p : Str) : p = (splitDir p).1 ++ (splitDir p).2 ∧ IsDir (splitDir p).1 ∧ '/' ∉ (splitDir p).2 := by
  unfold splitDir
  cases h : splitLast '/' p with
  | none => exact ⟨rfl, Or.inl rfl, splitLast_none.mp h⟩
  | some ab =>
    obtain ⟨x, y⟩ := ab
    obtain ⟨y', e1, e2, e3⟩ := splitLast_some h
    subst e1
    exact ⟨by simp [e2], Or.inr ⟨x, rfl⟩, e3⟩

/-- C54: whether a name has an extension -/
theorem hasExtension_iff (p : Str) : hasExtension p = true ↔ HasExtension p := by
  obtain ⟨h1, h2, h3⟩ := splitDir_spec p
  have hres : hasExtension p = true ↔
      ∃ a b, splitLast '.' (basename p) = some (a, b) ∧ ∃ c ∈ a, c ≠ '.' := by
    unfold hasExtension
    rw [decide_eq_true_iff]
    unfold splitext
    cases h : splitLast '.' (basename p) with
    | none => simp
    | some ab =>
      obtain ⟨a, b⟩ := ab
      obtain ⟨b', e1, e2, e3⟩ := splitLast_some h
      subst e1
      by_cases ha : a.any (fun c => c ≠ '.') = true
      · dsimp only; rw [if_pos ha]
        simp only [List.any_eq_true, decide_eq_true_eq] at ha
        simp only [ne_eq, reduceCtorEq, not_false_eq_true, true_iff]
        exact ⟨a, _, rfl, ha⟩
      · dsimp only; rw [if_neg ha]
        simp only [List.any_eq_true, decide_eq_true_eq] at ha
        constructor
        · intro hc; simp at hc
        · rintro ⟨x, y, hxy, hc⟩
          simp only [Option.some.injEq, Prod.mk.injEq] at hxy
          rw [← hxy.1] at hc; exact absurd hc ha
  rw [hres]
  constructor
  · rintro ⟨a, b, hab, hc⟩
    obtain ⟨b', e1, e2, e3⟩ := splitLast_some hab
    have e2' : (splitDir p).2 = a ++ '.' :: b' := e2
    refine ⟨(splitDir p).1, a, b', ?_, h2, ?_, ?_, hc⟩
    · rw [List.append_assoc, ← e2']; exact h1
    · intro hm; apply h3; rw [e2']; simp [hm]
    · intro hm; apply h3; rw [e2']; simp [hm]
  · rintro ⟨dir, n, ext, hp, hd, hn, he, hc⟩
    have hb : basename p = n ++ '.' :: ext := by
      unfold basename
      rw [hp, List.append_assoc, splitDir_eq hd (by simp [hn, he])]
    rw [hb]
    cases h : splitLast '.' (n ++ '.' :: ext) with
    | none => exact absurd (by simp) (splitLast_none.mp h)
    | some ab =>
      obtain ⟨a, b⟩ := ab
      refine ⟨a, b, rfl, ?_⟩
      obtain ⟨b', e1, e2, e3⟩ := splitLast_some h
      obtain ⟨c, hcm, hc'⟩ := hc
      rcases List.append_eq_append_iff.mp e2 with ⟨k, hk1, hk2⟩ | ⟨k, hk1, hk2⟩
      · exact ⟨c, by rw [hk1]; simp [hcm], hc'⟩
      · cases k with
        | nil => exact ⟨c, by simpa [hk1] using hcm, hc'⟩
        | cons z zs =>
          simp only [List.cons_append, List.cons.injEq] at hk2
          exact absurd (by rw [hk2.2]; simp) e3

/-- C54: the raster meant by a string in the expression -/
theorem inputPath_iff (w : World κ γ V) (s p : Str) : InputPath w s p ↔ p = normalizeInput w s := by
  unfold InputPath normalizeInput
  simp only [tryExtensions]
  have h1 : ∀ q : Str, q ++ ".tif".toList = q ++ '.' :: ['t', 'i', 'f'] := fun q => rfl
  have h2 : ∀ q : Str, q ++ ".map".toList = q ++ '.' :: ['m', 'a', 'p'] := fun q => rfl
  rw [h1, h2, ← hasExtension_iff]
  cases hasExtension (w.expandvars s) <;>
    cases w.fileExists (w.expandvars s ++ '.' :: ['t', 'i', 'f']) <;>
    cases w.fileExists (w.expandvars s ++ '.' :: ['m', 'a', 'p']) <;> simp

/-- C54: the raster meant by a name on the left-hand side -/
theorem outputPath_iff (w : World κ γ V) (s p : Str) : OutputPath w s p ↔ p = normalizeOutput w s := by
  unfold OutputPath normalizeOutput
  dsimp only
  have h1 : ∀ q : Str, q ++ ".tif".toList = q ++ '.' :: ['t', 'i', 'f'] := fun q => rfl
  rw [h1, ← hasExtension_iff]
  cases hasExtension (w.expandvars s) <;> simp_all

/-! ### Names of variables -/

theorem splitext_stem {c : Char} {n rest : Str} (hc : c ≠ '.') (hn : '.' ∉ n) (hs : '/' ∉ c :: n ++ rest)
    (hr : rest = [] ∨ ∃ r, rest = '.' :: r) :
    (rest = [] ∧ splitext (c :: n ++ rest) = (c :: n ++ rest, [])) ∨
      ∃ rest' ext, (rest' = [] ∨ ∃ r, rest' = '.' :: r) ∧ rest'.length < rest.length ∧
        ext ≠ [] ∧ '/' ∉ c :: n ++ rest' ∧ splitext (c :: n ++ rest) = (c :: n ++ rest', ext) := by
  have hsd : splitDir (c :: n ++ rest) = ([], c :: n ++ rest) := splitDir_eq (dir := []) (Or.inl rfl) hs
  have hb : basename (c :: n ++ rest) = c :: n ++ rest := by unfold basename; rw [hsd]
  rcases hr with rfl | ⟨r, rfl⟩
  · left
    refine ⟨rfl, ?_⟩
    unfold splitext
    rw [hb]
    have : splitLast '.' (c :: n ++ []) = none := splitLast_none.mpr (by simp [hn, Ne.symm hc])
    rw [this]
  · right
    unfold splitext
    rw [hb]
    cases h : splitLast '.' (c :: n ++ '.' :: r) with
    | none => exact absurd (by simp) (splitLast_none.mp h)
    | some ab =>
      obtain ⟨a, b⟩ := ab
      obtain ⟨b', e1, e2, e3⟩ := splitLast_some h
      subst e1
      have ha : ∃ rest', a = c :: n ++ rest' ∧ (rest' = [] ∨ ∃ r, rest' = '.' :: r) := by
        rcases List.append_eq_append_iff.mp e2 with ⟨k, hk1, hk2⟩ | ⟨k, hk1, hk2⟩
        · refine ⟨k, hk1, ?_⟩
          cases k with
          | nil => exact Or.inl rfl
          | cons z zs =>
            simp only [List.cons_append, List.cons.injEq] at hk2
            exact Or.inr ⟨zs, by rw [← hk2.1]⟩
        · cases k with
          | nil => exact ⟨[], by simpa using hk1.symm, Or.inl rfl⟩
          | cons z zs =>
            simp only [List.cons_append, List.cons.injEq] at hk2
            exact absurd (by rw [hk2.2]; simp) e3
      obtain ⟨rest', rfl, hr'⟩ := ha
      have hlen := congrArg List.length e2
      simp only [List.length_append, List.length_cons] at hlen
      refine ⟨rest', '.' :: b', hr', by simp only [List.length_cons]; omega, by simp, ?_, ?_⟩
      · intro hm; apply hs; rw [e2]
        exact List.mem_append_left _ hm
      · rw [hsd]
        show (if ((c :: n ++ rest').any fun c => decide (c ≠ '.')) = true then ([] ++ (c :: n ++ rest'), '.' :: b') else _) = _
        rw [if_pos (by simp [hc])]
        rfl

theorem removeLoop_stem {c : Char} {n : Str} (hc : c ≠ '.') (hn : '.' ∉ n) :
    ∀ (fuel : Nat) (rest : Str), rest.length < fuel → '/' ∉ c :: n ++ rest → (rest = [] ∨ ∃ r, rest = '.' :: r) →
      removeLoop fuel (splitext (c :: n ++ rest)) = c :: n := by
  intro fuel
  induction fuel with
  | zero => intro rest h; omega
  | succ fuel ih =>
    intro rest hl hs hr
    rcases splitext_stem hc hn hs hr with ⟨rfl, h⟩ | ⟨rest', ext, hr', hlt, he, hs', h⟩
    · rw [h]; simp [removeLoop]
    · rw [h]
      simp only [removeLoop]
      rw [if_pos he]
      exact ih rest' (by omega) hs' hr'

/-- The text in front of the dot of a file name -/
theorem removeExtensions_stem {c : Char} {n rest : Str} (hc : c ≠ '.') (hn : '.' ∉ n) (hs : '/' ∉ c :: n ++ rest)
    (hr : rest = [] ∨ ∃ r, rest = '.' :: r) : removeExtensions (c :: n ++ rest) = c :: n :=
  removeLoop_stem hc hn _ rest (by simp; omega) hs hr

theorem isAlpha_ne {c d : Char} (h : c.isAlpha = true) (hd : d.isAlpha = false) : c ≠ d := by
  rintro rfl; rw [h] at hd; cases hd

theorem isDigit_ne {c d : Char} (h : c.isDigit = true) (hd : d.isDigit = false) : c ≠ d := by
  rintro rfl; rw [h] at hd; cases hd

/-- The digits of a number are digits -/
theorem name_digits (i : Nat) : DataModel.name i ≠ [] ∧ ∀ c ∈ DataModel.name i, c.isDigit = true := by
  unfold DataModel.name
  split
  · simp
  · rename_i h
    refine ⟨?_, ?_⟩
    · simp [h, Nat.digits_eq_nil_iff_eq_zero]
    · intro c hc
      simp only [List.mem_reverse, List.mem_map] at hc
      obtain ⟨d, hd, rfl⟩ := hc
      have : d < 10 := Nat.digits_lt_base (by omega) hd
      have : d = 0 ∨ d = 1 ∨ d = 2 ∨ d = 3 ∨ d = 4 ∨ d = 5 ∨ d = 6 ∨ d = 7 ∨ d = 8 ∨ d = 9 := by omega
      rcases this with rfl | rfl | rfl | rfl | rfl | rfl | rfl | rfl | rfl | rfl <;> rfl

theorem suffixed_numberSuffix (b : Str) (i : Nat) : NumberSuffix (suffixed b i) :=
  ⟨b, DataModel.name i, rfl, (name_digits i).1, (name_digits i).2⟩

/-- C54: the names of variables generated for a path are identifiers -/
theorem suffixed_identifier {p : Str} (h : Nameable p) (i : Nat) :
    isIdentifier (suffixed (variableName p) i) = true := by
  obtain ⟨dir, c, n, rest, hp, hd, hs, hr, hc, hn⟩ := h
  have hcd : c ≠ '.' := by rcases hc with hc | rfl | rfl
                           · exact isAlpha_ne hc (by decide)
                           · decide
                           · decide
  have hcs : c ≠ '/' := by rcases hc with hc | rfl | rfl
                           · exact isAlpha_ne hc (by decide)
                           · decide
                           · decide
  have hnn : ∀ d : Char, d.isAlpha = false → d.isDigit = false → d ≠ '_' → d ≠ '-' → d ∉ n := by
    intro d h1 h2 h3 h4 hm
    rcases hn d hm with h | h | h | h
    · rw [h1] at h; cases h
    · rw [h2] at h; cases h
    · exact h3 h
    · exact h4 h
  have hsl : '/' ∉ c :: n ++ rest := by
    simp only [List.cons_append, List.mem_cons, List.mem_append, not_or]
    exact ⟨Ne.symm hcs, hnn '/' (by decide) (by decide) (by decide) (by decide), hs⟩
  have hv : variableName p = (c :: n).map (fun c => if c = '-' then '_' else c) := by
    unfold variableName basename
    rw [hp, List.append_assoc, splitDir_eq hd hsl]
    rw [removeExtensions_stem hcd (hnn '.' (by decide) (by decide) (by decide) (by decide)) hsl hr]
  unfold suffixed
  rw [hv]
  show ((_ : Bool) && _) = true
  rw [Bool.and_eq_true]
  constructor
  · rcases hc with hc | rfl | rfl
    · simp [isAlpha_ne hc (show ('-' : Char).isAlpha = false by decide), hc]
    · decide
    · decide
  · rw [show ∀ a b : Str, a.append b = a ++ b from fun _ _ => rfl, List.all_append, Bool.and_eq_true]
    constructor
    · rw [List.all_eq_true]
      intro x hx
      simp only [List.mem_map] at hx
      obtain ⟨y, hy, rfl⟩ := hx
      by_cases hy' : y = '-'
      · simp [hy']
      · rw [if_neg hy']
        rcases hn y hy with h | h | h | h
        · simp [h]
        · simp [h]
        · simp [h]
        · exact absurd h hy'
    · rw [List.all_cons, Bool.and_eq_true]
      refine ⟨by decide, ?_⟩
      rw [List.all_eq_true]
      intro x hx
      simp [(name_digits i).2 x hx]

end Lue.Calculate

import Verif.Calculate.Properties

/-!
# Examples for C54: the hypotheses can be met, and what happens outside of them
-/
namespace Lue.Calculate

/-- The expression `f("a", "b.map", uint8)` -/
def exampleExpr : Expr Unit Nat :=
  .call "f".toList () [.str "a".toList, .str "b.map".toList, .name "uint8".toList]

/-- The expression `m.f("a")` -/
def exampleAttribute : Expr Unit Nat := .callOther (.other () [.name "m".toList]) () [.str "a".toList]

def exampleParse (t : Str) : Option (Expr Unit Nat) :=
  if t = "f(\"a\", \"b.map\", uint8)".toList then some exampleExpr
  else if t = "m.f(\"a\")".toList then some exampleAttribute else none

/-- Values are numbers: 0 and 1 are the modules, 2 is function `f`, 3 is a type, 7 and 8 are the rasters -/
def exampleWorld : World Unit Nat Nat where
  expandvars := fun t => t
  fileExists := fun t => t = "a.tif".toList
  parse := exampleParse
  parse_names := by
    intro t e h
    unfold exampleParse at h
    split at h
    · rw [← Option.some.inj h]; decide
    · split at h
      · rw [← Option.some.inj h]; decide
      · cases h
  unquote := fun t => if t.all PlainChar then some t else none
  unquote_plain := by intro t h; rw [if_pos h]
  lfr := 0
  np := 1
  attr := fun m x => if m = 0 ∧ x = "f".toList then some 2 else if m = 1 ∧ x = "uint8".toList then some 3 else none
  constant := fun c => c
  apply := fun _ f args => if f = 2 ∧ args = [some 7, some 8, some 3] then some 10 else none
  sem := fun _ _ => none
  unpack := fun v => if v = 10 then some [11, 12] else none
  fromGdal := fun p _ => if p = "a.tif".toList then some 7 else if p = "b.map".toList then some 8 else none
  toGdal := fun v _ _ => 10 < v

def exampleConfig (order : List Str → List Str) (h : ∀ l, (order l).Perm l) : Config where
  partitionShape := some [10, 10]
  skipClone := false
  orderIn := fun l => order l.dedup
  orderOut := fun l => order l.dedup
  orderIn_perm := fun l => h _
  orderOut_perm := fun l => h _

def exampleForward : Config := exampleConfig (fun l => l) (fun _ => List.Perm.refl _)
def exampleBackward : Config := exampleConfig List.reverse (fun l => List.reverse_perm l)

def exampleStatement : Str := " x/flux , state.map= f(\"a\", \"b.map\", uint8) ".toList

theorem example_nameable (n rest : Str) (c : Char) (dir : Str) (hd : IsDir dir) (hs : '/' ∉ rest)
    (hr : rest = [] ∨ ∃ r, rest = '.' :: r) (hc : c.isAlpha = true)
    (hn : n.all (fun c => c.isAlpha) = true) : Nameable (dir ++ c :: n ++ rest) :=
  ⟨dir, c, n, rest, rfl, hd, hs, hr, Or.inl hc, fun x hx => Or.inl (by
    rw [List.all_eq_true] at hn; exact hn x hx)⟩

theorem example_plain {p : Str} (h : p.all PlainChar = true) : Plain p := by
  intro c hc
  rw [List.all_eq_true] at h
  have := h c hc
  simp [PlainChar] at this
  tauto

/-- The hypotheses of the theorems can be met -/
theorem example_setup : Setup exampleWorld exampleStatement ["x/flux".toList, "state.map".toList] exampleExpr
    ["a.tif".toList, "b.map".toList] ["x/flux.tif".toList, "state.map".toList] where
  isStatement := by
    refine ⟨" x/flux , state.map".toList, " ".toList, "f(\"a\", \"b.map\", uint8)".toList, " ".toList, rfl, ?_, ?_,
      by unfold Blank; decide, by unfold Blank; decide, ?_, rfl⟩
    · exact Separated.more (a := " ".toList) (n := "x/flux".toList) (b := " ".toList) (t := " state.map".toList)
        (by unfold Blank; decide) (by unfold Blank; decide)
        (Separated.one (a := " ".toList) (n := "state.map".toList) (b := []) (by unfold Blank; decide)
          (by unfold Blank; decide))
    · intro o ho
      simp only [List.mem_cons, List.not_mem_nil, or_false] at ho
      rcases ho with rfl | rfl
      · refine ⟨⟨?_, ?_⟩, by decide, by decide, example_plain (by decide), by decide⟩
        · intro c hc; have := Option.some.inj hc; rw [← this]; decide
        · intro c hc; have := Option.some.inj hc; rw [← this]; decide
      · refine ⟨⟨?_, ?_⟩, by decide, by decide, example_plain (by decide), by decide⟩
        · intro c hc; have := Option.some.inj hc; rw [← this]; decide
        · intro c hc; have := Option.some.inj hc; rw [← this]; decide
    · refine ⟨?_, ?_⟩
      · intro c hc; have := Option.some.inj hc; rw [← this]; decide
      · intro c hc; have := Option.some.inj hc; rw [← this]; decide
  inputsMeant := by
    refine List.Forall₂.cons ?_ (List.Forall₂.cons ?_ List.Forall₂.nil) <;> rw [inputPath_iff] <;> decide
  pathsMeant := by
    refine List.Forall₂.cons ?_ (List.Forall₂.cons ?_ List.Forall₂.nil) <;> rw [outputPath_iff] <;> decide
  named := by
    intro p hp
    simp only [List.mem_cons, List.not_mem_nil, or_false] at hp
    rcases hp with (rfl | rfl) | (rfl | rfl)
    · exact ⟨example_plain (by decide), example_nameable [] ".tif".toList 'a' [] (Or.inl rfl) (by decide)
        (Or.inr ⟨_, rfl⟩) (by decide) (by decide)⟩
    · exact ⟨example_plain (by decide), example_nameable [] ".map".toList 'b' [] (Or.inl rfl) (by decide)
        (Or.inr ⟨_, rfl⟩) (by decide) (by decide)⟩
    · exact ⟨example_plain (by decide), example_nameable "lux".toList ".tif".toList 'f' "x/".toList
        (Or.inr ⟨"x".toList, rfl⟩) (by decide) (Or.inr ⟨_, rfl⟩) (by decide) (by decide)⟩
    · exact ⟨example_plain (by decide), example_nameable "tate".toList ".map".toList 's' [] (Or.inl rfl) (by decide)
        (Or.inr ⟨_, rfl⟩) (by decide) (by decide)⟩
  noClash := by
    intro x hx
    have : '_' ∉ x := by
      revert x; decide
    exact not_numberSuffix_of_no_underscore this
  disjoint := by decide +kernel

/-- The remaining hypotheses of `calculate_correct` -/
example : Supported exampleExpr ∧
    Rasters exampleWorld exampleForward exampleExpr (fun s => if s = "a".toList then 7 else 8) ∧
    denote exampleWorld (fun s => if s = "a".toList then 7 else 8) exampleExpr = some 10 ∧
    Values exampleWorld 2 10 [11, 12] := by
  refine ⟨by simp [exampleExpr, Supported, SupportedL], ?_, by decide, Or.inr ⟨by decide, rfl, rfl⟩⟩
  intro s hs p hp
  rw [inputPath_iff] at hp
  rw [hp]
  revert hs s
  intro s hs _
  simp only [exampleExpr, strings, stringsL, List.append_nil, List.cons_append, List.nil_append, List.mem_cons,
    List.not_mem_nil, or_false] at hs
  rcases hs with rfl | rfl <;> decide

/-- What is written -/
example : execute exampleWorld exampleForward exampleStatement =
    (.done, [⟨"x/flux.tif".toList, 11, "a.tif".toList⟩, ⟨"state.map".toList, 12, "a.tif".toList⟩]) := by decide +kernel

/-- C54: which input is used as clone is not the first one in the expression: it depends on the order in which the
elements of a set are visited -/
theorem clone_not_first : execute exampleWorld exampleBackward exampleStatement =
    (.done, [⟨"state.map".toList, 12, "b.map".toList⟩, ⟨"x/flux.tif".toList, 11, "b.map".toList⟩]) := by decide +kernel

/-- C54: functions given by something else than a name are not supported -/
theorem attribute_fails : execute exampleWorld exampleForward "c = m.f(\"a\")".toList = (.failed, []) := by decide +kernel

/-- C54: an output which is also an input is outside of what is specified: it is created while it is being read -/
theorem overwriting_input : (execute exampleWorld exampleForward
    "a, c = f(\"a\", \"b.map\", uint8)".toList).1 = .unspecified := by decide +kernel

/-- C54: the name of an output which is put between quotes is refused -/
theorem quoted_output : execute exampleWorld exampleForward
    "\"c\", d = f(\"a\", \"b.map\", uint8)".toList = (.failed, []) := by decide +kernel

/-- Names which get the same name of a variable get different numbers -/
example : variableNames ["x/dem.tif".toList, "y/dem.map".toList, "my-dem.a.b".toList] =
    some [("x/dem.tif".toList, "dem_0".toList), ("y/dem.map".toList, "dem_1".toList),
      ("my-dem.a.b".toList, "my_dem_0".toList)] := by decide +kernel

end Lue.Calculate

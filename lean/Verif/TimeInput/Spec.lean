import Verif.TimeInput.Model

/-!
# Specification of `timeinputscalar` (C56)
-/
namespace Lue.TimeInput

/-- Some text without whitespace -/
def Word (t : Str) : Prop := t ≠ [] ∧ ∀ c ∈ t, c.isWhitespace = false

def Blank (t : Str) : Prop := ∀ c ∈ t, c.isWhitespace = true

/-- Words separated by whitespace -/
inductive IsRow : List Str → Str → Prop
  | nil {a : Str} : Blank a → IsRow [] a
  | last {a w : Str} : Blank a → Word w → IsRow [w] (a ++ w)
  | cons {a w b : Str} {ws : List Str} {t : Str} : Blank a → Word w → Blank b → b ≠ [] → IsRow ws t →
      IsRow (w :: ws) (a ++ w ++ b ++ t)

/-- Lines, in between which there may be blank lines. A line ends at its last character which is not whitespace. -/
inductive IsFile : List Str → List Str → Prop
  | nil : IsFile [] []
  | blank {a : Str} {ls f : List Str} : Blank a → IsFile ls f → IsFile ls (a :: f)
  | line {l : Str} {c : Char} {a : Str} {ls f : List Str} : c.isWhitespace = false → Blank a → IsFile ls f →
      IsFile ((l ++ [c]) :: ls) ((l ++ [c] ++ a) :: f)

variable {F G : Type}

/-- A time series with a header: a title, the number of columns, the name of each of the columns, and a row for each time
step, containing the time and values -/
def IsSeries (num : Numbers F G) (file : List Str) (rows : List (Str × List Str)) : Prop :=
  ∃ title count names lines, IsFile (title :: count :: (names ++ lines)) file ∧
    num.int count = some (names.length : Int) ∧
    List.Forall₂ (fun (r : Str × List Str) l => IsRow (r.1 :: r.2) l) rows lines

/-- The value in column `i` (from 1) of the row of a time step -/
def ValueAt (num : Numbers F G) (values : List Str) (i : Int) (v : F) : Prop :=
  ∃ k : Nat, i = k + 1 ∧ ∃ t, values[k]? = some t ∧ num.float t = some v

end Lue.TimeInput

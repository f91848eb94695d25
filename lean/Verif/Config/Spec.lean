import Verif.Config.Model

/-!
# Specification of configuration entries (C57)
-/
namespace Lue.Config

open Calculate (Str)

def Digits (t : Str) : Prop := t ≠ [] ∧ ∀ c ∈ t, c.isDigit = true

def Spaces (t : Str) : Prop := ∀ c ∈ t, isSpace c = true

/-- Numbers (digits) separated by commas. Around each of them there may be spaces. -/
inductive Numbers : List Str → Str → Prop
  | last {a ds b : Str} : Spaces a → Digits ds → Spaces b → Numbers [ds] (a ++ ds ++ b)
  | cons {a ds b t : Str} {r : List Str} : Spaces a → Digits ds → Spaces b → Numbers r t →
      Numbers (ds :: r) (a ++ ds ++ b ++ ',' :: t)

/-- The text ends with these digits, and maybe spaces. What precedes them does not end with a digit. -/
def Ends (p ds : Str) : Prop :=
  ∃ junk b, p = junk ++ ds ++ b ∧ Digits ds ∧ Spaces b ∧ ∀ c, junk.getLast? = some c → c.isDigit = false

/-- What is read from the text between the brackets: of each part in between commas the digits at its end. Parts without
digits at their end are skipped, if there is a part with digits after it. -/
inductive Reads : Str → List Str → Prop
  | nil : Reads [] []
  | last {p ds : Str} : ',' ∉ p → Ends p ds → Reads p [ds]
  | more {p ds t : Str} {r : List Str} : ',' ∉ p → Ends p ds → Reads t r → Reads (p ++ ',' :: t) (ds :: r)
  | skip {p t : Str} {r : List Str} : ',' ∉ p → (∀ ds, ¬Ends p ds) → r ≠ [] → Reads t r → Reads (p ++ ',' :: t) r

end Lue.Config

import Verif.Environment.Model

/-
What expanding environment variables means: a text consists of characters and references to variables,
each reference is replaced by the value of the variable.
-/

namespace Lue.Environment

/-- Part of a text -/
inductive Piece where
  | char (c : Char)
  | reference (name : Text)
  deriving DecidableEq, Repr

/-- How a text is written -/
def write : List Piece → Text
  | [] => []
  | .char c :: ps => c :: write ps
  | .reference name :: ps => '$' :: '{' :: (name ++ '}' :: write ps)

/-- What a text means -/
def meaning (env : Env) : List Piece → Text
  | [] => []
  | .char c :: ps => c :: meaning env ps
  | .reference name :: ps => (env name).getD [] ++ meaning env ps

/-- Characters and names which can't be confused with something else. -/
def Piece.Plain : Piece → Prop
  | .char c => c ≠ '$'
  | .reference name => name ≠ [] ∧ '}' ∉ name

instance : DecidablePred Piece.Plain := fun p => by
  cases p <;> unfold Piece.Plain <;> infer_instance

/-- The values of variables do not contain references themselves. -/
def Env.Plain (env : Env) : Prop := ∀ name value, env name = some value → '$' ∉ value

end Lue.Environment

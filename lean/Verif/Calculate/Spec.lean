import Verif.Calculate.Model

/-!
# Specification of `lue_calculate` (C54)

The documentation of the command: the strings in the expression are names of input rasters, the names on the left-hand
side are the names of the output rasters, functions are those of `lue.framework`.
-/
namespace Lue.Calculate

variable {κ γ V : Type}

/-! ### Names of rasters -/

/-- A directory: nothing, or a text ending with a slash -/
def IsDir (d : Str) : Prop := d = [] ∨ ∃ d', d = d' ++ ['/']

/-- The name of a file has an extension: the last part of the path contains a dot, after something else than dots -/
def HasExtension (p : Str) : Prop :=
  ∃ dir n ext, p = dir ++ n ++ '.' :: ext ∧ IsDir dir ∧ '/' ∉ n ∧ '/' ∉ ext ∧ ∃ c ∈ n, c ≠ '.'

/-- The raster meant by a string in the expression -/
def InputPath (w : World κ γ V) (s p : Str) : Prop :=
  (HasExtension (w.expandvars s) ∧ p = w.expandvars s) ∨
  (¬HasExtension (w.expandvars s) ∧
    ((w.fileExists (w.expandvars s ++ ".tif".toList) = true ∧ p = w.expandvars s ++ ".tif".toList) ∨
      (w.fileExists (w.expandvars s ++ ".tif".toList) = false ∧
        w.fileExists (w.expandvars s ++ ".map".toList) = true ∧ p = w.expandvars s ++ ".map".toList) ∨
      (w.fileExists (w.expandvars s ++ ".tif".toList) = false ∧
        w.fileExists (w.expandvars s ++ ".map".toList) = false ∧ p = w.expandvars s)))

/-- The raster meant by a name on the left-hand side -/
def OutputPath (w : World κ γ V) (s p : Str) : Prop :=
  (HasExtension (w.expandvars s) ∧ p = w.expandvars s) ∨
  (¬HasExtension (w.expandvars s) ∧ p = w.expandvars s ++ ".tif".toList)

/-- A path without quotes, backslashes and ends of lines -/
def Plain (p : Str) : Prop := ∀ c ∈ p, c ≠ '"' ∧ c ≠ '\\' ∧ c ≠ '\n' ∧ c ≠ '\r' ∧ c ≠ '\x00'

/-- The name of the file, up to the first dot, starts with a letter, underscore or hyphen, and contains letters, digits,
underscores and hyphens -/
def Nameable (p : Str) : Prop :=
  ∃ dir c n rest, p = dir ++ c :: n ++ rest ∧ IsDir dir ∧ '/' ∉ rest ∧ (rest = [] ∨ ∃ r, rest = '.' :: r) ∧
    (c.isAlpha = true ∨ c = '_' ∨ c = '-') ∧ ∀ x ∈ n, x.isAlpha = true ∨ x.isDigit = true ∨ x = '_' ∨ x = '-'

/-! ### The meaning of an expression -/

mutual
/-- All functions called are given by their name -/
def Supported : Expr κ γ → Prop
  | .str _ => True
  | .const _ => True
  | .name _ => True
  | .call _ _ args => SupportedL args
  | .callOther _ _ _ => False
  | .other _ args => SupportedL args
def SupportedL : List (Expr κ γ) → Prop
  | [] => True
  | e :: es => Supported e ∧ SupportedL es
end

/-- A name in an expression, which is not the name of a function: a type of elements, or one of the modules -/
def denoteName (w : World κ γ V) (x : Str) : Option V :=
  if x ∈ ["uint8", "uint32", "uint64", "int32", "int64", "float32", "float64"].map String.toList then w.attr w.np x
  else if x = "lfr".toList then some w.lfr
  else if x = "np".toList then some w.np
  else none

/-- The function of `lue.framework` with a name. The types of elements are looked up in a module which is part of
`lue.framework`. -/
def denoteFunction (w : World κ γ V) (f : Str) : Option V :=
  if f ∈ ["uint8", "uint32", "uint64", "int32", "int64", "float32", "float64"].map String.toList then
    (w.attr w.lfr "np".toList).bind (fun m => w.attr m f)
  else w.attr w.lfr f

mutual
/-- The value of an expression, given the raster meant by each of the strings -/
def denote (w : World κ γ V) (raster : Str → V) : Expr κ γ → Option V
  | .str s => some (raster s)
  | .const c => some (w.constant c)
  | .name x => denoteName w x
  | .call f how args => (denoteFunction w f).bind (fun f' => w.apply how f' (denoteL w raster args))
  | .callOther _ _ _ => none
  | .other kind args => w.sem kind (denoteL w raster args)
def denoteL (w : World κ γ V) (raster : Str → V) : List (Expr κ γ) → List (Option V)
  | [] => []
  | e :: es => denote w raster e :: denoteL w raster es
end

/-- A name ending with an underscore and a number -/
def NumberSuffix (x : Str) : Prop := ∃ n ds, x = n ++ '_' :: ds ∧ ds ≠ [] ∧ ∀ c ∈ ds, c.isDigit = true

/-! ### Statements -/

/-- A text consisting of whitespace -/
def Blank (t : Str) : Prop := ∀ c ∈ t, c.isWhitespace = true

/-- A text which does not start or end with whitespace -/
def Trimmed (t : Str) : Prop :=
  (∀ c, t.head? = some c → c.isWhitespace = false) ∧ (∀ c, t.getLast? = some c → c.isWhitespace = false)

/-- Names separated by commas, with whitespace around them -/
inductive Separated : List Str → Str → Prop
  | one {a n b : Str} : Blank a → Blank b → Separated [n] (a ++ n ++ b)
  | more {a n b : Str} {ns : List Str} {t : Str} : Blank a → Blank b → Separated ns t →
      Separated (n :: ns) (a ++ n ++ b ++ ',' :: t)

/-- A statement: names of outputs, an equals sign, an expression -/
def IsStatement (w : World κ γ V) (statement : Str) (outs : List Str) (e : Expr κ γ) : Prop :=
  ∃ lhs a r b, statement = lhs ++ '=' :: (a ++ r ++ b) ∧ Separated outs lhs ∧
    (∀ o ∈ outs, Trimmed o ∧ ',' ∉ o ∧ '=' ∉ o ∧ Plain o ∧ o ≠ []) ∧
    Blank a ∧ Blank b ∧ Trimmed r ∧ w.parse r = some e

/-- The values of the outputs, given the value of the expression -/
def Values (w : World κ γ V) (n : Nat) (v : V) (vs : List V) : Prop :=
  (n = 1 ∧ vs = [v]) ∨ (n ≠ 1 ∧ w.unpack v = some vs ∧ vs.length = n)

/-- The value written to an output: the last one which is assigned -/
def LastValue (paths : List Str) (vs : List V) (p : Str) (v : V) : Prop :=
  ∃ i : Nat, paths[i]? = some p ∧ vs[i]? = some v ∧ ∀ j, i < j → paths[j]? ≠ some p

/-- Whether a raster is used as clone: none if there are no inputs or when it is skipped, and otherwise one of the
inputs -/
def CloneOk (cfg : Config) (inputs : List Str) (c : Str) : Prop :=
  if cfg.skipClone = true ∨ inputs = [] then c = [] else c ∈ inputs

end Lue.Calculate

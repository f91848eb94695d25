import Verif.Identifier.Model

/-!
What a user expects of instances of the class: they behave like variables naming an open object, and an object is open for as long
as a variable names it. No counting here.
-/
namespace Lue.Identifier

/-- Variables: `none` for those which have been destructed; `some none` for those which name nothing. -/
structure Vars where
  vars : List (Option (Option Int))
  /-- objects opened so far are numbered from `base` to `next` -/
  base : Int
  next : Int
  /-- objects closed by HDF5 itself -/
  killed : List Int

/-- Variable `j`, if it exists. -/
def Vars.get (a : Vars) (j : Nat) : Option Int := (a.vars[j]?.getD none).getD none

/-- An object is open: it is named by a variable, and HDF5 did not close it. -/
def Vars.Open (a : Vars) (i : Int) : Prop := some (some i) ∈ a.vars ∧ i ∉ a.killed

/-- The variable exists. -/
def Vars.Alive (a : Vars) (j : Nat) : Prop := ∃ v, a.vars[j]? = some (some v)

/-- The steps a C++ program can take: it uses instances which exist, HDF5 returns identifiers of files which are open, ... -/
def Vars.Legal (a : Vars) : Op → Prop
  | .default_ => True
  | .open_ => True
  | .openFails => True
  | .reopen i => a.Open i
  | .predefined i => i < a.base
  | .copy j => a.Alive j
  | .move j => a.Alive j
  | .copyAssign i j => a.Alive i ∧ a.Alive j
  | .moveAssign i j => a.Alive i ∧ a.Alive j
  | .destruct i => a.Alive i
  | .invalidate i => a.Open i

/-- The effect on the variables. -/
def Vars.step (a : Vars) : Op → Vars
  | .default_ => { a with vars := a.vars ++ [some none] }
  | .open_ => { a with vars := a.vars ++ [some (some a.next)], next := a.next + 1 }
  | .openFails => { a with vars := a.vars ++ [some none] }
  | .reopen i => { a with vars := a.vars ++ [some (some i)] }
  | .predefined _ => { a with vars := a.vars ++ [some none] }
  | .copy j => { a with vars := a.vars ++ [some (a.get j)] }
  | .move j => { a with vars := a.vars.set j (some none) ++ [some (a.get j)] }
  | .copyAssign i j => { a with vars := a.vars.set i (some (a.get j)) }
  | .moveAssign i j => { a with vars := (a.vars.set i (some (a.get j))).set j (some none) }
  | .destruct i => { a with vars := a.vars.set i none }
  | .invalidate i => { a with killed := i :: a.killed }

/-- A history of such steps. -/
inductive History (base : Nat) : List Op → Vars → Prop
  | nil : History base [] { vars := [], base := base, next := base, killed := [] }
  | snoc {l a op} : History base l a → a.Legal op → History base (l ++ [op]) (a.step op)

end Lue.Identifier

import Verif.Simulate.Model
import Verif.Calculate.Model

/-!
# Model of the Python classes for running models, and of the names of the files of a run

`F` = source/framework/python/framework/support.py, `P` = source/framework/python/pcraster/framework/__init__.py

The models are run by the functions modelled in `Simulate/` (C28). Here, the callbacks are dispatched to the methods
written by the user.
-/
namespace Lue.PcrFramework

open Lue.Simulate

abbrev Str := List Char

/-! ### Callbacks -/

/-- The methods written by the user -/
inductive Method where
  | premcloop | postmcloop | initial | dynamic
  deriving DecidableEq, Repr

/-- A call of a method of the user, and what `currentTimeStep()` and `currentSampleNumber()` return during the call
(P:60-61, 152-153) -/
structure UserCall where
  method : Method
  timeStep : Nat
  sampleNr : Nat
  deriving DecidableEq, Repr

/-- The attributes of a model: F:69, F:113 -/
structure Obj where
  timeStep : Nat
  sampleNr : Nat
  deriving DecidableEq, Repr

/-- A new model: F:69, F:110-113 -/
def Obj.new : Obj := ⟨0, 1⟩

def Obj.call (o : Obj) (m : Method) : UserCall := ⟨m, o.timeStep, o.sampleNr⟩

/-- `post_monte_carlo`: P:140-141 -/
def postMonteCarlo : Method := .premcloop

/-- `pre_monte_carlo`: P:134-135 -/
def preMonteCarlo : Method := .premcloop

/-- The callbacks of a class inheriting from `DynamicModel` and `MonteCarloModel`: F:65-85, P:126-146. -/
def onEvent (o : Obj) : Event → Obj × List UserCall
  | .preprocessModel s =>
    let o := { o with sampleNr := s }
    (o, [o.call preMonteCarlo])
  | .initializeModel => (o, [o.call .initial])
  | .called t =>
    let o := { o with timeStep := t }
    (o, [o.call .dynamic])
  | .postprocessModel => (o, [o.call postMonteCarlo])
  | _ => (o, [])

/-- The calls of methods of the user, given the callbacks -/
def userCalls : Obj → List Event → List UserCall
  | _, [] => []
  | o, e :: es => (onEvent o e).2 ++ userCalls (onEvent o e).1 es

/-- `DefaultProgressor`: F:8-31 -/
def printed : Event → Str
  | .preprocessProgressor _ => ['[']
  | .initializeProgressor => ['[']
  | .progress _ => ['.']
  | .finalizeProgressor => [']']
  | .postprocessProgressor => [']']
  | _ => []

/-! ### Runners -/

/-- `StaticModelRunner.run`: F:53-55 -/
def staticRun (rateLimit : Int) : Option (List Instr) :=
  if rateLimit ≥ 0 then some (runDeterministic 0 rateLimit.toNat) else none

/-- A runner of a deterministic model -/
inductive Runner where
  | static
  | dynamic (first last : Int)

/-- `DynamicModelRunner.__init__`: F:99-107 -/
def dynamicRunner (last first : Int) : Option Runner :=
  if first = 1 then if 1 ≤ first ∧ first ≤ last then some (.dynamic first last) else none else none

/-- `run` of a runner: F:53-55, F:109-113 -/
def Runner.run (rateLimit : Int) : Runner → Option (List Instr)
  | .static => staticRun rateLimit
  | .dynamic first last =>
    if rateLimit ≥ 0 then if first = 1 then some (runDeterministic last.toNat rateLimit.toNat) else none else none

/-- `MonteCarloModelRunner.run`: F:238-250. A runner of a static model has no attribute `first_time_step`. -/
def monteCarloRun (r : Runner) (nrSamples rateLimit : Int) : Option (List Instr) :=
  match r with
  | .static => none
  | .dynamic first last =>
    if rateLimit ≥ 0 then
      if first = 1 then some (runStochastic nrSamples.toNat last.toNat rateLimit.toNat) else none
    else none

/-! ### Directories of samples -/

/-- What exists with some name, in the current directory: a file, or a directory with names in it -/
inductive Entry where
  | file
  | dir (contents : List Str)
  deriving DecidableEq

abbrev Files := Str → Option Entry

/-- `os.mkdir`: fails if something with the name exists -/
def mkdir (fs : Files) (n : Str) : Option Files :=
  match fs n with
  | none => some (fun m => if m = n then some (.dir []) else fs m)
  | some _ => none

/-- `shutil.rmtree` -/
def rmtree (fs : Files) (n : Str) : Files := fun m => if m = n then none else fs m

def isDir (fs : Files) (n : Str) : Bool :=
  match fs n with
  | some (.dir _) => true
  | _ => false

/-- The body of the loop: F:219-225 -/
def initDirectory (remove : Bool) (fs : Files) (s : Nat) : Option Files :=
  if !isDir fs (DataModel.name s) then mkdir fs (DataModel.name s)
  else if remove then mkdir (rmtree fs (DataModel.name s)) (DataModel.name s)
  else some fs

/-- `initialize_sample_directories`, called with samples from 1 through `nrSamples`: F:123-126, 216-225, 227-234 -/
def initDirectories (remove : Bool) (nrSamples : Nat) (fs : Files) : Option Files :=
  (List.range' 1 nrSamples).foldlM (initDirectory remove) fs

/-! ### Names of files -/

/-- `pathlib.Path` (POSIX): whether the path is absolute, and its parts -/
structure Path where
  absolute : Bool
  parts : List Str
  deriving DecidableEq

/-- `pathlib.Path(name)`: empty parts and parts which are a dot are removed -/
def parsePath (t : Str) : Path :=
  ⟨decide (t.head? = some '/'), (Calculate.splitOn '/' t).filter (fun p => p ≠ [] && p ≠ ['.'])⟩

/-- Joining with slashes -/
def slashed : List Str → Str
  | [] => []
  | [p] => p
  | p :: q :: ps => p ++ '/' :: slashed (q :: ps)

/-- `str(path)` -/
def Path.text (p : Path) : Str :=
  if p.absolute then '/' :: slashed p.parts else if p.parts = [] then ['.'] else slashed p.parts

/-- `path.name` -/
def Path.fileName (p : Path) : Str := (p.parts.getLast?).getD []

/-- Whether `path.suffix` is not empty: the last dot is neither the first nor the last character -/
def hasSuffix (n : Str) : Bool :=
  match Calculate.splitLast '.' n with
  | some (a, b) => a ≠ [] && decide (1 < b.length)
  | none => false

/-- `generateNameT`: P:335-364 -/
def generateNameT (name : Str) (timestep : Int) : Option Str :=
  let path := parsePath name
  if name.length = 0 then none
  else if timestep < 1 then none
  else if hasSuffix path.fileName then none
  else
    some (Path.text ⟨path.absolute,
      path.parts.dropLast ++ [path.fileName ++ '_' :: DataModel.name timestep.toNat ++ ".tif".toList]⟩)

/-- `generateNameS`: P:367-378. `os.path.join` returns the last path if this is an absolute path. -/
def generateNameS (name : Str) (sample : Nat) : Str :=
  if name.head? = some '/' then name else DataModel.name sample ++ '/' :: name

/-- `generateNameST`: P:381-390 -/
def generateNameST (name : Str) (sample : Nat) (timestep : Int) : Option Str :=
  (generateNameT name timestep).map (fun n => generateNameS n sample)

end Lue.PcrFramework

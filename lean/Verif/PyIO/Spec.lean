import Verif.PyIO.Model
import Verif.LueIO.Properties
import Verif.RasterView.Properties

/-!
# Reading and writing rasters from Python: specification
-/
namespace Lue.PyIO

open Lue.LueIO Lue.RasterView Lue.DataModel

/-- The pathname of an array: `<dataset pathname>/<phenomenon name>/<property-set name>/<property name>` -/
def ArrayPath.pathname (p : ArrayPath) : Name :=
  p.dataset ++ '/' :: (p.phenomenon ++ '/' :: (p.propertySet ++ '/' :: p.layer))

/-- A pathname of a file: it is not empty, does not end with a slash, and there are no subsequent slashes in it. -/
def FilePath (p : Name) : Prop := p ≠ [] ∧ p.getLast? ≠ some '/' ∧ ¬ (['/', '/'] : Name) <:+: p

/-- The pathname of a dataset is the pathname of a file, other names do not contain slashes. -/
structure ArrayPath.Ok (p : ArrayPath) : Prop where
  dataset : FilePath p.dataset
  phenomenon : '/' ∉ p.phenomenon
  propertySet : '/' ∉ p.propertySet
  layer : '/' ∉ p.layer

/-- The file datatype used for elements -/
def Element.datatype : Element → Datatype
  | .int8 => .int8le
  | .uint8 => .uint8le
  | .int16 => .int16le
  | .uint16 => .uint16le
  | .int32 => .int32le
  | .uint32 => .uint32le
  | .int64 => .int64le
  | .uint64 => .uint64le
  | .float => .float32le
  | .double => .float64le

/-- What can be done with datasets -/
inductive DiskOp (α β τ : Type) where
  /-- A dataset is opened (created if it does not exist), operations of C49 are performed, and the dataset is closed. -/
  | edit (dataset : Name) (ops : List (Op α β τ))
  /-- `write_array` -/
  | write (x : PArr α) (timeStep : Option Int) (pathname : Name) (order : List Nat)

/-- The datasets after an operation -/
def diskStep {α β τ : Type} (zero : α) (disk : Disk α β τ) : DiskOp α β τ → Disk α β τ
  | .edit dataset ops =>
    RasterView.insert disk dataset (runAll (step zero) ((disk dataset).getD newFile, []) ops).2.1
  | .write x timeStep pathname order => (writeArray disk x timeStep pathname order).2

/-- The datasets after a number of operations -/
def diskAfter {α β τ : Type} (zero : α) (disk : Disk α β τ) (ops : List (DiskOp α β τ)) : Disk α β τ :=
  ops.foldl (diskStep zero) disk

/-- No files -/
def emptyDisk {α β τ : Type} : Disk α β τ := fun _ => none

/-- Operations which are possible: those of C49, and writing arrays which are partitioned arrays. -/
def DiskOp.Ok {α β τ : Type} : DiskOp α β τ → Prop
  | .edit _ ops => ∀ o ∈ ops, o.Ok
  | .write x _ _ order => (∃ v : Arr α, Represents x v) ∧ IsOrder (x.grid.n0 * x.grid.n1) order

/-- The values of a raster at a time step, if it is there: `(rows, cols, value per cell)`. -/
structure RasterAt {α β τ : Type} (disk : Disk α β τ) (path : ArrayPath) (time : Option Nat) (rows cols : Nat)
    (v : Arr α) : Prop where
  /-- The dataset exists. -/
  file : ∃ d view array, disk path.dataset = some d ∧
    -- A raster view can be opened on the raster
    openView d (kindOf time) path.phenomenon path.propertySet = .ok view ∧
    view.grid = [rows, cols] ∧
    -- It has the layer, with the number of time steps of the raster
    layer d view path.layer = .ok array ∧
    (∀ t, time = some t → ∃ period nr, view.time = some (period, nr) ∧ t < nr) ∧
    -- These are the values of its cells
    ∀ i j, i < rows → j < cols → array.data (cellAt time i j) = v i j

/-- An operation does not write to a raster (layer) at a time step. `write_array` may write to other time steps. -/
def Untouched {α β τ : Type} (zero : α) (disk : Disk α β τ) (path : ArrayPath) (time : Option Nat) :
    DiskOp α β τ → Prop
  | .edit dataset ops => dataset = path.dataset →
      Quiet zero path.phenomenon path.propertySet (kindOf time) path.layer ((disk dataset).getD newFile, []) ops
  | .write _ timeStep pathname _ => ∀ path', parseArrayPathname pathname = .ok path' →
      path' ≠ path ∨ timeStep.map u64 ≠ time

/-- None of the operations writes to a raster at a time step. -/
def AllUntouched {α β τ : Type} (zero : α) (path : ArrayPath) (time : Option Nat) : Disk α β τ → List (DiskOp α β τ) → Prop
  | _, [] => True
  | disk, o :: os => Untouched zero disk path time o ∧ AllUntouched zero path time (diskStep zero disk o) os

/-- `read_array`, of a raster which varies if a time step is passed in -/
def readArray {α β τ : Type} (nrThreads : Nat) (disk : Disk α β τ) (pathname : Name) (timeStep : Option Int)
    (partitionShape : Option (List Int)) (run : Run α) : M (PArr α) :=
  match timeStep with
  | none => readConstant nrThreads disk pathname partitionShape run
  | some t => readVariable nrThreads disk pathname t partitionShape run

/-- The partition shape used: the one passed in, or else the default one of an array with the shape of the *raster*. -/
def PartitionShapeIs (nrThreads rows cols : Nat) (p0 p1 : Nat) : Option (List Int) → Prop
  | some shape => shape = [(p0 : Int), (p1 : Int)] ∧ p0 < 2 ^ 63 ∧ p1 < 2 ^ 63
  | none => Decomposition.defaultPartitionShape (2000 * 2000) 2000 [rows, cols] nrThreads = [p0, p1]

/-- A number which fits in a 64 bits signed integer -/
def Fits64 (n : Int) : Prop := -2 ^ 63 ≤ n ∧ n < 2 ^ 63

end Lue.PyIO

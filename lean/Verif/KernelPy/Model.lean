import Verif.FocalStats.Properties
import Verif.Numpy.Proofs
import Verif.DataModel.Model
import Verif.PyOps.Model

/-!
# Model of passing NumPy arrays by reference

Models the Python bindings of the focal operations with a kernel,
`source/framework/python/source/algorithm/focal_operation` (`F` below), and of
`expand` of object arrays of different shapes, `source/data_model/python/source/different_shape/value.cpp` (`V` below).

These functions accept arrays of type `pybind11::array_t<T>`, without the flag `pybind11::array::c_style`. Contrary to functions for
which this flag is passed, pybind11 does not copy an array whose elements are not stored next to each other, row by row. An array is
therefore modelled by the memory in which it is stored, the position of its first element, and its strides.

Simplifications: 2D kernels. Strides are multiples of the size of an element. The arrays passed to `expand` have the element type
required: arrays of other types are converted first.
-/
namespace Lue.KernelPy

open Lue.FocalStats Lue.Focal

/-- A NumPy array: memory, position of the first element in it, shape, strides (in elements). -/
structure Strided (W : Type) where
  mem : List W
  offset : Nat
  shape : List Nat
  strides : List Int
  deriving DecidableEq, Repr

variable {W : Type}

/-- `is_hypercube(shape)`: `source/framework/core/include/lue/framework/core/shape.hpp:54-61` -/
def isHypercube : List Nat → Bool
  | [] => false
  | n :: s => (n :: s).count n = (n :: s).length

/-- `buffer.size`: the number of elements -/
def Strided.size (a : Strided W) : Nat := a.shape.prod

/-- `array_to_kernel`: `F/array_to_kernel.hpp:8-43`. The elements of a new kernel are value-initialised. Assertions in the
constructor (`kernel.hpp:57-67`) are not part of release builds. -/
def arrayToKernel [Zero W] (a : Strided W) : M (Kernel W) :=
  match a.shape with
  | [n0, n1] =>
    if ! isHypercube [n0, n1] then .error .thrown
    else do
      let data ← Numpy.copyN a.mem a.offset a.size (List.replicate (n0 * n1) 0) 0
      .ok ⟨n0, data⟩
  | _ => .error .thrown

/-- The focal operations with a kernel -/
inductive FocalOp where
  | maximum | minimum | sum | convolve | highPass | mean | diversity | majority
  deriving DecidableEq, Repr

/-- The element types for which an operation is available: `F/focal_operation-1.cpp:62-65`, `F/focal_operation-2.cpp:105-109` -/
def available : FocalOp → PyOps.Ty → Bool
  | .maximum, _ | .minimum, _ | .sum, _ => true
  | .convolve, t | .highPass, t | .mean, t => t.floating
  | .diversity, t | .majority, t => t.integral

/-- The element type of the kernel: `BooleanElement`, by default `std::uint8_t`, or the element type of the array:
`F/focal_operation-1.cpp:22-55`, `F/focal_operation-2.cpp:29-99` -/
def kernelType : FocalOp → PyOps.Ty → PyOps.Ty
  | .convolve, t => t
  | _, _ => .uint8

/-- The element type of the result. `CountElement` is `std::uint64_t` by default. -/
def resultType : FocalOp → PyOps.Ty → PyOps.Ty
  | .diversity, _ => .uint64
  | _, t => t

/-- Overload resolution, given the element type of the array and the data type of the kernel (`kernel.noconvert()`). A
`TypeError` if there is no overload. -/
def resolve (op : FocalOp) (array kernel : PyOps.Ty) : M PyOps.Ty :=
  if available op array && kernel = kernelType op array then .ok (resultType op array) else .error .thrown

/-- A focal operation with a kernel: `F/focal_operation-1.cpp:22-55`, `F/focal_operation-2.cpp:29-99`. `op` is one of the operations
in `FocalStats`, given the kernel. -/
def focalPy {α γ : Type} [Zero W] (op : Kernel W → List α → M γ) (h : Halo α) (garbage : Nat → α) (garbage' : Nat → γ) (order : List Nat)
    (x : PArr α) (kernel : Strided W) : M (PArr γ) := do
  let k ← arrayToKernel kernel
  focal1 h garbage garbage' k.radius (op k) order x

/-! ### Object arrays of different shapes -/

/-- `value.expand(ids, shapes)`: `V:29-60`. `ids.data()` and `shapes.data()` are pointers to the first element. -/
def expandPy {α : Type} (fill : α) (h : DataModel.Handle) (g : DataModel.Group (DataModel.Dataset α)) (rank : Nat)
    (ids shapes : Strided Nat) : M Unit × DataModel.Handle × DataModel.Group (DataModel.Dataset α) :=
  match ids.shape, shapes.shape with
  | [nrIds], [nrShapes, nrExtents] =>
    if nrExtents ≠ rank then (.error .thrown, h, g)
    else if nrIds ≠ nrShapes then (.error .thrown, h, g)
    else
      match (List.range nrIds).mapM fun o => rd ids.mem (ids.offset + o) with
      | .ok ids => DataModel.DifferentShape.expandFlat fill h g rank ids (shapes.mem.drop shapes.offset)
      | .error err => (.error err, h, g)
  | _, _ => (.error .thrown, h, g)

end Lue.KernelPy

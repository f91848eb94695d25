import Verif.DataModel.Model

/-!
# Model of indexing the arrays of a dataset from Python

Models `source/data_model/python/source/core/array.cpp` (`P` below), the part of `source/data_model/hdf5/source/dataset.cpp`
and `hyperslab.cpp` it uses, and what CPython documents about slices. Arrays can have any rank.

Simplifications: conversions between types of elements are left out. HDF5 is modelled by what it does with hyperslabs;
what it does with strides of 2^63 and more, which are obtained for slices with a negative step, is a parameter.
-/
namespace Lue.PyArray

open Lue.DataModel Lue.LueIO Lue.Index

/-- A Python slice object: `start:stop:step` -/
structure Slice where
  start : Option Int
  stop : Option Int
  step : Option Int
  deriving DecidableEq, Repr

/-- A Python object used as an index -/
inductive PyIndex where
  | int (i : Int)
  | slice (s : Slice)
  | other
  deriving DecidableEq, Repr

/-- Conversion to `std::size_t` -/
def toSize (x : Int) : Nat := (x % 18446744073709551616).toNat

/-- CPython, `PySlice_AdjustIndices`: one of the limits of a slice -/
def adjustIndex (length step x : Int) : Int :=
  if x < 0 then
    let x := x + length
    if x < 0 then (if step < 0 then -1 else 0) else x
  else if x ≥ length then (if step < 0 then length - 1 else length)
  else x

/-- CPython, `PySlice_Unpack` and `PySlice_AdjustIndices`: where a slice starts -/
def sliceStart (s : Slice) (length step : Int) : Int :=
  match s.start with
  | none => if step < 0 then length - 1 else 0
  | some x => adjustIndex length step x

/-- CPython, `PySlice_Unpack` and `PySlice_AdjustIndices`: where a slice stops -/
def sliceStop (s : Slice) (length step : Int) : Int :=
  match s.stop with
  | none => if step < 0 then -1 else length
  | some x => adjustIndex length step x

/-- CPython, `PySlice_GetIndicesEx`: start, step and the number of selected elements. Integers which don't fit in a
`Py_ssize_t` are left out. Called by `py::slice::compute`, P:160-169. -/
def sliceCompute (s : Slice) (length : Nat) : M (Int × Int × Nat) :=
  let step := s.step.getD 1
  if step = 0 then .error .thrown else
  let start := sliceStart s length step
  let stop := sliceStop s length step
  let sliceLength : Int :=
    if step < 0 then (if stop < start then (start - stop - 1) / (-step) + 1 else 0)
    else (if start < stop then (stop - start - 1) / step + 1 else 0)
  .ok (start, step, sliceLength.toNat)

/-- The hyperslab being constructed, the shape of the result, and the number of dimensions removed from it -/
structure Selection where
  hyperslab : Hyperslab
  sliceShape : List Nat
  nrErased : Nat

/-- Assigning to the start, stride and count in a dimension: P:138-140, 171-173 -/
def setDimension (h : Hyperslab) (d start stride count : Nat) : M Hyperslab := do
  let starts ← wr h.start d start
  let strides ← wr h.stride d stride
  let counts ← wr h.count d count
  .ok ⟨starts, strides, counts⟩

/-- `update_hyperslab_by_index`: P:113-149 -/
def updateByIndex (d : Nat) (index : Int) (shape : List Nat) (s : Selection) : M Selection := do
  let n ← rd shape d
  let index := if index < 0 then n + index else index
  if toSize index ≥ n then .error .thrown else
  let h ← setDimension s.hyperslab d (toSize index) 1 1
  let sliceShape ← wr s.sliceShape (d - s.nrErased) 1
  .ok ⟨h, sliceShape.eraseIdx (d - s.nrErased), s.nrErased + 1⟩

/-- `update_hyperslab_by_slice`: P:152-176 -/
def updateBySlice (d : Nat) (slice : Slice) (shape : List Nat) (s : Selection) : M Selection := do
  let n ← rd shape d
  let (start, step, sliceLength) ← sliceCompute slice n
  let h ← setDimension s.hyperslab d (toSize start) (toSize step) sliceLength
  let sliceShape ← wr s.sliceShape (d - s.nrErased) sliceLength
  .ok ⟨h, sliceShape, s.nrErased⟩

/-- All elements, P:641-646 -/
def selectAll (shape : List Nat) : Selection := ⟨.ofShape shape, shape, 0⟩

/-- `create_hyperslab`: P:622-694 -/
def createHyperslab (shape : List Nat) (indices : List PyIndex) : M Selection :=
  if indices.length > shape.length then .error .thrown else
  forLoop indices.length (fun i s => do
    let index ← rd indices i
    match index with
    | .int index => updateByIndex i index shape s
    | .slice slice => updateBySlice i slice shape s
    | .other => .error .thrown) (selectAll shape)

/-- The argument of `__getitem__`, `__setitem__`: an integer, a slice, a sequence of indices, or something else -/
inductive Key where
  | int (i : Int)
  | slice (s : Slice)
  | indices (l : List PyIndex)
  | other
  deriving DecidableEq, Repr

/-- Selecting elements: P:744-756, 758-770, 772-779, 781-785 -/
def select (shape : List Nat) : Key → M Selection
  | .int i => updateByIndex 0 i shape (selectAll shape)
  | .slice s => updateBySlice 0 s shape (selectAll shape)
  | .indices l => createHyperslab shape l
  | .other => .error .thrown

/-- A NumPy array, in row-major order -/
structure NdArray (α : Type) where
  shape : List Nat
  data : List α
  deriving DecidableEq, Repr

/-- Whether a stride is the result of converting a negative number to an unsigned one -/
def wrapped (h : Hyperslab) : Bool := h.stride.any (· ≥ 9223372036854775808)

/-- `array.read(hyperslab, buffer)`. `wild` is what HDF5 does for very large strides. -/
def readArray {α : Type} (wild : Dataset α → Hyperslab → List α → M (List α)) (d : Dataset α) (h : Hyperslab)
    (buffer : List α) : M (List α) :=
  if wrapped h then wild d h buffer else readHyperslab d h buffer

/-- `Array.__getitem__`, for elements which are numbers: P:744-785, `read_hyperslab_from_array`: P:384-390,
`create_array`: P:179-316, `create_scalar`: P:319-381. -/
def getItem {α : Type} (wild : Dataset α → Hyperslab → List α → M (List α)) (garbage : Nat → α) (d : Dataset α)
    (key : Key) : M (NdArray α) := do
  let s ← select d.shape key
  let data ← readArray wild d s.hyperslab (uninitialised (nrElements s.sliceShape) garbage)
  .ok ⟨s.sliceShape, data⟩

/-! ### Assigning -/

/-- `Hyperslab::empty`: hyperslab.cpp:147-151 -/
def hyperslabEmpty (h : Hyperslab) : Bool :=
  h.start.length == 0 || h.count.any (· == 0) || h.stride.any (· == 0)

/-- `Hyperslab::nr_elements`: hyperslab.cpp:157-172 -/
def hyperslabNrElements (h : Hyperslab) : Nat :=
  if hyperslabEmpty h then 0
  else (List.range h.start.length).foldl (fun result i => result * (h.stride.getD i 0 * h.count.getD i 0)) 1

/-- `Dataset::write(datatype, memory_dataspace, hyperslab, buffer)`: dataset.cpp:331-369. HDF5 refuses to write if the
number of elements in memory, `nrInMemory`, is not the number of elements selected. -/
def writeArray {α : Type} (wild : Dataset α → Hyperslab → List α → M (Dataset α)) (d : Dataset α) (nrInMemory : Nat)
    (h : Hyperslab) (buffer : List α) : M (Dataset α) :=
  if wrapped h then wild d h buffer
  else if nrInMemory ≠ nrElements h.count then .error .thrown
  else writeHyperslab d h buffer

/-- `Dataset::fill`: dataset.cpp:381-412 -/
def fillArray {α : Type} (wild : Dataset α → Hyperslab → List α → M (Dataset α)) (d : Dataset α) (h : Hyperslab)
    (value : α) : M (Dataset α) :=
  let n := hyperslabNrElements h
  writeArray wild d n h (List.replicate n value)

/-- `Array.__setitem__` with a number as value: P:788-813, `set_item`: P:528-553. A number can't be assigned using a
sequence of indices: there's no such overload. -/
def setItemNumber {α : Type} (wild : Dataset α → Hyperslab → List α → M (Dataset α)) (d : Dataset α) (key : Key)
    (value : α) : M (Dataset α) :=
  match key with
  | .int _ => do
    let s ← select d.shape key
    fillArray wild d s.hyperslab value
  | .slice _ => do
    let s ← select d.shape key
    fillArray wild d s.hyperslab value
  | _ => .error .thrown

/-- `Array.__setitem__` with a NumPy array of numbers as values: P:816-889; `set_item` with an integer: P:556-577, with a
slice: P:580-592, 609-619, with indices: P:697-709. With an integer, the shape of the values isn't looked at. -/
def setItemArray {α : Type} (wild : Dataset α → Hyperslab → List α → M (Dataset α)) (d : Dataset α) (key : Key)
    (values : NdArray α) : M (Dataset α) :=
  match key with
  | .int _ => do
    let s ← select d.shape key
    writeArray wild d (nrElements s.hyperslab.count) s.hyperslab values.data
  | _ => do
    let s ← select d.shape key
    writeArray wild d (nrElements values.shape) s.hyperslab values.data

/-! ### Strings

Strings are sequences of code points. -/

/-- Number of bytes used by UTF-8 for a code point -/
def utf8Size (c : Nat) : Nat := if c < 0x80 then 1 else if c < 0x800 then 2 else if c < 0x10000 then 3 else 4

/-- `strlen` of a UTF-8 encoded string -/
def strlen (s : List Nat) : Nat := (s.map utf8Size).sum

/-- Removing trailing null characters: `trim_right_if`, and what NumPy does when an element is used -/
def trim (s : List Nat) : List Nat := (s.reverse.dropWhile (· == 0)).reverse

/-- `buffer[i .. i + n]` -/
def rdRange (buffer : List Nat) (i n : Nat) : M (List Nat) :=
  if i + n ≤ buffer.length then .ok ((buffer.drop i).take n) else .error .outOfBounds

/-- Writing elements into a buffer -/
def wrRange (buffer : List Nat) (i : Nat) (l : List Nat) : M (List Nat) :=
  if i + l.length ≤ buffer.length then .ok (buffer.take i ++ l ++ buffer.drop (i + l.length)) else .error .outOfBounds

/-- `VLenMemory`: source/data_model/hdf5/source/vlen_memory.cpp. HDF5 frees a string for each element in the dataspace. -/
def reclaim {β : Type} (nrInDataspace : Nat) (values : List β) : M Unit :=
  forLoop nrInDataspace (fun i _ => do
    let _ ← rd values i
    .ok ()) ()

/-- Copying the strings to a NumPy array: P:213-271. The result is the maximum number of code points in the elements of
the array and its buffer. -/
def stringBuffer (strings : List (List Nat)) : M (Nat × List Nat) := do
  let maxNrCodePoints := (strings.map strlen).foldl max 0
  let maxNrBytes := maxNrCodePoints * 4
  let (buffer, _) ← forLoop strings.length (fun i (s : List Nat × Nat) => do
    let string ← rd strings i
    if string.length ≤ maxNrBytes then
      let buffer ← wrRange s.1 s.2 string
      .ok (buffer, s.2 + maxNrBytes)
    else .error .thrown) (List.replicate (strings.length * maxNrBytes) 0, 0)
  .ok (maxNrCodePoints, buffer)

/-- NumPy: element of a one-dimensional array of strings of `n` code points -/
def numpyString (n : Nat) (buffer : List Nat) (i : Nat) : M (List Nat) := do
  let s ← rdRange buffer (i * n) n
  .ok (trim s)

/-- `Array.__getitem__` with a slice, for strings: P:186-272, 758-770. -/
def getStrings (wild : Dataset (List Nat) → Hyperslab → List (List Nat) → M (List (List Nat))) (d : Dataset (List Nat))
    (key : Key) : M (Nat × List Nat × Nat) := do
  let s ← select d.shape key
  match s.sliceShape with
  | [nrStrings] =>
    let values ← readArray wild d s.hyperslab (List.replicate nrStrings [])
    let (n, buffer) ← stringBuffer values
    reclaim (nrElements d.shape) values
    .ok (nrStrings, buffer, n)
  | _ => .error .thrown

/-- The strings stored, for an array of UTF-8 encoded strings (dtype `S`): P:932-961. `n` is the length of the elements of
the NumPy array, `buffer` is its buffer. -/
def encodedStrings (n : Nat) (buffer : List Nat) (nrStrings : Nat) : M (List (List Nat)) :=
  (List.range nrStrings).mapM fun i => do
    let s ← rdRange buffer (i * n) n
    .ok (trim s)

/-- The strings stored, for an array of Unicode strings (dtype `U`): P:962-1025. The pointer to the start of the string is
incremented after the loop. -/
def unicodeStrings (n : Nat) (buffer : List Nat) (nrStrings : Nat) : M (List (List Nat)) :=
  let startOfString := 0
  (List.range nrStrings).mapM fun _ => do
    let s ← rdRange buffer startOfString n
    .ok (trim s)

/-- `Array.__setitem__` with a slice and a NumPy array of strings: P:891-1034. -/
def setStrings (unicode : Bool) (d : Dataset (List Nat)) (key : Slice) (n : Nat) (buffer : List Nat) :
    M (Dataset (List Nat)) := do
  let s ← select d.shape (.slice key)
  match s.sliceShape with
  | [nrStrings] =>
    let strings ← if unicode then unicodeStrings n buffer nrStrings else encodedStrings n buffer nrStrings
    writeHyperslab d (.ofShape d.shape) strings
  | _ => .error .thrown

end Lue.PyArray

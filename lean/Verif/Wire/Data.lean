import Verif.Wire.Model
import Verif.Memory.SharedProperties

/-!
# Sending partition data

`P` is `source/framework/partitioned_array/include/lue/framework/partitioned_array/array_partition_data.hpp`, `B` is
`.../partitioned_array/serialize/shared_buffer.hpp`. Partition data is read and written in the memory of processes (C30, `Verif.Memory`).
-/
namespace Lue.Wire
open Lue.Memory

variable {E : Type}

/-- `make_array(data, n)`: visit the elements that are in the buffer of partition data -/
def elementsOf (s : Shared E) (h : Nat) : Nat → Nat → M (List E)
  | _, 0 => .ok []
  | i, n + 1 => do
    let e ← s.read h i
    let es ← elementsOf s h (i + 1) n
    return e :: es

/-- `P:156-163`, `B:24-31`: write partition data -/
def save (c : Codec E) (s : Shared E) (h : Nat) : M Bytes := do
  let x ← s.handle h
  let n ← s.size h
  let es ← elementsOf s h 0 n
  return (fixed count).put x.shape ++ (count.put n ++ es.flatMap c.put)

/-- What is read, or an error if the end of the archive is reached -/
def orEnd {T : Type} (x : Option T) : M T :=
  match x with
  | some t => .ok t
  | none => .error .thrown

/-- `make_array(data, n)`: assign to the elements that are in a buffer -/
def storeAll (m : Mem E) (ptr : Nat) : Nat → List E → M (Mem E)
  | _, [] => .ok m
  | i, e :: es => do
    let m ← m.write ptr i e
    storeAll m ptr (i + 1) es

/-- `P:149-155`, `B:8-22`: read partition data: into `g`, which is default-constructed first. `resize` of the buffer reshapes the collection of
elements (`shared_buffer.hpp:226-233`). -/
def load (c : Codec E) (zero : E) (rank : Nat) (s : Shared E) (g : Nat) (b : Bytes) : M (Shared E × Bytes) := do
  let s ← s.construct zero g (List.replicate rank 0)
  let x ← s.handle g
  let shape ← orEnd ((fixed count).get x.shape b)
  let size ← orEnd (count.get 0 shape.2)
  let m ← s.mem.reshape zero x.ptr [size.1]
  let es ← orEnd (getMany c zero size.1 size.2)
  let m ← storeAll m x.ptr 0 es.1
  let s := { s with mem := m }
  let ptr ← s.data x.ptr
  return (s.setHandle g (some ⟨shape.1, x.ptr, ptr, shape.1⟩), es.2)

end Lue.Wire

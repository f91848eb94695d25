/-
Model of visiting the cells of a hyperslab of an array.
-/
namespace Lue.Visitor

/-- `source/framework/core/include/lue/framework/core/array_visitor.hpp:50-184` `ArrayVisitorCursor`.
The shape of the array itself is only used for computing linear indices (see `Verif.Index.Model`) and in
assertions, and is left out. -/
structure Cursor where
  /-- `_start`, line 174 -/
  start : List Nat
  /-- `_count`, line 177 -/
  count : List Nat
  /-- `_current_cell`, line 180 -/
  current : List Nat
  /-- `_dimension_idx`, line 183 -/
  dim : Nat

/-- `array_visitor.hpp:82-93` `init` -/
def Cursor.init (start count : List Nat) : Cursor := ⟨start, count, start, 0⟩

/-- `array_visitor.hpp:101-106` `enter_next_dimension` -/
def Cursor.enter (c : Cursor) : Cursor := { c with dim := c.dim + 1 }

/-- `array_visitor.hpp:108-116` `leave_current_dimension` -/
def Cursor.leave (c : Cursor) : Cursor :=
  { c with current := c.current.set c.dim (c.start.getD c.dim 0), dim := c.dim - 1 }

/-- `array_visitor.hpp:118-125` `operator++` -/
def Cursor.inc (c : Cursor) : Cursor :=
  { c with current := c.current.set c.dim (c.current.getD c.dim 0 + 1) }

/-- A `for` loop doing `n` iterations. -/
def loop {σ : Type} (body : σ → σ) : Nat → σ → σ
  | 0, s => s
  | n + 1, s => loop body n (body s)

/-- `array_visitor.hpp:282-319` `detail::visit_array<rank>`. The visitor's effect is recording the cell it is called
for in a log: the state is the cursor and the cells for which the visitor has been called until now.
The loop runs from `start_idx` to `end_idx = start_idx + count` of the current dimension (lines 137-145, 300). -/
def visitArrayRank : Nat → Cursor × List (List Nat) → Cursor × List (List Nat)
  | 0, (c, log) => (c, log ++ [c.current])
  | r + 1, (c, log) =>
    loop (fun (c, log) =>
      let c := if r + 1 > 1 then c.enter else c
      let (c, log) := visitArrayRank r (c, log)
      let c := if r + 1 > 1 then c.leave else c
      (c.inc, log)) (c.count.getD c.dim 0) (c, log)

/-- `array_visitor.hpp:331-346` `visit_array(begin_indices, end_indices, visitor)`: the cells visited, in order. -/
def visitArray (beginIdxs endIdxs : List Nat) : List (List Nat) :=
  let count := List.zipWith (fun e b => e - b) endIdxs beginIdxs
  (visitArrayRank beginIdxs.length (Cursor.init beginIdxs count, [])).2

end Lue.Visitor

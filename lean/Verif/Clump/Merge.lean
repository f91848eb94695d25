import Verif.Clump.Model
import Verif.Util.AMap
import Verif.Partitioned.Cells

/-!
C24: clump, merging the clumps found in the partitions.
`A` below is `source/framework/algorithm/include/lue/framework/algorithm`.

The policies used to detect no-data in zones and in clump ids are assumed to agree: the code uses the policy for zones to
detect no-data in clump ids along borders (lines 1034, 1332, 1551 for example). If the no-data value of the zones is a clump
id (0 for example), clumps with this id are not merged. This is not modelled. The sides of partitions, which are
copied into the results of the partitions, are computed from the partitions here.
-/
namespace Lue.Clump

variable {α Z : Type}

/-! ### Sets -/

/-- `std::set::insert`. Sets are sorted lists. -/
def setInsert (a : Nat) : List Nat → List Nat
  | [] => [a]
  | b :: s => if a < b then a :: b :: s else if a = b then b :: s else b :: setInsert a s

/-- `std::set_union` -/
def setUnion (s t : List Nat) : List Nat := t.foldl (fun u a => setInsert a u) s

/-- `A/definition/clump.hpp:1182-1205`: both sets are searched, skipping elements which cannot be in the other set. -/
def shareLoop : Nat → List Nat → List Nat → Bool
  | 0, _, _ => false
  | _ + 1, [], _ => false
  | _ + 1, _, [] => false
  | n + 1, a :: s, b :: t =>
    if a < b then shareLoop n (s.dropWhile (· < b)) (b :: t)
    else if b < a then shareLoop n (a :: s) (t.dropWhile (· < a))
    else true

/-- `A/definition/clump.hpp:1147-1206` -/
def shareElement (s t : List Nat) : Bool :=
  if s.isEmpty || t.isEmpty then false
  else if s.length * 100 < t.length then s.any fun x => t.contains x
  else if t.length * 100 < s.length then t.any fun x => s.contains x
  else shareLoop (s.length + t.length + 1) s t

/-! ### Results of partitions -/

/-- `A/definition/clump.hpp:569-801` (LocalResult): a partition, the number of rows and columns, and the global clump id of
each local clump id. -/
structure Local (Z : Type) where
  nr : Nat
  nc : Nat
  zones : List (Option Z)
  clumps : List (Option Nat)
  lut : AMap Nat Nat

/-- `A/definition/clump.hpp:810-919`, `635-640`: clump the cells in a partition. -/
def clumpPartition [DecidableEq Z] (fuel nr nc : Nat) (diagonal : Bool) (zones : List (Option Z)) : M (Local Z) := do
  let (clumps, n) ← clumpCells fuel nr nc diagonal zones
  return ⟨nr, nc, zones, clumps, (List.range n).map fun id => (id, id)⟩

/-- `A/definition/clump.hpp:865-869`, `887-891`: the first row. Also last row (`row` is `nr_rows - 1`), see lines 871-872, 893-894. -/
def rowSide (nc row : Nat) (data : List α) : M (List α) := (List.range nc).mapM fun col => get nc data row col

/-- `A/definition/clump.hpp:875-882`, `897-904`: the first (last) column. -/
def colSide (nr nc col : Nat) (data : List α) : M (List α) := (List.range nr).mapM fun row => get nc data row col

/-- `A/definition/clump.hpp:680-685` -/
def Local.globalClumpId (p : Local Z) (localId : Option Nat) : M Nat :=
  match localId with
  | none => .error .outOfBounds
  | some id => match p.lut.get id with
    | none => .error .outOfBounds
    | some gid => .ok gid

/-- `A/definition/clump.hpp:663-671`, `1234-1240`: give local ids unique global ids. -/
def reclassifyGlobal : Nat → List (Local Z) → List (Local Z)
  | _, [] => []
  | start, p :: ps => { p with lut := p.lut.map fun e => (e.1, e.2 + start) } :: reclassifyGlobal (start + p.lut.length) ps

/-! ### Merging -/

/-- Row and column of a partition, and the local id of a clump. -/
abbrev Key := Nat × Nat × Nat

/-- `global_clump_ids_by_local_clump_id` and `global_clump_ids`. -/
structure Merges where
  keys : AMap Key Nat
  sets : List (List Nat)

/-- One of the partitions sharing a border: its location, the result, and the local clump ids along the border. -/
structure Side (Z : Type) where
  row : Nat
  col : Nat
  result : Local Z
  ids : List (Option Nat)

/-- `A/definition/clump.hpp:1028-1050`, `1054-1078`: find a collection for one of the local clumps. `boundary` contains the
clump ids of the border. -/
def findCollection (keys : AMap Key Nat) (side : Side Z) (boundary : List (Option Nat)) (id : Nat) : List Nat → M (Option Nat)
  | [] => .ok none
  | idx :: idxs => do
    if (← rd boundary idx) = some id then
      match ← rd side.ids idx with
      | none => .error .outOfBounds  -- The no-data value is not a key. Does not happen
      | some localId =>
        match keys.get (side.row, side.col, localId) with
        | some i => .ok (some i)
        | none => findCollection keys side boundary id idxs
    else findCollection keys side boundary id idxs

/-- `global_clump_ids[idx].insert(id)` -/
def insertId (m : Merges) (idx id : Nat) : M Merges := do
  let s ← rd m.sets idx
  return { m with sets := ← wr m.sets idx (setInsert id s) }

/-- `if (map.find(key) == map.end()) map[key] = idx` -/
def addKey (m : Merges) (key : Key) (idx : Nat) : Merges :=
  match m.keys.get key with
  | none => { m with keys := m.keys.put key idx }
  | some _ => m

/-- `A/definition/clump.hpp:1097-1116`, `1122-1142`: add the global ids to a collection. -/
def addIds (side : Side Z) (boundary : List (Option Nat)) (id collection : Nat) : List Nat → Merges → M Merges
  | [], m => .ok m
  | idx :: idxs, m => do
    if (← rd boundary idx) = some id then
      let localId ← rd side.ids idx
      let gid ← side.result.globalClumpId localId
      let m ← insertId m collection gid
      addIds side boundary id collection idxs (addKey m (side.row, side.col, localId.getD 0) collection)
    else addIds side boundary id collection idxs m

/-- `A/definition/clump.hpp:1054`: if nothing has been found yet -/
def otherwise (found : Option Nat) (search : M (Option Nat)) : M (Option Nat) :=
  match found with
  | some i => .ok (some i)
  | none => search

/-- `A/definition/clump.hpp:1082-1086`: add a collection if none has been found -/
def useCollection (found : Option Nat) (m : Merges) : Nat × Merges :=
  match found with
  | some i => (i, m)
  | none => (m.sets.length, { m with sets := m.sets ++ [[]] })

/-- `A/definition/clump.hpp:972-1144` -/
def mergeClump (north : Side Z) (northIdx : Nat) (south : Side Z) (southIdx : Nat) (nc : Nat) (clumps : List (Option Nat))
    (m : Merges) : M Merges := do
  match ← rd clumps northIdx with
  | none => .error .thrown
  | some id =>
    let northIdxs := List.range' northIdx (nc - northIdx)
    let southIdxs := List.range' southIdx (nc - southIdx)
    let northClumps := clumps.take nc
    let southClumps := clumps.drop nc
    let found ← findCollection m.keys north northClumps id northIdxs
    let found ← otherwise found (findCollection m.keys south southClumps id southIdxs)
    let c := useCollection found m
    let m ← addIds north northClumps id c.1 northIdxs c.2
    addIds south southClumps id c.1 southIdxs m

/-- `if (cond) merge(...)` -/
def mergeIf (cond : Bool) (f : Merges → M Merges) (m : Merges) : M Merges := if cond then f m else .ok m

/-- `A/definition/clump.hpp:1330-1364`, `1445-1479`: iteration of the loop over the clumps along a border. The state contains
the clumps handled already. -/
def mergeIdx (north south : Side Z) (nc : Nat) (clumps : List (Option Nat)) (idx : Nat) (s : List Nat × Merges) :
    M (List Nat × Merges) := do
  match ← rd clumps idx with
  | none => .ok s
  | some id =>
    if s.1.contains id then .ok s
    else
      let southIdx := (clumps.drop nc).findIdx (· == some id)
      let m ← mergeIf (southIdx ≠ nc) (mergeClump north idx south southIdx nc clumps) s.2
      return (id :: s.1, m)

/-- `A/definition/clump.hpp:1275-1365`, `1382-1480`: handle the border between two partitions. The zones along the border are
passed in. -/
def mergeBorder [DecidableEq Z] (fuel : Nat) (diagonal : Bool) (north south : Side Z) (northZones southZones : List (Option Z))
    (m : Merges) : M Merges := do
  let nc := northZones.length
  if southZones.length ≠ nc then .error .thrown  -- assertion
  else
    let zones := northZones ++ southZones
    let (clumps, _) ← forLoop nc (fun col s => visit fuel 2 nc diagonal zones 0 col s) (List.replicate (2 * nc) none, 0)
    let (_, m) ← forLoop nc (mergeIdx north south nc clumps) ([], m)
    return m

/-- A partition with a corner shared with other partitions, and the local clump id of the cell in the corner -/
structure Corner (Z : Type) where
  row : Nat
  col : Nat
  result : Local Z
  id : Option Nat

/-- `A/definition/clump.hpp:1565-1614`, `1674-1723`: the collections of two local clumps. -/
def cornerCollections (keyA keyB : Key) (m : Merges) : Nat × Nat × Merges :=
  match m.keys.get keyA, m.keys.get keyB with
  | some i, none => (i, i, { m with keys := m.keys.put keyB i })
  | some i, some j => (i, j, m)
  | none, some j => (j, j, { m with keys := m.keys.put keyA j })
  | none, none => (m.sets.length, m.sets.length, ⟨(m.keys.put keyA m.sets.length).put keyB m.sets.length, m.sets ++ [[]]⟩)

/-- `A/definition/clump.hpp:1551-1658`, `1660-1767`: the clump extends to a partition in a diagonal direction. -/
def mergeCorner (a b : Corner Z) (m : Merges) : M Merges := do
  let keyA : Key := (a.row, a.col, a.id.getD 0)
  let keyB : Key := (b.row, b.col, b.id.getD 0)
  let c := cornerCollections keyA keyB m
  let gidA ← a.result.globalClumpId a.id
  let gidB ← b.result.globalClumpId b.id
  let m ← insertId c.2.2 c.1 gidA
  let m ← insertId m c.1 gidB
  let m ← insertId m c.2.1 gidA
  insertId m c.2.1 gidB

/-- `A/definition/clump.hpp:1505-1767`: handle the corners of four partitions. The arguments are the corners and the zones of
the cells in the corners. -/
def mergeCorners [DecidableEq Z] (fuel : Nat) (nw ne sw se : Corner Z) (zones : List (Option Z)) (m : Merges) : M Merges := do
  let (clumps, _) ← clumpCells fuel 2 2 true zones
  let cnw ← rd clumps 0
  let cne ← rd clumps 1
  let csw ← rd clumps 2
  let cse ← rd clumps 3
  let m ← mergeIf (cnw.isSome && cse.isSome && cnw == cse) (mergeCorner nw se) m
  mergeIf (cne.isSome && csw.isSome && cne == csw) (mergeCorner ne sw) m

section

variable [DecidableEq Z] (fuel n0 n1 : Nat) (diagonal : Bool) (results : List (Local Z))

/-- `local_results(row_in_partitions, col_in_partitions)` -/
def resultAt (row col : Nat) : M (Local Z) := get n1 results row col

/-- `A/definition/clump.hpp:1260-1273`: the border with the partition to the south -/
def mergeSouth (row col : Nat) (m : Merges) : M Merges := do
  if row < n0 - 1 then
    let north ← resultAt n1 results row col
    let south ← resultAt n1 results (row + 1) col
    let northZones ← rowSide north.nc (north.nr - 1) north.zones
    let northIds ← rowSide north.nc (north.nr - 1) north.clumps
    let southZones ← rowSide south.nc 0 south.zones
    let southIds ← rowSide south.nc 0 south.clumps
    mergeBorder fuel diagonal ⟨row, col, north, northIds⟩ ⟨row + 1, col, south, southIds⟩ northZones southZones m
  else .ok m

/-- `A/definition/clump.hpp:1367-1380`: the border with the partition to the east -/
def mergeEast (row col : Nat) (m : Merges) : M Merges := do
  if col < n1 - 1 then
    let west ← resultAt n1 results row col
    let east ← resultAt n1 results row (col + 1)
    let westZones ← colSide west.nr west.nc (west.nc - 1) west.zones
    let westIds ← colSide west.nr west.nc (west.nc - 1) west.clumps
    let eastZones ← colSide east.nr east.nc 0 east.zones
    let eastIds ← colSide east.nr east.nc 0 east.clumps
    mergeBorder fuel diagonal ⟨row, col, west, westIds⟩ ⟨row, col + 1, east, eastIds⟩ westZones eastZones m
  else .ok m

/-- `A/definition/clump.hpp:1482-1503`: the corner shared with the partitions to the east, south and south-east -/
def mergeSouthEast (row col : Nat) (m : Merges) : M Merges := do
  if diagonal && (row < n0 - 1 && col < n1 - 1) then
    let nw ← resultAt n1 results row col
    let ne ← resultAt n1 results row (col + 1)
    let sw ← resultAt n1 results (row + 1) col
    let se ← resultAt n1 results (row + 1) (col + 1)
    let zones := [← get nw.nc nw.zones (nw.nr - 1) (nw.nc - 1), ← get ne.nc ne.zones (ne.nr - 1) 0,
      ← get sw.nc sw.zones 0 (sw.nc - 1), ← get se.nc se.zones 0 0]
    mergeCorners fuel
      ⟨row, col, nw, ← get nw.nc nw.clumps (nw.nr - 1) (nw.nc - 1)⟩
      ⟨row, col + 1, ne, ← get ne.nc ne.clumps (ne.nr - 1) 0⟩
      ⟨row + 1, col, sw, ← get sw.nc sw.clumps 0 (sw.nc - 1)⟩
      ⟨row + 1, col + 1, se, ← get se.nc se.clumps 0 0⟩ zones m
  else .ok m

/-- `A/definition/clump.hpp:1242-1771`: the collections of ids to merge. -/
def mergeBorders : M Merges :=
  forLoop n0 (fun row m => forLoop n1 (fun col m => do
    let m ← mergeSouth fuel n0 n1 diagonal results row col m
    let m ← mergeEast fuel n1 diagonal results row col m
    mergeSouthEast fuel n0 n1 diagonal results row col m) m) ⟨[], []⟩

end

/-- `A/definition/clump.hpp:1801-1822`: merge collection `idx2` with collection `idx1` if these share an id. The state contains
the collections and the updates of the indices. -/
def unionStep (idx1 idx2 : Nat) (s : List (List Nat) × AMap Nat Nat) : M (List (List Nat) × AMap Nat Nat) := do
  let s1 ← rd s.1 idx1
  let s2 ← rd s.1 idx2
  if shareElement s1 s2 then
    let sets ← wr s.1 idx1 (setUnion s1 s2)
    let sets ← wr sets idx2 []
    return (sets, s.2.put idx2 idx1)
  else .ok s

/-- `A/definition/clump.hpp:1788-1824` -/
def unionPass (sets : List (List Nat)) : M (List (List Nat) × AMap Nat Nat) :=
  forLoop sets.length (fun idx1 s =>
    (List.range' (idx1 + 1) (sets.length - (idx1 + 1))).foldlM (fun s idx2 => unionStep idx1 idx2 s) s) (sets, [])

/-- `A/definition/clump.hpp:1826-1834` -/
def updateKeys (keys : AMap Key Nat) (updates : AMap Nat Nat) : AMap Key Nat :=
  keys.map fun e => (e.1, match updates.get e.2 with
    | some i => i
    | none => e.2)

/-- `A/definition/clump.hpp:688-694` -/
def updateGlobal (results : List (Local Z)) (n1 : Nat) (key : Key) (gid : Nat) : M (List (Local Z)) := do
  let p ← get n1 results key.1 key.2.1
  match p.lut.get key.2.2 with
  | none => .error .outOfBounds
  | some _ => set n1 results key.1 key.2.1 { p with lut := p.lut.put key.2.2 gid }

/-- `A/definition/clump.hpp:1837-1846` -/
def updateResults (n1 : Nat) (sets : List (List Nat)) : AMap Key Nat → List (Local Z) → M (List (Local Z))
  | [], results => .ok results
  | (key, idx) :: keys, results => do
    match ← rd sets idx with
    | [] => .error .outOfBounds
    | gid :: _ => updateResults n1 sets keys (← updateGlobal results n1 key gid)

/-- `A/definition/clump.hpp:1210-1850`. Also returns the collections of ids. -/
def determineReclassTables [DecidableEq Z] (fuel n0 n1 : Nat) (diagonal : Bool) (results : List (Local Z)) :
    M (List (Local Z) × List (List Nat)) := do
  let results := reclassifyGlobal 0 results
  let m ← mergeBorders fuel n0 n1 diagonal results
  let (sets, updates) ← unionPass m.sets
  return (← updateResults n1 sets (updateKeys m.keys updates) results, sets)

/-- `A/definition/clump.hpp:1853-1876` -/
def reclassPartition (p : Local Z) : M (List (Option Nat)) :=
  p.clumps.mapM fun
    | none => .ok none
    | some id => match p.lut.get id with
      | none => .error .outOfBounds
      | some gid => .ok (some gid)

/-- `A/definition/clump.hpp:932-969`, `1889-1942`, `1947-1969`. `order1` and `order2` are the orders in which the tasks complete.
Loops are given up after `fuel` iterations. Also returns the collections of ids. -/
def clump [DecidableEq Z] (fuel : Nat) (diagonal : Bool) (order1 order2 : List Nat) (x : PArr (Option Z)) :
    M (PArr (Option Nat) × List (List Nat)) := do
  let g := x.grid
  let results ← runTasks (g.n0 * g.n1) (fun k => do
    clumpPartition fuel (g.rows (k / g.n1)) (g.cols (k % g.n1)) diagonal (← rd x.parts k)) order1
  let (results, sets) ← determineReclassTables fuel g.n0 g.n1 diagonal results
  let parts ← runTasks (g.n0 * g.n1) (fun k => do reclassPartition (← rd results k)) order2
  return (⟨g, parts⟩, sets)

end Lue.Clump

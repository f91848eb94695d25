import Verif.Zonal.Reclassify
import Verif.Calculate.Model

/-!
# Model of `timeinputscalar`

`P` = source/framework/python/pcraster/__init__.py

A file is a list of lines. Converting text to numbers is left to Python (parameters).
-/
namespace Lue.TimeInput

abbrev Str := List Char

/-- `str.rstrip` -/
def rstrip (t : Str) : Str := (t.reverse.dropWhile Char.isWhitespace).reverse

/-- `str.split()`: the words in a text, given the characters of the current word -/
def wordsAux : Str → Str → List Str
  | w, [] => if w = [] then [] else [w]
  | w, c :: cs =>
    if c.isWhitespace then (if w = [] then wordsAux [] cs else w :: wordsAux [] cs) else wordsAux (w ++ [c]) cs

def words (t : Str) : List Str := wordsAux [] t

/-- The conversions `int` and `float`, and from `float` to the elements of the resulting array -/
structure Numbers (F G : Type) where
  int : Str → Option Int
  float : Str → Option F
  cast : F → G

/-- `l[start:]` -/
def sliceFrom {α : Type} (l : List α) (start : Int) : List α :=
  if start < 0 then l.drop (l.length + start).toNat else l.drop start.toNat

/-- `l[i]`: negative indices count from the end -/
def index {α : Type} (l : List α) (i : Int) : M α :=
  if 0 ≤ i then
    match l[i.toNat]? with
    | some x => .ok x
    | none => .error .thrown
  else if 0 ≤ l.length + i then
    match l[(l.length + i).toNat]? with
    | some x => .ok x
    | none => .error .thrown
  else .error .thrown

def require {α : Type} : Option α → M α
  | some x => .ok x
  | none => .error .thrown

variable {F G : Type}

/-- Reading a file: P:1173-1178 -/
def load (num : Numbers F G) (file : List Str) : M (List Str) :=
  let lines := (file.map rstrip).filter (fun l => l ≠ [])
  do
    let l ← index lines 1
    let n ← require (num.int l)
    .ok (sliceFrom lines (n + 2))

/-- `configuration.timeseries_files` -/
abbrev Cache := AMap Str (List Str)

/-- The files which can be opened -/
abbrev Files := Str → Option (List Str)

/-- The lines of a file, and the cache: P:1169-1179 -/
def getLines (num : Numbers F G) (cache : Cache) (fs : Files) (path : Str) : M (List Str) × Cache :=
  match cache.get path with
  | some lines => (.ok lines, cache)
  | none =>
    match require (fs path) >>= load num with
    | .ok lines => (.ok lines, cache.put path lines)
    | .error err => (.error err, cache)

/-- The lookup table: P:1181-1183 -/
def lookupTable (num : Numbers F G) (lines : List Str) (timestep : Int) : M (AMap Int F) := do
  let line ← index lines (timestep - 1)
  let values ← ((words line).drop 1).mapM (fun t => require (num.float t))
  .ok (values.zipIdx.map (fun vi => ((vi.2 : Int) + 1, vi.1)))

/-- `id_expression`: a Python integer, or an array of integers. `fits`: whether a number can be represented by the
elements of the array; `isNoData`: the no-data value. -/
inductive Ids where
  | int (i : Int)
  | array (fits isNoData : Int → Bool) (x : PArr Int)

inductive Result (F G : Type) where
  | number (v : F)
  | array (x : PArr G)

/-- P:1185-1188. The identifiers in the table are converted to elements of the array: `reclassify` is not called if this
is not possible (framework/python/source/algorithm/global_operation/reclassify.cpp:152-160). -/
def select (num : Numbers F G) (mark : G) (garbage : Nat → G) (order : List Nat) (table : AMap Int F) :
    Ids → M (Result F G)
  | .int i => (require (table.get i)).map Result.number
  | .array fits isNoData x =>
    if table.all (fun e => fits e.1) then
      (Zonal.reclassify isNoData mark garbage (table.map (fun e => (e.1, num.cast e.2))) order x).map Result.array
    else .error .thrown

/-- `timeinputscalar`: P:1168-1188 -/
def timeinputscalar (num : Numbers F G) (mark : G) (garbage : Nat → G) (order : List Nat) (cache : Cache) (fs : Files)
    (path : Str) (ids : Ids) (timestep : Int) : M (Result F G) × Cache :=
  let lc := getLines num cache fs path
  (do
    let lines ← lc.1
    let table ← lookupTable num lines timestep
    select num mark garbage order table ids, lc.2)

end Lue.TimeInput

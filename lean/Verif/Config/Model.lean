import Verif.Calculate.Model

/-!
# Configuration entries

Models framework/core/source/configuration_entry.cpp (abbreviated C).

Strings are lists of characters. The configuration of HPX (`hpx::get_config_entry`) is a function from names of entries
to their values. Regular expressions are modelled as ECMAScript matches them: from left to right, greedy, with
backtracking.
-/
namespace Lue.Config

open Calculate (Str)

/-- `[[:space:]]` -/
def isSpace (c : Char) : Bool :=
  c == ' ' || c == '\t' || c == '\n' || c == '\r' || c.toNat == 11 || c.toNat == 12

/-- `p*`, followed by the rest of an expression `k`, which is passed the characters matched by `p*` and the rest of the
text. As many characters as possible are tried first. -/
def many {α : Type} (p : Char → Bool) (k : Str → Str → Option α) : Str → Str → Option α
  | acc, [] => k acc []
  | acc, c :: cs =>
    if p c then
      match many p k (acc ++ [c]) cs with
      | some r => some r
      | none => k acc (c :: cs)
    else k acc (c :: cs)

/-- `(?:$|,)`: the capture, and the text after the match -/
def endOrComma (digits : Str) : Str → Option (Str × Str)
  | [] => some (digits, [])
  | c :: t => if c = ',' then some (digits, t) else none

/-- `([[:digit:]]+)[[:space:]]*(?:$|,)` -/
def digitsAt : Str → Option (Str × Str)
  | [] => none
  | c :: cs =>
    if c.isDigit then many Char.isDigit (fun ds s => many isSpace (fun _ s => endOrComma ds s) [] s) [c] cs
    else none

/-- A match of `[[:space:]]*([[:digit:]]+)[[:space:]]*(?:$|,)` at the start of a text: the capture, and the text after
the match (C:106-107, 115-116) -/
def matchAt (s : Str) : Option (Str × Str) := many isSpace (fun _ s => digitsAt s) [] s

/-- `std::regex_search`: the first match, which may start anywhere -/
def search : Str → Option (Str × Str)
  | [] => matchAt []
  | c :: cs =>
    match matchAt (c :: cs) with
    | some r => some r
    | none => search cs

/-- `trim_vector`: C:31-45. `\[([^\]]*)\]` matches the whole value. -/
def trimVector (value : Str) : M Str :=
  match value with
  | '[' :: rest =>
    if rest.getLast? = some ']' ∧ ']' ∉ rest.dropLast then .ok rest.dropLast else .error .thrown
  | _ => .error .thrown

/-- The number with some decimal digits -/
def decimal (ds : Str) : Nat := ds.foldl (fun n c => n * 10 + (c.toNat - 48)) 0

/-- `boost::lexical_cast`, to an unsigned integer with some number of bits: an optional sign followed by digits. A
negative number is converted to an unsigned number. -/
def toUnsigned (bits : Nat) (t : Str) : M Int :=
  match t with
  | '-' :: ds =>
    if ds ≠ [] ∧ ds.all Char.isDigit ∧ decimal ds < 2 ^ bits then .ok (((2 ^ bits - decimal ds) % 2 ^ bits : Nat) : Int)
    else .error .thrown
  | '+' :: ds =>
    if ds ≠ [] ∧ ds.all Char.isDigit ∧ decimal ds < 2 ^ bits then .ok (decimal ds : Int) else .error .thrown
  | ds =>
    if ds ≠ [] ∧ ds.all Char.isDigit ∧ decimal ds < 2 ^ bits then .ok (decimal ds : Int) else .error .thrown

/-- `boost::lexical_cast`, to a signed integer -/
def toSigned (bits : Nat) (t : Str) : M Int :=
  match t with
  | '-' :: ds =>
    if ds ≠ [] ∧ ds.all Char.isDigit ∧ decimal ds ≤ 2 ^ (bits - 1) then .ok (-(decimal ds : Int)) else .error .thrown
  | '+' :: ds =>
    if ds ≠ [] ∧ ds.all Char.isDigit ∧ decimal ds < 2 ^ (bits - 1) then .ok (decimal ds : Int) else .error .thrown
  | ds =>
    if ds ≠ [] ∧ ds.all Char.isDigit ∧ decimal ds < 2 ^ (bits - 1) then .ok (decimal ds : Int) else .error .thrown

/-- The loop of `cast_list`: C:58-74. The first argument bounds the number of iterations (the loop of the model diverges
if it does not suffice). -/
def castLoop (cast : Str → M Int) : Nat → Str → List Int → M (List Int)
  | 0, _, _ => .error .diverged
  | n + 1, s, result =>
    match search s with
    | some (ds, t) => do
      let v ← cast ds
      castLoop cast n t (result ++ [v])
    | none => if s = [] then .ok result else .error .thrown

/-- `cast_list`: C:51-77 -/
def castList (cast : Str → M Int) (value : Str) : M (List Int) := do
  let s ← trimVector value
  castLoop cast (s.length + 1) s []

/-- The types of entries: `std::uint32_t`, `std::int32_t`, `std::uint64_t`, `std::int64_t`, `std::string`, vectors and
shapes of 64 bit integers: C:225-243 -/
inductive Ty where
  | unsigned (bits : Nat)
  | signed (bits : Nat)
  | string
  | unsignedList
  | signedList
  | unsignedShape
  | signedShape

/-- A value of an entry -/
inductive Val where
  | int (v : Int)
  | string (v : Str)
  | list (v : List Int)
  | shape (a b : Int)
  deriving DecidableEq

/-- C:123-130, 145-152 -/
def toShape : List Int → M Val
  | [a, b] => .ok (.shape a b)
  | _ => .error .thrown

/-- `cast`: C:80-163 -/
def cast : Ty → Str → M Val
  | .unsigned bits, t => (toUnsigned bits t).map Val.int
  | .signed bits, t => (toSigned bits t).map Val.int
  | .string, t => .ok (.string t)
  | .unsignedList, t => (castList (toUnsigned 64) t).map Val.list
  | .signedList, t => (castList (toSigned 64) t).map Val.list
  | .unsignedShape, t => castList (toUnsigned 64) t >>= toShape
  | .signedShape, t => castList (toSigned 64) t >>= toShape

/-- The configuration of HPX -/
abbrev Configuration := Str → Option Str

/-- `configuration_entry`: C:24-28 -/
def configurationEntry (conf : Configuration) (section_ key default : Str) : Str :=
  (conf (section_ ++ '.' :: key)).getD default

/-- The part of a path after the last slash -/
def fileName (path : Str) : Str :=
  match Calculate.splitLast '/' path with
  | some (_, n) => n.drop 1
  | none => path

/-- `application_section`: C:14-21 -/
def applicationSection (conf : Configuration) : Str :=
  "application.".toList ++ fileName ((conf "hpx.program_name".toList).getD [])

/-- `required_configuration_entry` (section and key): C:168-180 -/
def requiredIn (conf : Configuration) (ty : Ty) (section_ key : Str) : M Val :=
  if configurationEntry conf section_ key [] = [] then .error .thrown
  else cast ty (configurationEntry conf section_ key [])

/-- `required_configuration_entry`: C:183-187 -/
def required (conf : Configuration) (ty : Ty) (key : Str) : M Val := requiredIn conf ty (applicationSection conf) key

/-- `optional_configuration_entry` (section and key): C:190-196 -/
def optionalIn (conf : Configuration) (ty : Ty) (section_ key : Str) (default : Val) : M Val :=
  if configurationEntry conf section_ key [] ≠ [] then cast ty (configurationEntry conf section_ key [])
  else .ok default

/-- `optional_configuration_entry`: C:199-203 -/
def optional (conf : Configuration) (ty : Ty) (key : Str) (default : Val) : M Val :=
  optionalIn conf ty (applicationSection conf) key default

end Lue.Config

import Verif.Util.AMap
import Mathlib.Data.List.Nodup

/-!
# Archives

When a task is run in another process, its arguments and its result are written to and read from an archive: a sequence of bytes. The HPX
library takes care of scalars and of the collections of the C++ standard library. It is modelled by its contract: scalars are copied byte by
byte, and collections are written as their size, followed by their elements.

Objects are read in place: an existing object is changed. What isn't read keeps the value it has.
-/
namespace Lue.Wire

abbrev Byte := Fin 256
abbrev Bytes := List Byte

/-- `serialize(output_archive&, T const&)` and `serialize(input_archive&, T&)` -/
structure Codec (T : Type) where
  /-- What is written to the archive -/
  put : T → Bytes
  /-- Read from the archive into an existing object. The result is the object and what remains of the archive. The result is none if the
  end of the archive is reached. -/
  get : T → Bytes → Option (T × Bytes)

/-! ## Scalars -/

/-- A scalar which consists of `n` bytes: an integer, or the representation of a floating point number -/
abbrev Word (n : Nat) := Fin (256 ^ n)

/-- The bytes of a number: the least significant one first -/
def putNat : Nat → Nat → Bytes
  | 0, _ => []
  | n + 1, x => ⟨x % 256, Nat.mod_lt _ (by decide)⟩ :: putNat n (x / 256)

def getNat : Nat → Bytes → Option (Nat × Bytes)
  | 0, b => some (0, b)
  | _ + 1, [] => none
  | n + 1, x :: b => (getNat n b).map fun r => (x.val + 256 * r.1, r.2)

/-- Scalars of `n` bytes -/
def word (n : Nat) : Codec (Word n) where
  put x := putNat n x.val
  get _ b := (getNat n b).map fun r => (⟨r.1 % 256 ^ n, Nat.mod_lt _ (Nat.pow_pos (by decide))⟩, r.2)

/-- `std::ptrdiff_t`, `std::size_t`, ..., for numbers which are not negative -/
def count : Codec Nat where
  put x := putNat 8 x
  get _ b := getNat 8 b

/-- `bool` -/
def boolean : Codec Bool where
  put x := putNat 1 (if x then 1 else 0)
  get _ b := (getNat 1 b).map fun r => (r.1 != 0, r.2)

/-! ## Members -/

/-- `archive & _member` -/
def member {T M : Type} (c : Codec M) (value : T → M) (assign : T → M → T) : Codec T where
  put x := c.put (value x)
  get d b := (c.get (value d) b).map fun r => (assign d r.1, r.2)

/-- `archive & _member1 & _member2 & ...`: one member after the other -/
def members {T : Type} : List (Codec T) → Codec T
  | [] => ⟨fun _ => [], fun d b => some (d, b)⟩
  | m :: ms => ⟨fun x => m.put x ++ (members ms).put x, fun d b => (m.get d b).bind fun r => (members ms).get r.1 r.2⟩

/-- A class without members -/
def nothing {T : Type} : Codec T := members []

/-! ## Collections -/

/-- Read objects one after the other. -/
def getMany {T : Type} (c : Codec T) (d : T) : Nat → Bytes → Option (List T × Bytes)
  | 0, b => some ([], b)
  | n + 1, b => (c.get d b).bind fun r => (getMany c d n r.2).map fun q => (r.1 :: q.1, q.2)

/-- Read into each of the objects in a collection whose size is known. -/
def getEach {T : Type} (c : Codec T) : List T → Bytes → Option (List T × Bytes)
  | [], b => some ([], b)
  | d :: ds, b => (c.get d b).bind fun r => (getEach c ds r.2).map fun q => (r.1 :: q.1, q.2)

/-- `std::array`, and `std::tuple` with elements of similar types -/
def fixed {T : Type} (c : Codec T) : Codec (List T) := ⟨fun x => x.flatMap c.put, fun d b => getEach c d b⟩

/-- `std::vector` -/
def vector {T : Type} (c : Codec T) (d : T) : Codec (List T) where
  put x := count.put x.length ++ x.flatMap c.put
  get _ b := (count.get 0 b).bind fun r => getMany c d r.1 r.2

/-- `std::pair` -/
def pair {A B : Type} (a : Codec A) (b : Codec B) : Codec (A × B) :=
  members [member a Prod.fst (fun x y => (y, x.2)), member b Prod.snd (fun x y => (x.1, y))]

/-- Elements are inserted if they are not already present. -/
def insertAll {K V : Type} [DecidableEq K] (m : AMap K V) (l : List (K × V)) : AMap K V :=
  l.foldl (fun m e => if (m.get e.1).isSome then m else m ++ [e]) m

/-- `std::map`, `std::unordered_map`: the pairs are inserted in a map without elements. The order in which an `std::unordered_map` is iterated
over is not known, and isn't something that can be relied upon. -/
def map {K V : Type} [DecidableEq K] (k : Codec K) (v : Codec V) (dk : K) (dv : V) : Codec (AMap K V) where
  put x := count.put x.length ++ x.flatMap (pair k v).put
  get _ b := (count.get 0 b).bind fun r => (getMany (pair k v) (dk, dv) r.1 r.2).map fun q => (insertAll [] q.1, q.2)

/-- `std::set`, `std::unordered_set`: insert an element -/
def insertElement {K : Type} [DecidableEq K] (m : List K) (k : K) : List K := if k ∈ m then m else m ++ [k]

/-- `std::set`, `std::unordered_set` -/
def set {K : Type} [DecidableEq K] (k : Codec K) (dk : K) : Codec (List K) where
  put x := count.put x.length ++ x.flatMap k.put
  get _ b := (count.get 0 b).bind fun r => (getMany k dk r.1 r.2).map fun q => (q.1.foldl insertElement [], q.2)

/-! ## What is expected -/

/-- What is written is what is read, whatever the object that is read into (as long as it is of the right type: `Into`), and nothing of what
is written next is touched. -/
def Exact {T : Type} (c : Codec T) (Valid : T → Prop) (Into : T → T → Prop := fun _ _ => True) : Prop :=
  ∀ x d, Valid x → Into x d → ∀ rest, c.get d (c.put x ++ rest) = some (x, rest)

/-- All values can be written. -/
def Any {T : Type} : T → Prop := fun _ => True

/-- The size of a collection can be represented. -/
def Fits (n : Nat) : Prop := n < 2 ^ 63

end Lue.Wire

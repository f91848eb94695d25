import Verif.KernelPy.Model

/-!
# Specification of passing NumPy arrays by reference
-/
namespace Lue.KernelPy

variable {W : Type}

/-- NumPy: the element with indices `idxs` of an array is stored at the position of the first element, plus the sum of index times
stride. -/
def Strided.At (a : Strided W) (idxs : List Nat) (w : W) : Prop :=
  ∃ p : Nat, (p : Int) = a.offset + ((idxs.zip a.strides).map fun e => (e.1 : Int) * e.2).sum ∧ a.mem[p]? = some w

/-- The array has `n` rows and `m` columns, and the values `w`. -/
structure Strided.Is2 (a : Strided W) (n m : Nat) (w : Nat → Nat → W) : Prop where
  shape_eq : a.shape = [n, m]
  at_ : ∀ i j, i < n → j < m → a.At [i, j] (w i j)

/-- The array has `n` elements, and the values `w`. -/
structure Strided.Is1 (a : Strided W) (n : Nat) (w : Nat → W) : Prop where
  shape_eq : a.shape = [n]
  at_ : ∀ i, i < n → a.At [i] (w i)

end Lue.KernelPy

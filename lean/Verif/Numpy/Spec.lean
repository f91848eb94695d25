import Verif.Numpy.Model
import Verif.GdalIO.Spec

/-!
# NumPy arrays: specification
-/
namespace Lue.Numpy

open Lue.GdalIO

/-- Cell (i, j) of a NumPy array of rank 2 is `x`. -/
def NumpyArray.HasCell {α : Type} (a : NumpyArray α) (i j : Nat) (x : α) : Prop :=
  ∃ rows cols, a.shape = [rows, cols] ∧ i < rows ∧ j < cols ∧ a.data[i * cols + j]? = some x

/-- A NumPy array: the buffer contains as many elements as the shape tells. -/
def NumpyArray.Valid {α : Type} (a : NumpyArray α) (rows cols : Nat) : Prop :=
  a.shape = [rows, cols] ∧ a.data.length = rows * cols

/-- Array element `y` is what is expected for NumPy element `x`: no-data if `x` is the value representing no-data, and
otherwise the same value. -/
def Imports {α : Type} (T : ElementType α) (noDataValue : Option α) (x y : α) : Prop :=
  (Missing T noDataValue x → IsNoData T y) ∧ (¬ Missing T noDataValue x → y = x)

/-- NumPy element `y` is what is expected for array element `x`: the value representing no-data if `x` is no-data and such
a value is passed in, and otherwise the same value. -/
def Exports {α : Type} (T : ElementType α) (noDataValue : Option α) (x y : α) : Prop :=
  (∀ v, noDataValue = some v → IsNoData T x → y = v) ∧ ((noDataValue = none ∨ ¬ IsNoData T x) → y = x)

end Lue.Numpy

import Verif.Model.Py
import Mathlib.Algebra.BigOperators.Group.Finset.Basic
import Mathlib.Algebra.Order.BigOperators.Group.Finset
import Mathlib.Data.Real.Basic

/-!
# Two-dimensional arrays

The NumPy operations used by `acmpy` on two-dimensional float arrays.  An array is its
shape and its entries; entries outside the shape are 0, so that equal arrays are equal
values.  Floats are real numbers: rounding, overflow, `nan` and `inf` are not modelled.

Simplification: `np.array` of an empty list of rows is one-dimensional in NumPy; here it is
the 0 x 0 array.
-/

namespace Acm

/-- A two-dimensional array. -/
@[ext] structure Arr where
  rows : ℕ
  cols : ℕ
  e : ℕ → ℕ → ℝ

/-- The array of a shape with given entries (0 outside). -/
noncomputable def Arr.of (n m : ℕ) (f : ℕ → ℕ → ℝ) : Arr :=
  ⟨n, m, fun i j => if i < n ∧ j < m then f i j else 0⟩

/-- `np.array([[f(i, j) for j in range(m)] for i in range(n)])`, where `f` may raise.
Simplification: if some entry raises, the model raises `ValueError` (the only exception that
the matrix-element functions raise). -/
noncomputable def Arr.ofM (n m : ℕ) (f : ℕ → ℕ → Py ℝ) : Py Arr :=
  open Classical in
  if ∀ i < n, ∀ j < m, ∃ x, f i j = .ok x then
    pure (Arr.of n m fun i j => match f i j with | .ok x => x | .error _ => 0)
  else throw .valueError

/-- `np.array(xss)` of a list of rows of equal length. -/
noncomputable def Arr.ofLists (xss : List (List ℝ)) : Arr :=
  Arr.of xss.length (xss.headD []).length fun i j => (xss.getD i []).getD j 0

/-- `A @ B`.  Simplification: NumPy raises `ValueError` when the shapes do not match; the
modelled code only multiplies matching shapes. -/
noncomputable def Arr.mul (A B : Arr) : Arr :=
  Arr.of A.rows B.cols fun i j => ∑ k ∈ Finset.range A.cols, A.e i k * B.e k j

/-- `A * c`. -/
noncomputable def Arr.smul (c : ℝ) (A : Arr) : Arr := Arr.of A.rows A.cols fun i j => A.e i j * c

/-- `A + B` for equal shapes. -/
noncomputable def Arr.add (A B : Arr) : Arr :=
  Arr.of A.rows A.cols fun i j => A.e i j + B.e i j

/-- `A.T`. -/
def Arr.T (A : Arr) : Arr := ⟨A.cols, A.rows, fun i j => A.e j i⟩

/-- `np.eye(n)`. -/
noncomputable def Arr.eye (n : ℕ) : Arr := Arr.of n n fun i j => if i = j then 1 else 0

/-- `np.zeros((n, m))`. -/
noncomputable def Arr.zeros (n m : ℕ) : Arr := Arr.of n m fun _ _ => 0

/-- `np.diag(v)` for a vector of length `n`. -/
noncomputable def Arr.diag (n : ℕ) (v : ℕ → ℝ) : Arr :=
  Arr.of n n fun i j => if i = j then v i else 0

/-- A slice bound `i` of an axis of length `n`: negative bounds count from the end, and bounds
are clipped to `0..n`. -/
def sliceBound (n : ℕ) (i : Int) : ℕ := if i < 0 then (i + n).toNat else min i.toNat n

/-- `A[a:b, c:d]`. -/
noncomputable def Arr.slice (A : Arr) (a b c d : Int) : Arr :=
  Arr.of (sliceBound A.rows b - sliceBound A.rows a) (sliceBound A.cols d - sliceBound A.cols c)
    fun i j => A.e (sliceBound A.rows a + i) (sliceBound A.cols c + j)

end Acm

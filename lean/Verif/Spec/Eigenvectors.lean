import Verif.Model.Eigenvectors
import Verif.Spec.Radial

/-! What SymPy documents about `diagonalize`. -/

namespace Acm.Spec

open Acm

/-- The array as a complex matrix. -/
noncomputable def cmat (n : ℕ) (A : Arr) : Matrix (Fin n) (Fin n) ℂ := Matrix.of fun i j => (A.e i j : ℂ)

/-- `P` is invertible, `D` is diagonal and `M P = P D`. -/
def Diagonalizes {n : ℕ} (M P D : Matrix (Fin n) (Fin n) ℂ) : Prop :=
  IsUnit P ∧ (∀ i j, i ≠ j → D i j = 0) ∧ M * P = P * D

/-- What SymPy documents about `M.diagonalize()`: what it returns diagonalises the square matrix `M`; a matrix that is not square is refused with
`NonSquareMatrixError`, a `ValueError`. -/
structure DiagonalizeOk (sd : Diagonalizer) : Prop where
  nonsquare : ∀ M : Arr, M.rows ≠ M.cols → sd.diagonalize M = .error .valueError
  sound : ∀ (M : Arr) P D, sd.diagonalize M = .ok (P, D) → M.rows = M.cols ∧ Diagonalizes (cmat M.rows M) P D

/-- `M.diagonalize()` returns for every diagonalisable matrix.  (SymPy does so when it can find the eigenvalues.) -/
def DiagonalizeComplete (sd : Diagonalizer) : Prop :=
  ∀ M : Arr, M.rows = M.cols → (∃ P D, Diagonalizes (cmat M.rows M) P D) → ∃ r, sd.diagonalize M = .ok r

/-- The matrix `M` is similar over the reals to a diagonal matrix. -/
def RealDiagonalizable {n : ℕ} (M : Matrix (Fin n) (Fin n) ℝ) : Prop :=
  ∃ (Q : Matrix (Fin n) (Fin n) ℝ) (w : Fin n → ℝ), IsUnit Q ∧ M * Q = Q * Matrix.diagonal w

end Acm.Spec

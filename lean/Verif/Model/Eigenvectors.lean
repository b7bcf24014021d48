import Verif.Model.Radial
import Mathlib.LinearAlgebra.Matrix.NonsingularInverse
import Mathlib.Analysis.Complex.Basic

/-!
# `Eigenvectors` (src/acmpy/eigenvalues.py lines 80-89)

A SymPy matrix of numbers is an array of reals; what SymPy computes from it may be complex.
-/

namespace Acm

/-- SymPy's `M.diagonalize()`, which the model takes as a parameter: the pair (P, D), or the error it raises. -/
structure Diagonalizer where
  diagonalize : (M : Arr) → Py (Matrix (Fin M.rows) (Fin M.rows) ℂ × Matrix (Fin M.rows) (Fin M.rows) ℂ)

open Classical in
/-- `float` of a SymPy number: a complex number that is not real is refused.  (SymPy evaluates the number to a precision first; here the number is
exact.) -/
noncomputable def floatOf (z : ℂ) : Py ℝ := if z.im = 0 then pure z.re else throw .typeError

/-- eigenvalues.py lines 80-89 `Eigenvectors`. -/
noncomputable def Eigenvectors (sd : Diagonalizer) (M : Arr) : Py (List ℝ × Matrix (Fin M.rows) (Fin M.rows) ℂ) := do
  let (P, D) ← sd.diagonalize M
  let eigenvalues ← (List.finRange M.rows).mapM fun i => floatOf (D i i)
  pure (eigenvalues, P)

end Acm

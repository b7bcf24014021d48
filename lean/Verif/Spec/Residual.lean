import Verif.Model.NumPy
import Mathlib.Algebra.BigOperators.Group.Finset.Basic

/-!
# Specification for C136: trial states
-/

namespace Acm.Spec

/-- The components of a symmetrised `n` by `n` matrix applied to the state with components `w`. -/
noncomputable def applied (n : ℕ) (M : Arr) (w : ℕ → ℝ) (p : ℕ) : ℝ := ∑ q ∈ Finset.range n, (M.e p q + M.e q p) / 2 * w q

/-- The square of the length of the state with components `w`. -/
noncomputable def length2 (n : ℕ) (w : ℕ → ℝ) : ℝ := ∑ p ∈ Finset.range n, w p ^ 2

/-- The expectation value of the symmetrised matrix in the state with components `w`, for a state of length 1. -/
noncomputable def meanOf (n : ℕ) (M : Arr) (w : ℕ → ℝ) : ℝ := ∑ p ∈ Finset.range n, w p * applied n M w p

end Acm.Spec

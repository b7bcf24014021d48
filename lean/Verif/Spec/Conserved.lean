import Verif.Model.NumPy
import Mathlib.Algebra.BigOperators.Group.Finset.Basic

/-!
# Specification for C138: quantities that commute with the Hamiltonian
-/

namespace Acm.Spec

/-- An element of the commutator of the symmetrised `n` by `n` matrix of `M` with the matrix `N`. -/
noncomputable def bracketOf (n : ℕ) (M N : Arr) (p q : ℕ) : ℝ :=
  ∑ k ∈ Finset.range n, ((M.e p k + M.e k p) / 2 * N.e k q - N.e p k * ((M.e k q + M.e q k) / 2))

end Acm.Spec

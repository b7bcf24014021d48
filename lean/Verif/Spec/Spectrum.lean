import Verif.Model.FullSpace

/-!
# Specification vocabulary for exactly solvable Hamiltonians
-/

namespace Acm.Spec

/-- The energy of a label `(nu, v, alpha, L)` for the Hamiltonian `c11 laplacian + c20 + c21 beta^2 + c23 / beta^2` in the
basis of scale `a` that diagonalises it: equidistant in `nu`, with `lambda` depending on the seniority. -/
noncomputable def oscEnergy (c11 c20 a : ℝ) (lam : Int → ℝ) (x : XspaceLabel) : ℝ :=
  c20 - c11 * a ^ 2 * (4 * x.1 + 2 * lam x.2.1)

/-- The numbers in `es` are the energies `E` of the labels in `xs`, each as often as it occurs, in ascending order. -/
def IsSpectrum (E : XspaceLabel → ℝ) (xs : List XspaceLabel) (es : List ℝ) : Prop :=
  es.Perm (xs.map E) ∧ es.Pairwise (· ≤ ·)

end Acm.Spec

import Verif.Model.FullSpace

/-!
# What does not depend on the eigenvalue routine

Eigenvectors are determined up to sign at best, and up to an orthogonal transformation of the eigenvectors of the same eigenvalue in general.
-/

namespace Acm.Spec

/-- The angular momenta with their eigenvalues, without the eigenvectors. -/
def levels (r : List LEig) : List (Int × List ℝ) := r.map fun x => (x.L, x.vals)

/-- The squares of the elements of a block between the levels `xs` (rows) and `ys` (columns), added up with weights that depend on
the energies. -/
noncomputable def strength (g h : ℝ → ℝ) (xs ys : List ℝ) (B : Arr) : ℝ :=
  ∑ f : Fin xs.length, ∑ i : Fin ys.length, g xs[f] * h ys[i] * B.e f i ^ 2

/-- The diagonal elements of a block between the levels `xs` and themselves, added up with weights that depend on the energies. -/
noncomputable def moment (g : ℝ → ℝ) (xs : List ℝ) (B : Arr) : ℝ := ∑ f : Fin xs.length, g xs[f] * B.e f f

/-- Level number `k` is the only one with its energy. -/
def Simple (xs : List ℝ) (k : ℕ) : Prop := ∃ x, xs[k]? = some x ∧ ∀ j, xs[j]? = some x → j = k

/-- Another routine: eigenvector number `j` is multiplied by `σ j`. -/
noncomputable def withSigns (σ : ℕ → ℝ) (la : LinAlg) : LinAlg where
  eigh A := ((la.eigh A).1, Arr.of (la.eigh A).2.rows (la.eigh A).2.cols fun i j => σ j * (la.eigh A).2.e i j)
  inv := la.inv

end Acm.Spec

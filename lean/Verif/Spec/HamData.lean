import Verif.Model.HamData

/-!
# Specification for hamiltonian_data.py

The expectation value of the Hamiltonian as a function of the parameters of the basis, after the comments of
the file and equation (B16) of the paper it cites, for any seniority; and what the solvers are assumed to do.
-/

namespace Acm.Spec

/-- (B16) with `9/4` replaced by `(v + 3/2)^2` (hamiltonian_data.py lines 117-121), as a function of `A = a^2` and `lambda`. -/
noncomputable def energy (B c1 c2 kappa : ℝ) (v : ℕ) (lam A : ℝ) : ℝ :=
  (1 / (2 * B)) * (A * (1 + (v + 3 / 2) ^ 2 / (lam - 1))) + (B / 2) * (c1 * (lam / A) + c2 * (lam * (lam + 1) / A ^ 2))
    + kappa / 3

/-- (B11) via (B15): the `lambda` that suits `A = a^2`.  The minimum of the potential is at `beta_0` with
`beta_0^2 = -c1 / (2 c2)` if `c1 < 0` and at 0 otherwise. -/
noncomputable def lamOf (c1 c2 : ℝ) (v : ℕ) (A : ℝ) : ℝ :=
  1 + Real.sqrt ((v + 3 / 2) ^ 2 + (A * max 0 (-c1 / (2 * c2))) ^ 2)

/-- What the solvers are assumed to do: a solution set that is finite is listed without repetitions; a root
reported for a continuous function that is negative at the lower and positive at the upper end lies in the bracket. -/
structure SolverOk (sv : Solver) : Prop where
  solveset : ∀ F : ℝ → ℝ, {x | F x = 0}.Finite → (sv.solveset F).Nodup ∧ ∀ x, x ∈ sv.solveset F ↔ F x = 0
  root_scalar : ∀ (F : ℝ → ℝ) (lo hi r : ℝ), Continuous F → lo < hi → F lo < 0 → 0 < F hi →
    sv.root_scalar F lo hi = some r → lo ≤ r ∧ r ≤ hi ∧ F r = 0

/-- The potential of the Hamiltonian (hamiltonian_data.py lines 15-25): `B/2 (c1 beta^2 + c2 beta^4)`. -/
noncomputable def rwcPotential (B c1 c2 beta : ℝ) : ℝ := B / 2 * (c1 * beta ^ 2 + c2 * beta ^ 4)

/-- The Davidson potential of which the states of the basis with parameter `a` are eigenstates, with its minimum at
`beta_0` (0 for the harmonic oscillator). -/
noncomputable def davPotential (B a beta0 beta : ℝ) : ℝ := a ^ 4 / (2 * B) * (beta ^ 2 + beta0 ^ 4 / beta ^ 2)

end Acm.Spec

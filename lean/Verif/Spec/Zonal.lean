import Mathlib.Algebra.Polynomial.Derivative
import Mathlib.Data.Real.Basic

/-!
# Specification vocabulary for the SO(5)-reduced matrix elements

The zonal harmonics of the unit sphere in five dimensions: the functions on the sphere which depend on
the coordinate `x` along one axis only and belong to the eigenvalue `v (v + 3)` of the SO(5) Casimir operator.  On such functions
minus the Laplace operator of the sphere is `-(1 - x^2) d^2/dx^2 + 4 x d/dx`.
-/

namespace Acm.Spec.Sphere

open Polynomial

/-- The zonal harmonic of seniority `v`, with the value 1 at the pole. -/
structure Zonal (v : ℕ) (p : ℝ[X]) : Prop where
  ode : (1 - X ^ 2) * derivative (derivative p) - 4 * X * derivative p + C ((v : ℝ) * (v + 3)) * p = 0
  pole : p.eval 1 = 1

/-- The number of states of seniority `v`. -/
noncomputable def dim (v : ℕ) : ℝ := (v + 1) * (v + 2) * (2 * v + 3) / 6

end Acm.Spec.Sphere

import Verif.Spec.RadialBasis
import Mathlib.MeasureTheory.Integral.IntervalIntegral.Basic
import Mathlib.Analysis.SpecialFunctions.Trigonometric.Basic

/-!
# Specification vocabulary for the expectation values of the Rowe-Welsh-Caprio Hamiltonian

The Hamiltonian as a differential operator, on functions of `beta` times a harmonic of seniority `v`; the radial measure is
`d beta`, so that the Laplace operator is `d^2/dbeta^2 - (2 + v(v+3))/beta^2`.
-/

namespace Acm.Spec.RWC

open MeasureTheory

/-- The Hamiltonian (89) of [RWC2009], applied to `f(beta)` times a harmonic of seniority `v`, divided by the harmonic. -/
noncomputable def ham (B c1 c2 chi kappa : ℝ) (v : ℕ) (f : ℝ → ℝ) (b g : ℝ) : ℝ :=
  -1 / (2 * B) * (deriv (deriv f) b - (2 + v * (v + 3)) * f b / b ^ 2) + B / 2 * (c1 * b ^ 2 + c2 * b ^ 4) * f b
    - chi * (b * Real.cos (3 * g)) * f b + kappa * Real.cos (3 * g) ^ 2 * f b

/-- The mean over the angle `gamma`, with the measure `sin(3 gamma) d gamma`. -/
noncomputable def gammaMean (F : ℝ → ℝ) : ℝ :=
  (∫ g in (0 : ℝ)..(Real.pi / 3), F g * Real.sin (3 * g)) / ∫ g in (0 : ℝ)..(Real.pi / 3), Real.sin (3 * g)

end Acm.Spec.RWC

import Verif.Spec.Momentum
import Mathlib.Analysis.SpecialFunctions.Gamma.Basic
import Mathlib.MeasureTheory.Integral.Bochner.Set

/-!
# Specification vocabulary for the radial basis

The orthonormal functions on `(0, infinity)` in which the radial matrix elements are taken: eq. (12) of the ACM
paper (D.A. Rowe, T.A. Welsh, M.A. Caprio), with the measure `d beta`.
-/

namespace Acm.Spec.RadialBasis

open MeasureTheory Set

/-- The generalised Laguerre polynomial `L_n^(alpha)(x)`. -/
noncomputable def laguerre (n : ℕ) (alpha x : ℝ) : ℝ :=
  ∑ k ∈ Finset.range (n + 1), (-1) ^ k / (k.factorial * (n - k).factorial) * (∏ i ∈ Finset.Ico k n, (alpha + 1 + i)) * x ^ k

/-- The radial wave function with the scale `a` and the labels `lambda`, `nu`. -/
noncomputable def radialFn (a lam : ℝ) (nu : ℕ) (b : ℝ) : ℝ :=
  (-1) ^ nu * Real.sqrt (2 * a * nu.factorial / Real.Gamma (lam + nu)) * (a * b) ^ (lam - 1 / 2)
    * Real.exp (-(a * b) ^ 2 / 2) * laguerre nu (lam - 1) ((a * b) ^ 2)

/-- The operators: multiplications and derivatives as in `Spec.Momentum.act`; the SU(1,1) generators for the scale
`a` and the given `lambda`; `none` is the identity. -/
noncomputable def opAct (a lam : ℝ) : Option RadSym → (ℝ → ℝ) → ℝ → ℝ
  | none, f => f
  | some .S0, f => fun b => (-deriv (deriv f) b / a ^ 2 + (lam - 3 / 2) * (lam - 1 / 2) * f b / (a * b) ^ 2 + (a * b) ^ 2 * f b) / 4
  | some .Sp, f => fun b => (deriv (deriv f) b / a ^ 2 - (lam - 3 / 2) * (lam - 1 / 2) * f b / (a * b) ^ 2 + (a * b) ^ 2 * f b
      - 2 * b * deriv f b - f b) / 4
  | some .Sm, f => fun b => (deriv (deriv f) b / a ^ 2 - (lam - 3 / 2) * (lam - 1 / 2) * f b / (a * b) ^ 2 + (a * b) ^ 2 * f b
      + 2 * b * deriv f b + f b) / 4
  | some s, f => Momentum.act s f

/-- The integral of the product of two functions exists and is `x`. -/
def Overlap (f g : ℝ → ℝ) (x : ℝ) : Prop :=
  IntegrableOn (fun b => f b * g b) (Ioi 0) ∧ ∫ b in Ioi 0, f b * g b = x

end Acm.Spec.RadialBasis

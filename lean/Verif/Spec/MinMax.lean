import Verif.Spec.Residual

/-!
# Specification for C137: combinations of trial states
-/

namespace Acm.Spec

/-- The combination of the states `w` with the coefficients `c`. -/
noncomputable def blend {k : ℕ} (w : Fin k → ℕ → ℝ) (c : Fin k → ℝ) (p : ℕ) : ℝ := ∑ i, c i * w i p

/-- No combination of the states `w` of a space of dimension `n` is zero but the one with all coefficients zero. -/
def Unrelated (n : ℕ) {k : ℕ} (w : Fin k → ℕ → ℝ) : Prop := ∀ c : Fin k → ℝ, (∀ p < n, blend w c p = 0) → c = 0

end Acm.Spec

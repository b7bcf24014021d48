import Mathlib.Analysis.Real.Sqrt
import Mathlib.Algebra.BigOperators.Intervals
import Mathlib.Algebra.Order.Floor.Semiring
import Mathlib.Data.Rat.Floor

/-!
# Independent specification: what the Clebsch-Gordan coefficients of SU(2) are

The textbook characterisation: the states `|j3 M>` in the product of the irreps `j1` and `j2` are obtained by lowering a
highest state of norm 1 with the phase of Condon and Shortley. No formula for the coefficients.
-/

namespace Acm.Spec

/-- `m` is a projection of the angular momentum `j`. -/
def Proj (j m : ℚ) : Prop := (-j ≤ m ∧ m ≤ j) ∧ ∃ n : ℤ, j + m = n

/-- The factor of `J_-` from `m + 1` to `m` and of `J_+` from `m` to `m + 1`. -/
noncomputable def stepFactor (j m : ℚ) : ℝ := Real.sqrt (((j : ℝ) - m) * (j + m + 1))

/-- The sum over the projections `-j, -j+1, ..., j`. -/
noncomputable def projSum (j : ℚ) (f : ℚ → ℝ) : ℝ := ∑ i ∈ Finset.range (⌊2 * j⌋₊ + 1), f (i - j)

/-- `C m1 m2` are the coefficients of the states `|j3, m1 + m2>` in the product basis `|j1 m1> |j2 m2>`. -/
structure IsClebschGordan (j1 j2 j3 : ℚ) (C : ℚ → ℚ → ℝ) : Prop where
  /-- coefficients exist only between projections -/
  zero : ∀ m1 m2, ¬ (Proj j1 m1 ∧ Proj j2 m2 ∧ Proj j3 (m1 + m2)) → C m1 m2 = 0
  /-- `J_- |j3, M + 1> = sqrt((j3 - M)(j3 + M + 1)) |j3, M>`, component `m1 m2` -/
  lower : ∀ m1 m2, Proj j1 m1 → Proj j2 m2 → Proj j3 (m1 + m2) → m1 + m2 < j3 →
    stepFactor j3 (m1 + m2) * C m1 m2 = stepFactor j1 m1 * C (m1 + 1) m2 + stepFactor j2 m2 * C m1 (m2 + 1)
  /-- `J_+ |j3, j3> = 0`, component `m1 m2` -/
  highest : ∀ m1 m2, Proj j1 m1 → Proj j2 m2 → m1 + m2 = j3 + 1 →
    stepFactor j1 (m1 - 1) * C (m1 - 1) m2 + stepFactor j2 (m2 - 1) * C m1 (m2 - 1) = 0
  /-- the highest state has norm 1 -/
  norm : projSum j1 (fun m1 => C m1 (j3 - m1) ^ 2) = 1
  /-- the phase of Condon and Shortley -/
  phase : 0 < C j1 (j3 - j1)

/-- `j1`, `j2` and `j3` can be coupled. -/
def Couples (j1 j2 j3 : ℚ) : Prop :=
  (∃ n : ℤ, 2 * j1 = n) ∧ (∃ n : ℤ, 2 * j2 = n) ∧ (∃ n : ℤ, j1 + j2 + j3 = n) ∧
    j1 ≤ j2 + j3 ∧ j2 ≤ j1 + j3 ∧ j3 ≤ j1 + j2

end Acm.Spec

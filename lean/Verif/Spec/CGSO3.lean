import Mathlib.Analysis.Real.Sqrt
import Mathlib.Data.Nat.Factorial.Basic
import Mathlib.Algebra.BigOperators.Intervals

/-!
# Independent specification: SO(3) Clebsch-Gordan coefficients
-/

namespace Acm.Spec

/-- `x` is a half-integer (integers included). -/
def HalfInt (x : ℚ) : Prop := ∃ n : ℤ, x = n / 2

/-- The selection rules for the coefficient `(j1 m1 j2 m2 | j3 m3)` to be defined by angular
momentum theory: projections in range and congruent to their angular momentum, conservation of
the projection, triangle condition. -/
def CGRules (j1 m1 j2 m2 j3 m3 : ℚ) : Prop :=
  (-j1 ≤ m1 ∧ m1 ≤ j1) ∧ (-j2 ≤ m2 ∧ m2 ≤ j2) ∧ (-j3 ≤ m3 ∧ m3 ≤ j3) ∧
  (∃ n : ℤ, j1 + m1 = n) ∧ (∃ n : ℤ, j2 + m2 = n) ∧ (∃ n : ℤ, j3 + m3 = n) ∧
  m1 + m2 = m3 ∧ (j1 - j2 ≤ j3 ∧ j2 - j1 ≤ j3 ∧ j3 ≤ j1 + j2)

end Acm.Spec

import Verif.Spec.Harmonics
import Mathlib.Analysis.SpecialFunctions.Integrals.Basic
import Mathlib.Tactic.FieldSimp

/-!
# Integrals of functions of cos(3 gamma)
-/

namespace Acm

open Acm.Spec

/-- The integral of an even polynomial of degree 4 in `cos(3 gamma)`. -/
theorem integral_cos3 (A B C : ℝ) :
    ∫ g in (0 : ℝ)..(Real.pi / 3), (A + B * Real.cos (3 * g) ^ 2 + C * Real.cos (3 * g) ^ 4) * Real.sin (3 * g)
      = 2 / 3 * (A + B / 3 + C / 5) := by
  have hd : ∀ g : ℝ, HasDerivAt (fun g : ℝ => -(1 / 3) * (A * Real.cos (3 * g) + B / 3 * Real.cos (3 * g) ^ 3 +
      C / 5 * Real.cos (3 * g) ^ 5))
      ((A + B * Real.cos (3 * g) ^ 2 + C * Real.cos (3 * g) ^ 4) * Real.sin (3 * g)) g := by
    intro g
    have h3 : HasDerivAt (fun g : ℝ => 3 * g) 3 g := by simpa using (hasDerivAt_id g).const_mul 3
    have hc : HasDerivAt (fun g : ℝ => Real.cos (3 * g)) (-Real.sin (3 * g) * 3) g := h3.cos
    have := (((hc.const_mul A).add ((hc.pow 3).const_mul (B / 3))).add ((hc.pow 5).const_mul (C / 5))).const_mul (-(1 / 3))
    refine this.congr_deriv ?_
    push_cast
    ring
  rw [intervalIntegral.integral_eq_sub_of_hasDerivAt (fun x _ => hd x)]
  · have e : 3 * (Real.pi / 3) = Real.pi := by ring
    rw [e, Real.cos_pi, mul_zero, Real.cos_zero]
    ring
  · apply Continuous.intervalIntegrable
    fun_prop

/-- The squared norm when the sum of squares is an even polynomial of degree 4 in `cos(3 gamma)`. -/
theorem normSq_cos3 (L : ℕ) (f : Intrinsic) (A B C : ℝ)
    (h : ∀ g, ∑ K ∈ Finset.Icc (-(L : ℤ)) L, f K g ^ 2 = A + B * Real.cos (3 * g) ^ 2 + C * Real.cos (3 * g) ^ 4) :
    normSq L f = 8 * Real.pi ^ 2 / (2 * L + 1) * (2 / 3 * (A + B / 3 + C / 5)) := by
  unfold normSq
  simp only [h]
  rw [integral_cos3]

theorem sum_icc2 (F : ℤ → ℝ) : ∑ K ∈ Finset.Icc (-2 : ℤ) 2, F K =
    F (-2) + F (-1) + F 0 + F 1 + F 2 := by
  rw [show Finset.Icc (-2 : ℤ) 2 = {-2, -1, 0, 1, 2} by decide +kernel]
  rw [Finset.sum_insert (by decide)]
  rw [Finset.sum_insert (by decide)]
  rw [Finset.sum_insert (by decide)]
  rw [Finset.sum_insert (by decide)]
  rw [Finset.sum_singleton]
  ring

theorem sum_icc4 (F : ℤ → ℝ) : ∑ K ∈ Finset.Icc (-4 : ℤ) 4, F K =
    F (-4) + F (-3) + F (-2) + F (-1) + F 0 + F 1 + F 2 + F 3 + F 4 := by
  rw [show Finset.Icc (-4 : ℤ) 4 = {-4, -3, -2, -1, 0, 1, 2, 3, 4} by decide +kernel]
  rw [Finset.sum_insert (by decide)]
  rw [Finset.sum_insert (by decide)]
  rw [Finset.sum_insert (by decide)]
  rw [Finset.sum_insert (by decide)]
  rw [Finset.sum_insert (by decide)]
  rw [Finset.sum_insert (by decide)]
  rw [Finset.sum_insert (by decide)]
  rw [Finset.sum_insert (by decide)]
  rw [Finset.sum_singleton]
  ring

theorem sum_icc6 (F : ℤ → ℝ) : ∑ K ∈ Finset.Icc (-6 : ℤ) 6, F K =
    F (-6) + F (-5) + F (-4) + F (-3) + F (-2) + F (-1) + F 0 + F 1 + F 2 + F 3 + F 4 + F 5 + F 6 := by
  rw [show Finset.Icc (-6 : ℤ) 6 = {-6, -5, -4, -3, -2, -1, 0, 1, 2, 3, 4, 5, 6} by decide +kernel]
  rw [Finset.sum_insert (by decide)]
  rw [Finset.sum_insert (by decide)]
  rw [Finset.sum_insert (by decide)]
  rw [Finset.sum_insert (by decide)]
  rw [Finset.sum_insert (by decide)]
  rw [Finset.sum_insert (by decide)]
  rw [Finset.sum_insert (by decide)]
  rw [Finset.sum_insert (by decide)]
  rw [Finset.sum_insert (by decide)]
  rw [Finset.sum_insert (by decide)]
  rw [Finset.sum_insert (by decide)]
  rw [Finset.sum_insert (by decide)]
  rw [Finset.sum_singleton]
  ring

end Acm

import Verif.Spec.RadialBasis
import Mathlib.Algebra.Polynomial.Derivative
import Mathlib.Algebra.Polynomial.AlgebraMap
import Mathlib.Tactic.LinearCombination
import Mathlib.Analysis.SpecialFunctions.Gaussian.GaussianIntegral
import Mathlib.MeasureTheory.Integral.Gamma

/-!
# Laguerre polynomials with a monic normalisation, and their moments
-/

namespace Acm.RadialBasis

open Acm.Spec.RadialBasis Polynomial

/-! ## Polynomials -/

/-- `(-1)^n n! L_n^(lambda-1)`, by Rodrigues' formula. -/
noncomputable def lag : ℝ → ℕ → ℝ[X]
  | _, 0 => 1
  | lam, n + 1 => (X - C lam) * lag (lam + 1) n - X * derivative (lag (lam + 1) n)

theorem lag_zero (lam : ℝ) : lag lam 0 = 1 := by rw [lag]

theorem lag_succ (lam : ℝ) (n : ℕ) :
    lag lam (n + 1) = (X - C lam) * lag (lam + 1) n - X * derivative (lag (lam + 1) n) := by rw [lag]

theorem lag_coeff (n : ℕ) : ∀ (lam : ℝ) (k : ℕ),
    (lag lam n).coeff k = (-1) ^ (n + k) * (n.choose k : ℝ) * ∏ i ∈ Finset.Ico k n, (lam + i) := by
  induction n with
  | zero =>
    intro lam k
    rw [lag_zero]
    cases k with
    | zero => simp
    | succ k => simp [coeff_one]
  | succ n ih =>
    intro lam k
    have hp : ∀ k, ∏ i ∈ Finset.Ico k n, (lam + 1 + (i : ℝ)) = ∏ i ∈ Finset.Ico (k + 1) (n + 1), (lam + i) := by
      intro k
      rw [← Finset.prod_Ico_add' (fun i : ℕ => lam + (i : ℝ)) k n 1]
      refine Finset.prod_congr rfl fun i _ => ?_
      push_cast; ring
    rw [lag_succ, sub_mul, coeff_sub, coeff_sub, coeff_C_mul]
    cases k with
    | zero =>
      rw [coeff_X_mul_zero, coeff_X_mul_zero, ih, hp, Finset.prod_eq_prod_Ico_succ_bot (Nat.succ_pos n)]
      simp only [Nat.choose_zero_right]
      push_cast
      ring
    | succ k =>
      rw [coeff_X_mul, coeff_X_mul, coeff_derivative, ih, ih, hp, hp, Nat.choose_succ_succ]
      by_cases hk : k + 1 < n + 1
      · rw [Finset.prod_eq_prod_Ico_succ_bot hk]
        push_cast
        ring
      · rw [Nat.choose_eq_zero_of_lt (by omega : n < k + 1)]
        push_cast
        ring

theorem lag_deg {lam : ℝ} {n k : ℕ} (h : n < k) : (lag lam n).coeff k = 0 := by
  rw [lag_coeff, Nat.choose_eq_zero_of_lt h]; simp

theorem lag_natDegree (lam : ℝ) (n : ℕ) : (lag lam n).natDegree < n + 1 :=
  Nat.lt_succ_of_le (natDegree_le_iff_coeff_eq_zero.2 fun _ hk => lag_deg hk)

theorem lag_eval (lam : ℝ) (n : ℕ) (x : ℝ) :
    (lag lam n).eval x = (-1) ^ n * n.factorial * laguerre n (lam - 1) x := by
  rw [eval_eq_sum_range' (lag_natDegree lam n), laguerre, Finset.mul_sum]
  refine Finset.sum_congr rfl fun k hk => ?_
  have hk' : k ≤ n := Nat.lt_succ_iff.1 (Finset.mem_range.1 hk)
  rw [lag_coeff, Nat.cast_choose ℝ hk', sub_add_cancel]
  have h1 := Nat.cast_ne_zero (R := ℝ).2 k.factorial_ne_zero
  have h2 := Nat.cast_ne_zero (R := ℝ).2 (n - k).factorial_ne_zero
  rw [pow_add]
  field_simp

theorem lag_deriv (n : ℕ) : ∀ lam : ℝ, derivative (lag lam n) = C (n : ℝ) * lag (lam + 1) (n - 1) := by
  induction n with
  | zero => intro lam; simp [lag_zero]
  | succ n ih =>
    intro lam
    rw [lag_succ, derivative_sub, derivative_mul, derivative_mul, derivative_sub, derivative_X, derivative_C, Nat.add_sub_cancel]
    cases n with
    | zero => simp [lag_zero]
    | succ n =>
      have h := lag_succ (lam + 1) n
      rw [ih (lam + 1), Nat.add_sub_cancel, derivative_mul, derivative_C] at *
      rw [h]
      push_cast
      simp only [C_add, C_1, map_natCast]
      ring

/-- Raising `lambda`. -/
theorem lag_raise (n : ℕ) : ∀ lam : ℝ, lag lam n = lag (lam + 1) n + C (n : ℝ) * lag (lam + 1) (n - 1) := by
  induction n with
  | zero => intro lam; simp [lag_zero]
  | succ n ih =>
    intro lam
    rw [Nat.add_sub_cancel, lag_succ, lag_succ (lam + 1)]
    cases n with
    | zero => simp [lag_zero]; ring
    | succ n =>
      have h := lag_succ (lam + 1) n
      have h2 := ih (lam + 1)
      have h3 := congrArg derivative h2
      rw [Nat.add_sub_cancel] at h2 h3
      simp only [derivative_add, derivative_mul, derivative_C, zero_mul, zero_add] at h3
      push_cast at *
      simp only [C_add, C_1, map_natCast] at *
      linear_combination (X - C lam) * h2 - X * h3 - ((n : ℝ[X]) + 1) * h - h2

/-- Multiplication by `x`. -/
theorem X_lag (n : ℕ) (lam : ℝ) : X * lag (lam + 1) n = lag lam (n + 1) + C (n + lam) * lag lam n := by
  induction n generalizing lam with
  | zero => simp [lag_succ, lag_zero]
  | succ n ih =>
    have h := lag_succ lam (n + 1)
    rw [lag_deriv, Nat.add_sub_cancel] at h
    have h2 := ih (lam + 1)
    have h3 := lag_raise (n + 1) lam
    rw [Nat.add_sub_cancel] at h3
    push_cast at *
    simp only [C_add, C_1, map_natCast] at *
    linear_combination -h + ((n : ℝ[X]) + 1) * h2 - ((n : ℝ[X]) + 1 + C lam) * h3

theorem X_lag' (n : ℕ) (lam : ℝ) : X * lag lam n = lag lam (n + 1) + C (2 * n + lam) * lag lam n
    + C (n * (n - 1 + lam)) * lag lam (n - 1) := by
  have h1 := X_lag n lam
  have h2 := lag_raise n lam
  cases n with
  | zero =>
    simp only [Nat.cast_zero, C_0, zero_mul, add_zero, zero_add, mul_zero] at *
    rw [h2]; exact h1
  | succ n =>
    have h3 := X_lag n lam
    rw [Nat.add_sub_cancel] at *
    push_cast at *
    simp only [C_add, C_1, map_natCast, C_mul, map_ofNat, C_sub] at *
    linear_combination X * h2 + h1 + ((n : ℝ[X]) + 1) * h3

/-! ## Moments -/

/-- `p ↦ ∑ p_k Gamma(s + k)`. -/
noncomputable def mom (s : ℝ) : ℝ[X] →ₗ[ℝ] ℝ := lsum fun k => Real.Gamma (s + k) • LinearMap.id

theorem mom_monomial (s : ℝ) (k : ℕ) (c : ℝ) : mom s (monomial k c) = Real.Gamma (s + k) * c := by
  rw [mom, lsum_apply, sum_monomial_index]
  · rfl
  · simp

theorem mom_X (s : ℝ) (p : ℝ[X]) : mom s (X * p) = mom (s + 1) p := by
  induction p using Polynomial.induction_on' with
  | add p q hp hq => rw [mul_add, map_add, map_add, hp, hq]
  | monomial k c =>
    rw [X_mul_monomial, mom_monomial, mom_monomial]
    push_cast
    congr 2; ring

theorem mom_deriv {s : ℝ} (h : 0 < s) (p : ℝ[X]) : mom (s + 1) (derivative p) = mom s ((X - C s) * p) := by
  induction p using Polynomial.induction_on' with
  | add p q hp hq => rw [mul_add, map_add, map_add, map_add, hp, hq]
  | monomial k c =>
    rw [derivative_monomial, mom_monomial, sub_mul, map_sub, X_mul_monomial, C_mul_monomial, mom_monomial, mom_monomial]
    have hg := Real.Gamma_add_one (by positivity : s + (k : ℝ) ≠ 0)
    cases k with
    | zero =>
      simp only [Nat.cast_zero, add_zero, zero_add, mul_zero, Nat.cast_one] at *
      rw [hg]; ring
    | succ k =>
      push_cast at *
      rw [show s + ((k : ℝ) + 1 + 1) = s + (k + 1) + 1 by ring, hg, show s + 1 + (k : ℝ) = s + (k + 1) by ring]
      ring

theorem mom_lag_succ {lam : ℝ} (h : 0 < lam) (n : ℕ) (p : ℝ[X]) :
    mom lam (lag lam (n + 1) * p) = mom (lam + 1) (lag (lam + 1) n * derivative p) := by
  have h1 := mom_deriv h (lag (lam + 1) n * p)
  rw [derivative_mul, map_add] at h1
  rw [lag_succ, sub_mul, map_sub, mul_assoc, ← h1, mul_assoc X, mom_X]
  ring

theorem mom_lag {lam : ℝ} (h : 0 < lam) (n : ℕ) (p : ℝ[X]) :
    mom lam (lag lam n * p) = mom (lam + n) (derivative^[n] p) := by
  induction n generalizing lam p with
  | zero => simp [lag_zero]
  | succ n ih =>
    rw [mom_lag_succ h, ih (by linarith), Function.iterate_succ_apply]
    push_cast
    congr 2; ring

theorem lag_iter (lam : ℝ) (n : ℕ) : derivative^[n] (lag lam n) = C (n.factorial : ℝ) := by
  induction n generalizing lam with
  | zero => simp [lag_zero]
  | succ n ih =>
    rw [Function.iterate_succ_apply, lag_deriv, Nat.add_sub_cancel, iterate_derivative_C_mul, ih, ← C_mul, Nat.factorial_succ]
    push_cast; rfl

theorem lag_orth {lam : ℝ} (h : 0 < lam) (m n : ℕ) :
    mom lam (lag lam m * lag lam n) = if m = n then (n.factorial : ℝ) * Real.Gamma (lam + n) else 0 := by
  have key : ∀ m n, n < m → mom lam (lag lam m * lag lam n) = 0 := by
    intro m n hmn
    rw [mom_lag h, iterate_derivative_eq_zero (by have := lag_natDegree lam n; omega), map_zero]
  rcases lt_trichotomy m n with hmn | rfl | hmn
  · rw [if_neg hmn.ne, mul_comm]; exact key n m hmn
  · rw [if_pos rfl, mom_lag h, lag_iter, ← monomial_zero_left, mom_monomial]
    push_cast
    rw [add_zero, mul_comm]
  · rw [if_neg hmn.ne']; exact key m n hmn

/-- `beta`, raising `lambda`. -/
theorem mom_b {lam : ℝ} (h : 0 < lam) (m n : ℕ) : mom (lam + 1) (lag (lam + 1) m * lag lam n) =
    if n = m then (n.factorial : ℝ) * Real.Gamma (lam + 1 + n)
    else if n = m + 1 then (n.factorial : ℝ) * Real.Gamma (lam + 1 + m) else 0 := by
  have h1 : 0 < lam + 1 := by linarith
  rw [lag_raise n lam, mul_add, map_add, lag_orth h1, mul_left_comm, ← smul_eq_C_mul, map_smul, lag_orth h1, smul_eq_mul]
  rcases Nat.eq_zero_or_pos n with rfl | hn
  · simp only [Nat.cast_zero, zero_mul, add_zero]
    by_cases hm : m = 0
    · rw [if_pos hm, if_pos hm.symm]
    · rw [if_neg hm, if_neg (Ne.symm hm), if_neg (by omega)]
  · by_cases hm : m = n
    · rw [if_pos hm, if_pos hm.symm, if_neg (by omega), mul_zero, add_zero]
    · rw [if_neg hm, if_neg (Ne.symm hm)]
      by_cases hm' : n = m + 1
      · subst hm'
        rw [if_pos (by omega), if_pos rfl, Nat.add_sub_cancel, Nat.factorial_succ]
        push_cast; ring
      · rw [if_neg (by omega), if_neg hm']; simp

/-- `beta^(-r)`, raising `lambda` by `r + 1`. -/
theorem mom_bm {lam : ℝ} (h : 0 < lam) (r n : ℕ) : ∀ m, mom lam (lag (lam + (r + 1 : ℕ)) m * lag lam n) =
    if n ≤ m then (-1) ^ (m + n) * ((r + m - n).choose r : ℝ) * (m.factorial : ℝ) * Real.Gamma (lam + n) else 0 := by
  induction r with
  | zero =>
    intro m
    induction m with
    | zero =>
      have := lag_orth h 0 n
      rw [lag_zero] at this ⊢
      rw [this]
      rcases Nat.eq_zero_or_pos n with rfl | hn
      · simp
      · rw [if_neg (by omega), if_neg (by omega)]
    | succ m ih =>
      have h1 := lag_orth h (m + 1) n
      rw [lag_raise (m + 1) lam, add_mul, map_add, mul_assoc, ← smul_eq_C_mul, map_smul, smul_eq_mul, Nat.add_sub_cancel] at h1
      simp only [Nat.zero_add, Nat.cast_one] at ih ⊢
      rw [ih] at h1
      rw [eq_sub_of_add_eq h1]
      by_cases hn : n ≤ m
      · rw [if_pos hn, if_neg (show ¬(m + 1 = n) by omega), if_pos (show n ≤ m + 1 by omega), Nat.factorial_succ]
        simp only [Nat.choose_zero_right]
        push_cast; ring
      · rw [if_neg hn]
        by_cases hn' : m + 1 = n
        · subst hn'
          rw [if_pos rfl, if_pos le_rfl]
          simp [← two_mul]
        · rw [if_neg hn', if_neg (by omega)]; simp
  | succ r ih =>
    intro m
    induction m with
    | zero =>
      have := lag_orth h 0 n
      rw [lag_zero] at this ⊢
      rw [this]
      rcases Nat.eq_zero_or_pos n with rfl | hn
      · simp
      · rw [if_neg (by omega), if_neg (by omega)]
    | succ m ihm =>
      have h1 := ih (m + 1)
      rw [lag_raise (m + 1) (lam + (r + 1 : ℕ)), add_mul, map_add, mul_assoc, ← smul_eq_C_mul, map_smul, smul_eq_mul,
        Nat.add_sub_cancel, show lam + ((r + 1 : ℕ) : ℝ) + 1 = lam + ((r + 1 + 1 : ℕ) : ℝ) by push_cast; ring] at h1
      rw [ihm] at h1
      rw [eq_sub_of_add_eq h1]
      by_cases hn : n ≤ m
      · rw [if_pos hn, if_pos (by omega), if_pos (by omega), Nat.factorial_succ,
          show r + 1 + (m + 1) - n = (r + 1 + m - n) + 1 by omega, Nat.choose_succ_succ, show r + (m + 1) - n = r + 1 + m - n by omega]
        push_cast; ring
      · rw [if_neg hn]
        by_cases hn' : n ≤ m + 1
        · obtain rfl : n = m + 1 := by omega
          rw [if_pos le_rfl, if_pos le_rfl, Nat.add_sub_cancel, Nat.add_sub_cancel, Nat.choose_self, Nat.choose_self]
          simp
        · rw [if_neg hn', if_neg hn']; simp

/-- `beta^(-2)`. -/
theorem mom_bm2 {lam : ℝ} (h : 0 < lam) (m n : ℕ) : mom lam (lag (lam + 1) m * lag (lam + 1) n) =
    (-1) ^ (m + n) * ((max m n).factorial : ℝ) * Real.Gamma (lam + 1 + (min m n : ℕ)) / lam := by
  have hb : ∀ m n, mom lam (lag (lam + 1) m * lag (lam + 1) n) + n * mom lam (lag (lam + 1) m * lag (lam + 1) (n - 1)) =
      if n ≤ m then (-1) ^ (m + n) * (m.factorial : ℝ) * Real.Gamma (lam + n) else 0 := by
    intro m n
    have := mom_bm h 0 n m
    simp only [Nat.zero_add, Nat.cast_one, Nat.choose_zero_right, mul_one] at this
    rw [← this, lag_raise n lam, mul_add, map_add, mul_left_comm, ← smul_eq_C_mul, map_smul, smul_eq_mul]
  have hsym : ∀ m n, mom lam (lag (lam + 1) m * lag (lam + 1) n) = mom lam (lag (lam + 1) n * lag (lam + 1) m) := by
    intro m n; rw [mul_comm]
  -- above the diagonal
  have hup : ∀ m d, mom lam (lag (lam + 1) m * lag (lam + 1) (m + d)) =
      (-1) ^ d * ((m + d).factorial : ℝ) / m.factorial * mom lam (lag (lam + 1) m * lag (lam + 1) m) := by
    intro m d
    have hf := Nat.cast_ne_zero (R := ℝ).2 m.factorial_ne_zero
    induction d with
    | zero => simp [hf]
    | succ d ih =>
      have := hb m (m + d + 1)
      rw [if_neg (by omega), Nat.add_sub_cancel, ih] at this
      rw [← add_assoc, eq_neg_of_add_eq_zero_left this, Nat.factorial_succ]
      push_cast
      ring
  have hdiag : ∀ m, mom lam (lag (lam + 1) m * lag (lam + 1) m) = (m.factorial : ℝ) * Real.Gamma (lam + 1 + m) / lam := by
    intro m
    induction m with
    | zero =>
      have := hb 0 0
      simp only [Nat.cast_zero, zero_mul, add_zero, le_refl, if_true, pow_zero, Nat.factorial_zero, Nat.cast_one, one_mul] at this ⊢
      rw [this, Real.Gamma_add_one h.ne']
      field_simp
    | succ m ih =>
      have h1 := hb (m + 1) (m + 1)
      rw [if_pos le_rfl, Nat.add_sub_cancel, hsym (m + 1) m, hup m 1, ih, ← two_mul, pow_mul, neg_one_sq, one_pow] at h1
      rw [eq_sub_of_add_eq h1]
      have hf := Nat.cast_ne_zero (R := ℝ).2 m.factorial_ne_zero
      have hg := Real.Gamma_add_one (by positivity : lam + 1 + (m : ℝ) ≠ 0)
      push_cast
      rw [show lam + 1 + ((m : ℝ) + 1) = lam + 1 + m + 1 by ring, hg, show lam + ((m : ℝ) + 1) = lam + 1 + m by ring,
        Nat.factorial_succ]
      push_cast
      field_simp
      ring
  have main : ∀ m d, mom lam (lag (lam + 1) m * lag (lam + 1) (m + d)) =
      (-1) ^ d * ((m + d).factorial : ℝ) * Real.Gamma (lam + 1 + m) / lam := by
    intro m d
    have hf := Nat.cast_ne_zero (R := ℝ).2 m.factorial_ne_zero
    rw [hup, hdiag]
    field_simp
  rcases le_total m n with hmn | hmn
  · obtain ⟨d, rfl⟩ := Nat.exists_eq_add_of_le hmn
    rw [main, max_eq_right hmn, min_eq_left hmn, show m + (m + d) = 2 * m + d by ring, pow_add, pow_mul]
    simp
  · obtain ⟨d, rfl⟩ := Nat.exists_eq_add_of_le hmn
    rw [hsym, main, max_eq_left hmn, min_eq_right hmn, show n + d + n = 2 * n + d by ring, pow_add, pow_mul]
    simp

/-- Powers of `x`. -/
theorem X_pow_lag (r n : ℕ) : ∀ lam : ℝ, X ^ r * lag (lam + r) n =
    ∑ j ∈ Finset.range (r + 1), C ((r.choose j : ℝ) * ∏ i ∈ Finset.range (r - j), (lam + n + j + i)) * lag lam (n + j) := by
  induction r with
  | zero => intro lam; simp
  | succ r ih =>
    intro lam
    have h := ih (lam + 1)
    rw [pow_succ', mul_assoc, show lam + ((r + 1 : ℕ) : ℝ) = lam + 1 + r by push_cast; ring, h, Finset.mul_sum]
    have e : ∀ j ∈ Finset.range (r + 1), X * (C ((r.choose j : ℝ) * ∏ i ∈ Finset.range (r - j), (lam + 1 + n + j + i)) * lag (lam + 1) (n + j))
        = C ((r.choose j : ℝ) * ∏ i ∈ Finset.range (r - j), (lam + 1 + n + j + i)) * lag lam (n + (j + 1))
          + C ((r.choose j : ℝ) * ∏ i ∈ Finset.range (r + 1 - j), (lam + n + j + i)) * lag lam (n + j) := by
      intro j hj
      have hj' : j ≤ r := Nat.lt_succ_iff.1 (Finset.mem_range.1 hj)
      rw [mul_left_comm, X_lag, mul_add, ← mul_assoc, ← C_mul, show r + 1 - j = (r - j) + 1 by omega,
        Finset.prod_range_succ']
      rw [← add_assoc]
      congr 3
      have : ∀ i ∈ Finset.range (r - j), lam + (n : ℝ) + j + ((i + 1 : ℕ) : ℝ) = lam + 1 + n + j + i := by
        intro i _; push_cast; ring
      rw [Finset.prod_congr rfl this]
      push_cast
      ring
    rw [Finset.sum_congr rfl e, Finset.sum_add_distrib]
    rw [Finset.sum_range_succ' (fun j => C (((r + 1).choose j : ℝ) * ∏ i ∈ Finset.range (r + 1 - j), (lam + n + j + i)) * lag lam (n + j))]
    rw [Finset.sum_range_succ' (fun j => C ((r.choose j : ℝ) * ∏ i ∈ Finset.range (r + 1 - j), (lam + n + j + i)) * lag lam (n + j))]
    have e2 : ∑ j ∈ Finset.range r, C ((r.choose (j + 1) : ℝ) * ∏ i ∈ Finset.range (r + 1 - (j + 1)), (lam + n + ((j + 1 : ℕ) : ℝ) + i)) * lag lam (n + (j + 1))
        = ∑ j ∈ Finset.range (r + 1), C ((r.choose (j + 1) : ℝ) * ∏ i ∈ Finset.range (r + 1 - (j + 1)), (lam + n + ((j + 1 : ℕ) : ℝ) + i)) * lag lam (n + (j + 1)) := by
      rw [Finset.sum_range_succ, Nat.choose_succ_self]
      simp
    rw [e2, ← add_assoc, ← Finset.sum_add_distrib]
    congr 1
    · refine Finset.sum_congr rfl fun j _ => ?_
      rw [← add_mul, ← C_add, Nat.choose_succ_succ, Nat.add_sub_add_right]
      congr 2
      have : ∀ i ∈ Finset.range (r - j), lam + 1 + (n : ℝ) + j + i = lam + n + ((j + 1 : ℕ) : ℝ) + i := by
        intro i _; push_cast; ring
      rw [Finset.prod_congr rfl this]
      push_cast
      ring
    · simp

end Acm.RadialBasis

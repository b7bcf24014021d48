import Verif.Lemmas.RadialBasis
import Verif.Lemmas.RadialId
import Mathlib.Analysis.Calculus.Deriv.Polynomial
import Mathlib.MeasureTheory.Integral.Gamma
import Mathlib.MeasureTheory.Function.JacobianOneDim
import Mathlib.MeasureTheory.Measure.Haar.NormedSpace

/-!
# Integrals of the radial wave functions

All functions that occur are `beta^(s - 1/2) exp(-beta^2/2) p(beta^2)` with polynomials `p`, at `a beta`.
-/

namespace Acm.RadialBasis

open Polynomial Spec.RadialBasis MeasureTheory Set

/-- `b^(s - 1/2) exp(-b^2/2) p(b^2)`. -/
noncomputable def wf (s : ℝ) (p : ℝ[X]) (b : ℝ) : ℝ := b ^ (s - 1 / 2) * Real.exp (-b ^ 2 / 2) * p.eval (b ^ 2)

/-- `f` is such a function at `a b`. -/
def Is (a s : ℝ) (p : ℝ[X]) (f : ℝ → ℝ) : Prop := ∀ b, 0 < b → f b = wf s p (a * b)

/-- The derivative, as an operation on the polynomial. -/
noncomputable def T (s : ℝ) (p : ℝ[X]) : ℝ[X] := (C (s - 1 / 2) - X) * p + 2 * X * derivative p

theorem wf_smul (s c : ℝ) (p : ℝ[X]) (b : ℝ) : wf s (C c * p) b = c * wf s p b := by
  simp only [wf, eval_mul, eval_C]; ring

theorem wf_add (s : ℝ) (p q : ℝ[X]) (b : ℝ) : wf s (p + q) b = wf s p b + wf s q b := by
  simp only [wf, eval_add]; ring

theorem wf_up (s : ℝ) (p : ℝ[X]) {b : ℝ} (hb : 0 < b) : b * wf s p b = wf (s + 1) p b := by
  simp only [wf]
  rw [show s + 1 - 1 / 2 = (s - 1 / 2) + 1 by ring, Real.rpow_add_one hb.ne']
  ring

theorem wf_down (s : ℝ) (p : ℝ[X]) {b : ℝ} (hb : 0 < b) : wf s p b / b = wf (s - 1) p b := by
  have := wf_up (s - 1) p hb
  rw [sub_add_cancel] at this
  rw [← this]
  field_simp

theorem wf_X (s : ℝ) (p : ℝ[X]) (b : ℝ) : wf s (X * p) b = b ^ 2 * wf s p b := by
  simp only [wf, eval_mul, eval_X]; ring

theorem wf_deriv (s : ℝ) (p : ℝ[X]) {b : ℝ} (hb : 0 < b) : HasDerivAt (wf s p) (wf (s - 1) (T s p) b) b := by
  have h1 := Real.hasDerivAt_rpow_const (x := b) (p := s - 1 / 2) (Or.inl hb.ne')
  have h2 : HasDerivAt (fun b : ℝ => -b ^ 2 / 2) (-b) b := by
    have := ((hasDerivAt_pow 2 b).neg).div_const 2
    refine this.congr_deriv ?_
    push_cast; ring
  have h3 : HasDerivAt (fun b : ℝ => p.eval (b ^ 2)) ((derivative p).eval (b ^ 2) * (2 * b)) b := by
    have := (p.hasDerivAt (b ^ 2)).comp b (hasDerivAt_pow 2 b)
    refine this.congr_deriv ?_
    push_cast; ring
  have h := (h1.mul h2.exp).mul h3
  refine h.congr_deriv ?_
  have e := Real.rpow_add_one hb.ne' (s - 1 - 1 / 2)
  rw [show s - 1 - 1 / 2 + 1 = s - 1 / 2 by ring] at e
  simp only [wf, T, eval_add, eval_mul, eval_sub, eval_C, eval_X, eval_ofNat, e, show s - 1 / 2 - 1 = s - 1 - 1 / 2 by ring]
  simp only [Pi.mul_apply]
  rw [e]
  ring

section
variable {a s : ℝ} {p : ℝ[X]} {f : ℝ → ℝ}

theorem Is.deriv (ha : 0 < a) (h : Is a s p f) : Is a (s - 1) (C a * T s p) (deriv f) := by
  intro b hb
  have e : f =ᶠ[nhds b] fun b => wf s p (a * b) := by
    filter_upwards [Ioi_mem_nhds hb] with x hx using h x hx
  rw [e.deriv_eq, wf_smul]
  have := (wf_deriv s p (mul_pos ha hb)).comp b ((hasDerivAt_id b).const_mul a)
  have h2 := this.deriv
  simp only [Function.comp_def, mul_one] at h2
  rw [h2, mul_comm]

theorem Is.up (ha : 0 < a) (h : Is a s p f) : Is a (s + 1) (C a⁻¹ * p) (fun b => b * f b) := by
  intro b hb
  rw [wf_smul, ← wf_up s p (mul_pos ha hb)]
  beta_reduce
  rw [h b hb]
  field_simp

theorem Is.down (ha : 0 < a) (h : Is a s p f) : Is a (s - 1) (C a * p) (fun b => f b / b) := by
  intro b hb
  rw [wf_smul, ← wf_down s p (mul_pos ha hb)]
  beta_reduce
  rw [h b hb]
  field_simp

theorem Is.up2 (ha : 0 < a) (h : Is a s p f) : Is a s (C (a⁻¹ ^ 2) * (X * p)) (fun b => b ^ 2 * f b) := by
  intro b hb
  rw [wf_smul, wf_X]
  beta_reduce
  rw [h b hb]
  field_simp

theorem Is.down2 (ha : 0 < a) (h : Is a s p f) : Is a (s - 2) (C (a ^ 2) * p) (fun b => f b / b ^ 2) := by
  have := (h.down ha).down ha
  intro b hb
  have e := this b hb
  rw [show s - 1 - 1 = s - 2 by ring, ← mul_assoc, ← C_mul, ← sq] at e
  rw [← e]
  field_simp

/-- `p(b^2) b^s = q(b^2) b^t` when `s = t - 2` and `p = x q`. -/
theorem Is.shift (ha : 0 < a) {q : ℝ[X]} (h : Is a (s - 2) (X * q) f) : Is a s q f := by
  intro b hb
  have hab := mul_pos ha hb
  rw [h b hb, wf_X, sq, mul_assoc, wf_up _ _ hab, wf_up _ _ hab]
  congr 1
  ring
end

/-- The Laguerre equation. -/
theorem lag_ode (lam : ℝ) (n : ℕ) :
    X * derivative (derivative (lag lam n)) + (C lam - X) * derivative (lag lam n) + C (n : ℝ) * lag lam n = 0 := by
  rcases n with _ | n
  · simp [lag_zero]
  · rw [lag_deriv, Nat.add_sub_cancel, derivative_C_mul, lag_deriv]
    have e1 := X_lag n lam
    have e2 := lag_raise n lam
    have e3 := X_lag (n - 1) (lam + 1)
    have e4 : C (n : ℝ) * (X * lag (lam + 1 + 1) (n - 1)) = C (n : ℝ) * lag (lam + 1) n
        + C (n * (n + lam)) * lag (lam + 1) (n - 1) := by
      rcases n with _ | n
      · simp
      · rw [e3, Nat.add_sub_cancel]
        simp only [map_add, map_mul, map_natCast, Nat.cast_add, Nat.cast_one, map_one]
        ring
    rw [e2] at e1
    simp only [map_add, map_mul, map_natCast, Nat.cast_add, Nat.cast_one, map_one] at e1 e4 ⊢
    linear_combination ((n : ℝ[X]) + 1) * e4 - ((n : ℝ[X]) + 1) * e1

/-- The same in the form of the radial Schroedinger equation. -/
theorem T_T (lam : ℝ) (n : ℕ) : T (lam - 1) (T lam (lag lam n))
    = (X ^ 2 - C (2 * lam + 4 * n) * X + C ((lam - 3 / 2) * (lam - 1 / 2))) * lag lam n := by
  have ode := lag_ode lam n
  have h1 : derivative (T lam (lag lam n)) = -lag lam n + (C (lam - 1 / 2) - X) * derivative (lag lam n)
      + 2 * derivative (lag lam n) + 2 * X * derivative (derivative (lag lam n)) := by
    simp only [T, derivative_add, derivative_mul, derivative_sub, derivative_C, derivative_X, derivative_ofNat]
    ring
  rw [T, h1, T]
  have c1 : C (lam - 1 / 2) = C lam - C (1 / 2) := by rw [← C_sub]
  have c2 : C (lam - 1 - 1 / 2) = C lam - 1 - C (1 / 2) := by rw [← C_1, ← C_sub, ← C_sub]
  have c3 : C ((lam - 3 / 2) * (lam - 1 / 2)) = (C lam - 1 - C (1 / 2)) * (C lam - C (1 / 2)) := by
    rw [← c2, ← c1, ← C_mul]; congr 1; ring
  have c4 : C (2 * lam + 4 * n : ℝ) = 2 * C lam + 4 * (n : ℝ[X]) := by
    rw [C_add, C_mul, C_mul, C_ofNat, C_ofNat, map_natCast]
  have c5 : (2 : ℝ[X]) * C (1 / 2) = 1 := by
    rw [← C_ofNat, ← C_mul]; norm_num
  rw [c1, c2, c3, c4]
  rw [map_natCast] at ode
  linear_combination 4 * X * ode + (X * lag lam n - 2 * X * derivative (lag lam n)) * c5

theorem X_deriv_lag (lam : ℝ) (n : ℕ) :
    X * derivative (lag lam n) = C (n : ℝ) * lag lam n + C (n * (n - 1 + lam)) * lag lam (n - 1) := by
  rcases n with _ | n
  · simp [lag_zero]
  · rw [lag_deriv, Nat.add_sub_cancel, mul_left_comm, X_lag]
    simp only [map_add, map_mul, map_sub, map_natCast, Nat.cast_add, Nat.cast_one, map_one]
    ring

/-- `beta d/dbeta`. -/
theorem T_lag (lam : ℝ) (n : ℕ) : T lam (lag lam n) = -lag lam (n + 1) - C (1 / 2) * lag lam n
    + C (n * (n - 1 + lam)) * lag lam (n - 1) := by
  have e1 := X_lag' n lam
  have e2 := X_deriv_lag lam n
  have c1 : C (lam - 1 / 2) = C lam - C (1 / 2) := by rw [← C_sub]
  have c4 : C (2 * n + lam : ℝ) = 2 * (n : ℝ[X]) + C lam := by
    rw [C_add, C_mul, C_ofNat, map_natCast]
  rw [T, c1]
  rw [c4] at e1
  rw [map_natCast] at e2
  linear_combination -e1 + 2 * e2

/-- Raising `lambda`. -/
theorem T_lag_pl (lam : ℝ) (n : ℕ) : T lam (lag lam n) = C (lam - 1 / 2) * lag lam n
    + X * (C (n : ℝ) * lag (lam + 1) (n - 1) - lag (lam + 1) n) := by
  have e1 := lag_raise n lam
  have e2 := lag_deriv n lam
  rw [T, e2]
  linear_combination -X * e1

/-- Lowering `lambda`. -/
theorem T_lag_ml (lam : ℝ) (n : ℕ) : T (lam + 1) (lag (lam + 1) n) = C (1 / 2 - lam) * lag (lam + 1) n
    - lag lam (n + 1) + C (n + lam) * lag lam n := by
  have e1 := X_lag n lam
  have e2 : X * derivative (lag (lam + 1) n) = -C lam * lag (lam + 1) n + C (n + lam) * lag lam n := by
    have e3 := lag_raise n lam
    rcases n with _ | n
    · simp [lag_zero]
    · have e4 := X_lag n (lam + 1)
      rw [Nat.add_sub_cancel] at e3
      rw [lag_deriv, Nat.add_sub_cancel]
      simp only [map_add, map_natCast, Nat.cast_add, Nat.cast_one, map_one] at e3 e4 ⊢
      linear_combination ((n : ℝ[X]) + 1) * e4 - ((n : ℝ[X]) + 1 + C lam) * e3
  have c1 : C (lam + 1 - 1 / 2) = C lam + C (1 / 2) := by rw [← C_add]; congr 1; ring
  have c2 : C (1 / 2 - lam) = C (1 / 2) - C lam := by rw [← C_sub]
  rw [T, c1, c2]
  linear_combination -e1 + 2 * e2

/-! ## Integrals -/

theorem int_mom {s : ℝ} (hs : 0 < s) (p : ℝ[X]) :
    IntegrableOn (fun b : ℝ => b ^ (2 * s - 1) * Real.exp (-b ^ 2) * p.eval (b ^ 2)) (Ioi 0) ∧
    ∫ b in Ioi (0 : ℝ), b ^ (2 * s - 1) * Real.exp (-b ^ 2) * p.eval (b ^ 2) = mom s p / 2 := by
  induction p using Polynomial.induction_on' with
  | add p q hp hq =>
    simp only [eval_add, mul_add, map_add]
    refine ⟨hp.1.add hq.1, ?_⟩
    rw [integral_add hp.1 hq.1, hp.2, hq.2]
    ring
  | monomial k c =>
    have e : EqOn (fun b : ℝ => b ^ (2 * s - 1) * Real.exp (-b ^ 2) * (monomial k c).eval (b ^ 2))
        (fun b => c * (b ^ (2 * s - 1 + 2 * k) * Real.exp (-b ^ (2 : ℝ)))) (Ioi 0) := by
      intro b hb
      have hb' : 0 < b := hb
      simp only [eval_monomial]
      rw [Real.rpow_add hb', show (2 : ℝ) * k = ((2 * k : ℕ) : ℝ) by push_cast; ring, Real.rpow_natCast, pow_mul, Real.rpow_two]
      ring
    have hk : -1 < 2 * s - 1 + 2 * k := by have : (0 : ℝ) ≤ k := k.cast_nonneg; linarith
    have i1 := (integrableOn_rpow_mul_exp_neg_rpow hk (by norm_num : (0 : ℝ) < 2)).const_mul c
    refine ⟨IntegrableOn.congr_fun i1 e.symm measurableSet_Ioi, ?_⟩
    rw [setIntegral_congr_fun measurableSet_Ioi e, integral_const_mul, integral_rpow_mul_exp_neg_rpow (by norm_num) hk, mom_monomial,
      show (2 * s - 1 + 2 * k + 1) / 2 = s + k by ring]
    ring

theorem int_wf {a s t u : ℝ} (ha : 0 < a) (hu : 0 < u) (hst : s + t = 2 * u) {p q : ℝ[X]} {f g : ℝ → ℝ} (hf : Is a s p f) (hg : Is a t q g) :
    Overlap f g (mom u (p * q) / (2 * a)) := by
  have e : EqOn (fun b => f b * g b) (fun b => (fun x : ℝ => x ^ (2 * u - 1) * Real.exp (-x ^ 2) * (p * q).eval (x ^ 2)) (a * b)) (Ioi 0) := by
    intro b hb
    have hab := mul_pos ha (show 0 < b from hb)
    beta_reduce
    rw [hf b hb, hg b hb]
    simp only [wf, eval_mul]
    have hx : Real.exp (-(a * b) ^ 2) = Real.exp (-(a * b) ^ 2 / 2) * Real.exp (-(a * b) ^ 2 / 2) := by
      rw [← Real.exp_add]; congr 1; ring
    rw [show 2 * u - 1 = (s - 1 / 2) + (t - 1 / 2) by linarith, Real.rpow_add hab, hx]
    ring
  obtain ⟨i1, i2⟩ := int_mom hu (p * q)
  refine ⟨?_, ?_⟩
  · refine IntegrableOn.congr_fun ?_ e.symm measurableSet_Ioi
    have := (integrableOn_Ioi_comp_mul_left_iff (fun x : ℝ => x ^ (2 * u - 1) * Real.exp (-x ^ 2) * (p * q).eval (x ^ 2)) 0 ha).2 (by simpa using i1)
    exact this
  · rw [setIntegral_congr_fun measurableSet_Ioi e]
    have := integral_comp_mul_left_Ioi (fun x : ℝ => x ^ (2 * u - 1) * Real.exp (-x ^ 2) * (p * q).eval (x ^ 2)) 0 ha
    rw [this, mul_zero, i2, smul_eq_mul]
    field_simp

/-- The norm of `lag`. -/
noncomputable def K (lam : ℝ) (n : ℕ) : ℝ := n.factorial * hN lam n

theorem K_pos {lam : ℝ} (h : 0 < lam) (n : ℕ) : 0 < K lam n :=
  mul_pos (Nat.cast_pos.2 n.factorial_pos) (hN_pos h n)

theorem K_sq {lam : ℝ} (h : 0 < lam) (n : ℕ) : K lam n ^ 2 = n.factorial * Real.Gamma (lam + n) := by
  have hf := Nat.cast_ne_zero (R := ℝ).2 n.factorial_ne_zero
  rw [K, mul_pow, hN_sq h, add_comm lam]
  field_simp

theorem K_add_one {lam : ℝ} (h : 0 < lam) (n : ℕ) : K (lam + 1) n = Real.sqrt (lam + n) * K lam n := by
  rw [K, hN_add_one h, K]; ring

theorem K_succ' {lam : ℝ} (h : 0 < lam) (n : ℕ) : K lam (n + 1) = Real.sqrt (n + 1) * K (lam + 1) n := by
  rw [K, K, ← hN_succ h, Nat.factorial_succ]
  have := Real.mul_self_sqrt (by positivity : (0 : ℝ) ≤ n + 1)
  push_cast
  linear_combination -(n.factorial : ℝ) * hN lam (n + 1) * this

theorem K_succ {lam : ℝ} (h : 0 < lam) (n : ℕ) : K lam (n + 1) = Real.sqrt ((lam + n) * (n + 1)) * K lam n := by
  rw [K_succ' h, K_add_one h, Real.sqrt_mul (by positivity)]; ring

theorem radialFn_is {a lam : ℝ} (ha : 0 < a) (h : 0 < lam) (n : ℕ) :
    Is a lam (C (Real.sqrt (2 * a) / K lam n) * lag lam n) (radialFn a lam n) := by
  intro b _
  rw [wf_smul, radialFn, wf, lag_eval, K, hN]
  have hf : (0 : ℝ) < n.factorial := Nat.cast_pos.2 n.factorial_pos
  have hg := gamma_pos' h n
  rw [show 2 * a * (n.factorial : ℝ) / Real.Gamma (lam + n) = 2 * a / (Real.Gamma (n + lam) / n.factorial) by
    rw [add_comm lam]; field_simp]
  rw [Real.sqrt_div' _ (by positivity)]
  have := (Real.sqrt_pos.2 (div_pos hg hf)).ne'
  field_simp

/-- Matrix elements as moments. -/
theorem overlap_mom {a lam lam' t u : ℝ} (ha : 0 < a) (h : 0 < lam) (h' : 0 < lam') (hu : 0 < u) (hst : lam' + t = 2 * u) {m n : ℕ}
    {c : ℝ} {q : ℝ[X]} {g : ℝ → ℝ} (hg : Is a t (C (Real.sqrt (2 * a) / K lam n) * (C c * q)) g) :
    Overlap (radialFn a lam' m) g (c * (mom u (lag lam' m * q) / (K lam' m * K lam n))) := by
  have := int_wf ha hu hst (radialFn_is ha h' m) hg
  convert this using 1
  rw [show C (Real.sqrt (2 * a) / K lam' m) * lag lam' m * (C (Real.sqrt (2 * a) / K lam n) * (C c * q))
    = C (Real.sqrt (2 * a) / K lam' m * (Real.sqrt (2 * a) / K lam n) * c) * (lag lam' m * q) by
      simp only [C_mul]; ring, ← smul_eq_C_mul, map_smul, smul_eq_mul]
  have h1 := (K_pos h' m).ne'
  have h2 := (K_pos h n).ne'
  have h3 := Real.mul_self_sqrt (by positivity : 0 ≤ 2 * a)
  rw [show Real.sqrt (2 * a) / K lam' m * (Real.sqrt (2 * a) / K lam n) = 2 * a / (K lam' m * K lam n) by
    rw [div_mul_div_comm, h3]]
  field_simp

/-! ## Values -/

section
variable {lam : ℝ} (h : 0 < lam) (m n : ℕ)
include h

theorem val_id : mom lam (lag lam m * lag lam n) / (K lam m * K lam n) = Spec.opId m n := by
  rw [lag_orth h, Spec.opId]
  split_ifs with e
  · subst e
    rw [← K_sq h, ← sq, div_self (pow_ne_zero 2 (K_pos h m).ne')]
  · simp

theorem val_Sp : mom lam (lag lam m * lag lam (n + 1)) / (K lam m * K lam n) = vSp lam m n := by
  rw [lag_orth h, vSp]
  split_ifs with e
  · subst e
    have h1 := (K_pos h n).ne'
    have h2 := (K_pos h (n + 1)).ne'
    rw [← K_sq h, sq, mul_div_mul_left _ _ h2, K_succ h]
    field_simp
  · simp

theorem val_Sm : mom lam (lag lam m * (C (n * (n - 1 + lam)) * lag lam (n - 1))) / (K lam m * K lam n) = vSm lam m n := by
  rw [mul_left_comm, ← smul_eq_C_mul, map_smul, lag_orth h, vSm, smul_eq_mul]
  rcases n with _ | n
  · simp
  · rw [Nat.add_sub_cancel]
    by_cases e : m = n
    · subst e
      have h1 := (K_pos h m).ne'
      have h2 := (K_pos h (m + 1)).ne'
      rw [if_pos rfl, if_pos rfl, ← K_sq h, K_succ h]
      have h3 : 0 < (lam + m) * (m + 1) := by positivity
      have h4 := (Real.sqrt_pos.2 h3).ne'
      have h5 := Real.mul_self_sqrt h3.le
      have e2 : ((m + 1 : ℕ) : ℝ) * (((m + 1 : ℕ) : ℝ) - 1 + lam) = (lam + m) * (m + 1) := by push_cast; ring
      rw [e2]
      generalize Real.sqrt ((lam + m) * (m + 1)) = S at *
      rw [← h5]
      field_simp
    · rw [if_neg e, if_neg (by omega)]; simp

theorem val_b2 : mom lam (lag lam m * (X * lag lam n)) / (K lam m * K lam n) = vSp lam m n + vSm lam m n + 2 * vS0 lam m n := by
  rw [X_lag', mul_add, mul_add, map_add, map_add, mul_left_comm _ (C (2 * (n : ℝ) + lam)), ← smul_eq_C_mul, map_smul, smul_eq_mul,
    add_div, add_div, mul_div_assoc, val_Sp h, val_Sm h, val_id h, vS0, Spec.opId]
  split_ifs with e
  · ring
  · ring

theorem val_bDb : mom lam (lag lam m * T lam (lag lam n)) / (K lam m * K lam n)
    = vSm lam m n - vSp lam m n - 1 / 2 * Spec.opId m n := by
  rw [T_lag, mul_add, mul_sub, map_add, map_sub, mul_left_comm _ (C (1 / 2 : ℝ)), ← smul_eq_C_mul (1 / 2 : ℝ), map_smul, smul_eq_mul, mul_neg,
    map_neg, add_div, sub_div, neg_div, mul_div_assoc, val_Sp h, val_Sm h, val_id h]
  ring

theorem val_b_pl : mom (lam + 1) (lag (lam + 1) m * lag lam n) / (K (lam + 1) m * K lam n) = vb_pl lam m n := by
  rw [mom_b h, vb_pl]
  have h' : 0 < lam + 1 := by linarith
  by_cases e : m = n
  · subst e
    have h1 := (K_pos h m).ne'
    rw [if_pos rfl, if_pos rfl, ← K_sq h', K_add_one h]
    have h4 := (Real.sqrt_pos.2 (by positivity : 0 < lam + m)).ne'
    field_simp
  · rw [if_neg (Ne.symm e), if_neg e]
    split_ifs with e'
    · subst e'
      have h1 := (K_pos h' m).ne'
      have h4 := (Real.sqrt_pos.2 (by positivity : (0 : ℝ) < m + 1)).ne'
      have h5 := Real.mul_self_sqrt (by positivity : (0 : ℝ) ≤ m + 1)
      have h6 := K_sq h' m
      rw [Nat.factorial_succ, Nat.cast_mul, mul_assoc, ← h6, K_succ' h]
      push_cast
      field_simp
      linear_combination -h5
    · simp

theorem val_bm_pl : mom lam (lag (lam + 1) m * lag lam n) / (K (lam + 1) m * K lam n) = vbm_pl lam m n := by
  have := mom_bm h 0 n m
  simp only [Nat.zero_add, Nat.cast_one, Nat.choose_zero_right, mul_one] at this
  rw [this, vbm_pl]
  split_ifs with e
  · have h1 := K_sq h n
    have h2 := (K_pos h n).ne'
    have h3 := (hN_pos (by linarith : 0 < lam + 1) m).ne'
    have h4 := (hN_pos h n).ne'
    have hf := Nat.cast_ne_zero (R := ℝ).2 m.factorial_ne_zero
    have hf' := Nat.cast_ne_zero (R := ℝ).2 n.factorial_ne_zero
    have e3 : Real.Gamma (lam + n) = n.factorial * hN lam n ^ 2 := by
      rw [hN_sq h, add_comm]; field_simp
    rw [e3, K, K]
    field_simp
  · simp

theorem val_Db_pl : mom lam (lag (lam + 1) m * T lam (lag lam n)) / (K (lam + 1) m * K lam n) = vDb_pl lam m n := by
  have h' : 0 < lam + 1 := by linarith
  rw [T_lag_pl, mul_add, map_add, mul_left_comm, ← smul_eq_C_mul, map_smul, smul_eq_mul, add_div, mul_div_assoc, val_bm_pl h, vDb_pl,
    mul_left_comm, mom_X, mul_sub, map_sub, mul_left_comm, ← smul_eq_C_mul, map_smul, smul_eq_mul, lag_orth h', lag_orth h', add_comm]
  congr 1
  by_cases e : m = n
  · subst e
    have h1 := (K_pos h m).ne'
    have h4 := (Real.sqrt_pos.2 (by positivity : 0 < lam + m)).ne'
    rw [if_neg (by omega : ¬ m = m + 1), if_pos rfl, if_pos rfl, ← K_sq h' m, K_add_one h]
    rcases m with _ | m
    · simp only [Nat.cast_zero, zero_mul, zero_sub]
      rw [Nat.cast_zero] at h4
      field_simp
    · rw [if_neg (by omega)]
      field_simp
      ring
  · rw [if_neg e, if_neg e]
    rcases n with _ | n
    · simp
    · rw [Nat.add_sub_cancel]
      by_cases e' : m = n
      · subst e'
        have h1 := (K_pos h' m).ne'
        have h4 := (Real.sqrt_pos.2 (by positivity : (0 : ℝ) < m + 1)).ne'
        have h5 := Real.mul_self_sqrt (by positivity : (0 : ℝ) ≤ m + 1)
        rw [if_pos rfl, if_pos rfl, ← K_sq h', K_succ' h]
        push_cast
        field_simp
        linear_combination (-K (lam + 1) m ^ 2) * h5
      · rw [if_neg e', if_neg (by omega)]; simp

theorem val_Db_ml : mom lam (lag lam m * T (lam + 1) (lag (lam + 1) n)) / (K lam m * K (lam + 1) n) = vDb_ml lam m n := by
  have h' : 0 < lam + 1 := by linarith
  rw [T_lag_ml, mul_add, mul_sub, map_add, map_sub, mul_left_comm _ (C (1 / 2 - lam)), ← smul_eq_C_mul, map_smul, smul_eq_mul,
    mul_left_comm, ← smul_eq_C_mul, map_smul, smul_eq_mul, add_div, sub_div, mul_div_assoc, mul_comm (lag lam m) (lag (lam + 1) n),
    mul_comm (K lam m), val_bm_pl h, vDb_ml, lag_orth h, lag_orth h]
  have h1 := (K_pos h n).ne'
  have h2 := (K_pos h' n).ne'
  by_cases e : m = n
  · subst e
    have h4 := (Real.sqrt_pos.2 (by positivity : 0 < lam + m)).ne'
    have h5 := Real.mul_self_sqrt (by positivity : 0 ≤ lam + m)
    rw [if_neg (by omega : ¬ m = m + 1), if_neg (by omega : ¬ m = m + 1), if_pos rfl, if_pos rfl, ← K_sq h, K_add_one h]
    field_simp
    linear_combination (-2 * K lam m ^ 2) * h5
  · rw [if_neg e, if_neg e]
    by_cases e' : m = n + 1
    · subst e'
      have h4 := (Real.sqrt_pos.2 (by positivity : (0 : ℝ) < n + 1)).ne'
      rw [if_pos rfl, if_pos rfl, ← K_sq h, K_succ' h]
      field_simp
      ring
    · rw [if_neg e', if_neg e']; simp

theorem val_id_pl (r : ℕ) : mom (lam + r) (lag (lam + 2 * r) m * lag lam n) / (K (lam + 2 * r) m * K lam n) = vid_pl lam r m n := by
  rcases r with _ | r
  · have := val_id h m n
    simp only [Nat.cast_zero, mul_zero, add_zero, id_zero h]
    exact this
  have hx : ∀ (k : ℕ) (s : ℝ) (p : ℝ[X]), mom s (X ^ k * p) = mom (s + k) p := by
    intro k
    induction k with
    | zero => intro s p; simp
    | succ k ih =>
      intro s p
      rw [pow_succ', mul_assoc, mom_X, ih]
      congr 2
      push_cast; ring
  have e1 : mom (lam + (r + 1 : ℕ)) (lag (lam + 2 * (r + 1 : ℕ)) m * lag lam n)
      = m.factorial * Real.Gamma (lam + n) * MF_Radial_id_pl lam m n (r + 1) := by
    rw [← hx, ← mul_assoc, show lam + 2 * ((r + 1 : ℕ) : ℝ) = lam + (r + 1 : ℕ) + (r + 1 : ℕ) by ring, X_pow_lag, Finset.sum_mul, map_sum]
    rw [MF_Radial_id_pl, if_neg (by omega)]
    have e2 : ∀ j ∈ Finset.range (r + 1 + 1), mom lam (C (((r + 1).choose j : ℝ) *
          ∏ i ∈ Finset.range (r + 1 - j), (lam + (r + 1 : ℕ) + m + j + i)) * lag (lam + (r + 1 : ℕ)) (m + j) * lag lam n)
        = if n ≤ m + j then ((r + 1).choose j : ℝ) * (∏ i ∈ Finset.range (r + 1 - j), (lam + (r + 1 : ℕ) + m + j + i))
          * ((-1) ^ (m + j + n) * ((r + (m + j) - n).choose r : ℝ) * ((m + j).factorial : ℝ) * Real.Gamma (lam + n)) else 0 := by
      intro j _
      rw [mul_assoc, ← smul_eq_C_mul, map_smul, smul_eq_mul, mom_bm h, mul_ite, mul_zero]
    rw [Finset.sum_congr rfl e2, ← Finset.sum_filter]
    have e3 : (Finset.range (r + 1 + 1)).filter (fun j => n ≤ m + j) = Finset.Ico (n - m) (r + 1 + 1) := by
      ext j; simp only [Finset.mem_filter, Finset.mem_range, Finset.mem_Ico]; omega
    rw [e3]
    by_cases hn : n > m + (r + 1)
    · rw [if_pos hn, Finset.Ico_eq_empty (by omega)]; simp
    · rw [if_neg hn, Finset.sum_mul, Finset.mul_sum]
      refine Finset.sum_congr rfl fun j hj => ?_
      have hj' := Finset.mem_Ico.1 hj
      have e4 : ∀ j : ℕ, ((m + j).factorial : ℝ) = m.factorial * RisingFactorial (m + 1) j := by
        intro j
        induction j with
        | zero => simp [RisingFactorial]
        | succ j ih =>
          rw [← add_assoc, Nat.factorial_succ, Nat.cast_mul, ih, RisingFactorial, RisingFactorial, Finset.prod_range_succ]
          push_cast; ring
      have e5 : ∏ i ∈ Finset.range (r + 1 - j), (lam + ((r + 1 : ℕ) : ℝ) + m + j + i)
          = RisingFactorial (lam + m + (r + 1 : ℕ) + j) (r + 1 - j) := by
        rw [RisingFactorial]
        refine Finset.prod_congr rfl fun i _ => by ring
      rw [e4, e5, show r + 1 + m + j - 1 - n = r + (m + j) - n by omega, Nat.add_sub_cancel, show m + j + n = j + (m + n) by ring, pow_add]
      ring
  rw [e1, vid_pl, K, K]
  have h2r : 0 < lam + 2 * ((r + 1 : ℕ) : ℝ) := by positivity
  have h3 := (hN_pos h2r m).ne'
  have h4 := (hN_pos h n).ne'
  have hf := Nat.cast_ne_zero (R := ℝ).2 m.factorial_ne_zero
  have hf' := Nat.cast_ne_zero (R := ℝ).2 n.factorial_ne_zero
  have e3 : Real.Gamma (lam + n) = n.factorial * hN lam n ^ 2 := by
    rw [hN_sq h, add_comm]; field_simp
  rw [e3]
  field_simp
end

theorem val_bm2 {lam : ℝ} (h : 1 < lam) (m n : ℕ) :
    mom (lam - 1) (lag lam m * lag lam n) / (K lam m * K lam n) = vbm2 lam m n := by
  have h0 : 0 < lam := by linarith
  have h1 : 0 < lam - 1 := by linarith
  have := mom_bm2 h1 m n
  rw [sub_add_cancel] at this
  rw [this, vbm2]
  have e : K lam m * K lam n = K lam (max m n) * K lam (min m n) := by
    rcases le_total m n with hmn | hmn
    · rw [max_eq_right hmn, min_eq_left hmn, mul_comm]
    · rw [max_eq_left hmn, min_eq_right hmn]
  rw [e]
  have e3 : Real.Gamma (lam + (min m n : ℕ)) = (min m n).factorial * hN lam (min m n) ^ 2 := by
    have hf' := Nat.cast_ne_zero (R := ℝ).2 (min m n).factorial_ne_zero
    rw [hN_sq h0, add_comm]; field_simp
  have h3 := (hN_pos h0 (max m n)).ne'
  have h4 := (hN_pos h0 (min m n)).ne'
  have hf := Nat.cast_ne_zero (R := ℝ).2 (max m n).factorial_ne_zero
  have hf' := Nat.cast_ne_zero (R := ℝ).2 (min m n).factorial_ne_zero
  rw [e3, K, K]
  field_simp

theorem val_D2b {lam : ℝ} (h : 1 < lam) (m n : ℕ) :
    mom (lam - 1) (lag lam m * T (lam - 1) (T lam (lag lam n))) / (K lam m * K lam n) = vSp lam m n + vSm lam m n - 2 * vS0 lam m n
      + (lam - 3 / 2) * (lam - 1 / 2) * vbm2 lam m n := by
  have h0 : 0 < lam := by linarith
  rw [T_T, show lag lam m * ((X ^ 2 - C (2 * lam + 4 * n) * X + C ((lam - 3 / 2) * (lam - 1 / 2))) * lag lam n)
    = X * (lag lam m * (X * lag lam n) - C (2 * lam + 4 * n) * (lag lam m * lag lam n))
      + C ((lam - 3 / 2) * (lam - 1 / 2)) * (lag lam m * lag lam n) by ring]
  rw [map_add, mom_X, sub_add_cancel, map_sub, ← smul_eq_C_mul, ← smul_eq_C_mul, map_smul, map_smul, smul_eq_mul, smul_eq_mul,
    add_div, sub_div, mul_div_assoc, mul_div_assoc, val_b2 h0, val_id h0, val_bm2 h, vS0, Spec.opId]
  split_ifs with e
  · ring
  · ring

end Acm.RadialBasis

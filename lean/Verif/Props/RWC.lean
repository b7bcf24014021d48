import Verif.Spec.RWC
import Verif.Props.RadialBasis
import Verif.Spec.HamData
import Verif.Model.HamData
import Mathlib.Analysis.SpecialFunctions.Integrals.Basic

/-!
# Property C91: `RWC_expt` is the expectation value of `RWC_Ham`
-/

namespace Acm.Props
open Acm Spec RadialBasis Polynomial Spec.RadialBasis Spec.RWC

theorem overlap_add {f g g' : ℝ → ℝ} {x x' : ℝ} (c c' : ℝ) (h : Overlap f g x) (h' : Overlap f g' x') :
    Overlap f (fun b => c * g b + c' * g' b) (c * x + c' * x') := by
  have e : (fun b => f b * (c * g b + c' * g' b)) = fun b => c * (f b * g b) + c' * (f b * g' b) := by funext b; ring
  unfold Overlap
  rw [e]
  have i1 := h.1.const_mul c
  have i2 := h'.1.const_mul c'
  refine ⟨i1.add i2, ?_⟩
  rw [MeasureTheory.integral_add i1 i2, MeasureTheory.integral_const_mul, MeasureTheory.integral_const_mul, h.2, h'.2]

theorem sin3_int (k : ℕ) : ∫ g in (0 : ℝ)..(Real.pi / 3), Real.cos (3 * g) ^ k * Real.sin (3 * g) = (1 - (-1) ^ (k + 1)) / (3 * (k + 1)) := by
  have h : ∀ g ∈ Set.uIcc (0 : ℝ) (Real.pi / 3),
      HasDerivAt (fun g => -Real.cos (3 * g) ^ (k + 1) / (3 * (k + 1))) (Real.cos (3 * g) ^ k * Real.sin (3 * g)) g := by
    intro g _
    have h1 := (Real.hasDerivAt_cos (3 * g)).comp g ((hasDerivAt_id g).const_mul 3)
    have h2 := ((h1.pow (k + 1)).neg).div_const (3 * ((k : ℝ) + 1))
    refine h2.congr_deriv ?_
    simp only [Function.comp_apply, id, Nat.add_sub_cancel]
    have : (k : ℝ) + 1 ≠ 0 := by positivity
    push_cast
    field_simp
  rw [intervalIntegral.integral_eq_sub_of_hasDerivAt h (by apply Continuous.intervalIntegrable; fun_prop)]
  rw [show 3 * (Real.pi / 3) = Real.pi by ring]
  simp only [Real.cos_pi, mul_zero, Real.cos_zero, one_pow]
  ring

/-- The means of `1`, `cos 3 gamma` and `cos^2 3 gamma` are `1`, `0` and `1/3`. -/
theorem gammaMean_quad (x y z : ℝ) : gammaMean (fun g => x + y * Real.cos (3 * g) + z * Real.cos (3 * g) ^ 2) = x + z / 3 := by
  have h0 := sin3_int 0
  have h1 := sin3_int 1
  have h2 := sin3_int 2
  simp only [pow_zero, one_mul, pow_one] at h0 h1
  have e : ∀ g : ℝ, (x + y * Real.cos (3 * g) + z * Real.cos (3 * g) ^ 2) * Real.sin (3 * g)
      = x * Real.sin (3 * g) + y * (Real.cos (3 * g) * Real.sin (3 * g)) + z * (Real.cos (3 * g) ^ 2 * Real.sin (3 * g)) := by
    intro g; ring
  unfold gammaMean
  simp only [e]
  rw [intervalIntegral.integral_add, intervalIntegral.integral_add, intervalIntegral.integral_const_mul, intervalIntegral.integral_const_mul,
    intervalIntegral.integral_const_mul, h0, h1, h2]
  · norm_num; ring
  all_goals apply Continuous.intervalIntegrable; fun_prop

/-- The radial expectation value for the seniority `v`, in the lowest state. -/
theorem radial_energy {B c1 c2 a lam : ℝ} (hB : B ≠ 0) (ha : 0 < a) (hl : 1 < lam) (k : ℝ) (v : ℕ) :
    Overlap (radialFn a lam 0) (fun b => ham B c1 c2 0 0 v (radialFn a lam 0) b 0 + k * radialFn a lam 0 b)
      (a ^ 2 * (4 + ((2 * v + 3) ^ 2 : ℝ) / (lam - 1)) / 8 / B + B * lam * c1 / 2 / a ^ 2 + B * lam * (lam + 1) * c2 / 2 / a ^ 4 + k) := by
  have h : 0 < lam := by linarith
  obtain ⟨-, -, o3, o4, -, o6, -⟩ := opAct_is ha h 0
  have hR := radialFn_is ha h 0
  have q1 := overlap_mom (lam' := lam) (u := lam - 1) ha h h (by linarith) (by ring) (m := 0) o6
  rw [val_D2b hl] at q1
  have q2 := overlap_mom (lam' := lam) (u := lam - 1) ha h h (by linarith) (by ring) (m := 0) o4
  rw [val_bm2 hl] at q2
  have q3 := overlap_mom (lam' := lam) (u := lam) ha h h h (by ring) (m := 0) o3
  rw [val_b2 h] at q3
  have q0 := C90_orthonormal ha h 0 0
  rw [if_pos rfl] at q0
  have o5 := (hR.up2 ha).up2 ha
  rw [show C (a⁻¹ ^ 2) * (X * (C (a⁻¹ ^ 2) * (X * (C (Real.sqrt (2 * a) / K lam 0) * lag lam 0))))
    = C (Real.sqrt (2 * a) / K lam 0) * (C (a⁻¹ ^ 2 * a⁻¹ ^ 2) * (X * (X * lag lam 0))) by rw [C_mul]; ring] at o5
  have q4 := overlap_mom (lam' := lam) (u := lam) ha h h h (by ring) (m := 0) o5
  have e4 : mom lam (lag lam 0 * (X * (X * lag lam 0))) / (K lam 0 * K lam 0) = lam * (lam + 1) := by
    have hk := K_sq h 0
    have hk0 := (K_pos h 0).ne'
    rw [lag_zero, one_mul, mom_X, mom_X, show (1 : ℝ[X]) = monomial 0 1 from rfl, mom_monomial, ← sq, hk]
    have g1 := Real.Gamma_add_one h.ne'
    have g2 := Real.Gamma_add_one (by linarith : lam + 1 ≠ 0)
    have g0 := (Real.Gamma_pos_of_pos h).ne'
    simp only [Nat.factorial_zero, Nat.cast_one, Nat.cast_zero, add_zero, one_mul, mul_one]
    rw [g2, g1]
    field_simp
  rw [e4] at q4
  have e := overlap_add 1 1 (overlap_add (-1 / (2 * B)) ((2 + v * (v + 3)) / (2 * B)) q1 q2)
    (overlap_add 1 k (overlap_add (B / 2 * c1) (B / 2 * c2) q3 q4) q0)
  have hN := (hN_pos h 0).ne'
  have hl' : lam - 1 ≠ 0 := by linarith
  convert e using 1
  · funext b
    simp only [ham, opAct, Momentum.act]
    ring
  · simp only [vSp, vSm, vS0, vbm2, Nat.zero_add, zero_ne_one, if_false, if_true, Nat.cast_zero, add_zero, pow_zero, min_self, max_self, one_mul,
      div_self hN]
    field_simp
    ring

/-- C91: `RWC_expt` is the expectation value of the Hamiltonian in the state with `nu = 0`, `v = 0`: the integral over
`beta` of the mean over `gamma`. -/
theorem C91_expectation {B c1 c2 chi kappa a lam : ℝ} (hB : B ≠ 0) (ha : 0 < a) (hl : 1 < lam) :
    ∃ x, RWC_expt B c1 c2 kappa a lam = .ok x ∧
      MeasureTheory.IntegrableOn (fun b => gammaMean fun g => radialFn a lam 0 b * ham B c1 c2 chi kappa 0 (radialFn a lam 0) b g)
        (Set.Ioi 0) ∧
      ∫ b in Set.Ioi 0, (gammaMean fun g => radialFn a lam 0 b * ham B c1 c2 chi kappa 0 (radialFn a lam 0) b g) = x := by
  refine ⟨_, by rw [RWC_expt, if_neg ha.ne', if_neg hl.ne', if_neg hB]; rfl, ?_⟩
  have e : (fun b => gammaMean fun g => radialFn a lam 0 b * ham B c1 c2 chi kappa 0 (radialFn a lam 0) b g)
      = fun b => radialFn a lam 0 b * (ham B c1 c2 0 0 0 (radialFn a lam 0) b 0 + kappa / 3 * radialFn a lam 0 b) := by
    funext b
    have := gammaMean_quad (radialFn a lam 0 b * ham B c1 c2 0 0 0 (radialFn a lam 0) b 0)
      (-(chi * b * radialFn a lam 0 b ^ 2)) (kappa * radialFn a lam 0 b ^ 2)
    rw [show radialFn a lam 0 b * (ham B c1 c2 0 0 0 (radialFn a lam 0) b 0 + kappa / 3 * radialFn a lam 0 b)
      = radialFn a lam 0 b * ham B c1 c2 0 0 0 (radialFn a lam 0) b 0 + kappa * radialFn a lam 0 b ^ 2 / 3 by ring, ← this]
    congr 1
    funext g
    simp only [ham]
    ring
  have := radial_energy (c1 := c1) (c2 := c2) hB ha hl (kappa / 3) 0
  rw [e]
  refine ⟨this.1, ?_⟩
  rw [this.2]
  push_cast
  ring

/-- C91: the quantity minimised by the parameter search (C68, C74) is, for every seniority `v`, the radial expectation value. -/
theorem C91_energy {B c1 c2 kappa a lam : ℝ} (hB : B ≠ 0) (ha : 0 < a) (hl : 1 < lam) (v : ℕ) :
    Overlap (radialFn a lam 0) (fun b => ham B c1 c2 0 0 v (radialFn a lam 0) b 0 + kappa / 3 * radialFn a lam 0 b)
      (energy B c1 c2 kappa v lam (a ^ 2)) := by
  have := radial_energy (c1 := c1) (c2 := c2) hB ha hl (kappa / 3) v
  convert this using 1
  have hl' : lam - 1 ≠ 0 := by linarith
  rw [energy]
  field_simp
  ring

example : ∃ x, RWC_expt 20 (-2) (3 / 2) 1 4 3 = .ok x ∧
    ∫ b in Set.Ioi 0, (gammaMean fun g => radialFn 4 3 0 b * ham 20 (-2) (3 / 2) (1 / 10) 1 0 (radialFn 4 3 0) b g) = x :=
  have ⟨x, hx, _, h⟩ := C91_expectation (B := 20) (c1 := -2) (c2 := 3 / 2) (chi := 1 / 10) (kappa := 1) (a := 4) (lam := 3) (by norm_num)
    (by norm_num) (by norm_num)
  ⟨x, hx, h⟩

end Acm.Props

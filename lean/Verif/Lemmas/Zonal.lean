import Verif.Spec.Zonal
import Mathlib.Algebra.Polynomial.Taylor
import Mathlib.Algebra.Polynomial.HasseDeriv
import Mathlib.Tactic.LinearCombination
import Mathlib.Tactic.FieldSimp
import Mathlib.Tactic.Positivity
import Mathlib.Data.Nat.Factorial.Basic
import Mathlib.Data.Nat.Cast.Order.Field
import Mathlib.Algebra.BigOperators.Intervals

/-!
# Zonal harmonics: recurrence, existence, uniqueness, products
-/

namespace Acm.Zonal

open Acm.Spec.Sphere Polynomial

/-! ## Existence -/

/-- The zonal harmonics by their recurrence; the second component is the next one. -/
noncomputable def zz : ℕ → ℝ[X] × ℝ[X]
  | 0 => (1, X)
  | n + 1 => ((zz n).2, C (1 / ((n : ℝ) + 4)) * (C (2 * (n : ℝ) + 5) * X * (zz n).2 - C ((n : ℝ) + 1) * (zz n).1))

noncomputable def zonal (n : ℕ) : ℝ[X] := (zz n).1

theorem zonal_zero : zonal 0 = 1 := rfl

theorem zonal_one : zonal 1 = X := rfl

theorem zonal_rec (n : ℕ) :
    C ((n : ℝ) + 4) * zonal (n + 2) = C (2 * (n : ℝ) + 5) * X * zonal (n + 1) - C ((n : ℝ) + 1) * zonal n := by
  have e : zonal (n + 2) = C (1 / ((n : ℝ) + 4)) * (C (2 * (n : ℝ) + 5) * X * zonal (n + 1) - C ((n : ℝ) + 1) * zonal n) := rfl
  have h : ((n : ℝ) + 4) ≠ 0 := by positivity
  rw [e, ← mul_assoc, ← C_mul, mul_one_div_cancel h, C_1, one_mul]

theorem zonal_pole (n : ℕ) : (zonal n).eval 1 = 1 := by
  induction n using Nat.strong_induction_on with
  | _ n ih =>
    match n with
    | 0 => simp [zonal_zero]
    | 1 => simp [zonal_one]
    | n + 2 =>
      have h := congrArg (eval 1) (zonal_rec n)
      simp only [eval_mul, eval_C, eval_sub, eval_X, ih (n + 1) (by omega), ih n (by omega), mul_one] at h
      have h0 : ((n : ℝ) + 4) ≠ 0 := by positivity
      apply mul_left_cancel₀ h0
      rw [h]; ring

/-- The derivative in terms of the next one and the one itself. -/
theorem zonal_deriv (n : ℕ) :
    (1 - X ^ 2) * derivative (zonal (n + 1)) = C ((n : ℝ) + 1) * (zonal n - X * zonal (n + 1)) ∧
    (1 - X ^ 2) * derivative (zonal n) = C ((n : ℝ) + 3) * (X * zonal n - zonal (n + 1)) := by
  induction n with
  | zero => simp [zonal_zero, zonal_one]; ring
  | succ n ih =>
    have hr := zonal_rec n
    have h2 : (1 - X ^ 2) * derivative (zonal (n + 1)) = C ((n : ℝ) + 4) * (X * zonal (n + 1) - zonal (n + 2)) := by
      rw [ih.1]
      simp only [map_add, map_mul, map_one, map_natCast, map_ofNat] at *
      linear_combination hr
    refine ⟨?_, ?_⟩
    · have hd := congrArg derivative hr
      simp only [derivative_mul, derivative_C, zero_mul, zero_add, derivative_sub, derivative_X] at hd
      have h0 : (C ((n : ℝ) + 4) : ℝ[X]) ≠ 0 := by
        rw [Ne, C_eq_zero]; positivity
      apply mul_left_cancel₀ h0
      have e1 := ih.1
      have e2 := ih.2
      simp only [map_add, map_mul, map_one, map_natCast, map_ofNat, Nat.cast_add, Nat.cast_one, mul_one] at *
      linear_combination (1 - X ^ 2) * hd + (2 * (n : ℝ[X]) + 5) * X * e1 - ((n : ℝ[X]) + 1) * e2 + ((n : ℝ[X]) + 2) * X * hr
    · rw [h2]; push_cast; congr 2; ring

theorem zonal_is (n : ℕ) : Zonal n (zonal n) := by
  refine ⟨?_, zonal_pole n⟩
  match n with
  | 0 => simp [zonal_zero]
  | n + 1 =>
    have h0 : (1 - X ^ 2 : ℝ[X]) ≠ 0 := by
      intro h
      have := congrArg (eval 0) h
      simp at this
    apply mul_left_cancel₀ h0
    have e1 := (zonal_deriv n).1
    have e2 := (zonal_deriv n).2
    have hd := congrArg derivative e1
    simp only [derivative_mul, derivative_C, zero_mul, zero_add, derivative_sub, derivative_X, derivative_one,
      derivative_X_pow, zero_sub] at hd
    simp only [map_add, map_mul, map_one, map_natCast, map_ofNat, Nat.cast_add, Nat.cast_one] at *
    norm_num at hd
    linear_combination (1 - X ^ 2) * hd + ((n : ℝ[X]) + 1) * e2 - (2 * X + ((n : ℝ[X]) + 1) * X) * e1

/-! ## Uniqueness -/

theorem ode_iter {v : ℕ} {D : ℕ → ℝ[X]} (hD : ∀ k, derivative (D k) = D (k + 1))
    (h : (1 - X ^ 2) * D 2 - 4 * X * D 1 + C ((v : ℝ) * (v + 3)) * D 0 = 0) (k : ℕ) :
    (1 - X ^ 2) * D (k + 2) - C (2 * (k : ℝ) + 4) * X * D (k + 1) + C ((v : ℝ) * (v + 3) - k * (k + 3)) * D k = 0 := by
  induction k with
  | zero =>
    simp only [map_add, map_mul, map_natCast, map_ofNat, Nat.cast_zero, zero_mul, sub_zero, mul_zero, zero_add] at *
    exact h
  | succ k ih =>
    have hd := congrArg derivative ih
    simp only [derivative_mul, derivative_C, zero_mul, zero_add, derivative_sub, derivative_X, derivative_one,
      derivative_X_pow, zero_sub, derivative_add, derivative_zero, hD] at hd
    simp only [map_add, map_mul, map_sub, map_one, map_natCast, map_ofNat, Nat.cast_add, Nat.cast_one, mul_one] at *
    norm_num at hd
    linear_combination hd

theorem zero_of_pole {v : ℕ} {p : ℝ[X]}
    (h : (1 - X ^ 2) * derivative (derivative p) - 4 * X * derivative p + C ((v : ℝ) * (v + 3)) * p = 0)
    (h1 : p.eval 1 = 0) : p = 0 := by
  have hk : ∀ k, (derivative^[k] p).eval 1 = 0 := by
    intro k
    induction k with
    | zero => exact h1
    | succ k ih =>
      have := congrArg (eval 1) (ode_iter (D := fun k => derivative^[k] p) (fun k => (Function.iterate_succ_apply' _ _ _).symm) h k)
      simp only [eval_add, eval_sub, eval_mul, eval_C, eval_X, eval_one, eval_pow, ih, one_pow, sub_self, zero_mul, mul_zero,
        mul_one, add_zero, zero_sub, eval_zero, neg_eq_zero] at this
      rcases mul_eq_zero.1 this with h | h
      · exfalso
        have : 0 < 2 * (k : ℝ) + 4 := by positivity
        linarith
      · exact h
  apply taylor_injective 1
  rw [map_zero]
  ext k
  rw [taylor_coeff, coeff_zero]
  have := hk k
  rw [← factorial_smul_hasseDeriv, LinearMap.smul_apply, eval_smul, nsmul_eq_mul] at this
  rcases mul_eq_zero.1 this with h | h
  · exact absurd h (by exact_mod_cast k.factorial_ne_zero)
  · exact h

theorem zonal_unique {v : ℕ} {p : ℝ[X]} (h : Zonal v p) : p = zonal v := by
  have := zero_of_pole (v := v) (p := p - zonal v) (by
    have h1 := h.ode
    have h2 := (zonal_is v).ode
    simp only [derivative_sub]
    linear_combination h1 - h2) (by rw [eval_sub, h.pole, zonal_pole, sub_self])
  exact sub_eq_zero.1 this

/-- The recurrence in the form used below. -/
theorem X_zonal (n : ℕ) : X * zonal n = C (((n : ℝ) + 3) / (2 * n + 3)) * zonal (n + 1) +
    C ((n : ℝ) / (2 * n + 3)) * zonal (n - 1) := by
  match n with
  | 0 => simp [zonal_zero, zonal_one]
  | n + 1 =>
    have h := zonal_rec n
    have h0 : (2 * (n : ℝ) + 5) ≠ 0 := by positivity
    have h1 : (C (2 * (n : ℝ) + 5) : ℝ[X]) ≠ 0 := by rwa [Ne, C_eq_zero]
    apply mul_left_cancel₀ h1
    rw [mul_add, ← mul_assoc, ← mul_assoc (C (2 * (n : ℝ) + 5)), ← C_mul, ← mul_assoc (C (2 * (n : ℝ) + 5)), ← C_mul]
    have e1 : (2 * (n : ℝ) + 5) * ((((n + 1 : ℕ) : ℝ) + 3) / (2 * ((n + 1 : ℕ) : ℝ) + 3)) = n + 4 := by
      push_cast; field_simp; ring
    have e2 : (2 * (n : ℝ) + 5) * (((n + 1 : ℕ) : ℝ) / (2 * ((n + 1 : ℕ) : ℝ) + 3)) = n + 1 := by
      push_cast; field_simp; ring
    rw [e1, e2, Nat.add_sub_cancel]
    linear_combination -h

/-! ## Coefficients of a product -/

/-- `(2 n + 1)! / n!^2`, and 0 for negative `n`. -/
noncomputable def kap (n : ℤ) : ℝ := if n < 0 then 0 else ((2 * n.toNat + 1).factorial : ℝ) / (n.toNat.factorial : ℝ) ^ 2

/-- `(s + 1)!^2 (2 s + 4) / (2 s + 3)!`. -/
noncomputable def Kap (s : ℤ) : ℝ := ((s.toNat + 1).factorial : ℝ) ^ 2 * (2 * s.toNat + 4) / (2 * s.toNat + 3).factorial

noncomputable def tri (a b c : ℤ) : ℝ := Kap (a + b + c) * kap a * kap b * kap c

theorem kap_neg {n : ℤ} (h : n < 0) : kap n = 0 := by rw [kap, if_pos h]

theorem kap_succ (n : ℕ) : kap ((n : ℤ) + 1) = 2 * (2 * n + 3) / (n + 1) * kap n := by
  rw [kap, kap, if_neg (by omega), if_neg (by omega), Int.toNat_natCast, show ((n : ℤ) + 1).toNat = n + 1 by omega,
    show 2 * (n + 1) + 1 = 2 * n + 1 + 1 + 1 by ring, Nat.factorial_succ (2 * n + 1 + 1), Nat.factorial_succ (2 * n + 1),
    Nat.factorial_succ n]
  have := Nat.cast_ne_zero (R := ℝ).2 n.factorial_ne_zero
  push_cast
  field_simp
  ring

theorem kap_zero : kap 0 = 1 := by simp [kap]

theorem Kap_succ (s : ℕ) : Kap ((s : ℤ) + 1) = (s + 3) / (2 * (2 * s + 5)) * Kap s := by
  rw [Kap, Kap, Int.toNat_natCast, show ((s : ℤ) + 1).toNat = s + 1 by omega,
    show 2 * (s + 1) + 3 = 2 * s + 3 + 1 + 1 by ring, Nat.factorial_succ (2 * s + 3 + 1), Nat.factorial_succ (2 * s + 3),
    Nat.factorial_succ (s + 1)]
  have := Nat.cast_ne_zero (R := ℝ).2 (2 * s + 3).factorial_ne_zero
  push_cast
  field_simp
  ring

theorem tri_neg {a b c : ℤ} (h : a < 0 ∨ b < 0 ∨ c < 0) : tri a b c = 0 := by
  rcases h with h | h | h <;> simp [tri, kap_neg h]

/-- The relation between the coefficients. -/
theorem tri_rel (a b c : ℤ) (hw : 0 ≤ a + b + 1) (hu : 0 ≤ b + c + 1) (hv : 0 ≤ a + c + 1) :
    (2 * ((b + c + 1 : ℤ) : ℝ) + 3) * (((a + b + 1 : ℤ) + 1 : ℝ) * tri (a + 1) (b + 1) c
        + ((a + b + 1 : ℤ) + 2 : ℝ) * tri a b (c + 1))
      = (2 * ((a + b + 1 : ℤ) : ℝ) + 3) * (((b + c + 1 : ℤ) + 2 : ℝ) * tri (a + 1) b c
        + ((b + c + 1 : ℤ) + 1 : ℝ) * tri a (b + 1) (c + 1)) := by
  by_cases ha : a < -1
  · simp [tri_neg (a := a + 1) (b := b + 1) (c := c) (by omega), tri_neg (a := a) (b := b) (c := c + 1) (by omega),
      tri_neg (a := a + 1) (b := b) (c := c) (by omega), tri_neg (a := a) (b := b + 1) (c := c + 1) (by omega)]
  by_cases hb : b < -1
  · simp [tri_neg (a := a + 1) (b := b + 1) (c := c) (by omega), tri_neg (a := a) (b := b) (c := c + 1) (by omega),
      tri_neg (a := a + 1) (b := b) (c := c) (by omega), tri_neg (a := a) (b := b + 1) (c := c + 1) (by omega)]
  by_cases hc : c < -1
  · simp [tri_neg (a := a + 1) (b := b + 1) (c := c) (by omega), tri_neg (a := a) (b := b) (c := c + 1) (by omega),
      tri_neg (a := a + 1) (b := b) (c := c) (by omega), tri_neg (a := a) (b := b + 1) (c := c + 1) (by omega)]
  by_cases ha : a = -1
  · subst ha
    obtain ⟨b, rfl⟩ := Int.eq_ofNat_of_zero_le (by omega : 0 ≤ b)
    obtain ⟨c, rfl⟩ := Int.eq_ofNat_of_zero_le (by omega : 0 ≤ c)
    rw [tri_neg (a := -1) (by omega), tri_neg (a := -1) (by omega), tri, tri,
      show (-1 : ℤ) + 1 + ((b : ℤ) + 1) + c = ((b + c : ℕ) : ℤ) + 1 by push_cast; ring,
      show (-1 : ℤ) + 1 + (b : ℤ) + c = ((b + c : ℕ) : ℤ) by push_cast; ring, Kap_succ, kap_succ]
    push_cast
    field_simp
    ring
  by_cases hb : b = -1
  · subst hb
    obtain ⟨a, rfl⟩ := Int.eq_ofNat_of_zero_le (by omega : 0 ≤ a)
    obtain ⟨c, rfl⟩ := Int.eq_ofNat_of_zero_le (by omega : 0 ≤ c)
    rw [tri_neg (b := -1) (by omega), tri_neg (b := -1) (by omega), tri, tri,
      show (a : ℤ) + 1 + (-1 + 1) + c = ((a + c : ℕ) : ℤ) + 1 by push_cast; ring,
      show (a : ℤ) + (-1 + 1) + (c + 1) = ((a + c : ℕ) : ℤ) + 1 by push_cast; ring, Kap_succ, kap_succ, kap_succ]
    push_cast
    field_simp
    ring
  by_cases hc : c = -1
  · subst hc
    obtain ⟨a, rfl⟩ := Int.eq_ofNat_of_zero_le (by omega : 0 ≤ a)
    obtain ⟨b, rfl⟩ := Int.eq_ofNat_of_zero_le (by omega : 0 ≤ b)
    rw [tri_neg (c := -1) (by omega), tri_neg (c := -1) (by omega), tri, tri,
      show (a : ℤ) + b + (-1 + 1) = ((a + b : ℕ) : ℤ) by push_cast; ring,
      show (a : ℤ) + (b + 1) + (-1 + 1) = ((a + b : ℕ) : ℤ) + 1 by push_cast; ring, Kap_succ, kap_succ]
    push_cast
    field_simp
    ring
  obtain ⟨a, rfl⟩ := Int.eq_ofNat_of_zero_le (by omega : 0 ≤ a)
  obtain ⟨b, rfl⟩ := Int.eq_ofNat_of_zero_le (by omega : 0 ≤ b)
  obtain ⟨c, rfl⟩ := Int.eq_ofNat_of_zero_le (by omega : 0 ≤ c)
  simp only [tri]
  rw [show (a : ℤ) + 1 + (b + 1) + c = ((a + b + c + 1 : ℕ) : ℤ) + 1 by push_cast; ring,
    show (a : ℤ) + b + (c + 1) = ((a + b + c : ℕ) : ℤ) + 1 by push_cast; ring,
    show (a : ℤ) + 1 + b + c = ((a + b + c : ℕ) : ℤ) + 1 by push_cast; ring,
    show (a : ℤ) + (b + 1) + (c + 1) = ((a + b + c + 1 : ℕ) : ℤ) + 1 by push_cast; ring, Kap_succ,
    show ((a + b + c + 1 : ℕ) : ℤ) = ((a + b + c : ℕ) : ℤ) + 1 by push_cast; ring, Kap_succ, kap_succ, kap_succ, kap_succ]
  push_cast
  field_simp
  ring

/-- The coefficient of the zonal harmonic `u` in the product of those for `w` and `v`. -/
noncomputable def G (w v u : ℤ) : ℝ :=
  if (u + v + w) % 2 = 0 then tri ((v + w - u) / 2) ((u + w - v) / 2) ((u + v - w) / 2) * (2 * u + 3) * 2 /
    ((v + 1) * (v + 2) * ((w + 1) * (w + 2))) else 0

theorem G_zero_of {w v u : ℤ} (h : v + w < u ∨ u + w < v ∨ u + v < w) : G w v u = 0 := by
  rw [G]
  split_ifs with hp
  · rw [tri_neg (by omega)]; simp
  · rfl

theorem G_rel (w v u : ℕ) : ((w : ℝ) + 3) / (2 * w + 3) * G (w + 1) v u + (w : ℝ) / (2 * w + 3) * G (w - 1) v u
    = ((u : ℝ) + 2) / (2 * u + 1) * G w v (u - 1) + ((u : ℝ) + 1) / (2 * u + 5) * G w v (u + 1) := by
  by_cases hp : ((u : ℤ) + v + w) % 2 = 0
  · simp only [G]
    rw [if_neg (by omega), if_neg (by omega), if_neg (by omega), if_neg (by omega)]
    simp
  · simp only [G]
    rw [if_pos (by omega), if_pos (by omega), if_pos (by omega), if_pos (by omega)]
    obtain ⟨a, ha⟩ : ∃ a : ℤ, (v : ℤ) + w - u = 2 * a + 1 := ⟨((v : ℤ) + w - u) / 2, by omega⟩
    obtain ⟨b, hb⟩ : ∃ b : ℤ, (u : ℤ) + w - v = 2 * b + 1 := ⟨((u : ℤ) + w - v) / 2, by omega⟩
    obtain ⟨c, hc⟩ : ∃ c : ℤ, (u : ℤ) + v - w = 2 * c + 1 := ⟨((u : ℤ) + v - w) / 2, by omega⟩
    have key := tri_rel a b c (by omega) (by omega) (by omega)
    rw [show a + b + 1 = (w : ℤ) by omega, show b + c + 1 = (u : ℤ) by omega] at key
    rw [show ((v : ℤ) + (w + 1) - u) / 2 = a + 1 by omega, show ((u : ℤ) + (w + 1) - v) / 2 = b + 1 by omega,
      show ((u : ℤ) + v - (w + 1)) / 2 = c by omega, show ((v : ℤ) + (w - 1) - u) / 2 = a by omega,
      show ((u : ℤ) + (w - 1) - v) / 2 = b by omega, show ((u : ℤ) + v - (w - 1)) / 2 = c + 1 by omega,
      show ((v : ℤ) + w - (u - 1)) / 2 = a + 1 by omega, show ((u : ℤ) - 1 + w - v) / 2 = b by omega,
      show ((u : ℤ) - 1 + v - w) / 2 = c by omega, show ((v : ℤ) + w - (u + 1)) / 2 = a by omega,
      show ((u : ℤ) + 1 + w - v) / 2 = b + 1 by omega, show ((u : ℤ) + 1 + v - w) / 2 = c + 1 by omega]
    push_cast at key ⊢
    rw [show 2 * ((u : ℝ) - 1) + 3 = 2 * u + 1 by ring, show 2 * ((u : ℝ) + 1) + 3 = 2 * u + 5 by ring]
    rcases Nat.eq_zero_or_pos w with rfl | hw
    · rw [tri_neg (a := a) (b := b) (c := c + 1) (by omega)] at key ⊢
      push_cast at key ⊢
      field_simp
      linear_combination 6 * key
    · have hw' : ((w : ℝ) - 1 + 1) ≠ 0 := by
        rw [sub_add_cancel]; exact_mod_cast (by omega : w ≠ 0)
      have hw'' : ((w : ℝ) - 1 + 2) ≠ 0 := by
        have : (w : ℝ) - 1 + 2 = w + 1 := by ring
        rw [this]; positivity
      rw [sub_add_cancel] at hw'
      rw [show (w : ℝ) - 1 + 1 = w by ring, show (w : ℝ) - 1 + 2 = w + 1 by ring, show (w : ℝ) + 1 + 1 = w + 2 by ring,
        show (w : ℝ) + 1 + 2 = w + 3 by ring]
      field_simp
      linear_combination key

theorem G_w0 (v u : ℕ) : G 0 v u = if u = v then 1 else 0 := by
  split_ifs with h
  · subst h
    rw [G, if_pos (by omega), show ((u : ℤ) + 0 - u) / 2 = 0 by omega, show ((u : ℤ) + u - 0) / 2 = u by omega, tri, kap_zero,
      show (0 : ℤ) + 0 + u = u by ring, Kap, kap, if_neg (by omega), Int.toNat_natCast,
      show 2 * u + 3 = 2 * u + 1 + 1 + 1 by ring, Nat.factorial_succ (2 * u + 1 + 1), Nat.factorial_succ (2 * u + 1),
      Nat.factorial_succ u]
    have h1 := Nat.cast_ne_zero (R := ℝ).2 u.factorial_ne_zero
    have h2 := Nat.cast_ne_zero (R := ℝ).2 (2 * u + 1).factorial_ne_zero
    push_cast
    field_simp
    ring
  · exact G_zero_of (by omega)

/-- Multiplication by the coordinate. -/
theorem X_sum (f : ℤ → ℝ) (N : ℕ) (h0 : f (-1) = 0) (h1 : f (N + 1) = 0) (h2 : f (N + 2) = 0) :
    X * ∑ u ∈ Finset.range (N + 1), C (f u) * zonal u = ∑ u ∈ Finset.range (N + 2),
      C (((u : ℝ) + 2) / (2 * u + 1) * f (u - 1) + ((u : ℝ) + 1) / (2 * u + 5) * f (u + 1)) * zonal u := by
  have e1 : X * ∑ u ∈ Finset.range (N + 1), C (f u) * zonal u
      = ∑ u ∈ Finset.range (N + 1), C (((u : ℝ) + 3) / (2 * u + 3) * f u) * zonal (u + 1)
        + ∑ u ∈ Finset.range (N + 1), C ((u : ℝ) / (2 * u + 3) * f u) * zonal (u - 1) := by
    rw [Finset.mul_sum, ← Finset.sum_add_distrib]
    refine Finset.sum_congr rfl fun u _ => ?_
    rw [mul_left_comm, X_zonal, C_mul, C_mul]
    ring
  rw [e1]
  simp only [C_add, add_mul, Finset.sum_add_distrib]
  congr 1
  · rw [Finset.sum_range_succ' _ (N + 1), Nat.cast_zero, Nat.cast_zero, zero_sub, h0]
    simp only [mul_zero, C_0, zero_mul, add_zero]
    refine Finset.sum_congr rfl fun u _ => ?_
    congr 3
    · push_cast; ring
    · congr 1; push_cast; ring
  · rw [Finset.sum_range_succ' _ N, Finset.sum_range_succ _ (N + 1), Finset.sum_range_succ _ N]
    rw [show ((N + 1 : ℕ) : ℤ) + 1 = N + 2 by push_cast; ring, h2, h1]
    simp only [mul_zero, C_0, zero_mul, add_zero, Nat.cast_zero, zero_div]
    refine Finset.sum_congr rfl fun u _ => ?_
    rw [Nat.add_sub_cancel]
    congr 3
    push_cast; ring

theorem zonal_mul (v w : ℕ) : ∀ N, v + w ≤ N →
    zonal w * zonal v = ∑ u ∈ Finset.range (N + 1), C (G w v u) * zonal u := by
  induction w using Nat.strong_induction_on with
  | _ w ih =>
    match w with
    | 0 =>
      intro N hN
      simp only [Nat.cast_zero, G_w0, zonal_zero, one_mul]
      rw [Finset.sum_eq_single v]
      · simp
      · intro u _ hu; simp [hu]
      · intro hv; exact absurd (Finset.mem_range.2 (by omega)) hv
    | w + 1 =>
      intro N hN
      obtain ⟨M, rfl⟩ := Nat.exists_eq_add_of_le' (by omega : 1 ≤ N)
      have hw := ih w (by omega) M (by omega)
      have hs := X_sum (fun u => G w v u) M (G_zero_of (by omega)) (G_zero_of (by omega)) (G_zero_of (by omega))
      have hm : C ((w : ℝ) / (2 * w + 3)) * (zonal (w - 1) * zonal v)
          = ∑ u ∈ Finset.range (M + 2), C ((w : ℝ) / (2 * w + 3) * G (w - 1) v u) * zonal u := by
        rcases Nat.eq_zero_or_pos w with rfl | h
        · simp
        · rw [ih (w - 1) (by omega) (M + 1) (by omega), Finset.mul_sum, show ((w - 1 : ℕ) : ℤ) = w - 1 by omega]
          refine Finset.sum_congr rfl fun u _ => ?_
          rw [← mul_assoc, C_mul]
      have h0 : (C (((w : ℝ) + 3) / (2 * w + 3)) : ℝ[X]) ≠ 0 := by
        rw [Ne, C_eq_zero]; positivity
      apply mul_left_cancel₀ h0
      have hx := X_zonal w
      have : C (((w : ℝ) + 3) / (2 * w + 3)) * (zonal (w + 1) * zonal v)
          = X * (zonal w * zonal v) - C ((w : ℝ) / (2 * w + 3)) * (zonal (w - 1) * zonal v) := by
        linear_combination -zonal v * hx
      rw [this, hw, hs, hm, ← Finset.sum_sub_distrib, Finset.mul_sum]
      refine Finset.sum_congr rfl fun u _ => ?_
      rw [← sub_mul, ← C_sub, ← mul_assoc, ← C_mul, ← G_rel]
      congr 2
      push_cast
      ring

end Acm.Zonal

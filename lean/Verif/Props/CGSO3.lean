import Verif.Lemmas.CGSO3
import Mathlib.Tactic.NormNum

/-!
# Properties of the SO(3) Clebsch-Gordan coefficients: C57, C58
-/

namespace Acm.Props

open Acm Acm.Spec

/-- C57.  On half-integers `CG_SO3` always returns a number: no factorial of a negative or
fractional number, no fractional power of -1 (each of these raises in the model); the
number is 0 outside the selection rules. -/
theorem C57_CG_SO3_total (j1 m1 j2 m2 j3 m3 : ℚ) (h1 : HalfInt j1) (h2 : HalfInt m1)
    (h3 : HalfInt j2) (h4 : HalfInt m2) (h5 : HalfInt j3) (h6 : HalfInt m3) :
    ∃ x, CG_SO3 j1 m1 j2 m2 j3 m3 = .ok x ∧ (¬ CGRules j1 m1 j2 m2 j3 m3 → x = 0) := by
  by_cases h : CGRules j1 m1 j2 m2 j3 m3
  · obtain ⟨a, b, c, p, p', q, q', r, r', hn⟩ := exists_CGNat h1 h3 h5 h
    exact ⟨_, CG_SO3_ok hn h.2.2.2.2.2.2.1, fun hh => absurd h hh⟩
  · exact ⟨0, CG_SO3_zero h1 h2 h3 h4 h5 h6 h, fun _ => rfl⟩

/-- C57.  If one of the arguments is no half-integer, `CG_SO3` raises `ValueError`. -/
theorem C57_CG_SO3_rejects (j1 m1 j2 m2 j3 m3 : ℚ)
    (h : ¬ (HalfInt j1 ∧ HalfInt m1 ∧ HalfInt j2 ∧ HalfInt m2 ∧ HalfInt j3 ∧ HalfInt m3)) :
    CG_SO3 j1 m1 j2 m2 j3 m3 = .error .valueError := by
  have hi : ∀ x : ℚ, ratIsInteger (2 * x) = true → HalfInt x := by
    intro x hx
    obtain ⟨n, hn⟩ := (ratIsInteger_iff _).1 hx
    exact ⟨n, by linarith⟩
  unfold CG_SO3
  rw [if_pos]
  · rfl
  · intro hh
    simp only [Bool.and_eq_true] at hh
    exact h ⟨hi _ hh.1.1.1.1.1, hi _ hh.1.1.1.1.2, hi _ hh.1.1.1.2, hi _ hh.1.1.2, hi _ hh.1.2,
      hi _ hh.2⟩

/-- Half-integers inside and outside the selection rules, and a number that is no half-integer. -/
example : HalfInt (3 / 2) ∧ CGRules (3 / 2) (1 / 2) 1 (-1) (3 / 2) (-1 / 2) ∧
    ¬ CGRules (3 / 2) (1 / 2) 1 0 (3 / 2) (-1 / 2) ∧ ¬ HalfInt (1 / 3) := by
  refine ⟨⟨3, by norm_num⟩, ⟨by norm_num, by norm_num, by norm_num, ⟨2, by norm_num⟩,
    ⟨0, by norm_num⟩, ⟨1, by norm_num⟩, by norm_num, by norm_num⟩, ?_, ?_⟩
  · rintro ⟨-, -, -, -, -, -, h, -⟩
    norm_num at h
  · rintro ⟨n, hn⟩
    have : ((3 * n : ℤ) : ℚ) = ((2 : ℤ) : ℚ) := by push_cast; linarith
    have := Int.cast_injective this
    omega

/-- C58.  Coupling with angular momentum 0 is the identity. -/
theorem C58_scalar (j m : ℚ) (hj : HalfInt j) (h1 : -j ≤ m) (h2 : m ≤ j)
    (h3 : ∃ n : ℤ, j + m = n) : CG_SO3 j m 0 0 j m = .ok 1 := by
  have hr : CGRules j m 0 0 j m :=
    ⟨⟨h1, h2⟩, by norm_num, ⟨h1, h2⟩, h3, ⟨0, by norm_num⟩, h3, by ring, by linarith, by linarith,
      by linarith⟩
  obtain ⟨a, b, c, p, p', q, q', r, r', hn⟩ := exists_CGNat hj ⟨0, by norm_num⟩ hj hr
  rw [CG_SO3_ok hn (by ring)]
  obtain ⟨e1, e2, e3⟩ := hn.facts
  have e4 := hn.conserve (by ring)
  have a0 : a = 0 := by have := hn.ha; exact_mod_cast (by linarith : (a : ℚ) = 0)
  have c0 : c = 0 := by have := hn.hc; exact_mod_cast (by linarith : (c : ℚ) = 0)
  obtain ⟨q0, q0'⟩ : q = 0 ∧ q' = 0 := by omega
  subst a0 c0 q0 q0'
  obtain rfl : p = r := by omega
  obtain rfl : p' = r' := by omega
  obtain rfl : b = p + p' := by omega
  congr 1
  unfold cgVal cgSum
  rw [show p + p' - p = p' by omega, min_self, Finset.Icc_self, Finset.sum_singleton]
  unfold cgTerm
  simp only [Nat.zero_add, Nat.sub_self, Nat.factorial_zero, Nat.add_zero]
  have hsq : (((p + p' : ℕ) : ℝ) + ((0 : ℕ) : ℝ) + 1) * (((1 : ℕ) : ℝ) * p'.factorial * ((1 : ℕ) : ℝ) *
      p.factorial * p'.factorial / ((p + p' + 1).factorial * (p + p').factorial * ((1 : ℕ) : ℝ) *
        p.factorial * ((1 : ℕ) : ℝ))) = (p'.factorial / (p + p').factorial : ℝ) ^ 2 := by
    rw [Nat.factorial_succ]
    have := Nat.cast_ne_zero (R := ℝ).2 (Nat.factorial_ne_zero p)
    have := Nat.cast_ne_zero (R := ℝ).2 (Nat.factorial_ne_zero (p + p'))
    have : (p : ℝ) + p' + 1 ≠ 0 := by positivity
    push_cast
    field_simp
    ring
  rw [hsq, Real.sqrt_sq (by positivity)]
  have := Nat.cast_ne_zero (R := ℝ).2 (Nat.factorial_ne_zero p')
  have := Nat.cast_ne_zero (R := ℝ).2 (Nat.factorial_ne_zero (p + p'))
  push_cast
  field_simp
  rw [← pow_mul, mul_comm, pow_mul]
  norm_num

/-- `j = 5/2`, `m = -1/2` meets the hypotheses. -/
example : CG_SO3 (5 / 2) (-1 / 2) 0 0 (5 / 2) (-1 / 2) = .ok 1 :=
  C58_scalar _ _ ⟨5, by norm_num⟩ (by norm_num) (by norm_num) ⟨2, by norm_num⟩

/-- C58.  For maximal projections the coefficient has a closed form with positive sign. -/
theorem C58_maximal (j1 j2 j3 : ℚ) (h1 : HalfInt j1) (h2 : HalfInt j2) (h3 : HalfInt j3)
    (hi : ∃ n : ℤ, j1 + j2 + j3 = n) (t1 : j1 ≤ j2 + j3) (t2 : j2 ≤ j3 + j1) (t3 : j3 ≤ j1 + j2)
    (A C J S : ℕ) (hA : 2 * j1 = A) (hC : j1 - j2 + j3 = C) (hJ : 2 * j3 + 1 = J)
    (hS : j1 + j2 + j3 + 1 = S) :
    CG_SO3 j1 j1 j2 (j3 - j1) j3 j3 =
      .ok (Real.sqrt (J.factorial * A.factorial / (S.factorial * C.factorial))) := by
  obtain ⟨n, hn⟩ := hi
  obtain ⟨k1, f1⟩ := h1
  obtain ⟨k2, f2⟩ := h2
  obtain ⟨k3, f3⟩ := h3
  have hr : CGRules j1 j1 j2 (j3 - j1) j3 j3 :=
    ⟨⟨by linarith, le_refl _⟩, ⟨by linarith, by linarith⟩, ⟨by linarith, le_refl _⟩,
      ⟨k1, by linarith⟩, ⟨n - k1, by push_cast; linarith⟩, ⟨k3, by linarith⟩, by ring, by linarith,
      by linarith, by linarith⟩
  obtain ⟨a, b, c, p, p', q, q', r, r', hn⟩ := exists_CGNat ⟨k1, f1⟩ ⟨k2, f2⟩ ⟨k3, f3⟩ hr
  rw [CG_SO3_ok hn (by ring)]
  obtain ⟨e1, e2, e3⟩ := hn.facts
  have e4 := hn.conserve (by ring)
  have p0 : p' = 0 := by have := hn.hp'; exact_mod_cast (by linarith : (p' : ℚ) = 0)
  have r0 : r' = 0 := by have := hn.hr'; exact_mod_cast (by linarith : (r' : ℚ) = 0)
  obtain rfl : C = b := by exact_mod_cast (by linarith [hn.hb] : (C : ℚ) = b)
  obtain rfl : A = p := by exact_mod_cast (by linarith [hn.hp] : (A : ℚ) = p)
  obtain rfl : J = r + 1 := by
    exact_mod_cast (by push_cast; linarith [hn.hr] : (J : ℚ) = ((r + 1 : ℕ) : ℚ))
  obtain rfl : S = a + C + c + 1 := by
    exact_mod_cast (by push_cast; linarith [hn.ha, hn.hb, hn.hc] : (S : ℚ) = ((a + C + c + 1 : ℕ) : ℚ))
  subst p0 r0
  obtain rfl : A = a + C := by omega
  obtain rfl : r = C + c := by omega
  obtain rfl : q = c := by omega
  obtain rfl : q' = a := by omega
  congr 1
  unfold cgVal cgSum
  rw [show C - (q' + C) = 0 by omega, min_self, Finset.Icc_self, Finset.sum_singleton]
  unfold cgTerm
  rw [show q' + C + 0 - C = q' by omega]
  simp only [pow_zero, one_mul, Nat.sub_zero, Nat.add_zero, Nat.factorial_zero, Nat.cast_one,
    mul_one]
  symm
  rw [Real.sqrt_eq_iff_mul_self_eq (by positivity) (by positivity)]
  rw [mul_mul_mul_comm, Real.mul_self_sqrt (by positivity)]
  rw [Nat.factorial_succ (C + q)]
  have := Nat.cast_ne_zero (R := ℝ).2 (Nat.factorial_ne_zero q')
  have := Nat.cast_ne_zero (R := ℝ).2 (Nat.factorial_ne_zero q)
  have := Nat.cast_ne_zero (R := ℝ).2 (Nat.factorial_ne_zero C)
  have := Nat.cast_ne_zero (R := ℝ).2 (Nat.factorial_ne_zero (q' + C))
  have := Nat.cast_ne_zero (R := ℝ).2 (Nat.factorial_ne_zero (q' + C + q + 1))
  push_cast
  field_simp

/-- C58.  Hence it is positive. -/
theorem C58_maximal_pos (j1 j2 j3 : ℚ) (h1 : HalfInt j1) (h2 : HalfInt j2) (h3 : HalfInt j3)
    (hi : ∃ n : ℤ, j1 + j2 + j3 = n) (t1 : j1 ≤ j2 + j3) (t2 : j2 ≤ j3 + j1)
    (t3 : j3 ≤ j1 + j2) : ∃ x, CG_SO3 j1 j1 j2 (j3 - j1) j3 j3 = .ok x ∧ 0 < x := by
  obtain ⟨n, hn⟩ := hi
  obtain ⟨k1, f1⟩ := id h1
  obtain ⟨k2, f2⟩ := id h2
  obtain ⟨k3, f3⟩ := id h3
  obtain ⟨A, hA⟩ := exists_nat_of_int (x := 2 * j1) ⟨k1, by linarith⟩ (by linarith)
  obtain ⟨C, hC⟩ := exists_nat_of_int (x := j1 - j2 + j3)
    ⟨n - k2, by push_cast; linarith⟩ (by linarith)
  obtain ⟨J, hJ⟩ := exists_nat_of_int (x := 2 * j3 + 1)
    ⟨k3 + 1, by push_cast; linarith⟩ (by linarith)
  obtain ⟨S, hS⟩ := exists_nat_of_int (x := j1 + j2 + j3 + 1)
    ⟨n + 1, by push_cast; linarith⟩ (by linarith)
  exact ⟨_, C58_maximal j1 j2 j3 h1 h2 h3 ⟨n, hn⟩ t1 t2 t3 A C J S hA hC hJ hS,
    Real.sqrt_pos.2 (by positivity)⟩

/-- `j1 = 3/2`, `j2 = 1`, `j3 = 3/2` meets the hypotheses: the coefficient is `sqrt(3/5)`. -/
example : CG_SO3 (3 / 2) (3 / 2) 1 (3 / 2 - 3 / 2) (3 / 2) (3 / 2) = .ok (Real.sqrt (3 / 5)) := by
  rw [C58_maximal (3 / 2) 1 (3 / 2) ⟨3, by norm_num⟩ ⟨2, by norm_num⟩ ⟨3, by norm_num⟩
    ⟨4, by norm_num⟩ (by norm_num) (by norm_num) (by norm_num) 3 2 4 5 (by norm_num)
    (by norm_num) (by norm_num) (by norm_num)]
  norm_num [Nat.factorial]

end Acm.Props

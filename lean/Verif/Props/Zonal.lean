import Verif.Lemmas.Zonal
import Verif.Props.SO5Red

/-!
# C89: the SO(5)-reduced matrix elements and the products of zonal harmonics
-/

namespace Acm.Props

open Acm Acm.Spec.Sphere Acm.Zonal Polynomial

theorem kap_nat (n : ℕ) : kap n = ((2 * n + 1).factorial : ℝ) / (n.factorial : ℝ) ^ 2 := by
  rw [kap, if_neg (by omega), Int.toNat_natCast]

theorem dim_pos (v : ℕ) : 0 < dim v := by unfold dim; positivity

theorem tri_swap (a b c : ℤ) : tri a b c = tri b a c := by
  rw [tri, tri, show b + a + c = a + b + c by ring]; ring

/-- The square of the reduced matrix element. -/
theorem ME_sq (u w v : ℕ) : ∃ m : ℝ, ME_SO5red u w v = .ok m ∧ m ^ 2 * dim u / (3 * dim v * dim w) = G w v u := by
  by_cases h : u + v < w ∨ u + w < v ∨ v + w < u ∨ (u + v + w) % 2 = 1
  · refine ⟨0, ?_, ?_⟩
    · unfold ME_SO5red
      rw [require_nonnegint_ok (by omega), require_nonnegint_ok (by omega), require_nonnegint_ok (by omega)]
      simp only [py_bind_ok]
      rw [if_pos (by rw [is_odd_iff]; omega), py_pure]
    · rw [zero_pow two_ne_zero, zero_mul, zero_div]
      rcases h with h | h | h | h
      · rw [G_zero_of (by omega)]
      · rw [G_zero_of (by omega)]
      · rw [G_zero_of (by omega)]
      · rw [G, if_neg (by omega)]
  · obtain ⟨a, b, c, rfl, rfl, rfl⟩ : ∃ a b c : ℕ, u = b + c ∧ w = a + b ∧ v = a + c :=
      ⟨(v + w - u) / 2, (u + w - v) / 2, (u + v - w) / 2, by omega, by omega, by omega⟩
    refine ⟨_, ME_SO5red_abc a b c _ _ _ (by push_cast; ring) (by push_cast; ring) (by push_cast; ring), ?_⟩
    rw [meABC_sq, G, if_pos (by omega), show (((a + c : ℕ) : ℤ) + (a + b : ℕ) - (b + c : ℕ)) / 2 = a by omega,
      show (((b + c : ℕ) : ℤ) + (a + b : ℕ) - (a + c : ℕ)) / 2 = b by omega,
      show (((b + c : ℕ) : ℤ) + (a + c : ℕ) - (a + b : ℕ)) / 2 = c by omega, tri, kap_nat, kap_nat, kap_nat, Kap,
      show ((a : ℤ) + b + c).toNat = a + b + c by omega]
    simp only [dim]
    have h1 := Nat.cast_ne_zero (R := ℝ).2 a.factorial_ne_zero
    have h2 := Nat.cast_ne_zero (R := ℝ).2 b.factorial_ne_zero
    have h3 := Nat.cast_ne_zero (R := ℝ).2 c.factorial_ne_zero
    have h4 := Nat.cast_ne_zero (R := ℝ).2 (2 * (a + b + c) + 3).factorial_ne_zero
    push_cast
    field_simp
    ring

/-- C89: there is exactly one zonal harmonic for every seniority. -/
theorem C89_zonal (v : ℕ) : ∃! p, Zonal v p :=
  ⟨zonal v, zonal_is v, fun _ h => zonal_unique h⟩

/-- C89: the product of the zonal harmonics of seniorities `w` and `v` is the sum of those of seniority `u`, each
with the square of the reduced matrix element `<u ||| Y^w ||| v>` times `dim u / (3 dim v dim w)`.  The 3 is the square of
the constant harmonic, in units of `1 / (4 pi)`. -/
theorem C89_product (v w : ℕ) (φ : ℕ → ℝ[X]) (hφ : ∀ u, Zonal u (φ u)) : ∃ m : ℕ → ℝ,
    (∀ u : ℕ, ME_SO5red u w v = .ok (m u)) ∧
    φ w * φ v = ∑ u ∈ Finset.range (v + w + 1), C (m u ^ 2 * dim u / (3 * dim v * dim w)) * φ u := by
  choose m h1 h2 using fun u : ℕ => ME_sq u w v
  refine ⟨m, h1, ?_⟩
  rw [zonal_unique (hφ w), zonal_unique (hφ v), zonal_mul v w (v + w) le_rfl]
  exact Finset.sum_congr rfl fun u _ => by rw [h2, zonal_unique (hφ u)]

/-- C89: the squares of the reduced matrix elements from all states to those of seniority `v` add up to `3 dim w`: at each
point of the sphere the sum of the squares of all harmonics of seniority `w` is constant. -/
theorem C89_sum (v w : ℕ) : ∃ m : ℕ → ℝ, (∀ u : ℕ, ME_SO5red v w u = .ok (m u)) ∧
    ∑ u ∈ Finset.range (v + w + 1), m u ^ 2 = 3 * dim w := by
  choose m h1 h2 using fun u : ℕ => ME_sq v w u
  refine ⟨m, h1, ?_⟩
  have key := congrArg (eval 1) (zonal_mul v w (v + w) le_rfl)
  simp only [eval_mul, zonal_pole, eval_finsetSum, eval_C, mul_one] at key
  have e : ∀ u, m u ^ 2 = 3 * dim w * G w v u := by
    intro u
    have hu := dim_pos u
    have hv := dim_pos v
    have hw := dim_pos w
    have h : G w u v * dim u = G w v u * dim v := by
      simp only [G]
      by_cases hp : ((u : ℤ) + v + w) % 2 = 0
      · rw [if_pos (by omega), if_pos hp, tri_swap, show (v : ℤ) + u - w = u + v - w by ring]
        simp only [dim]
        push_cast
        field_simp
      · rw [if_neg (by omega), if_neg hp]; simp
    have h3 := h2 u
    rw [div_eq_iff (by positivity)] at h3
    apply mul_right_cancel₀ hv.ne'
    rw [h3]
    linear_combination 3 * dim w * h
  simp only [e, ← Finset.mul_sum, ← key, mul_one]

/-- C89: multiplication by the coordinate along the axis, which is the quadrupole operator: the reduced matrix elements
between `v` and `v + 1`, `v - 1`, each in the direction towards `v`. -/
theorem C89_Q (v : ℕ) (φ : ℕ → ℝ[X]) (hφ : ∀ u, Zonal u (φ u)) : ∃ p m : ℝ, Qred_m1 (v + 1) = .ok m ∧
    (v ≠ 0 → Qred_p1 (v - 1) = .ok p) ∧ (v = 0 → p = 0) ∧ m ^ 2 + p ^ 2 = 1 ∧
    X * φ v = C (m ^ 2) * φ (v + 1) + C (p ^ 2) * φ (v - 1) := by
  have hp : (0 : ℝ) ≤ ((v : Int) : ℝ) / ((2 * v + 3 : Int) : ℝ) := by push_cast; positivity
  have hm : (0 : ℝ) ≤ ((v + 3 : Int) : ℝ) / ((2 * v + 3 : Int) : ℝ) := by push_cast; positivity
  refine ⟨Real.sqrt (((v : Int) : ℝ) / ((2 * v + 3 : Int) : ℝ)), Real.sqrt (((v + 3 : Int) : ℝ) / ((2 * v + 3 : Int) : ℝ)),
    ?_, ?_, ?_, ?_, ?_⟩
  · rw [Qred_m1, require_nonnegint_ok (by omega), py_bind_ok, show (v : Int) + 1 + 2 = v + 3 by ring,
      show 2 * ((v : Int) + 1) + 1 = 2 * v + 3 by ring, symSqrt_ok hm]
  · intro h
    rw [Qred_p1, require_nonnegint_ok (by omega), py_bind_ok, show (v : Int) - 1 + 1 = v by ring,
      show 2 * ((v : Int) - 1) + 5 = 2 * v + 3 by ring, symSqrt_ok hp]
  · rintro rfl; simp
  · rw [Real.sq_sqrt hp, Real.sq_sqrt hm]
    push_cast
    field_simp
    ring
  · rw [Real.sq_sqrt hp, Real.sq_sqrt hm, zonal_unique (hφ v), zonal_unique (hφ (v + 1)), zonal_unique (hφ (v - 1)), X_zonal]
    push_cast
    rfl

/-- The hypotheses can be met; the first three zonal harmonics. -/
example : ∃ φ : ℕ → ℝ[X], (∀ u, Zonal u (φ u)) ∧ φ 0 = 1 ∧ φ 1 = X ∧ φ 2 = C (5 / 4) * X ^ 2 - C (1 / 4) := by
  refine ⟨zonal, zonal_is, rfl, rfl, ?_⟩
  have h := zonal_rec 0
  rw [zonal_zero, zonal_one] at h
  have h4 : (C (4 : ℝ) : ℝ[X]) ≠ 0 := by rw [Ne, C_eq_zero]; norm_num
  apply mul_left_cancel₀ h4
  norm_num at h
  rw [h, mul_sub, ← mul_assoc, ← C_mul, ← C_mul]
  norm_num
  ring

end Acm.Props

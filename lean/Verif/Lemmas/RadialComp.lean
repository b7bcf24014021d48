import Verif.Lemmas.Radial
import Mathlib.Analysis.SpecialFunctions.Gamma.Beta
import Mathlib.Topology.Algebra.InfiniteSum.NatInt

/-!
# Products of the radial matrix elements
-/

namespace Acm

open Acm.Spec Filter

theorem ne_add_two (n : ℕ) : ¬ n = n + 1 + 1 := by omega

theorem opProd_transpose {A B C : ℕ → ℕ → ℝ} (h : OpProd A B C) :
    OpProd (fun i j => B j i) (fun i j => A j i) (fun i j => C j i) := by
  intro i j
  refine (h j i).congr_fun ?_ |> id
  intro k
  ring

theorem opProd_congr {A B C C' : ℕ → ℕ → ℝ} (h : OpProd A B C) (hc : ∀ i j, C i j = C' i j) :
    OpProd A B C' := fun i j => hc i j ▸ h i j

theorem opProd_add_right {A B B' C C' : ℕ → ℕ → ℝ} (h : OpProd A B C) (h' : OpProd A B' C') (c : ℝ) :
    OpProd A (fun i j => B i j + c * B' i j) (fun i j => C i j + c * C' i j) := by
  intro i j
  have := (h i j).add ((h' i j).mul_left c)
  refine this.congr_fun ?_ |> id
  intro k
  ring

theorem opProd_add_left {A A' B C C' : ℕ → ℕ → ℝ} (h : OpProd A B C) (h' : OpProd A' B C') (c : ℝ) :
    OpProd (fun i j => A i j + c * A' i j) B (fun i j => C i j + c * C' i j) := by
  intro i j
  have := (h i j).add ((h' i j).mul_left c)
  refine this.congr_fun ?_ |> id
  intro k
  ring

theorem hasSum_two {f : ℕ → ℝ} {a b : ℕ} (hab : a ≠ b) (h : ∀ k, k ≠ a → k ≠ b → f k = 0) :
    HasSum f (f a + f b) := by
  have := hasSum_sum_of_ne_finset_zero (L := .unconditional ℕ) (f := f) (s := {a, b}) (by
    intro k hk
    simp only [Finset.mem_insert, Finset.mem_singleton, not_or] at hk
    exact h k hk.1 hk.2)
  rwa [Finset.sum_pair hab] at this

/-- Upper bidiagonal times anything. -/
theorem opProd_upper {A : ℕ → ℕ → ℝ} (hA : ∀ i k, k ≠ i → k ≠ i + 1 → A i k = 0) (B : ℕ → ℕ → ℝ) :
    OpProd A B (fun i j => A i i * B i j + A i (i + 1) * B (i + 1) j) := by
  intro i j
  exact hasSum_two (f := fun k => A i k * B k j) (by omega) fun k h1 h2 => by
    rw [hA i k h1 h2, zero_mul]

/-- Lower bidiagonal times anything. -/
theorem opProd_lower {A : ℕ → ℕ → ℝ} (hA : ∀ i k, i ≠ k → i ≠ k + 1 → A i k = 0) (B : ℕ → ℕ → ℝ) :
    OpProd A B (fun i j => A i i * B i j + if i = 0 then 0 else A i (i - 1) * B (i - 1) j) := by
  intro i j
  beta_reduce
  by_cases hi : i = 0
  · subst hi
    rw [if_pos rfl, add_zero]
    exact hasSum_single (f := fun k => A 0 k * B k j) 0 fun k hk => by
      rw [hA 0 k (by omega) (by omega), zero_mul]
  · rw [if_neg hi]
    exact hasSum_two (f := fun k => A i k * B k j) (by omega) fun k h1 h2 => by
      rw [hA i k (by omega) (by omega), zero_mul]

theorem opProd_diag {A : ℕ → ℕ → ℝ} (hA : ∀ i k, i ≠ k → A i k = 0) (B : ℕ → ℕ → ℝ) :
    OpProd A B (fun i j => A i i * B i j) := by
  intro i j
  exact hasSum_single (f := fun k => A i k * B k j) i fun k hk => by
    rw [hA i k (Ne.symm hk), zero_mul]

theorem opProd_diag_right {A : ℕ → ℕ → ℝ} (hA : ∀ i k, i ≠ k → A i k = 0) (B : ℕ → ℕ → ℝ) :
    OpProd B A (fun i j => B i j * A j j) := by
  intro i j
  exact hasSum_single (f := fun k => B i k * A k j) j fun k hk => by
    rw [hA k j hk, mul_zero]

/-! ## su(1,1) -/

theorem SmSp {lam : ℝ} (h : 0 < lam) :
    OpProd (vSm lam) (vSp lam) (fun i j => (lam + i) * (i + 1) * opId i j) := by
  refine opProd_congr (opProd_upper (fun i k _ h2 => by simp [vSm, h2]) _) fun i j => ?_
  have hs : Real.sqrt ((lam + i) * (i + 1)) * Real.sqrt ((lam + i) * (i + 1)) = (lam + i) * (i + 1) :=
    Real.mul_self_sqrt (by positivity)
  by_cases hij : i = j
  · subst hij
    simp [vSm, vSp, opId, hs]
  · simp [vSm, vSp, opId, hij]

theorem SpSm {lam : ℝ} (h : 0 < lam) :
    OpProd (vSp lam) (vSm lam) (fun i j => (lam + i - 1) * i * opId i j) := by
  refine opProd_congr (opProd_lower (fun i k _ h2 => by simp [vSp, h2]) _) fun i j => ?_
  rcases i with _ | i
  · simp [vSp]
  · have hs : Real.sqrt ((lam + i) * (i + 1)) * Real.sqrt ((lam + i) * (i + 1)) = (lam + i) * (i + 1) :=
      Real.mul_self_sqrt (by positivity)
    by_cases hij : i + 1 = j
    · subst hij
      simp [vSm, vSp, opId, hs]
      left; ring
    · simp [vSm, vSp, opId, hij, Ne.symm hij]

theorem vS0_off {lam : ℝ} (i k : ℕ) (h : i ≠ k) : vS0 lam i k = 0 := by simp [vS0, h]

/-! ## beta -/

theorem vb_pl_off {lam : ℝ} (i k : ℕ) (h1 : k ≠ i) (h2 : k ≠ i + 1) : vb_pl lam i k = 0 := by
  simp [vb_pl, Ne.symm h1, h2]

theorem b_pl_mul {lam : ℝ} (B : ℕ → ℕ → ℝ) : OpProd (vb_pl lam) B
    (fun i j => Real.sqrt (lam + i) * B i j + Real.sqrt (i + 1) * B (i + 1) j) := by
  refine opProd_congr (opProd_upper vb_pl_off B) fun i j => ?_
  simp [vb_pl]

theorem b_ml_mul {lam : ℝ} (B : ℕ → ℕ → ℝ) : OpProd (fun i j => vb_pl lam j i) B
    (fun i j => Real.sqrt (lam + i) * B i j + if i = 0 then 0 else Real.sqrt i * B (i - 1) j) := by
  refine opProd_congr (opProd_lower (fun i k h1 h2 => vb_pl_off k i h1 h2) B) fun i j => ?_
  rcases i with _ | i
  · simp [vb_pl]
  · simp [vb_pl]

theorem sq_sqrt' {x : ℝ} (h : 0 ≤ x) : Real.sqrt x * Real.sqrt x = x := Real.mul_self_sqrt h

theorem b_ml_b_pl {lam : ℝ} (h : 0 < lam) : OpProd (fun i j => vb_pl lam j i) (vb_pl lam)
    (fun i j => vSp lam i j + vSm lam i j + 2 * vS0 lam i j) := by
  refine opProd_congr (b_ml_mul _) fun i j => ?_
  rcases i with _ | i
  · rcases Nat.lt_trichotomy 0 j with hj | rfl | hj
    · rcases Nat.eq_or_lt_of_le hj with rfl | hj'
      · simp [vb_pl, vSp, vSm, vS0]
      · have : 0 ≠ j := by omega
        have h2 : j ≠ 1 := by omega
        simp [vb_pl, vSp, vSm, vS0, this, h2]
    · simp [vb_pl, vSp, vSm, vS0, sq_sqrt' h.le]; ring
    · omega
  · have e1 : (0 : ℝ) ≤ lam + (i + 1) := by positivity
    have e2 : (0 : ℝ) ≤ (i : ℝ) + 1 := by positivity
    have e3 : (0 : ℝ) ≤ lam + i := by positivity
    by_cases h1 : j = i + 1 + 1
    · subst h1
      simp [vb_pl, vSp, vSm, vS0, ne_add_two]
      rw [← Real.sqrt_mul e1]
    · by_cases h2 : j = i + 1
      · subst h2
        simp [vb_pl, vSp, vSm, vS0, sq_sqrt' e1, sq_sqrt' e2]; ring
      · by_cases h3 : j = i
        · subst h3
          simp [vb_pl, vSp, vSm, vS0, Real.sqrt_mul e3, ne_add_two]; ring
        · simp [vb_pl, vSp, vSm, vS0, h1, h2, Ne.symm h2, Ne.symm h3]

theorem b_pl_b_ml {lam : ℝ} (h : 0 < lam) : OpProd (vb_pl lam) (fun i j => vb_pl lam j i)
    (fun i j => vSp (lam + 1) i j + vSm (lam + 1) i j + 2 * vS0 (lam + 1) i j) := by
  refine opProd_congr (b_pl_mul _) fun i j => ?_
  have e1 : (0 : ℝ) ≤ lam + i := by positivity
  have e2 : (0 : ℝ) ≤ (i : ℝ) + 1 := by positivity
  have e3 : (0 : ℝ) ≤ lam + 1 + j := by positivity
  have e4 : (0 : ℝ) ≤ lam + 1 + i := by positivity
  by_cases h1 : j = i + 1
  · subst h1
    simp [vb_pl, vSp, vSm, vS0, Real.sqrt_mul e4, ne_add_two]
    rw [mul_comm, show lam + ((i : ℝ) + 1) = lam + 1 + i by ring]
  · by_cases h2 : j = i
    · subst h2
      simp [vb_pl, vSp, vSm, vS0, sq_sqrt' e1, sq_sqrt' e2]; ring
    · by_cases h3 : i = j + 1
      · subst h3
        simp [vb_pl, vSp, vSm, vS0, Real.sqrt_mul e3, ne_add_two]
        left
        rw [show lam + ((j : ℝ) + 1) = lam + 1 + j by ring]
      · simp [vb_pl, vSp, vSm, vS0, h1, h2, h3, Ne.symm h2]

/-! ## 1/beta -/

theorem b_ml_bm_pl {lam : ℝ} (h : 0 < lam) :
    OpProd (fun i j => vb_pl lam j i) (vbm_pl lam) opId := by
  refine opProd_congr (b_ml_mul _) fun i j => ?_
  have hi := hN_pos h i
  have hi1 := hN_pos (by linarith : 0 < lam + 1) i
  rcases i with _ | i
  · rw [if_pos rfl, add_zero]
    by_cases hj : j = 0
    · subst hj
      simp only [vbm_pl, opId, le_refl, if_true]
      have := sqrt_lam_add h 0
      rw [this]
      field_simp
      simp
    · simp [vbm_pl, opId, hj, Ne.symm hj]
  · rw [if_neg (by omega)]
    have hii1 := hN_pos (by linarith : 0 < lam + 1) i
    have e1 := sqrt_lam_add h (i + 1)
    have e2 := sqrt_succ h i
    push_cast at e1 ⊢
    rw [e1, e2]
    simp only [vbm_pl, opId]
    by_cases h1 : j = i + 1
    · subst h1
      rw [if_pos le_rfl, if_neg (by omega), if_pos rfl, ← two_mul, pow_mul]
      field_simp
      norm_num
    · rw [if_neg (Ne.symm h1)]
      by_cases h2 : j ≤ i
      · rw [if_pos (by omega), if_pos h2]
        rw [show i + 1 + j = (i + j) + 1 by ring, pow_succ]
        field_simp
        ring
      · rw [if_neg (by omega), if_neg h2]; ring

theorem b_pl_bm_ml {lam : ℝ} (h : 0 < lam) :
    OpProd (vb_pl lam) (fun i j => vbm_pl lam j i) opId := by
  refine opProd_congr (b_pl_mul _) fun i j => ?_
  have hi := hN_pos h i
  have hi' := hN_pos h (i + 1)
  have hj := hN_pos (by linarith : 0 < lam + 1) j
  have hi1 := hN_pos (by linarith : 0 < lam + 1) i
  have e1 := sqrt_lam_add h i
  have e2 := sqrt_succ h i
  rw [e1, e2]
  simp only [vbm_pl, opId]
  by_cases h1 : i = j
  · subst h1
    rw [if_pos le_rfl, if_neg (by omega), if_pos rfl, ← two_mul, pow_mul]
    field_simp
    norm_num
  · rw [if_neg h1]
    by_cases h2 : i + 1 ≤ j
    · rw [if_pos (by omega), if_pos h2, show j + (i + 1) = (j + i) + 1 by ring, pow_succ]
      field_simp
      ring
    · rw [if_neg (by omega), if_neg h2]; ring

/-! ## 1/beta^2 -/

theorem tridiag_mul {A : ℕ → ℕ → ℝ} (hA : ∀ i k, k ≠ i → k ≠ i + 1 → i ≠ k + 1 → A i k = 0)
    (B : ℕ → ℕ → ℝ) :
    OpProd A B (fun i j => A i i * B i j + A i (i + 1) * B (i + 1) j +
      if i = 0 then 0 else A i (i - 1) * B (i - 1) j) := by
  intro i j
  beta_reduce
  by_cases hi : i = 0
  · subst hi
    rw [if_pos rfl, add_zero]
    exact hasSum_two (f := fun k => A 0 k * B k j) (by omega) fun k h1 h2 => by
      rw [hA 0 k h1 h2 (by omega), zero_mul]
  · rw [if_neg hi]
    have := hasSum_sum_of_ne_finset_zero (L := .unconditional ℕ)
      (f := fun k => A i k * B k j) (s := {i, i + 1, i - 1}) (by
      intro k hk
      simp only [Finset.mem_insert, Finset.mem_singleton, not_or] at hk
      rw [hA i k hk.1 hk.2.1 (by omega), zero_mul])
    rw [Finset.sum_insert (by simp; omega), Finset.sum_pair (by omega), ← add_assoc] at this
    exact this

theorem hN_up {lam : ℝ} (h : 0 < lam) (i : ℕ) :
    Real.sqrt ((lam + i) * (i + 1)) * hN lam (i + 1) = (lam + i) * hN lam i := by
  rw [Real.sqrt_mul (by positivity), mul_assoc, hN_succ h, hN_add_one h, ← mul_assoc,
    Real.mul_self_sqrt (by positivity)]

theorem hN_down {lam : ℝ} (h : 0 < lam) (i : ℕ) :
    Real.sqrt ((lam + i) * (i + 1)) * hN lam i = (i + 1) * hN lam (i + 1) := by
  rw [mul_comm (lam + i) _, Real.sqrt_mul (by positivity), mul_assoc, ← hN_add_one h, ← hN_succ h,
    ← mul_assoc, Real.mul_self_sqrt (by positivity)]

theorem b2_bm2 {lam : ℝ} (h : 0 < lam) (hne : lam ≠ 1) :
    OpProd (fun i j => vSp lam i j + vSm lam i j + 2 * vS0 lam i j) (vbm2 lam) opId := by
  refine opProd_congr (tridiag_mul (fun i k h1 h2 h3 => by
    simp [vSp, vSm, vS0, h2, h3, Ne.symm h1]) _) fun i j => ?_
  have hne' : lam - 1 ≠ 0 := sub_ne_zero.2 hne
  have hj := (hN_pos h j).ne'
  have d1 : vSp lam i i + vSm lam i i + 2 * vS0 lam i i = lam + 2 * i := by
    simp [vSp, vSm, vS0]; ring
  have d2 : vSp lam i (i + 1) + vSm lam i (i + 1) + 2 * vS0 lam i (i + 1)
      = Real.sqrt ((lam + i) * (i + 1)) := by
    simp [vSp, vSm, vS0, show ¬ i = i + 1 + 1 by omega]
  simp only [d1, d2]
  have up := hN_up h i
  have hi := (hN_pos h i).ne'
  have hi1 := (hN_pos h (i + 1)).ne'
  -- the three entries of 1/beta^2 in column j
  rcases Nat.lt_trichotomy i j with hij | rfl | hij
  · -- above the diagonal
    have m0 : vbm2 lam i j = (-1) ^ (i + j) * (hN lam i / hN lam j) / (lam - 1) := by
      simp [vbm2, min_eq_left hij.le, max_eq_right hij.le]
    have m1 : vbm2 lam (i + 1) j = -(-1) ^ (i + j) * (hN lam (i + 1) / hN lam j) / (lam - 1) := by
      have : i + 1 ≤ j := hij
      simp [vbm2, min_eq_left this, max_eq_right this, show i + 1 + j = i + j + 1 by ring, pow_succ]
    rw [m0, m1, opId, if_neg (show ¬ i = j by omega)]
    rcases i with _ | i
    · rw [if_pos rfl]
      generalize (-1 : ℝ) ^ (0 + j) = σ
      field_simp
      push_cast at up ⊢
      linear_combination (-σ) * up
    · have d3 : vSp lam (i + 1) i + vSm lam (i + 1) i + 2 * vS0 lam (i + 1) i
          = Real.sqrt ((lam + i) * (i + 1)) := by
        simp [vSp, vSm, vS0, show ¬ i = i + 1 + 1 by omega]
      have m2 : vbm2 lam i j = -(-1) ^ (i + 1 + j) * (hN lam i / hN lam j) / (lam - 1) := by
        have : i ≤ j := by omega
        simp [vbm2, min_eq_left this, max_eq_right this, show i + 1 + j = i + j + 1 by ring, pow_succ]
      have down := hN_down h i
      rw [if_neg (by omega)]
      simp only [Nat.add_sub_cancel]
      rw [d3, m2]
      generalize (-1 : ℝ) ^ (i + 1 + j) = σ
      field_simp
      push_cast at up ⊢
      linear_combination (-σ) * up - σ * down
  · have m0 : vbm2 lam i i = 1 / (lam - 1) := by
      simp [vbm2, ← two_mul, pow_mul, div_self hi]
    have m1 : vbm2 lam (i + 1) i = -(hN lam i / hN lam (i + 1)) / (lam - 1) := by
      simp [vbm2, show i + 1 + i = 2 * i + 1 by ring, pow_succ, pow_mul]
    have down := hN_down h i
    rw [m0, m1, opId, if_pos rfl]
    rcases i with _ | i
    · rw [if_pos rfl]
      field_simp
      push_cast at down up ⊢
      linear_combination (-1) * down
    · have d3 : vSp lam (i + 1) i + vSm lam (i + 1) i + 2 * vS0 lam (i + 1) i
          = Real.sqrt ((lam + i) * (i + 1)) := by
        simp [vSp, vSm, vS0, show ¬ i = i + 1 + 1 by omega]
      have m2 : vbm2 lam i (i + 1) = -(hN lam i / hN lam (i + 1)) / (lam - 1) := by
        simp [vbm2, show i + (i + 1) = 2 * i + 1 by ring, pow_succ, pow_mul]
      have down' := hN_down h i
      rw [if_neg (by omega)]
      simp only [Nat.add_sub_cancel]
      rw [d3, m2]
      field_simp
      push_cast at down down' ⊢
      linear_combination (-hN lam (i + 1)) * down - hN lam (i + 1 + 1) * down'
  · -- below the diagonal
    obtain ⟨i, rfl⟩ : ∃ i', i = i' + 1 := ⟨i - 1, by omega⟩
    have hji : j ≤ i := by omega
    have m0 : vbm2 lam (i + 1) j = (-1) ^ (i + 1 + j) * (hN lam j / hN lam (i + 1)) / (lam - 1) := by
      simp [vbm2, min_eq_right hij.le, max_eq_left hij.le]
    have m1 : vbm2 lam (i + 1 + 1) j
        = -(-1) ^ (i + 1 + j) * (hN lam j / hN lam (i + 1 + 1)) / (lam - 1) := by
      have : j ≤ i + 1 + 1 := by omega
      simp [vbm2, min_eq_right this, max_eq_left this, show i + 1 + 1 + j = i + 1 + j + 1 by ring,
        pow_succ]
    have m2 : vbm2 lam i j = -(-1) ^ (i + 1 + j) * (hN lam j / hN lam i) / (lam - 1) := by
      simp [vbm2, min_eq_right hji, max_eq_left hji, show i + 1 + j = i + j + 1 by ring, pow_succ]
    have d3 : vSp lam (i + 1) i + vSm lam (i + 1) i + 2 * vS0 lam (i + 1) i
        = Real.sqrt ((lam + i) * (i + 1)) := by
      simp [vSp, vSm, vS0, show ¬ i = i + 1 + 1 by omega]
    have up' := hN_up h i
    have down := hN_down h (i + 1)
    have hi0 := (hN_pos h i).ne'
    rw [if_neg (by omega)]
    simp only [Nat.add_sub_cancel]
    rw [d3, m2, m0, m1, opId, if_neg (by omega)]
    generalize (-1 : ℝ) ^ (i + 1 + j) = σ
    field_simp
    push_cast at down up' ⊢
    linear_combination (-hN lam i * hN lam j * σ) * down - hN lam (i + 1 + 1) * hN lam j * σ * up'

end Acm

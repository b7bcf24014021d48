import Verif.Lemmas.RadialComp

/-!
# d/dbeta, and products that need infinite sums
-/

namespace Acm

open Acm.Spec Filter

/-- The bidiagonal part of d/dbeta. -/
noncomputable def vw (lam : ℝ) (i j : ℕ) : ℝ :=
  if j = i + 1 then Real.sqrt (i + 1) else if i = j then -Real.sqrt (lam + j) else 0

theorem vDb_pl_eq (lam : ℝ) (i j : ℕ) :
    vDb_pl lam i j = vw lam i j + (lam - 1 / 2) * vbm_pl lam i j := rfl

theorem vDb_ml_eq (lam : ℝ) (i j : ℕ) : vDb_ml lam i j = -vDb_pl lam j i := by
  unfold vDb_ml vDb_pl
  by_cases h1 : i = j + 1
  · subst h1; simp; ring
  · by_cases h2 : i = j
    · subst h2; simp; ring
    · simp [h1, h2, Ne.symm h2]; ring

theorem b_ml_vw {lam : ℝ} (h : 0 < lam) : OpProd (fun i j => vb_pl lam j i) (vw lam)
    (fun i j => vSm lam i j - vSp lam i j - lam * opId i j) := by
  refine opProd_congr (b_ml_mul _) fun i j => ?_
  rcases i with _ | i
  · rcases Nat.eq_zero_or_pos j with rfl | hj
    · simp [vw, vSm, vSp, opId, sq_sqrt' h.le]
    · rcases Nat.eq_or_lt_of_le hj with rfl | hj'
      · simp [vw, vSm, vSp, opId]
      · have h1 : 0 ≠ j := by omega
        have h2 : j ≠ 1 := by omega
        simp [vw, vSm, vSp, opId, h1, h2]
  · have e1 : (0 : ℝ) ≤ lam + (i + 1) := by positivity
    have e2 : (0 : ℝ) ≤ (i : ℝ) + 1 := by positivity
    have e3 : (0 : ℝ) ≤ lam + i := by positivity
    by_cases h1 : j = i + 1 + 1
    · subst h1
      simp [vw, vSp, vSm, opId, Real.sqrt_mul e1, ne_add_two]
    · by_cases h2 : j = i + 1
      · subst h2
        simp [vw, vSp, vSm, opId, sq_sqrt' e1, sq_sqrt' e2]; ring
      · by_cases h3 : j = i
        · subst h3
          simp [vw, vSp, vSm, opId, Real.sqrt_mul e3, ne_add_two]; ring
        · simp [vw, vSp, vSm, opId, h1, h2, Ne.symm h2, Ne.symm h3]

/-- `beta (d/dbeta)`, with `lambda → lambda + 1 → lambda`. -/
theorem b_ml_Db_pl {lam : ℝ} (h : 0 < lam) : OpProd (fun i j => vb_pl lam j i) (vDb_pl lam)
    (fun i j => vSm lam i j - vSp lam i j - 1 / 2 * opId i j) :=
  opProd_congr (opProd_add_right (b_ml_vw h) (b_ml_bm_pl h) (lam - 1 / 2)) fun i j => by ring

theorem b_pl_vwT {lam : ℝ} (h : 0 < lam) : OpProd (vb_pl lam) (fun i j => vw lam j i)
    (fun i j => vSp (lam + 1) i j - vSm (lam + 1) i j + (1 - lam) * opId i j) := by
  refine opProd_congr (b_pl_mul _) fun i j => ?_
  have e1 : (0 : ℝ) ≤ lam + i := by positivity
  have e2 : (0 : ℝ) ≤ (i : ℝ) + 1 := by positivity
  have e3 : (0 : ℝ) ≤ lam + 1 + j := by positivity
  have e4 : (0 : ℝ) ≤ lam + 1 + i := by positivity
  by_cases h1 : j = i + 1
  · subst h1
    simp [vw, vSp, vSm, opId, Real.sqrt_mul e4, ne_add_two]
    rw [mul_comm, show lam + ((i : ℝ) + 1) = lam + 1 + i by ring]
  · by_cases h2 : j = i
    · subst h2
      simp [vw, vSp, vSm, opId, sq_sqrt' e1, sq_sqrt' e2]; ring
    · by_cases h3 : i = j + 1
      · subst h3
        simp [vw, vSp, vSm, opId, Real.sqrt_mul e3, ne_add_two]
        left
        rw [show lam + ((j : ℝ) + 1) = lam + 1 + j by ring]
      · simp [vw, vSp, vSm, opId, h1, h2, h3, Ne.symm h2]

/-- `beta (d/dbeta)`, with `lambda + 1 → lambda → lambda + 1`. -/
theorem b_pl_Db_ml {lam : ℝ} (h : 0 < lam) : OpProd (vb_pl lam) (vDb_ml lam)
    (fun i j => vSm (lam + 1) i j - vSp (lam + 1) i j - 1 / 2 * opId i j) := by
  have := opProd_add_right (b_pl_vwT h) (b_pl_bm_ml h) (lam - 1 / 2)
  intro i j
  have h' := (this i j).neg
  have hv : -(vSp (lam + 1) i j - vSm (lam + 1) i j + (1 - lam) * opId i j
      + (lam - 1 / 2) * opId i j) = vSm (lam + 1) i j - vSp (lam + 1) i j - 1 / 2 * opId i j := by
    ring
  beta_reduce at h'
  rw [hv] at h'
  refine h'.congr_fun ?_ |> id
  intro k
  simp only [vDb_ml_eq, vDb_pl_eq]; ring

/-! ## Infinite sums -/

theorem prod_gamma {s : ℝ} (hs : 0 < s) (n : ℕ) :
    ∏ j ∈ Finset.range n, (s + j) = Real.Gamma (n + s) / Real.Gamma s := by
  have h0 := (Real.Gamma_pos_of_pos hs).ne'
  induction n with
  | zero => simp [div_self h0]
  | succ n ih =>
    rw [Finset.prod_range_succ, ih]
    have : ((n + 1 : ℕ) : ℝ) + s = (n + s) + 1 := by push_cast; ring
    rw [this, Real.Gamma_add_one (by positivity)]
    ring

theorem hN_inv_tendsto {lam : ℝ} (h : 1 < lam) :
    Tendsto (fun n => 1 / hN lam n ^ 2) atTop (nhds 0) := by
  have hs : 0 < lam - 1 := by linarith
  have hG := (Real.Gamma_pos_of_pos hs).ne'
  have h1 := Real.GammaSeq_tendsto_Gamma (lam - 1)
  have h2 : Tendsto (fun n : ℕ => (n : ℝ) ^ (-(lam - 1))) atTop (nhds 0) :=
    (tendsto_rpow_neg_atTop hs).comp tendsto_natCast_atTop_atTop
  have h3 := (h1.mul h2).div_const (Real.Gamma (lam - 1))
  rw [mul_zero, zero_div] at h3
  refine h3.congr' ?_
  filter_upwards [eventually_gt_atTop 0] with n hn
  have hn' : (0 : ℝ) < n := by exact_mod_cast hn
  rw [hN_sq (by linarith), Real.GammaSeq, prod_gamma hs]
  have e : ((n + 1 : ℕ) : ℝ) + (lam - 1) = n + lam := by push_cast; ring
  rw [e, Real.rpow_neg hn'.le]
  have h4 := (Real.rpow_pos_of_pos hn' (lam - 1)).ne'
  have h5 := (gamma_pos' (by linarith : 0 < lam) n).ne'
  have h6 : (n.factorial : ℝ) ≠ 0 := by exact_mod_cast n.factorial_ne_zero
  field_simp

theorem hN_telescope {lam : ℝ} (h : 1 < lam) (k : ℕ) :
    1 / hN (lam + 1) k ^ 2 = (1 / hN lam k ^ 2 - 1 / hN lam (k + 1) ^ 2) / (lam - 1) := by
  have h0 : 0 < lam := by linarith
  have a := hN_add_one h0 k
  have b := hN_succ h0 k
  have hk := (hN_pos h0 k).ne'
  have hk1 := (hN_pos h0 (k + 1)).ne'
  have hk2 := (hN_pos (by linarith : 0 < lam + 1) k).ne'
  have ne1 : lam - 1 ≠ 0 := by linarith
  have a2 : hN (lam + 1) k ^ 2 = (lam + k) * hN lam k ^ 2 := by
    rw [a, mul_pow, Real.sq_sqrt (by positivity)]
  have b2 : hN (lam + 1) k ^ 2 = (k + 1) * hN lam (k + 1) ^ 2 := by
    rw [← b, mul_pow, Real.sq_sqrt (by positivity)]
  have c1 : 1 / hN lam k ^ 2 = (lam + k) / hN (lam + 1) k ^ 2 := by
    rw [a2]
    have : lam + (k : ℝ) ≠ 0 := by positivity
    field_simp
  have c2 : 1 / hN lam (k + 1) ^ 2 = (k + 1) / hN (lam + 1) k ^ 2 := by
    rw [b2]
    have : (k : ℝ) + 1 ≠ 0 := by positivity
    field_simp
  rw [c1, c2]
  field_simp
  ring

theorem hN_sum {lam : ℝ} (h : 1 < lam) (m : ℕ) :
    HasSum (fun k => if m ≤ k then 1 / hN (lam + 1) k ^ 2 else 0)
      (1 / hN lam m ^ 2 / (lam - 1)) := by
  have h0 : 0 < lam := by linarith
  rw [hasSum_iff_tendsto_nat_of_nonneg (by
    intro k
    split_ifs
    · have := hN_pos (by linarith : 0 < lam + 1) k
      positivity
    · exact le_rfl)]
  have key : ∀ n, m ≤ n → ∑ k ∈ Finset.range n, (if m ≤ k then 1 / hN (lam + 1) k ^ 2 else 0)
      = (1 / hN lam m ^ 2 - 1 / hN lam n ^ 2) / (lam - 1) := by
    intro n hn
    induction n, hn using Nat.le_induction with
    | base =>
      rw [sub_self, zero_div]
      refine Finset.sum_eq_zero fun k hk => ?_
      rw [Finset.mem_range] at hk
      rw [if_neg (by omega)]
    | succ n hn ih =>
      rw [Finset.sum_range_succ, ih, if_pos hn, hN_telescope h]
      ring
  have lim := ((tendsto_const_nhds (x := 1 / hN lam m ^ 2)).sub (hN_inv_tendsto h)).div_const (lam - 1)
  rw [sub_zero] at lim
  refine lim.congr' ?_
  filter_upwards [eventually_ge_atTop m] with n hn
  exact (key n hn).symm

/-- `1/beta` twice is `1/beta^2`, for `lambda > 1`. -/
theorem bm_ml_bm_pl {lam : ℝ} (h : 1 < lam) :
    OpProd (fun i j => vbm_pl lam j i) (vbm_pl lam) (vbm2 lam) := by
  intro i j
  have h0 : 0 < lam := by linarith
  have hs := (hN_sum h (max i j)).mul_left ((-1) ^ (i + j) * (hN lam i * hN lam j))
  have hv : (-1) ^ (i + j) * (hN lam i * hN lam j) * (1 / hN lam (max i j) ^ 2 / (lam - 1))
      = vbm2 lam i j := by
    unfold vbm2
    have hm := (hN_pos h0 (max i j)).ne'
    have ne1 : lam - 1 ≠ 0 := by linarith
    have e : hN lam i * hN lam j = hN lam (min i j) * hN lam (max i j) := by
      rcases le_total i j with h | h
      · rw [min_eq_left h, max_eq_right h]
      · rw [min_eq_right h, max_eq_left h, mul_comm]
    rw [e]
    field_simp
  rw [hv] at hs
  refine hs.congr_fun ?_ |> id
  intro k
  simp only [vbm_pl]
  by_cases hk : max i j ≤ k
  · have hk1 := (hN_pos (by linarith : 0 < lam + 1) k).ne'
    rw [if_pos hk, if_pos (le_trans (le_max_left _ _) hk), if_pos (le_trans (le_max_right _ _) hk)]
    have e : (-1 : ℝ) ^ (k + i) * (-1) ^ (k + j) = (-1) ^ (i + j) := by
      rw [← pow_add, show k + i + (k + j) = 2 * k + (i + j) by ring, pow_add, pow_mul]
      norm_num
    rw [← e]
    field_simp
  · rw [if_neg hk]
    rcases not_and_or.1 (fun h => hk (max_le_iff.2 h)) with h | h
    · rw [if_neg h]; ring
    · rw [if_neg h]; ring

theorem vw_T_mul {lam : ℝ} (B : ℕ → ℕ → ℝ) : OpProd (fun i j => vw lam j i) B
    (fun i j => -Real.sqrt (lam + i) * B i j + if i = 0 then 0 else Real.sqrt i * B (i - 1) j) := by
  refine opProd_congr (opProd_lower (fun i k h1 h2 => by
    simp [vw, h2, Ne.symm h1]) B) fun i j => ?_
  rcases i with _ | i
  · simp [vw]
  · simp [vw]

theorem vwT_vw {lam : ℝ} (h : 0 < lam) : OpProd (fun i j => vw lam j i) (vw lam)
    (fun i j => -(vSp lam i j + vSm lam i j - 2 * vS0 lam i j)) := by
  refine opProd_congr (vw_T_mul _) fun i j => ?_
  rcases i with _ | i
  · rcases Nat.eq_zero_or_pos j with rfl | hj
    · simp [vw, vSm, vSp, vS0, sq_sqrt' h.le]; ring
    · rcases Nat.eq_or_lt_of_le hj with rfl | hj'
      · simp [vw, vSm, vSp, vS0]
      · have h1 : 0 ≠ j := by omega
        have h2 : j ≠ 1 := by omega
        simp [vw, vSm, vSp, vS0, h1, h2]
  · have e1 : (0 : ℝ) ≤ lam + (i + 1) := by positivity
    have e2 : (0 : ℝ) ≤ (i : ℝ) + 1 := by positivity
    have e3 : (0 : ℝ) ≤ lam + i := by positivity
    by_cases h1 : j = i + 1 + 1
    · subst h1
      simp [vw, vSp, vSm, vS0, Real.sqrt_mul e1, ne_add_two]
    · by_cases h2 : j = i + 1
      · subst h2
        simp [vw, vSp, vSm, vS0, sq_sqrt' e1, sq_sqrt' e2]; ring
      · by_cases h3 : j = i
        · subst h3
          simp [vw, vSp, vSm, vS0, Real.sqrt_mul e3, ne_add_two]; ring
        · simp [vw, vSp, vSm, vS0, h1, h2, Ne.symm h2, Ne.symm h3]

/-- The mixed term. -/
noncomputable def vmix (lam : ℝ) (i j : ℕ) : ℝ :=
  if j < i then -2 * (-1) ^ (i + j) * (hN lam j / hN lam i) else if i = j then -1 else 0

theorem vwT_bm {lam : ℝ} (h : 0 < lam) :
    OpProd (fun i j => vw lam j i) (vbm_pl lam) (vmix lam) := by
  refine opProd_congr (vw_T_mul _) fun i j => ?_
  have hi := hN_pos h i
  have hi1 := hN_pos (by linarith : 0 < lam + 1) i
  rcases i with _ | i
  · rw [if_pos rfl, add_zero]
    by_cases hj : j = 0
    · subst hj
      simp only [vbm_pl, vmix, le_refl, if_true]
      have := sqrt_lam_add h 0
      rw [this]
      field_simp
      simp
    · simp [vbm_pl, vmix, hj, Ne.symm hj]
  · rw [if_neg (by omega)]
    have hii1 := hN_pos (by linarith : 0 < lam + 1) i
    have e1 := sqrt_lam_add h (i + 1)
    have e2 := sqrt_succ h i
    push_cast at e1 ⊢
    rw [e1, e2]
    simp only [vbm_pl, vmix]
    by_cases h1 : j = i + 1
    · subst h1
      rw [if_pos le_rfl, if_neg (by omega), if_neg (by omega), if_pos rfl, ← two_mul, pow_mul]
      field_simp
      norm_num
    · by_cases h2 : j ≤ i
      · rw [if_pos (by omega), if_pos (by omega), if_pos (by omega)]
        rw [show i + 1 + j = (i + j) + 1 by ring, pow_succ]
        field_simp
        ring
      · rw [if_neg (by omega), if_neg (by omega), if_neg (by omega), if_neg (Ne.symm h1)]; ring

theorem vmix_symm {lam : ℝ} (h : 0 < lam) (hne : lam ≠ 1) (i j : ℕ) :
    vmix lam i j + vmix lam j i = -2 * (lam - 1) * vbm2 lam i j := by
  have ne1 : lam - 1 ≠ 0 := sub_ne_zero.2 hne
  unfold vmix vbm2
  rcases Nat.lt_trichotomy i j with hij | rfl | hij
  · rw [if_neg (by omega), if_neg (by omega), if_pos hij, min_eq_left hij.le, max_eq_right hij.le,
      Nat.add_comm j i]
    field_simp
    ring
  · rw [if_neg (by omega), if_pos rfl, min_self, max_self, div_self (hN_pos h i).ne', ← two_mul i,
      pow_mul]
    field_simp
    norm_num
  · rw [if_pos hij, if_neg (by omega), if_neg (by omega), min_eq_right hij.le, max_eq_left hij.le]
    field_simp
    ring

/-- `d/dbeta` twice is `d^2/dbeta^2`, for `lambda > 1`. -/
theorem Db_ml_Db_pl {lam : ℝ} (h : 1 < lam) : OpProd (vDb_ml lam) (vDb_pl lam)
    (fun i j => vSp lam i j + vSm lam i j - 2 * vS0 lam i j
      + (lam - 3 / 2) * (lam - 1 / 2) * vbm2 lam i j) := by
  have h0 : 0 < lam := by linarith
  have p1 := vwT_vw h0
  have p2 := vwT_bm h0
  have p3 := opProd_transpose p2
  have p4 := bm_ml_bm_pl h
  intro i j
  have s := (((p1 i j).add ((p2 i j).mul_left (lam - 1 / 2))).add
    (((p3 i j).mul_left (lam - 1 / 2)).add ((p4 i j).mul_left ((lam - 1 / 2) ^ 2)))).neg
  have hv : -(-(vSp lam i j + vSm lam i j - 2 * vS0 lam i j) + (lam - 1 / 2) * vmix lam i j +
      ((lam - 1 / 2) * vmix lam j i + (lam - 1 / 2) ^ 2 * vbm2 lam i j))
      = vSp lam i j + vSm lam i j - 2 * vS0 lam i j
        + (lam - 3 / 2) * (lam - 1 / 2) * vbm2 lam i j := by
    have := vmix_symm h0 (by linarith) i j
    linear_combination (-(lam - 1 / 2)) * this
  rw [hv] at s
  refine s.congr_fun ?_ |> id
  intro k
  simp only [vDb_ml_eq, vDb_pl_eq]
  ring

end Acm

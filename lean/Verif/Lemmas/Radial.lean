import Verif.Spec.Radial
import Verif.Lemmas.Py

/-!
# The radial matrix elements for positive `lambda`
-/

namespace Acm

open Acm.Spec

/-- Norm of the un-normalised radial state: `sqrt(Gamma(n + lambda) / n!)`. -/
noncomputable def hN (lam : ℝ) (n : ℕ) : ℝ := Real.sqrt (Real.Gamma (n + lam) / n.factorial)

theorem gamma_pos' {lam : ℝ} (h : 0 < lam) (n : ℕ) : 0 < Real.Gamma (n + lam) :=
  Real.Gamma_pos_of_pos (by positivity)

theorem hN_pos {lam : ℝ} (h : 0 < lam) (n : ℕ) : 0 < hN lam n :=
  Real.sqrt_pos.2 (div_pos (gamma_pos' h n) (by exact_mod_cast n.factorial_pos))

theorem hN_sq {lam : ℝ} (h : 0 < lam) (n : ℕ) :
    hN lam n ^ 2 = Real.Gamma (n + lam) / n.factorial :=
  Real.sq_sqrt (div_pos (gamma_pos' h n) (by exact_mod_cast n.factorial_pos)).le

theorem hN_add_one {lam : ℝ} (h : 0 < lam) (n : ℕ) :
    hN (lam + 1) n = Real.sqrt (lam + n) * hN lam n := by
  unfold hN
  rw [← Real.sqrt_mul (by positivity)]
  congr 1
  have : ((n : ℝ) + (lam + 1)) = (n + lam) + 1 := by ring
  rw [this, Real.Gamma_add_one (by positivity)]
  ring

theorem hN_succ {lam : ℝ} (h : 0 < lam) (n : ℕ) :
    Real.sqrt (n + 1) * hN lam (n + 1) = hN (lam + 1) n := by
  unfold hN
  rw [← Real.sqrt_mul (by positivity)]
  congr 1
  have : ((n : ℝ) + (lam + 1)) = ((n + 1 : ℕ) : ℝ) + lam := by push_cast; ring
  rw [this, Nat.factorial_succ]
  push_cast
  have h1 : ((n : ℝ) + 1) ≠ 0 := by positivity
  have h2 : (n.factorial : ℝ) ≠ 0 := by exact_mod_cast n.factorial_ne_zero
  field_simp

theorem sqrt_lam_add {lam : ℝ} (h : 0 < lam) (n : ℕ) :
    Real.sqrt (lam + n) = hN (lam + 1) n / hN lam n := by
  rw [hN_add_one h, mul_div_cancel_right₀ _ (hN_pos h n).ne']

theorem sqrt_succ {lam : ℝ} (h : 0 < lam) (n : ℕ) :
    Real.sqrt (n + 1) = hN (lam + 1) n / hN lam (n + 1) := by
  rw [← hN_succ h, mul_div_cancel_right₀ _ (hN_pos h _).ne']

theorem poch_eq {lam : ℝ} (n : ℕ) : poch (n + 1) (lam - 1) = Real.Gamma (n + lam) / n.factorial := by
  unfold poch
  rw [Real.Gamma_nat_eq_factorial]
  congr 2
  ring

theorem pySqrt_ok {x : ℝ} (h : 0 ≤ x) : pySqrt x = .ok (Real.sqrt x) := by
  unfold pySqrt
  rw [if_neg (not_lt.2 h)]
  rfl

theorem sqrt_poch {lam lam' : ℝ} (h : 0 < lam) (h' : 0 < lam') (n m : ℕ) :
    pySqrt (poch (n + 1) (lam - 1) / poch (m + 1) (lam' - 1)) = .ok (hN lam n / hN lam' m) := by
  rw [poch_eq, poch_eq]
  have a : 0 < Real.Gamma (n + lam) / n.factorial :=
    div_pos (gamma_pos' h n) (by exact_mod_cast n.factorial_pos)
  have b : 0 < Real.Gamma (m + lam') / m.factorial :=
    div_pos (gamma_pos' h' m) (by exact_mod_cast m.factorial_pos)
  rw [pySqrt_ok (div_pos a b).le, Real.sqrt_div a.le]
  rfl

theorem altSign_eq (i j : ℕ) : altSign i j = (-1) ^ (i + j) := by
  unfold altSign
  rcases le_total i j with h | h
  · obtain ⟨k, rfl⟩ := Nat.exists_eq_add_of_le h
    have e1 : ((i : ℤ) - ((i + k : ℕ) : ℤ)) = -(k : ℤ) := by push_cast; ring
    rw [e1, zpow_neg, zpow_natCast, ← inv_pow, show ((-1 : ℝ)⁻¹) = -1 by norm_num,
      show i + (i + k) = 2 * i + k by ring, pow_add, pow_mul]
    norm_num
  · obtain ⟨k, rfl⟩ := Nat.exists_eq_add_of_le h
    have e1 : (((j + k : ℕ) : ℤ) - (j : ℤ)) = (k : ℤ) := by push_cast; ring
    rw [e1, zpow_natCast, show j + k + j = 2 * j + k by ring, pow_add, pow_mul]
    norm_num

theorem not_nonpos_int {lam : ℝ} (h : 0 < lam) (n : ℕ) : ¬ (lam ≤ -(n : ℝ)) := by
  have : (0 : ℝ) ≤ n := by positivity
  intro h'
  linarith

/-! ## Values -/

noncomputable def vS0 (lam : ℝ) (i j : ℕ) : ℝ := if i = j then lam / 2 + j else 0

noncomputable def vSp (lam : ℝ) (i j : ℕ) : ℝ :=
  if i = j + 1 then Real.sqrt ((lam + j) * (j + 1)) else 0

noncomputable def vSm (lam : ℝ) (i j : ℕ) : ℝ :=
  if j = i + 1 then Real.sqrt ((lam + i) * (i + 1)) else 0

noncomputable def vb_pl (lam : ℝ) (i j : ℕ) : ℝ :=
  if i = j then Real.sqrt (lam + j) else if j = i + 1 then Real.sqrt (i + 1) else 0

noncomputable def vbm_pl (lam : ℝ) (i j : ℕ) : ℝ :=
  if j ≤ i then (-1) ^ (i + j) * (hN lam j / hN (lam + 1) i) else 0

/-- 1/beta^2, for `lambda ≠ 1`. -/
noncomputable def vbm2 (lam : ℝ) (i j : ℕ) : ℝ :=
  (-1) ^ (i + j) * (hN lam (min i j) / hN lam (max i j)) / (lam - 1)

theorem S0_ok (lam : ℝ) : Entries (ME_Radial_S0 lam) (vS0 lam) := fun _ _ => rfl

theorem Sp_ok {lam : ℝ} (h : 0 < lam) : Entries (ME_Radial_Sp lam) (vSp lam) := by
  intro i j
  unfold ME_Radial_Sp vSp
  by_cases hc : i = j + 1
  · rw [if_pos hc, if_pos hc, pySqrt_ok (by positivity)]
  · rw [if_neg hc, if_neg hc]; rfl

theorem Sm_ok {lam : ℝ} (h : 0 < lam) : Entries (ME_Radial_Sm lam) (vSm lam) := by
  intro i j
  unfold ME_Radial_Sm vSm
  by_cases hc : j = i + 1
  · subst hc
    rw [if_pos (by push_cast; ring), if_pos rfl]
    have : (lam + ((i + 1 : ℕ) : ℝ) - 1) * ((i + 1 : ℕ) : ℝ) = (lam + i) * (i + 1) := by
      push_cast; ring
    rw [this, pySqrt_ok (by positivity)]
  · rw [if_neg (by omega), if_neg hc]; rfl

theorem b2_ok {lam : ℝ} (h : 0 < lam) :
    Entries (ME_Radial_b2 lam) (fun i j => vSp lam i j + vSm lam i j + 2 * vS0 lam i j) := by
  intro i j
  beta_reduce
  unfold ME_Radial_b2 vSp vSm vS0
  by_cases h1 : j = i + 1
  · subst h1
    rw [if_pos (by push_cast; ring), if_neg (by omega), if_pos rfl, if_neg (by omega)]
    have : (lam + ((i + 1 : ℕ) : ℝ) - 1) * ((i + 1 : ℕ) : ℝ) = (lam + i) * (i + 1) := by
      push_cast; ring
    rw [this, pySqrt_ok (by positivity)]
    simp
  · rw [if_neg (by omega), if_neg h1]
    by_cases h2 : i = j
    · subst h2
      simp only [if_pos]
      rw [if_neg (by omega), py_pure]
      congr 1; ring
    · rw [if_neg h2, if_neg h2]
      by_cases h3 : i = j + 1
      · rw [if_pos h3, if_pos h3, pySqrt_ok (by positivity)]
        simp
      · rw [if_neg h3, if_neg h3]; simp

theorem bDb_ok {lam : ℝ} (h : 0 < lam) :
    Entries (ME_Radial_bDb lam) (fun i j => vSm lam i j - vSp lam i j - 1 / 2 * opId i j) := by
  intro i j
  beta_reduce
  unfold ME_Radial_bDb vSp vSm opId
  by_cases h1 : j = i + 1
  · subst h1
    rw [if_pos (by push_cast; ring), if_pos rfl, if_neg (by omega), if_neg (by omega)]
    have : (lam + ((i + 1 : ℕ) : ℝ) - 1) * ((i + 1 : ℕ) : ℝ) = (lam + i) * (i + 1) := by
      push_cast; ring
    rw [this, pySqrt_ok (by positivity)]
    simp
  · rw [if_neg (by omega), if_neg h1]
    by_cases h2 : i = j
    · subst h2
      simp only [if_pos]
      rw [if_neg (by omega), py_pure]
      norm_num
    · rw [if_neg h2, if_neg h2]
      by_cases h3 : i = j + 1
      · rw [if_pos h3, if_pos h3, pySqrt_ok (by positivity)]
        simp
      · rw [if_neg h3, if_neg h3]; simp

theorem b_pl_ok {lam : ℝ} (h : 0 < lam) : Entries (ME_Radial_b_pl lam) (vb_pl lam) := by
  intro i j
  unfold ME_Radial_b_pl vb_pl
  by_cases h1 : j = i + 1
  · subst h1
    rw [if_pos (by push_cast; ring), if_neg (by omega), if_pos rfl, pySqrt_ok (by positivity)]
    push_cast
    rfl
  · rw [if_neg (by omega), if_neg h1]
    by_cases h2 : i = j
    · rw [if_pos h2, if_pos h2, pySqrt_ok (by positivity)]
    · rw [if_neg h2, if_neg h2]; rfl

/-- `beta` lowering `lambda` is the transpose of `beta` raising it. -/
theorem b_ml_ok {lam : ℝ} (h : 0 < lam) :
    Entries (ME_Radial_b_ml (lam + 1)) (fun i j => vb_pl lam j i) := by
  intro i j
  beta_reduce
  unfold ME_Radial_b_ml vb_pl
  by_cases h1 : i = j + 1
  · subst h1
    rw [if_pos rfl, if_neg (by omega), if_pos rfl, pySqrt_ok (by positivity)]
    push_cast
    rfl
  · rw [if_neg h1]
    by_cases h2 : i = j
    · subst h2
      rw [if_pos rfl, if_pos rfl]
      have : lam + 1 + (i : ℝ) - 1 = lam + i := by ring
      rw [this, pySqrt_ok (by positivity)]
    · rw [if_neg h2, if_neg (by omega), if_neg h1]; rfl

theorem bm_pl_ok {lam : ℝ} (h : 0 < lam) : Entries (ME_Radial_bm_pl lam) (vbm_pl lam) := by
  intro i j
  unfold ME_Radial_bm_pl vbm_pl
  rw [if_neg (fun h' => not_nonpos_int h j h'.2)]
  by_cases h1 : j ≤ i
  · rw [if_neg (by omega), if_pos h1]
    have := sqrt_poch h (lam' := lam + 1) (by linarith) j i
    rw [show lam + 1 - 1 = lam by ring] at this
    simp only [this, py_bind_ok, altSign_eq, py_pure]
  · rw [if_pos (by omega), if_neg h1]; rfl

theorem bm_ml_ok {lam : ℝ} (h : 0 < lam) :
    Entries (ME_Radial_bm_ml (lam + 1)) (fun i j => vbm_pl lam j i) := by
  intro i j
  beta_reduce
  unfold ME_Radial_bm_ml vbm_pl
  rw [if_neg (fun h' => not_nonpos_int (by linarith : 0 < lam + 1) j h'.2)]
  by_cases h1 : i ≤ j
  · rw [if_neg (by omega), if_pos h1]
    have := sqrt_poch h (lam' := lam + 1) (by linarith) i j
    rw [show lam + 1 - 2 = lam - 1 by ring]
    simp only [this, py_bind_ok, altSign_eq, py_pure]
    rw [Nat.add_comm i j]
  · rw [if_pos (by omega), if_neg h1]; rfl

theorem pt_ok {lam : ℝ} (h : 0 < lam) (h1 : lam ≠ 1) (i j : ℕ) :
    ME_Radial_pt lam (max i j) (min i j) = .ok (vbm2 lam i j) := by
  unfold ME_Radial_pt vbm2
  rw [if_neg h1]
  simp only [sqrt_poch h h, py_bind_ok, altSign_eq, py_pure, max_add_min]

theorem bm2_ok {lam : ℝ} (h : 0 < lam) (h1 : lam ≠ 1) :
    Entries (ME_Radial_bm2 lam) (vbm2 lam) := by
  intro i j
  unfold ME_Radial_bm2
  rw [if_neg (by linarith), if_neg]
  · exact pt_ok h h1 i j
  · rintro ⟨_, h' | h'⟩ <;> exact not_nonpos_int h _ h'

theorem D2b_ok {lam : ℝ} (h : 0 < lam) (h1 : lam ≠ 1) :
    Entries (ME_Radial_D2b lam) (fun i j => vSp lam i j + vSm lam i j - 2 * vS0 lam i j
      + (lam - 3 / 2) * (lam - 1 / 2) * vbm2 lam i j) := by
  intro i j
  beta_reduce
  have key : (if (i : ℤ) = j - 1 then pySqrt ((lam + j - 1) * j)
    else if i = j then pure (-lam - 2 * j)
    else if i = j + 1 then pySqrt ((lam + j) * (j + 1))
    else pure 0 : Py ℝ) = .ok (vSp lam i j + vSm lam i j - 2 * vS0 lam i j) := by
    unfold vSp vSm vS0
    by_cases h1 : j = i + 1
    · subst h1
      rw [if_pos (by push_cast; ring), if_neg (by omega), if_pos rfl, if_neg (by omega)]
      have : (lam + ((i + 1 : ℕ) : ℝ) - 1) * ((i + 1 : ℕ) : ℝ) = (lam + i) * (i + 1) := by
        push_cast; ring
      rw [this, pySqrt_ok (by positivity)]
      simp
    · rw [if_neg (by omega), if_neg h1]
      by_cases h2 : i = j
      · subst h2
        simp only [if_pos]
        rw [if_neg (by omega), py_pure]
        congr 1; ring
      · rw [if_neg h2, if_neg h2]
        by_cases h3 : i = j + 1
        · rw [if_pos h3, if_pos h3, pySqrt_ok (by positivity)]
          simp
        · rw [if_neg h3, if_neg h3]; simp
  unfold ME_Radial_D2b
  rw [key]
  simp only [py_bind_ok]
  rw [pt_ok h h1 i j]
  simp only [py_bind_ok, py_pure]
  norm_num

/-- d/dbeta raising `lambda`. -/
noncomputable def vDb_pl (lam : ℝ) (i j : ℕ) : ℝ :=
  (if j = i + 1 then Real.sqrt (i + 1) else if i = j then -Real.sqrt (lam + j) else 0)
    + (lam - 1 / 2) * vbm_pl lam i j

theorem Db_pl_ok {lam : ℝ} (h : 0 < lam) : Entries (ME_Radial_Db_pl lam) (vDb_pl lam) := by
  intro i j
  have key : (if (i : ℤ) = j - 1 then pySqrt j
    else if i = j then do
      let s ← pySqrt (lam + j)
      pure (-s)
    else pure 0 : Py ℝ) = .ok
      (if j = i + 1 then Real.sqrt (i + 1) else if i = j then -Real.sqrt (lam + j) else 0) := by
    by_cases h1 : j = i + 1
    · subst h1
      rw [if_pos (by push_cast; ring), if_pos rfl, pySqrt_ok (by positivity)]
      push_cast
      rfl
    · rw [if_neg (by omega), if_neg h1]
      by_cases h2 : i = j
      · rw [if_pos h2, if_pos h2, pySqrt_ok (by positivity)]; rfl
      · rw [if_neg h2, if_neg h2]; rfl
  unfold ME_Radial_Db_pl vDb_pl
  rw [key]
  simp only [py_bind_ok]
  unfold vbm_pl
  by_cases h1 : j ≤ i
  · rw [if_pos h1, if_pos h1]
    have := sqrt_poch h (lam' := lam + 1) (by linarith) j i
    rw [show lam + 1 - 1 = lam by ring] at this
    simp only [this, py_bind_ok, altSign_eq, py_pure]
    congr 2
    norm_num
    ring
  · rw [if_neg h1, if_neg h1]; simp

/-- d/dbeta lowering `lambda + 1` to `lambda`. -/
noncomputable def vDb_ml (lam : ℝ) (i j : ℕ) : ℝ :=
  (if i = j + 1 then -Real.sqrt (j + 1) else if i = j then Real.sqrt (lam + j) else 0)
    + (1 / 2 - lam) * vbm_pl lam j i

theorem Db_ml_ok {lam : ℝ} (h : 0 < lam) :
    Entries (ME_Radial_Db_ml (lam + 1)) (vDb_ml lam) := by
  intro i j
  have key : (if i = j + 1 then do
      let s ← pySqrt i
      pure (-s)
    else if i = j then pySqrt (lam + 1 + j - 1)
    else pure 0 : Py ℝ) = .ok
      (if i = j + 1 then -Real.sqrt (j + 1) else if i = j then Real.sqrt (lam + j) else 0) := by
    by_cases h1 : i = j + 1
    · subst h1
      rw [if_pos rfl, if_pos rfl, pySqrt_ok (by positivity)]
      push_cast
      rfl
    · rw [if_neg h1, if_neg h1]
      by_cases h2 : i = j
      · rw [if_pos h2, if_pos h2, show lam + 1 + (j : ℝ) - 1 = lam + j by ring,
          pySqrt_ok (by positivity)]
      · rw [if_neg h2, if_neg h2]; rfl
  unfold ME_Radial_Db_ml vDb_ml
  rw [key]
  simp only [py_bind_ok]
  unfold vbm_pl
  by_cases h1 : i ≤ j
  · rw [if_pos h1, if_pos h1]
    have := sqrt_poch h (lam' := lam + 1) (by linarith) i j
    rw [show lam + 1 - 2 = lam - 1 by ring]
    simp only [this, py_bind_ok, altSign_eq, py_pure]
    rw [Nat.add_comm i j]
    congr 2
    norm_num
    ring
  · rw [if_neg h1, if_neg h1]; simp

end Acm

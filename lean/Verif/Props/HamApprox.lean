import Verif.Props.HamData
import Verif.Props.Lambda

/-!
# Properties C75, C76, C77: estimates and alternatives for the parameters of the basis
-/

namespace Acm.Props

open Acm Acm.Spec

/-! ## C75 -/

theorem rpow_third {x : ℝ} (hx : 0 ≤ x) : (x ^ ((1 : ℝ) / 3)) ^ 3 = x := by
  rw [← Real.rpow_natCast, ← Real.rpow_mul hx]
  norm_num

theorem rpow_quarter {x : ℝ} (hx : 0 ≤ x) : (x ^ ((1 : ℝ) / 4)) ^ 4 = x := by
  rw [← Real.rpow_natCast, ← Real.rpow_mul hx]
  norm_num

/-- C75: `A0_case1` is the positive root of the cubic without the quartic term of the potential. -/
theorem C75_case1 {B c1 : ℝ} (hB : 0 < B) (h1 : 0 < c1) (v : Int) :
    ∃ A, A0_case1 B c1 = .ok A ∧ 0 < A ∧ RWC1 A B c1 0 v = 0 ∧ ∀ A', 0 < A' → RWC1 A' B c1 0 v = 0 → A' = A := by
  have hs := Real.sqrt_pos.2 h1
  have hsq := Real.sq_sqrt h1.le
  refine ⟨B * Real.sqrt c1, ?_, by positivity, ?_, fun A' hA' hz => ?_⟩
  · unfold A0_case1
    rw [if_neg (not_le.2 hB), if_neg (not_le.2 h1)]
    rfl
  · unfold RWC1
    linear_combination B ^ 3 * Real.sqrt c1 * hsq
  · unfold RWC1 at hz
    have h : A' * (A' ^ 2 - (B * Real.sqrt c1) ^ 2) = 0 := by
      rw [mul_pow, hsq]; linear_combination hz
    rcases mul_eq_zero.1 h with h | h
    · exact absurd h hA'.ne'
    · exact (pow_left_inj₀ hA'.le (by positivity) two_ne_zero).1 (sub_eq_zero.1 h)

/-- C75: `A0_case2_approx` is the positive root of the cubic without the quadratic term of the potential. -/
theorem C75_case2 {B c2 : ℝ} (hB : 0 < B) (h2 : 0 < c2) {v : Int} (hv : 0 ≤ v) :
    ∃ A, A0_case2_approx B c2 v = .ok A ∧ 0 < A ∧ RWC1 A B 0 c2 v = 0 ∧ ∀ A', 0 < A' → RWC1 A' B 0 c2 v = 0 → A' = A := by
  have hv' : (0 : ℝ) ≤ v := by exact_mod_cast hv
  have hx : 0 < c2 * B ^ 2 * (2 * (v : ℝ) + 7) := by positivity
  refine ⟨(c2 * B ^ 2 * (2 * (v : ℝ) + 7)) ^ ((1 : ℝ) / 3), ?_, Real.rpow_pos_of_pos hx _, ?_, fun A' hA' hz => ?_⟩
  · unfold A0_case2_approx
    rw [if_neg (not_le.2 hB), if_neg (not_le.2 h2), if_neg (not_lt.2 hv)]
    rfl
  · unfold RWC1
    rw [rpow_third hx.le]
    ring
  · unfold RWC1 at hz
    refine (pow_left_inj₀ hA'.le (Real.rpow_pos_of_pos hx _).le three_ne_zero).1 ?_
    rw [rpow_third hx.le]
    linarith

/-- C75: together they bound the parameter that `RWC_alam` returns, from both sides. -/
theorem C75_bounds {sv : Solver} (hsv : SolverOk sv) {B c1 c2 : ℝ} (hB : 0 < B) (h1 : 0 < c1) (h2 : 0 < c2) {v : Int} (hv : 0 ≤ v)
    (fuel : ℕ) : ∃ A1 A2 a lam, A0_case1 B c1 = .ok A1 ∧ A0_case2_approx B c2 v = .ok A2 ∧
      RWC_alam sv fuel B c1 c2 v = some (.ok (a, lam)) ∧ A1 < a ^ 2 ∧ A2 < a ^ 2 ∧ a ^ 2 < A1 + A2 := by
  obtain ⟨A1, e1, p1, z1, _⟩ := C75_case1 hB h1 v
  obtain ⟨A2, e2, p2, z2, _⟩ := C75_case2 hB h2 hv
  obtain ⟨A, hA, hz, e⟩ := C67_clam hsv (c1 := c1) hB.ne' h2 hv
  refine ⟨A1, A2, Real.sqrt A, 2.5, e1, e2, ?_, ?_⟩
  · unfold RWC_alam
    rw [if_neg (by omega), if_pos h1.le, e]
  · rw [Real.sq_sqrt hA.le]
    have hv' : (0 : ℝ) ≤ v := by exact_mod_cast hv
    have hq : 0 < (2 * (v : ℝ) + 7) * B ^ 2 * c2 := by positivity
    have hp : 0 < B ^ 2 * c1 := by positivity
    obtain ⟨s1, s2⟩ := RWC1_sign hB.ne' h2 hv hA hz
    unfold RWC1 at z1 z2
    have hz1 : A1 ^ 2 = B ^ 2 * c1 := by
      have : A1 * (A1 ^ 2 - B ^ 2 * c1) = 0 := by linear_combination z1
      rcases mul_eq_zero.1 this with h | h
      · exact absurd h p1.ne'
      · linarith
    have hz2 : A2 ^ 3 = (2 * (v : ℝ) + 7) * B ^ 2 * c2 := by linarith
    have k : ∀ x, RWC1 x B c1 c2 v < 0 → x < A := by
      intro x hx
      by_contra hc
      rcases (not_lt.1 hc).lt_or_eq with h | h
      · exact absurd hx (not_lt.2 (s2 x h).le)
      · rw [h] at hz; exact hx.ne hz
    refine ⟨k A1 ?_, k A2 ?_, ?_⟩
    · unfold RWC1
      rw [← hz1, ← hz2]
      have : 0 < A2 ^ 3 := by positivity
      linarith
    · unfold RWC1
      rw [← hz1, ← hz2]
      have : 0 < A1 ^ 2 * A2 := by positivity
      linarith
    · by_contra hc
      have hpos : 0 < RWC1 (A1 + A2) B c1 c2 v := by
        unfold RWC1
        rw [← hz1, ← hz2]
        have : 0 < 2 * A1 ^ 2 * A2 + 3 * A1 * A2 ^ 2 := by positivity
        linarith
      rcases (not_lt.1 hc).lt_or_eq with h | h
      · exact absurd hpos (not_lt.2 (s1 _ (by positivity) h).le)
      · rw [h] at hpos; exact hpos.ne' hz

theorem rootV_div_tendsto {V : ℝ} (hV : 0 < V) : Filter.Tendsto (fun x => rootV V x / x) Filter.atTop (nhds 1) := by
  have h1 : Filter.Tendsto (fun x : ℝ => Real.sqrt (V / x ^ 2 + 1)) Filter.atTop (nhds (Real.sqrt (0 + 1))) :=
    ((tendsto_const_nhds.div_atTop (Filter.tendsto_pow_atTop two_ne_zero)).add_const 1).sqrt
  rw [zero_add, Real.sqrt_one] at h1
  refine h1.congr' ?_
  filter_upwards [Filter.eventually_gt_atTop 0] with x hx
  unfold rootV
  rw [← Real.sqrt_sq hx.le, ← Real.sqrt_div (by positivity), Real.sq_sqrt (by positivity)]
  congr 1
  have := hx.ne'
  field_simp

/-- C75: for large `A` the function `F2` grows like `2 |c1| / c2 * A^4`. -/
theorem C75_growth {B c1 c2 : ℝ} (h1 : c1 < 0) (h2 : 0 < c2) {v : Int} (hv : 0 ≤ v) :
    Filter.Tendsto (fun A => F2 B c1 c2 v A / A ^ 4) Filter.atTop (nhds (2 * (-c1 / c2))) := by
  have hr : 0 < -c1 / c2 := div_pos (by linarith) h2
  have hV := vshftf_pos hv
  generalize hVe : (((vshftf v : Int) : ℝ)) = V at hV
  set r := -c1 / c2 with hre
  have key : Filter.Tendsto (fun x => r * (rootV V x / x * (2 + V ^ 2 / rootV V x ^ 3 - B ^ 2 * c2 * r ^ 3 / 2 * (numN V x / x ^ 3))))
      Filter.atTop (nhds (r * (1 * (2 + 0 - B ^ 2 * c2 * r ^ 3 / 2 * 0)))) := by
    have t1 := rootV_div_tendsto hV
    have tm : Filter.Tendsto (fun x => rootV V x) Filter.atTop Filter.atTop := by
      refine Filter.tendsto_atTop_mono' _ ?_ Filter.tendsto_id
      filter_upwards [Filter.eventually_ge_atTop 0] with x hx
      exact (rootV_gt hV hx).le
    have p : ∀ n : ℕ, n ≠ 0 → Filter.Tendsto (fun x : ℝ => x ^ n) Filter.atTop Filter.atTop := fun n hn =>
      Filter.tendsto_pow_atTop hn
    have t2 : Filter.Tendsto (fun x => V ^ 2 / rootV V x ^ 3) Filter.atTop (nhds 0) :=
      tendsto_const_nhds.div_atTop ((p 3 three_ne_zero).comp tm)
    have t3 : Filter.Tendsto (fun x => numN V x / x ^ 3) Filter.atTop (nhds 0) := by
      have a1 : Filter.Tendsto (fun x : ℝ => (16 + 2 * V) / x ^ 3) Filter.atTop (nhds 0) :=
        tendsto_const_nhds.div_atTop (p 3 three_ne_zero)
      have a2 : Filter.Tendsto (fun x : ℝ => 6 * (rootV V x / x) / x ^ 2) Filter.atTop (nhds 0) :=
        (t1.const_mul 6).div_atTop (p 2 two_ne_zero)
      have a3 : Filter.Tendsto (fun x : ℝ => 6 * V / rootV V x / x ^ 3) Filter.atTop (nhds 0) :=
        Filter.Tendsto.div_atTop (tendsto_const_nhds.div_atTop tm) (p 3 three_ne_zero)
      have a4 : Filter.Tendsto (fun x : ℝ => 4 / x ^ 2) Filter.atTop (nhds 0) :=
        tendsto_const_nhds.div_atTop (p 2 two_ne_zero)
      have a5 : Filter.Tendsto (fun x : ℝ => 2 * V / rootV V x / x ^ 2) Filter.atTop (nhds 0) :=
        Filter.Tendsto.div_atTop (tendsto_const_nhds.div_atTop tm) (p 2 two_ne_zero)
      have := (((a1.add a2).add a3).sub a4).sub a5
      simp only [add_zero, sub_zero] at this
      refine this.congr' ?_
      filter_upwards [Filter.eventually_gt_atTop 0] with x hx
      have h := (rootV_pos hV x).ne'
      unfold numN
      generalize rootV V x = m at *
      field_simp
    exact (t1.mul ((t2.const_add 2).sub (t3.const_mul _))).const_mul r
  have hlin : Filter.Tendsto (fun A : ℝ => r * A) Filter.atTop Filter.atTop := Filter.tendsto_id.const_mul_atTop hr
  have := key.comp hlin
  rw [show r * (1 * (2 + 0 - B ^ 2 * c2 * r ^ 3 / 2 * 0)) = 2 * r by ring] at this
  refine this.congr' ?_
  filter_upwards [Filter.eventually_gt_atTop 0] with A hA
  rw [F2_eq h1 h2 hv, hVe, ← hre]
  simp only [Function.comp]
  have h := (rootV_pos hV (r * A)).ne'
  unfold denD
  generalize numN V (r * A) = N at *
  generalize rootV V (r * A) = m at *
  have := hr.ne'
  field_simp

/-- C75: `A0_case3_approx` solves the equation that keeps of `F2` its value at 0 and its leading term. -/
theorem C75_case3 {B c1 c2 : ℝ} (hB : 0 < B) (h1 : c1 < 0) (h2 : 0 < c2) {v : Int} (hv : 0 ≤ v) :
    ∃ A, A0_case3_approx B c1 c2 v = .ok A ∧ 0 < A ∧ 2 * (-c1 / c2) * A ^ 4 + F2 B c1 c2 v 0 = 0 := by
  have hv' : (0 : ℝ) ≤ v := by exact_mod_cast hv
  have hx : 0 < (2 * (v : ℝ) + 3) * (2 * (v : ℝ) + 5) * (2 * (v : ℝ) + 7) / (-2 * c1) :=
    div_pos (by positivity) (by linarith)
  refine ⟨_, ?_, mul_pos (Real.sqrt_pos.2 (mul_pos hB h2)) (Real.rpow_pos_of_pos hx ((1 : ℝ) / 4)), ?_⟩
  · unfold A0_case3_approx
    rw [if_neg (not_le.2 hB), if_neg (not_le.2 h1), if_neg (not_le.2 h2), if_neg (not_lt.2 hv)]
    rfl
  · rw [F2_zero B c1 c2 hv, mul_pow, rpow_quarter hx.le, show Real.sqrt (B * c2) ^ 4 = (Real.sqrt (B * c2) ^ 2) ^ 2 by ring,
      Real.sq_sqrt (by positivity)]
    have := h1.ne
    field_simp
    ring

/-- C75: arguments outside the range are refused. -/
theorem C75_rejects (B c1 c2 : ℝ) (v : Int) :
    (¬ (0 < B ∧ 0 < c1) → A0_case1 B c1 = .error .valueError) ∧
    (¬ (0 < B ∧ 0 < c2 ∧ 0 ≤ v) → A0_case2_approx B c2 v = .error .valueError) ∧
    (¬ (0 < B ∧ c1 < 0 ∧ 0 < c2 ∧ 0 ≤ v) → A0_case3_approx B c1 c2 v = .error .valueError) := by
  refine ⟨fun h => ?_, fun h => ?_, fun h => ?_⟩
  · unfold A0_case1
    split_ifs with e1 e2
    · rfl
    · rfl
    · exact absurd ⟨not_le.1 e1, not_le.1 e2⟩ h
  · unfold A0_case2_approx
    split_ifs with e1 e2 e3
    · rfl
    · rfl
    · rfl
    · exact absurd ⟨not_le.1 e1, not_le.1 e2, not_lt.1 e3⟩ h
  · unfold A0_case3_approx
    split_ifs with e1 e2 e3 e4
    · rfl
    · rfl
    · rfl
    · rfl
    · exact absurd ⟨not_le.1 e1, not_le.1 e2, not_le.1 e3, not_lt.1 e4⟩ h

example : (0 : ℝ) < 50 ∧ (-2 : ℝ) < 0 ∧ (0 : ℝ) < 1.5 ∧ (0 : Int) ≤ 3 := by norm_num

/-! ## C76 -/

theorem rwc_deriv (B c1 c2 b : ℝ) : HasDerivAt (rwcPotential B c1 c2) (B * (c1 * b + 2 * c2 * b ^ 3)) b := by
  have h := (((hasDerivAt_pow 2 b).const_mul c1).add ((hasDerivAt_pow 4 b).const_mul c2)).const_mul (B / 2)
  refine h.congr_deriv ?_
  norm_num
  ring

theorem rwc_deriv2 (B c1 c2 b : ℝ) : deriv (deriv (rwcPotential B c1 c2)) b = B * (c1 + 6 * c2 * b ^ 2) := by
  rw [show deriv (rwcPotential B c1 c2) = fun b => B * (c1 * b + 2 * c2 * b ^ 3) from
    funext fun b => (rwc_deriv B c1 c2 b).deriv]
  have h := (((hasDerivAt_id b).const_mul c1).add ((hasDerivAt_pow 3 b).const_mul (2 * c2))).const_mul B
  refine (h.congr_deriv ?_).deriv
  norm_num
  left
  ring

theorem dav_deriv (B a b0 : ℝ) {b : ℝ} (hb : b ≠ 0) :
    HasDerivAt (davPotential B a b0) (a ^ 4 / B * (b - b0 ^ 4 / b ^ 3)) b := by
  have h := ((hasDerivAt_pow 2 b).add ((hasDerivAt_const b (b0 ^ 4)).div (hasDerivAt_pow 2 b) (pow_ne_zero 2 hb))).const_mul
    (a ^ 4 / (2 * B))
  refine h.congr_deriv ?_
  norm_num
  by_cases hB : B = 0
  · subst hB; simp
  · field_simp
    ring

theorem dav_deriv2 (B a b0 : ℝ) {b : ℝ} (hb : 0 < b) :
    deriv (deriv (davPotential B a b0)) b = a ^ 4 / B * (1 + 3 * b0 ^ 4 / b ^ 4) := by
  have e : deriv (davPotential B a b0) =ᶠ[nhds b] fun b => a ^ 4 / B * (b - b0 ^ 4 / b ^ 3) := by
    filter_upwards [lt_mem_nhds hb] with x hx
    exact (dav_deriv B a b0 hx.ne').deriv
  rw [e.deriv_eq]
  have h := ((hasDerivAt_id b).sub ((hasDerivAt_const b (b0 ^ 4)).div (hasDerivAt_pow 3 b) (pow_ne_zero 3 hb.ne'))).const_mul
    (a ^ 4 / B)
  refine (h.congr_deriv ?_).deriv
  norm_num
  by_cases hB : B = 0
  · subst hB; simp
  · have := hb.ne'
    left
    field_simp
    ring

/-- C76 for `c1 < 0`: the two potentials have their minimum at the same place, with the same second derivative.  (What fails
is the value of `lambda`, `C76_lambda`, and the other case, `C76_fails_nonneg`.) -/
theorem C76_neg_partial {B c1 c2 : ℝ} (hB : 0 < B) (h1 : c1 < 0) (h2 : 0 < c2) :
    ∃ a lam, RWC_alam36 B c1 c2 = .ok (a, lam) ∧ 0 < a ∧ 0 < beta_dav c1 c2 ∧
      deriv (rwcPotential B c1 c2) (beta_dav c1 c2) = 0 ∧ deriv (davPotential B a (beta_dav c1 c2)) (beta_dav c1 c2) = 0 ∧
      deriv (deriv (davPotential B a (beta_dav c1 c2))) (beta_dav c1 c2) =
        deriv (deriv (rwcPotential B c1 c2)) (beta_dav c1 c2) := by
  have hx : 0 < -B ^ 2 * c1 / 2 := by nlinarith [mul_pos (pow_pos hB 2) (neg_pos.2 h1)]
  have hs := Real.sqrt_pos.2 hx
  have hbe : beta_dav c1 c2 = Real.sqrt (-c1 / (c2 * 2)) := by unfold beta_dav; rw [if_neg (by linarith)]
  have hb2 : 0 < -c1 / (c2 * 2) := div_pos (by linarith) (by linarith)
  have hb : 0 < beta_dav c1 c2 := by rw [hbe]; exact Real.sqrt_pos.2 hb2
  have hsq : beta_dav c1 c2 ^ 2 = -c1 / (c2 * 2) := by rw [hbe, Real.sq_sqrt hb2.le]
  refine ⟨Real.sqrt (Real.sqrt (-B ^ 2 * c1 / 2)), 1 + Real.sqrt (36 + B ^ 2 * c1 ^ 4 / c2 ^ 2) / 4, ?_, Real.sqrt_pos.2 hs, hb,
    ?_, ?_, ?_⟩
  · unfold RWC_alam36
    rw [if_pos h1, pySqrt_ok hx.le, py_bind_ok, pySqrt_ok hs.le, py_bind_ok]
    rfl
  · rw [(rwc_deriv B c1 c2 _).deriv, show c1 * beta_dav c1 c2 + 2 * c2 * beta_dav c1 c2 ^ 3 =
      beta_dav c1 c2 * (c1 + 2 * c2 * beta_dav c1 c2 ^ 2) by ring, hsq]
    field_simp
    simp
  · rw [(dav_deriv B _ _ hb.ne').deriv]
    have := hb.ne'
    field_simp
    simp
  · rw [dav_deriv2 B _ _ hb, rwc_deriv2, hsq, mul_div_cancel_right₀ _ (pow_ne_zero 4 hb.ne')]
    rw [show Real.sqrt (Real.sqrt (-B ^ 2 * c1 / 2)) ^ 4 = (Real.sqrt (Real.sqrt (-B ^ 2 * c1 / 2)) ^ 2) ^ 2 by ring,
      Real.sq_sqrt hs.le, Real.sq_sqrt hx.le]
    field_simp
    ring

/-- C76: the `lambda` returned is the one that belongs to `a` and `beta_0` only if `c1 = -2`. -/
theorem C76_lambda {B c1 c2 : ℝ} (hB : 0 < B) (h1 : c1 < 0) (h2 : 0 < c2) {a lam : ℝ} (h : RWC_alam36 B c1 c2 = .ok (a, lam)) :
    lam = RWC_dav c1 c2 a 0 ↔ c1 = -2 := by
  have hx : 0 < -B ^ 2 * c1 / 2 := by nlinarith [mul_pos (pow_pos hB 2) (neg_pos.2 h1)]
  have hs := Real.sqrt_pos.2 hx
  have hb2 : 0 < -c1 / (c2 * 2) := div_pos (by linarith) (by linarith)
  unfold RWC_alam36 at h
  rw [if_pos h1, pySqrt_ok hx.le, py_bind_ok, pySqrt_ok hs.le, py_bind_ok] at h
  injection h with h
  injection h with ea el
  unfold RWC_dav lam_dav beta_dav
  rw [if_neg (by linarith), ← el, ← ea, mul_pow]
  rw [show Real.sqrt (Real.sqrt (-B ^ 2 * c1 / 2)) ^ 4 = (Real.sqrt (Real.sqrt (-B ^ 2 * c1 / 2)) ^ 2) ^ 2 by ring,
    Real.sq_sqrt hs.le, Real.sq_sqrt hx.le, show Real.sqrt (-c1 / (c2 * 2)) ^ 4 = (Real.sqrt (-c1 / (c2 * 2)) ^ 2) ^ 2 by ring,
    Real.sq_sqrt hb2.le, add_right_inj]
  have e4 : Real.sqrt (36 + B ^ 2 * c1 ^ 4 / c2 ^ 2) / 4 = Real.sqrt (9 / 4 + B ^ 2 * c1 ^ 4 / (16 * c2 ^ 2)) := by
    rw [show (4 : ℝ) = Real.sqrt 16 by rw [show (16 : ℝ) = 4 ^ 2 by norm_num, Real.sqrt_sq (by norm_num)],
      ← Real.sqrt_div (by positivity)]
    congr 1
    rw [show Real.sqrt 16 = 4 by rw [show (16 : ℝ) = 4 ^ 2 by norm_num, Real.sqrt_sq (by norm_num)]]
    field_simp
    ring
  have hp : 0 ≤ -B ^ 2 * c1 / 2 * (-c1 / (c2 * 2)) ^ 2 := by positivity
  rw [e4, Real.sqrt_inj (by positivity) (by positivity)]
  have hB2 : B ^ 2 ≠ 0 := by positivity
  have hc : c1 ≠ 0 := h1.ne
  constructor
  · intro hh
    norm_num at hh
    field_simp at hh
    linarith
  · rintro rfl
    norm_num
    field_simp

/-- For c1 = -1 a pair is returned, and its lambda is not the matching one. -/
example : ∃ a lam, RWC_alam36 50 (-1) 1.5 = .ok (a, lam) ∧ lam ≠ RWC_dav (-1) 1.5 a 0 := by
  obtain ⟨a, lam, h, _⟩ := C76_neg_partial (B := 50) (c1 := -1) (c2 := 1.5) (by norm_num) (by norm_num) (by norm_num)
  exact ⟨a, lam, h, fun e => absurd ((C76_lambda (by norm_num) (by norm_num) (by norm_num) h).1 e) (by norm_num)⟩

/-- C76 fails: with `c1 = -1`, `c2 = 1` the two values of `lambda` differ. -/
theorem C76_fails : ∃ a lam, RWC_alam36 1 (-1) 1 = .ok (a, lam) ∧ lam ≠ RWC_dav (-1) 1 a 0 := by
  obtain ⟨a, lam, h, _⟩ := C76_neg_partial (B := 1) (c1 := -1) (c2 := 1) (by norm_num) (by norm_num) (by norm_num)
  refine ⟨a, lam, h, fun hh => ?_⟩
  have := (C76_lambda (by norm_num) (by norm_num) (by norm_num) h).1 hh
  norm_num at this

/-- C76 fails for `c1 > 0`: the second derivative at 0 of the oscillator potential with the `a` returned is `c1 / 4` whatever
`B`, that of the potential of the Hamiltonian is `B c1`. -/
theorem C76_fails_nonneg {B c1 : ℝ} (c2 : ℝ) (hB : 0 < B) (h1 : 0 < c1) :
    ∃ a, RWC_alam36 B c1 c2 = .ok (a, 2.5) ∧ deriv (deriv (davPotential B a 0)) 0 = c1 / 4 ∧
      deriv (deriv (rwcPotential B c1 c2)) 0 = B * c1 := by
  have hx : 0 < B * c1 / 4 := by positivity
  have hs := Real.sqrt_pos.2 hx
  refine ⟨Real.sqrt (Real.sqrt (B * c1 / 4)), ?_, ?_, ?_⟩
  · unfold RWC_alam36
    rw [if_neg (by linarith), pySqrt_ok hx.le, py_bind_ok, pySqrt_ok hs.le, py_bind_ok]
    rfl
  · have e : davPotential B (Real.sqrt (Real.sqrt (B * c1 / 4))) 0 = fun b => c1 / 8 * b ^ 2 := by
      funext b
      unfold davPotential
      rw [show Real.sqrt (Real.sqrt (B * c1 / 4)) ^ 4 = (Real.sqrt (Real.sqrt (B * c1 / 4)) ^ 2) ^ 2 by ring,
        Real.sq_sqrt hs.le, Real.sq_sqrt hx.le]
      have := hB.ne'
      rw [zero_pow four_ne_zero, zero_div, add_zero]
      field_simp
      ring
    have e1 : deriv (fun b : ℝ => c1 / 8 * b ^ 2) = fun b => c1 / 4 * b := by
      funext b
      refine (((hasDerivAt_pow 2 b).const_mul (c1 / 8)).congr_deriv ?_).deriv
      norm_num
      ring
    rw [e, e1]
    exact (((hasDerivAt_id (0 : ℝ)).const_mul (c1 / 4)).congr_deriv (by ring)).deriv
  · rw [rwc_deriv2]; ring

example : (0 : ℝ) < 1 ∧ (-1 : ℝ) < 0 := by norm_num

/-! ## C77 -/

/-- C77 for `c1 ≥ 0`: the function returned gives exactly the increase of `lambda`. -/
theorem C77_nonneg {sv : Solver} (hsv : SolverOk sv) {B c1 c2 : ℝ} (hB : 0 < B) (h1 : 0 ≤ c1) (h2 : 0 < c2) (fuel : ℕ) :
    ∃ a f, RWC_alam_fun sv fuel B c1 c2 = some (.ok (a, 2.5, f)) ∧ 0 < a ∧ lamOf c1 c2 0 (a ^ 2) = 2.5 ∧
      ∀ v : ℕ, ∃ n : Int, f v = .ok n ∧ (n : ℝ) = lamOf c1 c2 v (a ^ 2) - lamOf c1 c2 0 (a ^ 2) := by
  obtain ⟨A, hA, hz, e⟩ := C67_clam hsv (c1 := c1) hB.ne' h2 (v := 0) le_rfl
  have er : RWC_alam sv fuel B c1 c2 0 = some (.ok (Real.sqrt A, 2.5)) := by
    unfold RWC_alam
    rw [if_neg (by omega), if_pos h1, e]
  refine ⟨Real.sqrt A, lambda_sho_fun, ?_, Real.sqrt_pos.2 hA, ?_, fun v => ⟨v, (C48_simple v).2.1, ?_⟩⟩
  · unfold RWC_alam_fun
    rw [er]
    simp only
    rw [if_pos h1]
    rfl
  · rw [lamOf_nonneg h1 h2]; norm_num
  · rw [lamOf_nonneg h1 h2, lamOf_nonneg h1 h2]
    push_cast
    ring

/-- C77 for `c1 < 0`, partially: the argument handed on is such that the quantity of the documentation is exactly
the increase of `lambda`; the function rounds a smaller quantity (C49), so it gives the nearest integer
of the right parity or the one below it. -/
theorem C77_neg_partial {sv : Solver} (hsv : SolverOk sv) {B c1 c2 : ℝ} (hB : 0 < B) (h1 : c1 < 0) (h2 : 0 < c2) {fuel : ℕ} {a lam : ℝ}
    {f : LambdaFunction} (h : RWC_alam_fun sv fuel B c1 c2 = some (.ok (a, lam, f))) :
    0 < a ∧ lam = lamOf c1 c2 0 (a ^ 2) ∧ ∀ v : ℕ, ∃ n, f v = .ok n ∧
      (NearestOfParity v (lamOf c1 c2 v (a ^ 2) - lamOf c1 c2 0 (a ^ 2)) n ∨
        NearestOfParity v (lamOf c1 c2 v (a ^ 2) - lamOf c1 c2 0 (a ^ 2)) (n + 2)) := by
  unfold RWC_alam_fun at h
  cases hr : RWC_alam sv fuel B c1 c2 0 with
  | none => rw [hr] at h; cases h
  | some r =>
    cases r with
    | error e => rw [hr] at h; cases h
    | ok p =>
      obtain ⟨a0, lam0⟩ := p
      rw [hr] at h
      simp only at h
      rw [if_neg (by linarith)] at h
      injection h with h
      injection h with h
      injection h with ea h
      injection h with el ef
      rw [ea] at hr ef
      rw [el] at hr
      obtain ⟨k1, k2, _⟩ := C74_neg_partial hsv 0 hB h1 h2 0 hr
      refine ⟨k1, k2, fun v => ?_⟩
      have hC : 0 ≤ (a ^ 2 * c1 / (c2 * 2)) ^ 2 := sq_nonneg _
      obtain ⟨n, hn, _, m1, m2⟩ := C49_nearest_partial _ hC v
      have ed : daviDoc ((a ^ 2 * c1 / (c2 * 2)) ^ 2) v = lamOf c1 c2 v (a ^ 2) - lamOf c1 c2 0 (a ^ 2) := by
        have hp : 0 < -c1 / (2 * c2) := div_pos (by linarith) (by linarith)
        unfold daviDoc lamOf
        rw [max_eq_right hp.le, show (a ^ 2 * c1 / (c2 * 2)) ^ 2 = (a ^ 2 * (-c1 / (2 * c2))) ^ 2 by
          rw [mul_comm c2]; ring]
        norm_num
      rw [ed] at m1 m2
      refine ⟨n, by rw [← ef]; exact hn, ?_⟩
      rcases lt_or_ge (lamOf c1 c2 v (a ^ 2) - lamOf c1 c2 0 (a ^ 2)) (n + 1) with hh | hh
      · exact .inl (m1 hh)
      · exact .inr (m2 hh)

end Acm.Props

import Verif.Tests.HamDataValues
import Verif.Tests.Radial
import Verif.Props.HamData

/-!
# The model gives the values in the project's tests

`tests/test_hamiltonian_data.py`.
-/

namespace Acm.Tests

open Acm.Spec Acm.Props

/-- The root finder and the solver of the tests exist. -/
example : ∃ sv, SolverOk sv := solver_exists.imp fun _ h => h.1

theorem clam_test {sv : Solver} (hsv : SolverOk sv) {B c1 e d : ℝ} (hB : B ≠ 0) (hd : d ≤ 1e-9 * |e|) (h0 : 0 < e - d ∧ 0 < d)
    (h1 : RWC1 ((e - d) ^ 2) B c1 2.0 0 ≤ 0) (h2 : 0 ≤ RWC1 ((e + d) ^ 2) B c1 2.0 0) :
    ∃ a, RWC_alam_clam sv B c1 2.0 0 = .ok (a, 2.5) ∧ IsClose 1e-9 0 a e := by
  obtain ⟨A, hA, hz, h⟩ := C67_clam hsv (c1 := c1) (c2 := 2.0) hB (by norm_num) (v := 0) le_rfl
  obtain ⟨k1, k2⟩ := RWC1_sign hB (by norm_num) le_rfl hA hz
  refine ⟨_, h, isClose_of (by norm_num) hd ?_ ?_⟩
  · refine Real.le_sqrt_of_sq_le (not_lt.1 fun hh => ?_)
    exact absurd (k2 _ hh) (not_lt.2 h1)
  · refine Real.sqrt_le_iff.2 ⟨by linarith [h0.1, h0.2], not_lt.1 fun hh => ?_⟩
    have hp : 0 < e + d := by linarith [h0.1, h0.2]
    exact absurd (k1 _ (by positivity) hh) (not_lt.2 h2)

/-- `F2` for `c1 = -3`, `c2 = 2`, `v = 0` in terms of `mu`, using `mu^2 = 9 + 9/4 A^2`. -/
noncomputable def F2lin (A B mu : ℝ) : ℝ :=
  9 / 4 * (-9 * A ^ 5 / (9 + 9 / 4 * A ^ 2) - 3 * A ^ 3 * B ^ 2 + 2 * A ^ 2 * B ^ 2 * (mu + 3)) + A ^ 3 * (2 * mu + 9)
    - B ^ 2 * ((9 + 9 / 4 * A ^ 2) * (2 * mu + 12 - 3 * A) + (16 - 6 * A) * mu)

theorem F2_lin (A B : ℝ) : F2 B (-3.0) 2.0 0 A = F2lin A B (muf A (-3.0) 2.0 0) := by
  have hm : muf A (-3.0) 2.0 0 ^ 2 = 9 + 9 / 4 * A ^ 2 := by
    unfold muf
    have : ((vshftf 0 : Int) : ℝ) + (A * -3.0 / 2.0) ^ 2 = 9 + 9 / 4 * A ^ 2 := by
      norm_num [vshftf]
      ring
    rw [this, Real.sq_sqrt (by positivity)]
  unfold F2 RWC2 F2lin
  rw [hm]
  generalize muf A (-3.0) 2.0 0 = mu at hm ⊢
  norm_num [vshftf]
  linear_combination -B ^ 2 * (2 * mu + 12 - 3 * A) * hm

theorem F2lin_affine (A B m0 m1 mu : ℝ) (h0 : m0 ≤ mu) (h1 : mu ≤ m1) :
    min (F2lin A B m0) (F2lin A B m1) ≤ F2lin A B mu ∧ F2lin A B mu ≤ max (F2lin A B m0) (F2lin A B m1) := by
  have e : ∀ x y, F2lin A B x - F2lin A B y = (9 / 2 * A ^ 2 * B ^ 2 + 2 * A ^ 3 - B ^ 2 * (2 * (9 + 9 / 4 * A ^ 2) + (16 - 6 * A))) * (x - y) := by
    intro x y
    unfold F2lin
    ring
  generalize (9 / 2 * A ^ 2 * B ^ 2 + 2 * A ^ 3 - B ^ 2 * (2 * (9 + 9 / 4 * A ^ 2) + (16 - 6 * A))) = c at e
  have e1 := e mu m0
  have e2 := e m1 mu
  rcases le_or_gt 0 c with hc | hc
  · exact ⟨min_le_of_left_le (by nlinarith), le_max_of_le_right (by nlinarith)⟩
  · exact ⟨min_le_of_right_le (by nlinarith), le_max_of_le_left (by nlinarith)⟩

theorem muf_bounds {A l0 l1 : ℝ} (h1 : 0 ≤ l1) (h2 : l0 ^ 2 ≤ 9 + 9 / 4 * A ^ 2) (h3 : 9 + 9 / 4 * A ^ 2 ≤ l1 ^ 2) :
    l0 ≤ muf A (-3.0) 2.0 0 ∧ muf A (-3.0) 2.0 0 ≤ l1 := by
  unfold muf
  have : ((vshftf 0 : Int) : ℝ) + (A * -3.0 / 2.0) ^ 2 = 9 + 9 / 4 * A ^ 2 := by
    norm_num [vshftf]
    ring
  rw [this]
  exact root_bounds h1 h2 h3

theorem muf_mono {A A' : ℝ} (h : 0 ≤ A) (h' : A ≤ A') : muf A (-3.0) 2.0 0 ≤ muf A' (-3.0) 2.0 0 := by
  unfold muf
  refine Real.sqrt_le_sqrt ?_
  norm_num
  nlinarith

theorem alam_test {sv : Solver} (hsv : SolverOk sv) {B e f l u l0 l1 u0 u1 d d' : ℝ}
    (h0 : B ≠ 0 ∧ 0 < l ∧ 0 < u ∧ 0 ≤ l1 ∧ 0 ≤ u1)
    (hm : l0 ^ 2 ≤ 9 + 9 / 4 * l ^ 2 ∧ 9 + 9 / 4 * l ^ 2 ≤ l1 ^ 2 ∧ u0 ^ 2 ≤ 9 + 9 / 4 * u ^ 2 ∧ 9 + 9 / 4 * u ^ 2 ≤ u1 ^ 2)
    (hF : F2lin l B l0 < 0 ∧ F2lin l B l1 < 0 ∧ 0 < F2lin u B u0 ∧ 0 < F2lin u B u1)
    (he : d ≤ 1e-9 * |e| ∧ (e - d) ^ 2 ≤ l ∧ 0 ≤ e + d ∧ u ≤ (e + d) ^ 2)
    (hf : d' ≤ 1e-9 * |f| ∧ f - d' ≤ 1 + l0 / 2 ∧ 1 + u1 / 2 ≤ f + d') :
    ∃ k, ∀ fuel, k < fuel → RWC_alam sv fuel B (-3.0) 2.0 0 = some (.error .valueError) ∨
      ∃ a lam, RWC_alam sv fuel B (-3.0) 2.0 0 = some (.ok (a, lam)) ∧ IsClose 1e-9 0 a e ∧ IsClose 1e-9 0 lam f := by
  obtain ⟨hB, hl, hu, hl1, hu1⟩ := h0
  obtain ⟨k, hk⟩ := C67_alam hsv (c1 := -3.0) (c2 := 2.0) hB (by norm_num) (by norm_num) (v := 0) le_rfl
  refine ⟨k, fun fuel hfuel => (hk fuel hfuel).imp id ?_⟩
  rintro ⟨A, hA, hz, h⟩
  obtain ⟨ml0, ml1⟩ := muf_bounds hl1 hm.1 hm.2.1
  obtain ⟨mu0, mu1⟩ := muf_bounds hu1 hm.2.2.1 hm.2.2.2
  obtain ⟨k1, k2⟩ := F2_sign (B := B) (c1 := -3.0) (c2 := 2.0) (by norm_num) (by norm_num) le_rfl hA hz
  have f1 : F2 B (-3.0) 2.0 0 l < 0 := by
    rw [F2_lin]
    exact lt_of_le_of_lt (F2lin_affine l B _ _ _ ml0 ml1).2 (max_lt hF.1 hF.2.1)
  have f2 : 0 < F2 B (-3.0) 2.0 0 u := by
    rw [F2_lin]
    exact lt_of_lt_of_le (lt_min hF.2.2.1 hF.2.2.2) (F2lin_affine u B _ _ _ mu0 mu1).1
  have a1 : l ≤ A := not_lt.1 fun hh => absurd (k2 _ hh) (not_lt.2 f1.le)
  have a2 : A ≤ u := not_lt.1 fun hh => absurd (k1 _ hu hh) (not_lt.2 f2.le)
  refine ⟨_, _, h, isClose_of (by norm_num) he.1 ?_ ?_, isClose_of (by norm_num) hf.1 ?_ ?_⟩
  · exact Real.le_sqrt_of_sq_le (he.2.1.trans a1)
  · exact Real.sqrt_le_iff.2 ⟨he.2.2.1, a2.trans he.2.2.2⟩
  · linarith [muf_mono hl.le a1, hf.2.1]
  · linarith [muf_mono hA.le a2, hf.2.2]

theorem A0_case1_ok {B c1 : ℝ} (h1 : 0 < B) (h2 : 0 < c1) : A0_case1 B c1 = .ok (B * √c1) := by
  unfold A0_case1
  rw [if_neg (not_le.2 h1), if_neg (not_le.2 h2)]
  rfl

theorem le_prod_root {B c x : ℝ} (h1 : 0 < B) (_ : 0 < c) (h : x ^ 2 ≤ B ^ 2 * c) : x ≤ B * √c := by
  rw [show B * √c = √(B ^ 2 * c) by rw [Real.sqrt_mul (sq_nonneg B), Real.sqrt_sq h1.le]]
  exact Real.le_sqrt_of_sq_le h

theorem prod_root_le {B c x : ℝ} (h1 : 0 < B) (hx : 0 ≤ x) (h : B ^ 2 * c ≤ x ^ 2) : B * √c ≤ x := by
  rw [show B * √c = √(B ^ 2 * c) by rw [Real.sqrt_mul (sq_nonneg B), Real.sqrt_sq h1.le]]
  exact Real.sqrt_le_iff.2 ⟨hx, h⟩

theorem A0_case2_ok {B c2 : ℝ} {v : Int} (h1 : 0 < B) (h2 : 0 < c2) (h3 : 0 ≤ v) :
    A0_case2_approx B c2 v = .ok ((c2 * B ^ 2 * (2 * (v : ℝ) + 7)) ^ ((1 : ℝ) / 3)) := by
  unfold A0_case2_approx
  rw [if_neg (not_le.2 h1), if_neg (not_le.2 h2), if_neg (not_lt.2 h3)]
  rfl

theorem pow_root {n : ℕ} (hn : n ≠ 0) {x : ℝ} (hx : 0 ≤ x) : (x ^ n) ^ ((1 : ℝ) / n) = x := by
  rw [one_div, Real.pow_rpow_inv_natCast hx hn]

theorem le_cbrt {q x : ℝ} (hx : 0 ≤ x) (h : x ^ 3 ≤ q) : x ≤ q ^ ((1 : ℝ) / 3) := by
  have := Real.rpow_le_rpow (z := (1 : ℝ) / 3) (pow_nonneg hx 3) h (by norm_num)
  rwa [show ((1 : ℝ) / 3) = (1 : ℝ) / (3 : ℕ) by norm_num, pow_root (by norm_num) hx] at this

theorem cbrt_le {q x : ℝ} (hq : 0 ≤ q) (hx : 0 ≤ x) (h : q ≤ x ^ 3) : q ^ ((1 : ℝ) / 3) ≤ x := by
  have := Real.rpow_le_rpow (z := (1 : ℝ) / 3) hq h (by norm_num)
  rwa [show ((1 : ℝ) / 3) = (1 : ℝ) / (3 : ℕ) by norm_num, pow_root (by norm_num) hx] at this

theorem A0_case3_ok {B : ℝ} (h1 : 0 < B) : A0_case3_approx B (-3.0) 2.0 0 = .ok ((70 * B ^ 2) ^ ((1 : ℝ) / 4)) := by
  unfold A0_case3_approx
  rw [if_neg (not_le.2 h1), if_neg (by norm_num), if_neg (by norm_num), if_neg (by norm_num)]
  have e : √(B * 2.0) = (4 * B ^ 2) ^ ((1 : ℝ) / 4) := by
    rw [show (4 * B ^ 2 : ℝ) = √(B * 2.0) ^ 4 by
      rw [show √(B * 2.0) ^ 4 = (√(B * 2.0) ^ 2) ^ 2 by ring, Real.sq_sqrt (by positivity)]
      norm_num
      ring, show ((1 : ℝ) / 4) = (1 : ℝ) / (4 : ℕ) by norm_num, pow_root (by norm_num) (Real.sqrt_nonneg _)]
  rw [e, ← Real.mul_rpow (by positivity) (by norm_num)]
  show Except.ok _ = _
  congr 2
  norm_num
  ring

theorem le_root4 {q x : ℝ} (hx : 0 ≤ x) (h : x ^ 4 ≤ q) : x ≤ q ^ ((1 : ℝ) / 4) := by
  have := Real.rpow_le_rpow (z := (1 : ℝ) / 4) (pow_nonneg hx 4) h (by norm_num)
  rwa [show ((1 : ℝ) / 4) = (1 : ℝ) / (4 : ℕ) by norm_num, pow_root (by norm_num) hx] at this

theorem root4_le {q x : ℝ} (hq : 0 ≤ q) (hx : 0 ≤ x) (h : q ≤ x ^ 4) : q ^ ((1 : ℝ) / 4) ≤ x := by
  have := Real.rpow_le_rpow (z := (1 : ℝ) / 4) hq h (by norm_num)
  rwa [show ((1 : ℝ) / 4) = (1 : ℝ) / (4 : ℕ) by norm_num, pow_root (by norm_num) hx] at this

/-- `RWC_alam_clam(B, 3.0, 2.0)`. -/
theorem test_clam_pos (sv : Solver) (hsv : SolverOk sv) : ∀ t ∈ tests_clam_pos,
    ∃ a, RWC_alam_clam sv t.1 3.0 2.0 0 = .ok (a, 2.5) ∧ IsClose 1e-9 0 a t.2 := by
  refine all_cons (clam_test hsv (d := (1679773843 / 1000000000000000000)) (by norm_num) ?_ ?_ ?_ ?_) ?_
  · norm_num [abs_of_pos]
  · norm_num
  · norm_num [RWC1]
  · norm_num [RWC1]
  refine all_cons (clam_test hsv (d := (13767003 / 6250000000000000)) (by norm_num) ?_ ?_ ?_ ?_) ?_
  · norm_num [abs_of_pos]
  · norm_num
  · norm_num [RWC1]
  · norm_num [RWC1]
  refine all_cons (clam_test hsv (d := (2599308117 / 1000000000000000000)) (by norm_num) ?_ ?_ ?_ ?_) ?_
  · norm_num [abs_of_pos]
  · norm_num
  · norm_num [RWC1]
  · norm_num [RWC1]
  refine all_cons (clam_test hsv (d := (1466652319 / 500000000000000000)) (by norm_num) ?_ ?_ ?_ ?_) ?_
  · norm_num [abs_of_pos]
  · norm_num
  · norm_num [RWC1]
  · norm_num [RWC1]
  refine all_cons (clam_test hsv (d := (3228085199 / 1000000000000000000)) (by norm_num) ?_ ?_ ?_ ?_) ?_
  · norm_num [abs_of_pos]
  · norm_num
  · norm_num [RWC1]
  · norm_num [RWC1]
  refine all_cons (clam_test hsv (d := (699055377 / 200000000000000000)) (by norm_num) ?_ ?_ ?_ ?_) ?_
  · norm_num [abs_of_pos]
  · norm_num
  · norm_num [RWC1]
  · norm_num [RWC1]
  refine all_cons (clam_test hsv (d := (3741657387 / 1000000000000000000)) (by norm_num) ?_ ?_ ?_ ?_) ?_
  · norm_num [abs_of_pos]
  · norm_num
  · norm_num [RWC1]
  · norm_num [RWC1]
  refine all_cons (clam_test hsv (d := (1985794781 / 500000000000000000)) (by norm_num) ?_ ?_ ?_ ?_) ?_
  · norm_num [abs_of_pos]
  · norm_num
  · norm_num [RWC1]
  · norm_num [RWC1]
  refine all_cons (clam_test hsv (d := (2094040119 / 500000000000000000)) (by norm_num) ?_ ?_ ?_ ?_) ?_
  · norm_num [abs_of_pos]
  · norm_num
  · norm_num [RWC1]
  · norm_num [RWC1]
  refine all_cons (clam_test hsv (d := (1098326951 / 250000000000000000)) (by norm_num) ?_ ?_ ?_ ?_) ?_
  · norm_num [abs_of_pos]
  · norm_num
  · norm_num [RWC1]
  · norm_num [RWC1]
  refine all_cons (clam_test hsv (d := (4588911801 / 1000000000000000000)) (by norm_num) ?_ ?_ ?_ ?_) ?_
  · norm_num [abs_of_pos]
  · norm_num
  · norm_num [RWC1]
  · norm_num [RWC1]
  refine all_cons (clam_test hsv (d := (4776163871 / 1000000000000000000)) (by norm_num) ?_ ?_ ?_ ?_) ?_
  · norm_num [abs_of_pos]
  · norm_num
  · norm_num [RWC1]
  · norm_num [RWC1]
  refine all_cons (clam_test hsv (d := (198242983 / 40000000000000000)) (by norm_num) ?_ ?_ ?_ ?_) ?_
  · norm_num [abs_of_pos]
  · norm_num
  · norm_num [RWC1]
  · norm_num [RWC1]
  refine all_cons (clam_test hsv (d := (160295727 / 31250000000000000)) (by norm_num) ?_ ?_ ?_ ?_) ?_
  · norm_num [abs_of_pos]
  · norm_num
  · norm_num [RWC1]
  · norm_num [RWC1]
  refine all_cons (clam_test hsv (d := (5297005523 / 1000000000000000000)) (by norm_num) ?_ ?_ ?_ ?_) ?_
  · norm_num [abs_of_pos]
  · norm_num
  · norm_num [RWC1]
  · norm_num [RWC1]
  refine all_cons (clam_test hsv (d := (5459266423 / 1000000000000000000)) (by norm_num) ?_ ?_ ?_ ?_) ?_
  · norm_num [abs_of_pos]
  · norm_num
  · norm_num [RWC1]
  · norm_num [RWC1]
  refine all_cons (clam_test hsv (d := (351045279 / 62500000000000000)) (by norm_num) ?_ ?_ ?_ ?_) ?_
  · norm_num [abs_of_pos]
  · norm_num
  · norm_num [RWC1]
  · norm_num [RWC1]
  refine all_cons (clam_test hsv (d := (5769789201 / 1000000000000000000)) (by norm_num) ?_ ?_ ?_ ?_) ?_
  · norm_num [abs_of_pos]
  · norm_num
  · norm_num [RWC1]
  · norm_num [RWC1]
  refine all_cons (clam_test hsv (d := (5918814489 / 1000000000000000000)) (by norm_num) ?_ ?_ ?_ ?_) ?_
  · norm_num [abs_of_pos]
  · norm_num
  · norm_num [RWC1]
  · norm_num [RWC1]
  refine all_cons (clam_test hsv (d := (6064108623 / 1000000000000000000)) (by norm_num) ?_ ?_ ?_ ?_) ?_
  · norm_num [abs_of_pos]
  · norm_num
  · norm_num [RWC1]
  · norm_num [RWC1]
  exact all_nil

/-- `RWC_alam_clam(B, -3.0, 2.0)`. -/
theorem test_clam_neg (sv : Solver) (hsv : SolverOk sv) : ∀ t ∈ tests_clam_neg,
    ∃ a, RWC_alam_clam sv t.1 (-3.0) 2.0 0 = .ok (a, 2.5) ∧ IsClose 1e-9 0 a t.2 := by
  refine all_cons (clam_test hsv (d := (707106781 / 500000000000000000)) (by norm_num) ?_ ?_ ?_ ?_) ?_
  · norm_num [abs_of_pos]
  · norm_num
  · norm_num [RWC1]
  · norm_num [RWC1]
  refine all_cons (clam_test hsv (d := (1677073391 / 1000000000000000000)) (by norm_num) ?_ ?_ ?_ ?_) ?_
  · norm_num [abs_of_pos]
  · norm_num
  · norm_num [RWC1]
  · norm_num [RWC1]
  refine all_cons (clam_test hsv (d := (910507511 / 500000000000000000)) (by norm_num) ?_ ?_ ?_ ?_) ?_
  · norm_num [abs_of_pos]
  · norm_num
  · norm_num [RWC1]
  · norm_num [RWC1]
  refine all_cons (clam_test hsv (d := (1911011443 / 1000000000000000000)) (by norm_num) ?_ ?_ ?_ ?_) ?_
  · norm_num [abs_of_pos]
  · norm_num
  · norm_num [RWC1]
  · norm_num [RWC1]
  refine all_cons (clam_test hsv (d := (246376831 / 125000000000000000)) (by norm_num) ?_ ?_ ?_ ?_) ?_
  · norm_num [abs_of_pos]
  · norm_num
  · norm_num [RWC1]
  · norm_num [RWC1]
  refine all_cons (clam_test hsv (d := (2012729611 / 1000000000000000000)) (by norm_num) ?_ ?_ ?_ ?_) ?_
  · norm_num [abs_of_pos]
  · norm_num
  · norm_num [RWC1]
  · norm_num [RWC1]
  refine all_cons (clam_test hsv (d := (102133509 / 50000000000000000)) (by norm_num) ?_ ?_ ?_ ?_) ?_
  · norm_num [abs_of_pos]
  · norm_num
  · norm_num [RWC1]
  · norm_num [RWC1]
  refine all_cons (clam_test hsv (d := (2064734587 / 1000000000000000000)) (by norm_num) ?_ ?_ ?_ ?_) ?_
  · norm_num [abs_of_pos]
  · norm_num
  · norm_num [RWC1]
  · norm_num [RWC1]
  refine all_cons (clam_test hsv (d := (32521387 / 15625000000000000)) (by norm_num) ?_ ?_ ?_ ?_) ?_
  · norm_num [abs_of_pos]
  · norm_num
  · norm_num [RWC1]
  · norm_num [RWC1]
  refine all_cons (clam_test hsv (d := (1047081069 / 500000000000000000)) (by norm_num) ?_ ?_ ?_ ?_) ?_
  · norm_num [abs_of_pos]
  · norm_num
  · norm_num [RWC1]
  · norm_num [RWC1]
  refine all_cons (clam_test hsv (d := (420835471 / 200000000000000000)) (by norm_num) ?_ ?_ ?_ ?_) ?_
  · norm_num [abs_of_pos]
  · norm_num
  · norm_num [RWC1]
  · norm_num [RWC1]
  refine all_cons (clam_test hsv (d := (528035627 / 250000000000000000)) (by norm_num) ?_ ?_ ?_ ?_) ?_
  · norm_num [abs_of_pos]
  · norm_num
  · norm_num [RWC1]
  · norm_num [RWC1]
  refine all_cons (clam_test hsv (d := (264820927 / 125000000000000000)) (by norm_num) ?_ ?_ ?_ ?_) ?_
  · norm_num [abs_of_pos]
  · norm_num
  · norm_num [RWC1]
  · norm_num [RWC1]
  refine all_cons (clam_test hsv (d := (2123816133 / 1000000000000000000)) (by norm_num) ?_ ?_ ?_ ?_) ?_
  · norm_num [abs_of_pos]
  · norm_num
  · norm_num [RWC1]
  · norm_num [RWC1]
  refine all_cons (clam_test hsv (d := (266019163 / 125000000000000000)) (by norm_num) ?_ ?_ ?_ ?_) ?_
  · norm_num [abs_of_pos]
  · norm_num
  · norm_num [RWC1]
  · norm_num [RWC1]
  refine all_cons (clam_test hsv (d := (85270979 / 40000000000000000)) (by norm_num) ?_ ?_ ?_ ?_) ?_
  · norm_num [abs_of_pos]
  · norm_num
  · norm_num [RWC1]
  · norm_num [RWC1]
  refine all_cons (clam_test hsv (d := (213482631 / 100000000000000000)) (by norm_num) ?_ ?_ ?_ ?_) ?_
  · norm_num [abs_of_pos]
  · norm_num
  · norm_num [RWC1]
  · norm_num [RWC1]
  refine all_cons (clam_test hsv (d := (1068710167 / 500000000000000000)) (by norm_num) ?_ ?_ ?_ ?_) ?_
  · norm_num [abs_of_pos]
  · norm_num
  · norm_num [RWC1]
  · norm_num [RWC1]
  refine all_cons (clam_test hsv (d := (534910607 / 250000000000000000)) (by norm_num) ?_ ?_ ?_ ?_) ?_
  · norm_num [abs_of_pos]
  · norm_num
  · norm_num [RWC1]
  · norm_num [RWC1]
  refine all_cons (clam_test hsv (d := (133847469 / 62500000000000000)) (by norm_num) ?_ ?_ ?_ ?_) ?_
  · norm_num [abs_of_pos]
  · norm_num
  · norm_num [RWC1]
  · norm_num [RWC1]
  exact all_nil

/-- `RWC_alam(B, 3.0, 2.0)`. -/
theorem test_alam_pos (sv : Solver) (hsv : SolverOk sv) (fuel : ℕ) : ∀ t ∈ tests_alam_pos,
    ∃ a, RWC_alam sv fuel t.1 3.0 2.0 0 = some (.ok (a, 2.5)) ∧ IsClose 1e-9 0 a t.2 := by
  intro t ht
  obtain ⟨a, h, hc⟩ := test_clam_pos sv hsv t ht
  refine ⟨a, ?_, hc⟩
  unfold RWC_alam
  rw [if_neg (by omega), if_pos (by norm_num), h]

/-- `RWC_alam(B, -3.0, 2.0)`; the root finder may also report that it has not converged. -/
theorem test_alam_neg (sv : Solver) (hsv : SolverOk sv) : ∀ t ∈ tests_alam_neg, ∃ k, ∀ fuel, k < fuel →
    RWC_alam sv fuel t.1 (-3.0) 2.0 0 = some (.error .valueError) ∨
    ∃ a lam, RWC_alam sv fuel t.1 (-3.0) 2.0 0 = some (.ok (a, lam)) ∧ IsClose 1e-9 0 a t.2.1 ∧ IsClose 1e-9 0 lam t.2.2 := by
  refine all_cons (alam_test hsv (B := 1) (l := (12745529421083 / 5000000000000)) (u := (25491058842367 / 10000000000000)) (l0 := (4860078890319817821 / 1000000000000000000)) (l1 := (2430039445159908911 / 500000000000000000))
    (u0 := (2430039445171769141 / 500000000000000000)) (u1 := (4860078890343538283 / 1000000000000000000)) (d := (1596591959 / 1000000000000000000)) (d' := (686007889 / 200000000000000000)) ⟨by norm_num, by norm_num, by norm_num, by norm_num, by norm_num⟩
    ⟨by norm_num, by norm_num, by norm_num, by norm_num⟩
    ⟨by norm_num [F2lin], by norm_num [F2lin], by norm_num [F2lin], by norm_num [F2lin]⟩
    ⟨by norm_num [abs_of_pos], by norm_num, by norm_num, by norm_num⟩ ⟨by norm_num [abs_of_pos], by norm_num, by norm_num⟩) ?_
  refine all_cons (alam_test hsv (B := 2) (l := (42254593115149 / 10000000000000)) (u := (845091862307 / 200000000000)) (l0 := (7012320542078274007 / 1000000000000000000)) (l1 := (876540067759784251 / 125000000000000000))
    (u0 := (7012320542105525527 / 1000000000000000000)) (u1 := (876540067763190691 / 125000000000000000)) (d := (411118441 / 200000000000000000)) (d' := (281635017 / 62500000000000000)) ⟨by norm_num, by norm_num, by norm_num, by norm_num, by norm_num⟩
    ⟨by norm_num, by norm_num, by norm_num, by norm_num⟩
    ⟨by norm_num [F2lin], by norm_num [F2lin], by norm_num [F2lin], by norm_num [F2lin]⟩
    ⟨by norm_num [abs_of_pos], by norm_num, by norm_num, by norm_num⟩ ⟨by norm_num [abs_of_pos], by norm_num, by norm_num⟩) ?_
  refine all_cons (alam_test hsv (B := 3) (l := (28438230118263 / 5000000000000)) (u := (56876460236727 / 10000000000000)) (l0 := (9043559249727690719 / 1000000000000000000)) (l1 := (56522245310798067 / 6250000000000000))
    (u0 := (9043559249756133479 / 1000000000000000000)) (u1 := (226088981243903337 / 25000000000000000)) (d := (1192439309 / 500000000000000000)) (d' := (44174237 / 8000000000000000)) ⟨by norm_num, by norm_num, by norm_num, by norm_num, by norm_num⟩
    ⟨by norm_num, by norm_num, by norm_num, by norm_num⟩
    ⟨by norm_num [F2lin], by norm_num [F2lin], by norm_num [F2lin], by norm_num [F2lin]⟩
    ⟨by norm_num [abs_of_pos], by norm_num, by norm_num, by norm_num⟩ ⟨by norm_num [abs_of_pos], by norm_num, by norm_num⟩) ?_
  refine all_cons (alam_test hsv (B := 4) (l := (35283720524911 / 5000000000000)) (u := (70567441050023 / 10000000000000)) (l0 := (11002030906482780809 / 1000000000000000000)) (l1 := (1100203090648278081 / 100000000000000000))
    (u0 := (5501015453255894147 / 500000000000000000)) (u1 := (2200406181302357659 / 200000000000000000)) (d := (1328226647 / 500000000000000000)) (d' := (130020309 / 20000000000000000)) ⟨by norm_num, by norm_num, by norm_num, by norm_num, by norm_num⟩
    ⟨by norm_num, by norm_num, by norm_num, by norm_num⟩
    ⟨by norm_num [F2lin], by norm_num [F2lin], by norm_num [F2lin], by norm_num [F2lin]⟩
    ⟨by norm_num [abs_of_pos], by norm_num, by norm_num, by norm_num⟩ ⟨by norm_num [abs_of_pos], by norm_num, by norm_num⟩) ?_
  refine all_cons (alam_test hsv (B := 5) (l := (20944327268829 / 2500000000000)) (u := (83777309075517 / 10000000000000)) (l0 := (6459863468134853967 / 500000000000000000)) (l1 := (2583945387253941587 / 200000000000000000))
    (u0 := (6459863468149516927 / 500000000000000000)) (u1 := (2583945387259806771 / 200000000000000000)) (d := (361803877 / 125000000000000000)) (d' := (745986347 / 100000000000000000)) ⟨by norm_num, by norm_num, by norm_num, by norm_num, by norm_num⟩
    ⟨by norm_num, by norm_num, by norm_num, by norm_num⟩
    ⟨by norm_num [F2lin], by norm_num [F2lin], by norm_num [F2lin], by norm_num [F2lin]⟩
    ⟨by norm_num [abs_of_pos], by norm_num, by norm_num, by norm_num⟩ ⟨by norm_num [abs_of_pos], by norm_num, by norm_num⟩) ?_
  refine all_cons (alam_test hsv (B := 6) (l := (19341447608649 / 2000000000000)) (u := (48353619021723 / 5000000000000)) (l0 := (7406526218881885401 / 500000000000000000)) (l1 := (14813052437763770803 / 1000000000000000000))
    (u0 := (3703263109448324003 / 250000000000000000)) (u1 := (14813052437793296013 / 1000000000000000000)) (d := (3109778739 / 1000000000000000000)) (d' := (420326311 / 50000000000000000)) ⟨by norm_num, by norm_num, by norm_num, by norm_num, by norm_num⟩
    ⟨by norm_num, by norm_num, by norm_num, by norm_num⟩
    ⟨by norm_num [F2lin], by norm_num [F2lin], by norm_num [F2lin], by norm_num [F2lin]⟩
    ⟨by norm_num [abs_of_pos], by norm_num, by norm_num, by norm_num⟩ ⟨by norm_num [abs_of_pos], by norm_num, by norm_num⟩) ?_
  refine all_cons (alam_test hsv (B := 7) (l := (109460630545569 / 10000000000000)) (u := (10946063054577 / 1000000000000)) (l0 := (4172728924870801403 / 250000000000000000)) (l1 := (16690915699483205613 / 1000000000000000000))
    (u0 := (8345457849756432301 / 500000000000000000)) (u1 := (16690915699512864603 / 1000000000000000000)) (d := (3308483497 / 1000000000000000000)) (d' := (186909157 / 20000000000000000)) ⟨by norm_num, by norm_num, by norm_num, by norm_num, by norm_num⟩
    ⟨by norm_num, by norm_num, by norm_num, by norm_num⟩
    ⟨by norm_num [F2lin], by norm_num [F2lin], by norm_num [F2lin], by norm_num [F2lin]⟩
    ⟨by norm_num [abs_of_pos], by norm_num, by norm_num, by norm_num⟩ ⟨by norm_num [abs_of_pos], by norm_num, by norm_num⟩) ?_
  refine all_cons (alam_test hsv (B := 8) (l := (30524008616779 / 2500000000000)) (u := (122096034467317 / 10000000000000)) (l0 := (18558486919288207713 / 1000000000000000000)) (l1 := (9279243459644103857 / 500000000000000000))
    (u0 := (18558486919317961179 / 1000000000000000000)) (u1 := (927924345965898059 / 50000000000000000)) (d := (3494224299 / 1000000000000000000)) (d' := (513962173 / 50000000000000000)) ⟨by norm_num, by norm_num, by norm_num, by norm_num, by norm_num⟩
    ⟨by norm_num, by norm_num, by norm_num, by norm_num⟩
    ⟨by norm_num [F2lin], by norm_num [F2lin], by norm_num [F2lin], by norm_num [F2lin]⟩
    ⟨by norm_num [abs_of_pos], by norm_num, by norm_num, by norm_num⟩ ⟨by norm_num [abs_of_pos], by norm_num, by norm_num⟩) ?_
  refine all_cons (alam_test hsv (B := 9) (l := (134649018940973 / 10000000000000)) (u := (67324509470587 / 5000000000000)) (l0 := (20418938801753297251 / 1000000000000000000)) (l1 := (5104734700438324313 / 250000000000000000))
    (u0 := (319045918777861251 / 15625000000000000)) (u1 := (4083787760356624013 / 200000000000000000)) (d := (1834727629 / 500000000000000000)) (d' := (56047347 / 5000000000000000)) ⟨by norm_num, by norm_num, by norm_num, by norm_num, by norm_num⟩
    ⟨by norm_num, by norm_num, by norm_num, by norm_num⟩
    ⟨by norm_num [F2lin], by norm_num [F2lin], by norm_num [F2lin], by norm_num [F2lin]⟩
    ⟨by norm_num [abs_of_pos], by norm_num, by norm_num, by norm_num⟩ ⟨by norm_num [abs_of_pos], by norm_num, by norm_num⟩) ?_
  refine all_cons (alam_test hsv (B := 10) (l := (147142384394673 / 10000000000000)) (u := (73571192197437 / 5000000000000)) (l0 := (348036073738250337 / 15625000000000000)) (l1 := (22274308719248021569 / 1000000000000000000))
    (u0 := (11137154359638948429 / 500000000000000000)) (u1 := (22274308719277896859 / 1000000000000000000)) (d := (383591429 / 100000000000000000)) (d' := (303428859 / 25000000000000000)) ⟨by norm_num, by norm_num, by norm_num, by norm_num, by norm_num⟩
    ⟨by norm_num, by norm_num, by norm_num, by norm_num⟩
    ⟨by norm_num [F2lin], by norm_num [F2lin], by norm_num [F2lin], by norm_num [F2lin]⟩
    ⟨by norm_num [abs_of_pos], by norm_num, by norm_num, by norm_num⟩ ⟨by norm_num [abs_of_pos], by norm_num, by norm_num⟩) ?_
  refine all_cons (alam_test hsv (B := 11) (l := (15959138004431 / 1000000000000)) (u := (159591380044511 / 10000000000000)) (l0 := (603148869035490603 / 25000000000000000)) (l1 := (24125954761419624121 / 1000000000000000000))
    (u0 := (12062977380724770059 / 500000000000000000)) (u1 := (24125954761449540119 / 1000000000000000000)) (d := (798977797 / 200000000000000000)) (d' := (653148869 / 50000000000000000)) ⟨by norm_num, by norm_num, by norm_num, by norm_num, by norm_num⟩
    ⟨by norm_num, by norm_num, by norm_num, by norm_num⟩
    ⟨by norm_num [F2lin], by norm_num [F2lin], by norm_num [F2lin], by norm_num [F2lin]⟩
    ⟨by norm_num [abs_of_pos], by norm_num, by norm_num, by norm_num⟩ ⟨by norm_num [abs_of_pos], by norm_num, by norm_num⟩) ?_
  refine all_cons (alam_test hsv (B := 12) (l := (172006563399483 / 10000000000000)) (u := (43001640849921 / 2500000000000)) (l0 := (25974810907516886241 / 1000000000000000000)) (l1 := (12987405453758443121 / 500000000000000000))
    (u0 := (25974810907546834473 / 1000000000000000000)) (u1 := (12987405453773417237 / 500000000000000000)) (d := (4147367399 / 1000000000000000000)) (d' := (279748109 / 20000000000000000)) ⟨by norm_num, by norm_num, by norm_num, by norm_num, by norm_num⟩
    ⟨by norm_num, by norm_num, by norm_num, by norm_num⟩
    ⟨by norm_num [F2lin], by norm_num [F2lin], by norm_num [F2lin], by norm_num [F2lin]⟩
    ⟨by norm_num [abs_of_pos], by norm_num, by norm_num, by norm_num⟩ ⟨by norm_num [abs_of_pos], by norm_num, by norm_num⟩) ?_
  refine all_cons (alam_test hsv (B := 13) (l := (46098864305849 / 2500000000000)) (u := (184395457223597 / 10000000000000)) (l0 := (2782153670277881041 / 100000000000000000)) (l1 := (27821536702778810411 / 1000000000000000000))
    (u0 := (3477692087851098077 / 125000000000000000)) (u1 := (27821536702808784617 / 1000000000000000000)) (d := (67095769 / 15625000000000000)) (d' := (298215367 / 20000000000000000)) ⟨by norm_num, by norm_num, by norm_num, by norm_num, by norm_num⟩
    ⟨by norm_num, by norm_num, by norm_num, by norm_num⟩
    ⟨by norm_num [F2lin], by norm_num [F2lin], by norm_num [F2lin], by norm_num [F2lin]⟩
    ⟨by norm_num [abs_of_pos], by norm_num, by norm_num, by norm_num⟩ ⟨by norm_num [abs_of_pos], by norm_num, by norm_num⟩) ?_
  refine all_cons (alam_test hsv (B := 14) (l := (196763554362201 / 10000000000000)) (u := (98381777181201 / 5000000000000)) (l0 := (1854163039072116497 / 62500000000000000)) (l1 := (29666608625153863953 / 1000000000000000000))
    (u0 := (29666608625183859399 / 1000000000000000000)) (u1 := (148333043125919297 / 5000000000000000)) (d := (443580381 / 100000000000000000)) (d' := (12369769 / 781250000000000)) ⟨by norm_num, by norm_num, by norm_num, by norm_num, by norm_num⟩
    ⟨by norm_num, by norm_num, by norm_num, by norm_num⟩
    ⟨by norm_num [F2lin], by norm_num [F2lin], by norm_num [F2lin], by norm_num [F2lin]⟩
    ⟨by norm_num [abs_of_pos], by norm_num, by norm_num, by norm_num⟩ ⟨by norm_num [abs_of_pos], by norm_num, by norm_num⟩) ?_
  refine all_cons (alam_test hsv (B := 15) (l := (41822990135627 / 2000000000000)) (u := (3267421104349 / 156250000000)) (l0 := (31510377789470785051 / 1000000000000000000)) (l1 := (7877594447367696263 / 250000000000000000))
    (u0 := (6302075557900159619 / 200000000000000000)) (u1 := (1969398611843799881 / 62500000000000000)) (d := (4572908819 / 1000000000000000000)) (d' := (167551889 / 10000000000000000)) ⟨by norm_num, by norm_num, by norm_num, by norm_num, by norm_num⟩
    ⟨by norm_num, by norm_num, by norm_num, by norm_num⟩
    ⟨by norm_num [F2lin], by norm_num [F2lin], by norm_num [F2lin], by norm_num [F2lin]⟩
    ⟨by norm_num [abs_of_pos], by norm_num, by norm_num, by norm_num⟩ ⟨by norm_num [abs_of_pos], by norm_num, by norm_num⟩) ?_
  refine all_cons (alam_test hsv (B := 16) (l := (110726378393503 / 5000000000000)) (u := (221452756787207 / 10000000000000)) (l0 := (2084569217425303783 / 62500000000000000)) (l1 := (33353107478804860529 / 1000000000000000000))
    (u0 := (16676553739417444159 / 500000000000000000)) (u1 := (33353107478834888319 / 1000000000000000000)) (d := (4705876717 / 1000000000000000000)) (d' := (883827687 / 50000000000000000)) ⟨by norm_num, by norm_num, by norm_num, by norm_num, by norm_num⟩
    ⟨by norm_num, by norm_num, by norm_num, by norm_num⟩
    ⟨by norm_num [F2lin], by norm_num [F2lin], by norm_num [F2lin], by norm_num [F2lin]⟩
    ⟨by norm_num [abs_of_pos], by norm_num, by norm_num, by norm_num⟩ ⟨by norm_num [abs_of_pos], by norm_num, by norm_num⟩) ?_
  refine all_cons (alam_test hsv (B := 17) (l := (233779373443953 / 10000000000000)) (u := (116889686722077 / 5000000000000)) (l0 := (35194998189750810613 / 1000000000000000000)) (l1 := (17597499094875405307 / 500000000000000000))
    (u0 := (17597499094890425441 / 500000000000000000)) (u1 := (35194998189780850883 / 1000000000000000000)) (d := (37774013 / 7812500000000000)) (d' := (1859749909 / 100000000000000000)) ⟨by norm_num, by norm_num, by norm_num, by norm_num, by norm_num⟩
    ⟨by norm_num, by norm_num, by norm_num, by norm_num⟩
    ⟨by norm_num [F2lin], by norm_num [F2lin], by norm_num [F2lin], by norm_num [F2lin]⟩
    ⟨by norm_num [abs_of_pos], by norm_num, by norm_num, by norm_num⟩ ⟨by norm_num [abs_of_pos], by norm_num, by norm_num⟩) ?_
  refine all_cons (alam_test hsv (B := 18) (l := (30762085030761 / 1250000000000)) (u := (246096680246289 / 10000000000000)) (l0 := (37036204727715673321 / 1000000000000000000)) (l1 := (18518102363857836661 / 500000000000000000))
    (u0 := (18518102363872862123 / 500000000000000000)) (u1 := (37036204727745724247 / 1000000000000000000)) (d := (2480406621 / 500000000000000000)) (d' := (487952559 / 25000000000000000)) ⟨by norm_num, by norm_num, by norm_num, by norm_num, by norm_num⟩
    ⟨by norm_num, by norm_num, by norm_num, by norm_num⟩
    ⟨by norm_num [F2lin], by norm_num [F2lin], by norm_num [F2lin], by norm_num [F2lin]⟩
    ⟨by norm_num [abs_of_pos], by norm_num, by norm_num, by norm_num⟩ ⟨by norm_num [abs_of_pos], by norm_num, by norm_num⟩) ?_
  refine all_cons (alam_test hsv (B := 19) (l := (129203083862667 / 5000000000000)) (u := (51681233545107 / 2000000000000)) (l0 := (4859606014068460721 / 125000000000000000)) (l1 := (38876848112547685769 / 1000000000000000000))
    (u0 := (38876848112577745867 / 1000000000000000000)) (u1 := (9719212028144436467 / 250000000000000000)) (d := (5083366677 / 1000000000000000000)) (d' := (1021921203 / 50000000000000000)) ⟨by norm_num, by norm_num, by norm_num, by norm_num, by norm_num⟩
    ⟨by norm_num, by norm_num, by norm_num, by norm_num⟩
    ⟨by norm_num [F2lin], by norm_num [F2lin], by norm_num [F2lin], by norm_num [F2lin]⟩
    ⟨by norm_num [abs_of_pos], by norm_num, by norm_num, by norm_num⟩ ⟨by norm_num [abs_of_pos], by norm_num, by norm_num⟩) ?_
  refine all_cons (alam_test hsv (B := 20) (l := (135354515792051 / 5000000000000)) (u := (270709031584303 / 10000000000000)) (l0 := (10179256005097611379 / 250000000000000000)) (l1 := (40717024020390445517 / 1000000000000000000))
    (u0 := (1272407000638141049 / 31250000000000000)) (u1 := (40717024020420513569 / 1000000000000000000)) (d := (5202970609 / 1000000000000000000)) (d' := (2135851201 / 100000000000000000)) ⟨by norm_num, by norm_num, by norm_num, by norm_num, by norm_num⟩
    ⟨by norm_num, by norm_num, by norm_num, by norm_num⟩
    ⟨by norm_num [F2lin], by norm_num [F2lin], by norm_num [F2lin], by norm_num [F2lin]⟩
    ⟨by norm_num [abs_of_pos], by norm_num, by norm_num, by norm_num⟩ ⟨by norm_num [abs_of_pos], by norm_num, by norm_num⟩) ?_
  exact all_nil

/-- `RWC_alam(B, -3.0, 2.0)`; the root finder may also report that it has not converged. -/
theorem test_alam_large (sv : Solver) (hsv : SolverOk sv) : ∀ t ∈ tests_alam_large, ∃ k, ∀ fuel, k < fuel →
    RWC_alam sv fuel t.1 (-3.0) 2.0 0 = some (.error .valueError) ∨
    ∃ a lam, RWC_alam sv fuel t.1 (-3.0) 2.0 0 = some (.ok (a, lam)) ∧ IsClose 1e-9 0 a t.2.1 ∧ IsClose 1e-9 0 lam t.2.2 := by
  refine all_cons (alam_test hsv (B := 10) (l := (147142384394673 / 10000000000000)) (u := (73571192197437 / 5000000000000)) (l0 := (348036073738250337 / 15625000000000000)) (l1 := (22274308719248021569 / 1000000000000000000))
    (u0 := (11137154359638948429 / 500000000000000000)) (u1 := (22274308719277896859 / 1000000000000000000)) (d := (383591429 / 100000000000000000)) (d' := (303428859 / 25000000000000000)) ⟨by norm_num, by norm_num, by norm_num, by norm_num, by norm_num⟩
    ⟨by norm_num, by norm_num, by norm_num, by norm_num⟩
    ⟨by norm_num [F2lin], by norm_num [F2lin], by norm_num [F2lin], by norm_num [F2lin]⟩
    ⟨by norm_num [abs_of_pos], by norm_num, by norm_num, by norm_num⟩ ⟨by norm_num [abs_of_pos], by norm_num, by norm_num⟩) ?_
  refine all_cons (alam_test hsv (B := 20) (l := (135354515792051 / 5000000000000)) (u := (270709031584303 / 10000000000000)) (l0 := (10179256005097611379 / 250000000000000000)) (l1 := (40717024020390445517 / 1000000000000000000))
    (u0 := (1272407000638141049 / 31250000000000000)) (u1 := (40717024020420513569 / 1000000000000000000)) (d := (5202970609 / 1000000000000000000)) (d' := (2135851201 / 100000000000000000)) ⟨by norm_num, by norm_num, by norm_num, by norm_num, by norm_num⟩
    ⟨by norm_num, by norm_num, by norm_num, by norm_num⟩
    ⟨by norm_num [F2lin], by norm_num [F2lin], by norm_num [F2lin], by norm_num [F2lin]⟩
    ⟨by norm_num [abs_of_pos], by norm_num, by norm_num, by norm_num⟩ ⟨by norm_num [abs_of_pos], by norm_num, by norm_num⟩) ?_
  refine all_cons (alam_test hsv (B := 30) (l := (196761224512353 / 5000000000000)) (u := (393522449024907 / 10000000000000)) (l0 := (3694034545112508823 / 62500000000000000)) (l1 := (59104552721800141169 / 1000000000000000000))
    (u0 := (11820910544366050461 / 200000000000000000)) (u1 := (29552276360915126153 / 500000000000000000)) (d := (6273136767 / 1000000000000000000)) (d' := (763806909 / 25000000000000000)) ⟨by norm_num, by norm_num, by norm_num, by norm_num, by norm_num⟩
    ⟨by norm_num, by norm_num, by norm_num, by norm_num⟩
    ⟨by norm_num [F2lin], by norm_num [F2lin], by norm_num [F2lin], by norm_num [F2lin]⟩
    ⟨by norm_num [abs_of_pos], by norm_num, by norm_num, by norm_num⟩ ⟨by norm_num [abs_of_pos], by norm_num, by norm_num⟩) ?_
  refine all_cons (alam_test hsv (B := 40) (l := (516155922776097 / 10000000000000)) (u := (258077961388149 / 5000000000000)) (l0 := (38740744294214956139 / 500000000000000000)) (l1 := (77481488588429912279 / 1000000000000000000))
    (u0 := (7748148858846003967 / 100000000000000000)) (u1 := (77481488588460039671 / 1000000000000000000)) (d := (7184399229 / 1000000000000000000)) (d' := (3974074429 / 100000000000000000)) ⟨by norm_num, by norm_num, by norm_num, by norm_num, by norm_num⟩
    ⟨by norm_num, by norm_num, by norm_num, by norm_num⟩
    ⟨by norm_num [F2lin], by norm_num [F2lin], by norm_num [F2lin], by norm_num [F2lin]⟩
    ⟨by norm_num [abs_of_pos], by norm_num, by norm_num, by norm_num⟩ ⟨by norm_num [abs_of_pos], by norm_num, by norm_num⟩) ?_
  refine all_cons (alam_test hsv (B := 50) (l := (638721328455299 / 10000000000000)) (u := (1277442656911 / 20000000000)) (l0 := (95855156601162015059 / 1000000000000000000)) (l1 := (4792757830058100753 / 50000000000000000))
    (u0 := (95855156601192150289 / 1000000000000000000)) (u1 := (9585515660119215029 / 100000000000000000)) (d := (7992004307 / 1000000000000000000)) (d' := (4892757831 / 100000000000000000)) ⟨by norm_num, by norm_num, by norm_num, by norm_num, by norm_num⟩
    ⟨by norm_num, by norm_num, by norm_num, by norm_num⟩
    ⟨by norm_num [F2lin], by norm_num [F2lin], by norm_num [F2lin], by norm_num [F2lin]⟩
    ⟨by norm_num [abs_of_pos], by norm_num, by norm_num, by norm_num⟩ ⟨by norm_num [abs_of_pos], by norm_num, by norm_num⟩) ?_
  refine all_cons (alam_test hsv (B := 60) (l := (380627126461081 / 5000000000000)) (u := (761254252922363 / 10000000000000)) (l0 := (57113769893568086279 / 500000000000000000)) (l1 := (114227539787136172559 / 1000000000000000000))
    (u0 := (57113769893583156079 / 500000000000000000)) (u1 := (114227539787166312159 / 1000000000000000000)) (d := (1744997711 / 200000000000000000)) (d' := (581137699 / 10000000000000000)) ⟨by norm_num, by norm_num, by norm_num, by norm_num, by norm_num⟩
    ⟨by norm_num, by norm_num, by norm_num, by norm_num⟩
    ⟨by norm_num [F2lin], by norm_num [F2lin], by norm_num [F2lin], by norm_num [F2lin]⟩
    ⟨by norm_num [abs_of_pos], by norm_num, by norm_num, by norm_num⟩ ⟨by norm_num [abs_of_pos], by norm_num, by norm_num⟩) ?_
  refine all_cons (alam_test hsv (B := 70) (l := (883769306920353 / 10000000000000)) (u := (441884653460277 / 5000000000000)) (l0 := (66299668601596012753 / 500000000000000000)) (l1 := (132599337203192025507 / 1000000000000000000))
    (u0 := (33149834300805541947 / 250000000000000000)) (u1 := (132599337203222167789 / 1000000000000000000)) (d := (376036021 / 40000000000000000)) (d' := (336498343 / 5000000000000000)) ⟨by norm_num, by norm_num, by norm_num, by norm_num, by norm_num⟩
    ⟨by norm_num, by norm_num, by norm_num, by norm_num⟩
    ⟨by norm_num [F2lin], by norm_num [F2lin], by norm_num [F2lin], by norm_num [F2lin]⟩
    ⟨by norm_num [abs_of_pos], by norm_num, by norm_num, by norm_num⟩ ⟨by norm_num [abs_of_pos], by norm_num, by norm_num⟩) ?_
  refine all_cons (alam_test hsv (B := 80) (l := (503136766263807 / 5000000000000)) (u := (201254706505563 / 2000000000000)) (l0 := (75485419951431793361 / 500000000000000000)) (l1 := (150970839902863586723 / 1000000000000000000))
    (u0 := (150970839902893730769 / 1000000000000000000)) (u1 := (15097083990289373077 / 100000000000000000)) (d := (501565931 / 50000000000000000)) (d' := (3824271 / 50000000000000)) ⟨by norm_num, by norm_num, by norm_num, by norm_num, by norm_num⟩
    ⟨by norm_num, by norm_num, by norm_num, by norm_num⟩
    ⟨by norm_num [F2lin], by norm_num [F2lin], by norm_num [F2lin], by norm_num [F2lin]⟩
    ⟨by norm_num [abs_of_pos], by norm_num, by norm_num, by norm_num⟩ ⟨by norm_num [abs_of_pos], by norm_num, by norm_num⟩) ?_
  refine all_cons (alam_test hsv (B := 90) (l := (1128770722114559 / 10000000000000)) (u := (28219268052869 / 250000000000)) (l0 := (84671091908363294889 / 500000000000000000)) (l1 := (169342183816726589779 / 1000000000000000000))
    (u0 := (169342183816756735047 / 1000000000000000000)) (u1 := (21167772977094591881 / 125000000000000000)) (d := (53121811 / 5000000000000000)) (d' := (856710919 / 10000000000000000)) ⟨by norm_num, by norm_num, by norm_num, by norm_num, by norm_num⟩
    ⟨by norm_num, by norm_num, by norm_num, by norm_num⟩
    ⟨by norm_num [F2lin], by norm_num [F2lin], by norm_num [F2lin], by norm_num [F2lin]⟩
    ⟨by norm_num [abs_of_pos], by norm_num, by norm_num, by norm_num⟩ ⟨by norm_num [abs_of_pos], by norm_num, by norm_num⟩) ?_
  refine all_cons (alam_test hsv (B := 100) (l := (625631545772781 / 5000000000000)) (u := (1251263091545763 / 10000000000000)) (l0 := (187713437973799688967 / 1000000000000000000)) (l1 := (23464179746724961121 / 125000000000000000))
    (u0 := (46928359493457458779 / 250000000000000000)) (u1 := (187713437973829835117 / 1000000000000000000)) (d := (559299359 / 50000000000000000)) (d' := (94856719 / 1000000000000000)) ⟨by norm_num, by norm_num, by norm_num, by norm_num, by norm_num⟩
    ⟨by norm_num, by norm_num, by norm_num, by norm_num⟩
    ⟨by norm_num [F2lin], by norm_num [F2lin], by norm_num [F2lin], by norm_num [F2lin]⟩
    ⟨by norm_num [abs_of_pos], by norm_num, by norm_num, by norm_num⟩ ⟨by norm_num [abs_of_pos], by norm_num, by norm_num⟩) ?_
  exact all_nil

/-- `A0_case1(B, c1)`. -/
theorem test_A0_case1 : ∀ t ∈ tests_A0_1, ∃ x, A0_case1 t.1 t.2.1 = .ok x ∧ IsClose 1e-9 0 x t.2.2 := by
  refine all_cons (tst (d := (1 / 100000000)) (A0_case1_ok (by norm_num) (by norm_num)) rfl (by norm_num) (by norm_num [abs_of_pos]) ?_ ?_) ?_
  · exact (le_prod_root (by norm_num) (by norm_num) (by norm_num))
  · exact (prod_root_le (by norm_num) (by norm_num) (by norm_num))
  refine all_cons (tst (d := (14142135623730951 / 1000000000000000000000000)) (A0_case1_ok (by norm_num) (by norm_num)) rfl (by norm_num) (by norm_num [abs_of_pos]) ?_ ?_) ?_
  · exact (le_prod_root (by norm_num) (by norm_num) (by norm_num))
  · exact (prod_root_le (by norm_num) (by norm_num) (by norm_num))
  refine all_cons (tst (d := (1732050807568877 / 100000000000000000000000)) (A0_case1_ok (by norm_num) (by norm_num)) rfl (by norm_num) (by norm_num [abs_of_pos]) ?_ ?_) ?_
  · exact (le_prod_root (by norm_num) (by norm_num) (by norm_num))
  · exact (prod_root_le (by norm_num) (by norm_num) (by norm_num))
  refine all_cons (tst (d := (1 / 50000000)) (A0_case1_ok (by norm_num) (by norm_num)) rfl (by norm_num) (by norm_num [abs_of_pos]) ?_ ?_) ?_
  · exact (le_prod_root (by norm_num) (by norm_num) (by norm_num))
  · exact (prod_root_le (by norm_num) (by norm_num) (by norm_num))
  refine all_cons (tst (d := (14142135623730951 / 500000000000000000000000)) (A0_case1_ok (by norm_num) (by norm_num)) rfl (by norm_num) (by norm_num [abs_of_pos]) ?_ ?_) ?_
  · exact (le_prod_root (by norm_num) (by norm_num) (by norm_num))
  · exact (prod_root_le (by norm_num) (by norm_num) (by norm_num))
  refine all_cons (tst (d := (1732050807568877 / 50000000000000000000000)) (A0_case1_ok (by norm_num) (by norm_num)) rfl (by norm_num) (by norm_num [abs_of_pos]) ?_ ?_) ?_
  · exact (le_prod_root (by norm_num) (by norm_num) (by norm_num))
  · exact (prod_root_le (by norm_num) (by norm_num) (by norm_num))
  refine all_cons (tst (d := (3 / 100000000)) (A0_case1_ok (by norm_num) (by norm_num)) rfl (by norm_num) (by norm_num [abs_of_pos]) ?_ ?_) ?_
  · exact (le_prod_root (by norm_num) (by norm_num) (by norm_num))
  · exact (prod_root_le (by norm_num) (by norm_num) (by norm_num))
  refine all_cons (tst (d := (848528137423857 / 20000000000000000000000)) (A0_case1_ok (by norm_num) (by norm_num)) rfl (by norm_num) (by norm_num [abs_of_pos]) ?_ ?_) ?_
  · exact (le_prod_root (by norm_num) (by norm_num) (by norm_num))
  · exact (prod_root_le (by norm_num) (by norm_num) (by norm_num))
  refine all_cons (tst (d := (5196152422706631 / 100000000000000000000000)) (A0_case1_ok (by norm_num) (by norm_num)) rfl (by norm_num) (by norm_num [abs_of_pos]) ?_ ?_) ?_
  · exact (le_prod_root (by norm_num) (by norm_num) (by norm_num))
  · exact (prod_root_le (by norm_num) (by norm_num) (by norm_num))
  exact all_nil

/-- `A0_case2_approx(B, c2, v)`. -/
theorem test_A0_case2 : ∀ t ∈ tests_A0_2, ∃ x, A0_case2_approx t.1 t.2.1 t.2.2.1 = .ok x ∧ IsClose 1e-9 0 x t.2.2.2 := by
  refine all_cons (tst (d := (1775808003485201 / 200000000000000000000000)) (A0_case2_ok (by norm_num) (by norm_num) (by norm_num)) rfl (by norm_num) (by norm_num [abs_of_pos]) ?_ ?_) ?_
  · exact le_cbrt (by norm_num) (by norm_num)
  · exact cbrt_le (by norm_num) (by norm_num) (by norm_num)
  refine all_cons (tst (d := (9654893846056297 / 1000000000000000000000000)) (A0_case2_ok (by norm_num) (by norm_num) (by norm_num)) rfl (by norm_num) (by norm_num [abs_of_pos]) ?_ ?_) ?_
  · exact le_cbrt (by norm_num) (by norm_num)
  · exact cbrt_le (by norm_num) (by norm_num) (by norm_num)
  refine all_cons (tst (d := (1032280115456367 / 100000000000000000000000)) (A0_case2_ok (by norm_num) (by norm_num) (by norm_num)) rfl (by norm_num) (by norm_num [abs_of_pos]) ?_ ?_) ?_
  · exact le_cbrt (by norm_num) (by norm_num)
  · exact cbrt_le (by norm_num) (by norm_num) (by norm_num)
  refine all_cons (tst (d := (5593444710406983 / 500000000000000000000000)) (A0_case2_ok (by norm_num) (by norm_num) (by norm_num)) rfl (by norm_num) (by norm_num [abs_of_pos]) ?_ ?_) ?_
  · exact le_cbrt (by norm_num) (by norm_num)
  · exact cbrt_le (by norm_num) (by norm_num) (by norm_num)
  refine all_cons (tst (d := (6082201995573399 / 500000000000000000000000)) (A0_case2_ok (by norm_num) (by norm_num) (by norm_num)) rfl (by norm_num) (by norm_num [abs_of_pos]) ?_ ?_) ?_
  · exact le_cbrt (by norm_num) (by norm_num)
  · exact cbrt_le (by norm_num) (by norm_num) (by norm_num)
  refine all_cons (tst (d := (3251478617128467 / 250000000000000000000000)) (A0_case2_ok (by norm_num) (by norm_num) (by norm_num)) rfl (by norm_num) (by norm_num [abs_of_pos]) ?_ ?_) ?_
  · exact le_cbrt (by norm_num) (by norm_num)
  · exact cbrt_le (by norm_num) (by norm_num) (by norm_num)
  refine all_cons (tst (d := (640289582493747 / 50000000000000000000000)) (A0_case2_ok (by norm_num) (by norm_num) (by norm_num)) rfl (by norm_num) (by norm_num [abs_of_pos]) ?_ ?_) ?_
  · exact le_cbrt (by norm_num) (by norm_num)
  · exact cbrt_le (by norm_num) (by norm_num) (by norm_num)
  refine all_cons (tst (d := (6962383250419167 / 500000000000000000000000)) (A0_case2_ok (by norm_num) (by norm_num) (by norm_num)) rfl (by norm_num) (by norm_num [abs_of_pos]) ?_ ?_) ?_
  · exact le_cbrt (by norm_num) (by norm_num)
  · exact cbrt_le (by norm_num) (by norm_num) (by norm_num)
  refine all_cons (tst (d := (465251735298071 / 31250000000000000000000)) (A0_case2_ok (by norm_num) (by norm_num) (by norm_num)) rfl (by norm_num) (by norm_num [abs_of_pos]) ?_ ?_) ?_
  · exact le_cbrt (by norm_num) (by norm_num)
  · exact cbrt_le (by norm_num) (by norm_num) (by norm_num)
  refine all_cons (tst (d := (7047298732064891 / 500000000000000000000000)) (A0_case2_ok (by norm_num) (by norm_num) (by norm_num)) rfl (by norm_num) (by norm_num [abs_of_pos]) ?_ ?_) ?_
  · exact le_cbrt (by norm_num) (by norm_num)
  · exact cbrt_le (by norm_num) (by norm_num) (by norm_num)
  refine all_cons (tst (d := (766309432393553 / 50000000000000000000000)) (A0_case2_ok (by norm_num) (by norm_num) (by norm_num)) rfl (by norm_num) (by norm_num [abs_of_pos]) ?_ ?_) ?_
  · exact le_cbrt (by norm_num) (by norm_num)
  · exact cbrt_le (by norm_num) (by norm_num) (by norm_num)
  refine all_cons (tst (d := (3277285082402583 / 200000000000000000000000)) (A0_case2_ok (by norm_num) (by norm_num) (by norm_num)) rfl (by norm_num) (by norm_num [abs_of_pos]) ?_ ?_) ?_
  · exact le_cbrt (by norm_num) (by norm_num)
  · exact cbrt_le (by norm_num) (by norm_num) (by norm_num)
  refine all_cons (tst (d := (1775808003485201 / 100000000000000000000000)) (A0_case2_ok (by norm_num) (by norm_num) (by norm_num)) rfl (by norm_num) (by norm_num [abs_of_pos]) ?_ ?_) ?_
  · exact le_cbrt (by norm_num) (by norm_num)
  · exact cbrt_le (by norm_num) (by norm_num) (by norm_num)
  refine all_cons (tst (d := (19309787692112593 / 1000000000000000000000000)) (A0_case2_ok (by norm_num) (by norm_num) (by norm_num)) rfl (by norm_num) (by norm_num [abs_of_pos]) ?_ ?_) ?_
  · exact le_cbrt (by norm_num) (by norm_num)
  · exact cbrt_le (by norm_num) (by norm_num) (by norm_num)
  refine all_cons (tst (d := (1032280115456367 / 50000000000000000000000)) (A0_case2_ok (by norm_num) (by norm_num) (by norm_num)) rfl (by norm_num) (by norm_num [abs_of_pos]) ?_ ?_) ?_
  · exact le_cbrt (by norm_num) (by norm_num)
  · exact cbrt_le (by norm_num) (by norm_num) (by norm_num)
  refine all_cons (tst (d := (20327927136297067 / 1000000000000000000000000)) (A0_case2_ok (by norm_num) (by norm_num) (by norm_num)) rfl (by norm_num) (by norm_num [abs_of_pos]) ?_ ?_) ?_
  · exact le_cbrt (by norm_num) (by norm_num)
  · exact cbrt_le (by norm_num) (by norm_num) (by norm_num)
  refine all_cons (tst (d := (22104188991842317 / 1000000000000000000000000)) (A0_case2_ok (by norm_num) (by norm_num) (by norm_num)) rfl (by norm_num) (by norm_num [abs_of_pos]) ?_ ?_) ?_
  · exact le_cbrt (by norm_num) (by norm_num)
  · exact cbrt_le (by norm_num) (by norm_num) (by norm_num)
  refine all_cons (tst (d := (1181665750467501 / 50000000000000000000000)) (A0_case2_ok (by norm_num) (by norm_num) (by norm_num)) rfl (by norm_num) (by norm_num [abs_of_pos]) ?_ ?_) ?_
  · exact le_cbrt (by norm_num) (by norm_num)
  · exact cbrt_le (by norm_num) (by norm_num) (by norm_num)
  refine all_cons (tst (d := (4617286876119583 / 250000000000000000000000)) (A0_case2_ok (by norm_num) (by norm_num) (by norm_num)) rfl (by norm_num) (by norm_num [abs_of_pos]) ?_ ?_) ?_
  · exact le_cbrt (by norm_num) (by norm_num)
  · exact cbrt_le (by norm_num) (by norm_num) (by norm_num)
  refine all_cons (tst (d := (502074712561627 / 25000000000000000000000)) (A0_case2_ok (by norm_num) (by norm_num) (by norm_num)) rfl (by norm_num) (by norm_num [abs_of_pos]) ?_ ?_) ?_
  · exact le_cbrt (by norm_num) (by norm_num)
  · exact cbrt_le (by norm_num) (by norm_num) (by norm_num)
  refine all_cons (tst (d := (671009115318419 / 31250000000000000000000)) (A0_case2_ok (by norm_num) (by norm_num) (by norm_num)) rfl (by norm_num) (by norm_num [abs_of_pos]) ?_ ?_) ?_
  · exact le_cbrt (by norm_num) (by norm_num)
  · exact cbrt_le (by norm_num) (by norm_num) (by norm_num)
  refine all_cons (tst (d := (1454354232156601 / 62500000000000000000000)) (A0_case2_ok (by norm_num) (by norm_num) (by norm_num)) rfl (by norm_num) (by norm_num [abs_of_pos]) ?_ ?_) ?_
  · exact le_cbrt (by norm_num) (by norm_num)
  · exact cbrt_le (by norm_num) (by norm_num) (by norm_num)
  refine all_cons (tst (d := (2530297995905247 / 100000000000000000000000)) (A0_case2_ok (by norm_num) (by norm_num) (by norm_num)) rfl (by norm_num) (by norm_num [abs_of_pos]) ?_ ?_) ?_
  · exact le_cbrt (by norm_num) (by norm_num)
  · exact cbrt_le (by norm_num) (by norm_num) (by norm_num)
  refine all_cons (tst (d := (67633480724881 / 2500000000000000000000)) (A0_case2_ok (by norm_num) (by norm_num) (by norm_num)) rfl (by norm_num) (by norm_num [abs_of_pos]) ?_ ?_) ?_
  · exact le_cbrt (by norm_num) (by norm_num)
  · exact cbrt_le (by norm_num) (by norm_num) (by norm_num)
  refine all_cons (tst (d := (13318560026139009 / 500000000000000000000000)) (A0_case2_ok (by norm_num) (by norm_num) (by norm_num)) rfl (by norm_num) (by norm_num [abs_of_pos]) ?_ ?_) ?_
  · exact le_cbrt (by norm_num) (by norm_num)
  · exact cbrt_le (by norm_num) (by norm_num) (by norm_num)
  refine all_cons (tst (d := (14482340769084443 / 500000000000000000000000)) (A0_case2_ok (by norm_num) (by norm_num) (by norm_num)) rfl (by norm_num) (by norm_num [abs_of_pos]) ?_ ?_) ?_
  · exact le_cbrt (by norm_num) (by norm_num)
  · exact cbrt_le (by norm_num) (by norm_num) (by norm_num)
  refine all_cons (tst (d := (120970326030043 / 3906250000000000000000)) (A0_case2_ok (by norm_num) (by norm_num) (by norm_num)) rfl (by norm_num) (by norm_num [abs_of_pos]) ?_ ?_) ?_
  · exact le_cbrt (by norm_num) (by norm_num)
  · exact cbrt_le (by norm_num) (by norm_num) (by norm_num)
  exact all_nil

/-- `A0_case3_approx(B, -3.0, 2.0, 0)`. -/
theorem test_A0_case3 : ∀ t ∈ tests_A0_3, ∃ x, A0_case3_approx t.1 (-3.0) 2.0 0 = .ok x ∧ IsClose 1e-9 0 x t.2 := by
  refine all_cons (tst (d := (285841006008967 / 31250000000000000000000)) (A0_case3_ok (by norm_num)) rfl (by norm_num) (by norm_num [abs_of_pos]) ?_ ?_) ?_
  · exact le_root4 (by norm_num) (by norm_num)
  · exact root4_le (by norm_num) (by norm_num) (by norm_num)
  refine all_cons (tst (d := (6467843638084007 / 500000000000000000000000)) (A0_case3_ok (by norm_num)) rfl (by norm_num) (by norm_num [abs_of_pos]) ?_ ?_) ?_
  · exact le_root4 (by norm_num) (by norm_num)
  · exact root4_le (by norm_num) (by norm_num) (by norm_num)
  refine all_cons (tst (d := (1584291664941221 / 100000000000000000000000)) (A0_case3_ok (by norm_num)) rfl (by norm_num) (by norm_num [abs_of_pos]) ?_ ?_) ?_
  · exact le_root4 (by norm_num) (by norm_num)
  · exact root4_le (by norm_num) (by norm_num) (by norm_num)
  refine all_cons (tst (d := (285841006008967 / 15625000000000000000000)) (A0_case3_ok (by norm_num)) rfl (by norm_num) (by norm_num [abs_of_pos]) ?_ ?_) ?_
  · exact le_root4 (by norm_num) (by norm_num)
  · exact root4_le (by norm_num) (by norm_num) (by norm_num)
  refine all_cons (tst (d := (10226558723087617 / 500000000000000000000000)) (A0_case3_ok (by norm_num)) rfl (by norm_num) (by norm_num [abs_of_pos]) ?_ ?_) ?_
  · exact le_root4 (by norm_num) (by norm_num)
  · exact root4_le (by norm_num) (by norm_num) (by norm_num)
  refine all_cons (tst (d := (1120263379657263 / 50000000000000000000000)) (A0_case3_ok (by norm_num)) rfl (by norm_num) (by norm_num [abs_of_pos]) ?_ ?_) ?_
  · exact le_root4 (by norm_num) (by norm_num)
  · exact root4_le (by norm_num) (by norm_num) (by norm_num)
  refine all_cons (tst (d := (2420045492493587 / 100000000000000000000000)) (A0_case3_ok (by norm_num)) rfl (by norm_num) (by norm_num [abs_of_pos]) ?_ ?_) ?_
  · exact le_root4 (by norm_num) (by norm_num)
  · exact root4_le (by norm_num) (by norm_num) (by norm_num)
  refine all_cons (tst (d := (2587137455233603 / 100000000000000000000000)) (A0_case3_ok (by norm_num)) rfl (by norm_num) (by norm_num [abs_of_pos]) ?_ ?_) ?_
  · exact le_root4 (by norm_num) (by norm_num)
  · exact root4_le (by norm_num) (by norm_num) (by norm_num)
  refine all_cons (tst (d := (857523018026901 / 31250000000000000000000)) (A0_case3_ok (by norm_num)) rfl (by norm_num) (by norm_num [abs_of_pos]) ?_ ?_) ?_
  · exact le_root4 (by norm_num) (by norm_num)
  · exact root4_le (by norm_num) (by norm_num) (by norm_num)
  refine all_cons (tst (d := (14462538042595389 / 500000000000000000000000)) (A0_case3_ok (by norm_num)) rfl (by norm_num) (by norm_num [abs_of_pos]) ?_ ?_) ?_
  · exact le_root4 (by norm_num) (by norm_num)
  · exact root4_le (by norm_num) (by norm_num) (by norm_num)
  exact all_nil

end Acm.Tests

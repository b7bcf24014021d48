import Verif.Tests.SpaceValues
import Verif.Tests.Radial
import Verif.Lemmas.FullWitness
import Verif.Lemmas.RadialSqrt

/-!
# The model gives the values in the project's tests

`tests/test_radial_space.py`.
-/

namespace Acm.Tests

open Acm.Spec

theorem one1_eq {A : Arr} (h : Square 1 A) : A = one1 (A.e 0 0) := by
  obtain ⟨h1, h2, h3⟩ := h
  ext i j
  · exact h1
  · exact h2
  · by_cases hij : i < 1 ∧ j < 1
    · obtain ⟨rfl, rfl⟩ : i = 0 ∧ j = 0 := by omega
      rw [one1_e]
    · rw [h3 i j hij]
      simp only [one1, Arr.of]
      rw [if_neg hij]

theorem rad_mul (la : LinAlg) (x y : ℝ) : (radMat la 1 0 0).mul (one1 x) (one1 y) = one1 (x * y) := by
  show (one1 x).mul (one1 y) = _
  have : ((one1 x).mul (one1 y)).e 0 0 = x * y := by simp [Arr.mul, Arr.of, one1]
  rw [← this]
  exact one1_eq ⟨rfl, rfl, fun i j h => by simp only [Arr.mul, Arr.of]; exact if_neg h⟩

theorem rad_scale (la : LinAlg) (k : Int) (x : ℝ) : (radMat la 1 0 0).scale k (one1 x) = one1 x := by
  show (one1 x).smul _ = _
  rw [one1_smul, one_zpow, mul_one]

theorem rad_eye (la : LinAlg) : (radMat la 1 0 0).eye = one1 1 := by
  rw [show (radMat la 1 0 0).eye = Arr.eye 1 from rfl, one1_eq (A := Arr.eye 1) ⟨rfl, rfl, fun i j h => by simp only [Arr.eye, Arr.of]; exact if_neg h⟩]
  rfl

theorem rad_rep {la : LinAlg} (m : RadME) {lam v : ℝ} {f : ℕ → ℕ → ℝ} (h : Entries (m.fn lam) f) (hv : f 0 0 = v) :
    (radMat la 1 0 0).rep m lam = .ok (one1 v) := by
  show RepRadial m.fn lam 0 0 = _
  rw [rep_one h, of_one, hv]

theorem rad_b2 {la : LinAlg} {lam : ℝ} (h : 0 < lam) : (radMat la 1 0 0).rep .b2 lam = .ok (one1 lam) := by
  refine rad_rep .b2 (b2_ok h) ?_
  norm_num [vSp, vSm, vS0]
  ring

theorem rad_bm2 {la : LinAlg} {lam : ℝ} (h : 0 < lam) (h1 : lam ≠ 1) : (radMat la 1 0 0).rep .bm2 lam = .ok (one1 (1 / (lam - 1))) := by
  refine rad_rep .bm2 (bm2_ok h h1) ?_
  have := hN_pos h 0
  simp [vbm2, this.ne']

theorem rad_bDb {la : LinAlg} {lam : ℝ} (h : 0 < lam) : (radMat la 1 0 0).rep .bDb lam = .ok (one1 (-1 / 2)) := by
  refine rad_rep .bDb (bDb_ok h) ?_
  norm_num [vSp, vSm, opId]

theorem rad_D2b {la : LinAlg} {lam : ℝ} (h : 0 < lam) (h1 : lam ≠ 1) :
    (radMat la 1 0 0).rep .D2b lam = .ok (one1 (-lam + (lam - 3 / 2) * (lam - 1 / 2) / (lam - 1))) := by
  refine rad_rep .D2b (D2b_ok h h1) ?_
  have := hN_pos h 0
  have hb : vbm2 lam 0 0 = 1 / (lam - 1) := by simp [vbm2, this.ne']
  simp only [hb, vSp, vSm, vS0]
  norm_num
  ring

theorem rad_bm_pl {la : LinAlg} {lam : ℝ} (h : 0 < lam) : (radMat la 1 0 0).rep .bm_pl lam = .ok (one1 (1 / √lam)) :=
  rad_rep .bm_pl (bm_pl_ok h) (vbm_pl_zero h)

theorem rad_Db_ml {la : LinAlg} {lam : ℝ} (h : 1 < lam) :
    (radMat la 1 0 0).rep .Db_ml lam = .ok (one1 (√(lam - 1) + (3 / 2 - lam) * (1 / √(lam - 1)))) := by
  have h0 : 0 < lam - 1 := by linarith
  have := Db_ml_ok h0
  rw [sub_add_cancel] at this
  refine rad_rep .Db_ml this ?_
  simp only [vDb_ml]
  rw [vbm_pl_zero h0]
  norm_num
  left
  ring

theorem rad_roots {la : LinAlg} (hla : LinAlgOk la) {lam : ℝ} (h : 0 < lam) :
    (radMat la 1 0 0).b2_sqrt lam = .ok (one1 (√lam)) ∧ (radMat la 1 0 0).b2_sqrtInv lam = .ok (one1 (1 / √lam)) := by
  have e : RepRadial ME_Radial_b2 lam 0 0 = .ok (one1 lam) := rad_b2 (la := la) h
  have hm : mat 1 (one1 lam) = Matrix.diagonal fun _ => lam := by
    ext i j
    rw [Subsingleton.elim j i]
    simp [mat, one1, Arr.of]
  have hp : (mat 1 (one1 lam)).PosDef := by
    rw [hm]
    exact Matrix.PosDef.diagonal fun _ => h
  obtain ⟨R, S, h1, h2, h3, h4, h5, h6, h7, -⟩ := Matrix_sqrt_ok hla (n := 1) (A := one1 lam) rfl rfl hp
  have r0 : 0 < R.e 0 0 := h6.diag_pos (i := 0)
  have r1 : R.e 0 0 * R.e 0 0 = lam := by
    have := congrFun (congrFun h5 0) 0
    rw [Matrix.mul_apply] at this
    simpa [mat, one1, Arr.of] using this
  have r2 : R.e 0 0 * S.e 0 0 = 1 := by
    have := congrFun (congrFun h7 0) 0
    rw [Matrix.mul_apply] at this
    simpa [mat] using this
  have r3 : R.e 0 0 = √lam := by rw [← r1, Real.sqrt_mul_self r0.le]
  constructor
  · show RepRadial_b2_sqrt la lam 0 0 = _
    unfold RepRadial_b2_sqrt
    rw [if_neg (not_le.2 h), e, show require_nonnegint_range 0 0 = .ok () from rfl, py_bind_ok, py_bind_ok, h1, one1_eq h3, r3]
  · show RepRadial_b2_sqrtInv la lam 0 0 = _
    unfold RepRadial_b2_sqrtInv
    rw [e, py_bind_ok, h2, one1_eq h4, ← r3, eq_one_div_of_mul_eq_one_right r2]

section
variable {A : RadAlg ℝ Arr} {K : Int} {s : List Int} {n : ℕ} {lamX : Int} {i : ℕ} {lam lam' : ℝ} {acc : Option Arr} {Mat P : Arr} {sp : Int}

theorem loop_step1 (h1 : bS_DS_select A K s (i + 1) lam = .ok (Mat, 1)) (h2 : bS_DS_update A n lamX (i + 1) Mat acc = .ok P)
    (h3 : pyGet s i = .ok sp) (h4 : lam + (sp : ℝ) = lam') :
    bS_DS_loop A K s n lamX (i + 1) lam acc = bS_DS_loop A K s n lamX i lam' (some P) := by
  rw [bS_DS_loop.eq_2, h1, py_bind_ok]
  simp only []
  rw [h2, py_bind_ok, h3, py_bind_ok, h4]
  exact if_pos trivial

theorem loop_step2 (h1 : bS_DS_select A K s (i + 2) lam = .ok (Mat, 2)) (h2 : bS_DS_update A n lamX (i + 2) Mat acc = .ok P)
    (h3 : pyGet s (i + 1) = .ok sp) (h4 : lam + (sp : ℝ) = lam') :
    bS_DS_loop A K s n lamX (i + 2) lam acc = bS_DS_loop A K s n lamX i lam' (some P) := by
  rw [bS_DS_loop.eq_2, h1, py_bind_ok]
  simp only []
  rw [h2, py_bind_ok, Nat.cast_succ, h3, py_bind_ok, h4]
  exact if_neg (by decide)

theorem sel_ok {k : ℕ} {B : Arr} (h : B = Mat) : (pure (B, k) : Py (Arr × ℕ)) = .ok (Mat, k) := by rw [h]; rfl

theorem upd_ok {B : Arr} (h : ¬ (i = n ∧ lamX ≥ 0)) (hm : A.mul Mat B = P) : bS_DS_update A n lamX i Mat (some B) = .ok P := by
  unfold bS_DS_update
  rw [if_neg h, ← hm]
  rfl

theorem bsds_run {T : Int} (h : bS_DS_loop A K s n 0 n lam none = bS_DS_loop A K s n 0 0 lam' (some P))
    (hn : (|K| + T).toNat = n ∧ s.length = n ∧ n ≠ 0) :
    (do
      let lam_splits ← (.ok s : Py (List Int))
      let n : Nat := (|K| + T).toNat
      let lamX : Int := if lam_splits.length > n then lam_splits.headD 0 else 0
      let lam_splits := if lam_splits.length > n then lam_splits.tail else lam_splits
      pyAssert (lam_splits.length = n)
      let start ←
        if lamX < 0 then do
          pyAssert (is_even lamX)
          let Mat ← A.id_ml lam (Int.fdiv (-lamX) 2)
          pure (lam + (lamX : ℝ), some Mat)
        else pure (lam, none)
      let (lambda_run, Mat_product) ← bS_DS_loop A K lam_splits n lamX n start.1 start.2
      bS_DS_finish A n lamX lambda_run Mat_product) = .ok P := by
  obtain ⟨h1, h2, h3⟩ := hn
  simp only [py_bind_ok, h1, h2, gt_iff_lt, lt_irrefl, if_false, pyAssert, decide_true, if_true, py_pure]
  rw [h, bS_DS_loop.eq_1, py_pure, py_bind_ok]
  unfold bS_DS_finish
  rw [if_neg (lt_irrefl _), py_pure, py_bind_ok]
  show readVar (if n = 0 ∧ (0 : Int) = 0 then some A.eye else some P) = _
  rw [if_neg (by omega)]
  rfl

end

/-- Routines with the assumed contract exist. -/
example : ∃ la, LinAlgOk la := linAlg_exists

set_option linter.unusedSimpArgs false in
set_option maxHeartbeats 4000000 in
/-- `RepRadial_bS_DS(K, T, 1.0, 2.5, 0, 0, 0)` is a 1x1 array with the value in the table. -/
theorem test_bS_DS (la : LinAlg) (hla : LinAlgOk la) : ∀ t ∈ tests_bS_DS,
    ∃ A, RepRadial_bS_DS (radMat la 1 0 0) t.1 t.2.1 2.5 0 = .ok A ∧ A.rows = 1 ∧ A.cols = 1 ∧ IsClose 1e-9 0 (A.e 0 0) t.2.2 := by
  have key : ∀ t ∈ tests_bS_DS, ∃ x, RepRadial_bS_DS (radMat la 1 0 0) t.1 t.2.1 2.5 0 = .ok (one1 x) ∧ IsClose 1e-9 0 x t.2.2 := ?_
  · intro t ht
    obtain ⟨x, hx, hc⟩ := key t ht
    exact ⟨_, hx, rfl, rfl, by rwa [one1_e]⟩
  obtain ⟨s1, s2⟩ := rad_roots hla (lam := 2.5) (by norm_num)
  have hu : (√2.5 : ℝ) * √2.5 = 2.5 := Real.mul_self_sqrt (by norm_num)
  have ht : (√1.5 : ℝ) * √1.5 = 3 / 2 := by rw [Real.mul_self_sqrt (by norm_num)]; norm_num
  have hp : (0 : ℝ) < √2.5 := Real.sqrt_pos.2 (by norm_num)
  have hq : (0 : ℝ) < √1.5 := Real.sqrt_pos.2 (by norm_num)
  obtain ⟨l1, l2⟩ := root_bounds (q := 2.5) (l := 1.58113883008) (u := 1.58113883009) (by norm_num) (by norm_num) (by norm_num)
  rw [show (1 : ℝ) / √2.5 = 2 / 5 * √2.5 by rw [div_eq_iff hp.ne', mul_assoc, hu]; norm_num] at s2
  have b1 := rad_b2 (la := la) (lam := 2.5) (by norm_num)
  have b2 := rad_bm2 (la := la) (lam := 2.5) (by norm_num) (by norm_num)
  have b3 := rad_bDb (la := la) (lam := 2.5) (by norm_num)
  have b4 := rad_D2b (la := la) (lam := 2.5) (by norm_num) (by norm_num)
  have b5 := rad_bm_pl (la := la) (lam := 1.5) (by norm_num)
  have b6 := rad_Db_ml (la := la) (lam := 2.5) (by norm_num)
  have b7 : (2.5 : ℝ) + -1 = 1.5 := by norm_num
  have b8 : (1.5 : ℝ) + 1 = 2.5 := by norm_num
  rw [show (one1 2.5 : Arr) = one1 (5 / 2) by norm_num] at b1
  rw [show (1 : ℝ) / (2.5 - 1) = 2 / 3 by norm_num] at b2
  rw [show (-2.5 : ℝ) + (2.5 - 3 / 2) * (2.5 - 1 / 2) / (2.5 - 1) = -7 / 6 by norm_num] at b4
  rw [show (1 : ℝ) / √1.5 = 2 / 3 * √1.5 by rw [div_eq_iff hq.ne']; linarith] at b5
  rw [show (2.5 : ℝ) - 1 = 1.5 by norm_num, show √1.5 + (3 / 2 - 2.5) * (1 / √1.5) = 1 / 3 * √1.5 by
    rw [show (1 : ℝ) / √1.5 = 2 / 3 * √1.5 by rw [div_eq_iff hq.ne']; linarith]; ring] at b6
  refine all_cons ?_ ?_
  · refine ⟨1, ?_, isClose_val (v := (1)) (d := (1 / 1000000000)) ?_ (by norm_num) (by norm_num [abs_of_pos, abs_of_neg]) ?_ ?_⟩
    · have hs : Lambda_Splits 0 0 0 = .ok [] := by decide +kernel
      unfold RepRadial_bS_DS
      rw [if_neg (by norm_num), if_neg (by decide), hs]
      exact congrArg _ (rad_eye la)
    · ring
    · norm_num
    · norm_num
  refine all_cons ?_ ?_
  · refine ⟨√2.5, ?_, isClose_val (v := (1) * √2.5) (d := (158113883 / 100000000000000000)) ?_ (by norm_num) (by norm_num [abs_of_pos, abs_of_neg]) ?_ ?_⟩
    · have hs : Lambda_Splits 1 0 0 = .ok [0] := by decide +kernel
      unfold RepRadial_bS_DS
      rw [if_neg (by norm_num), if_neg (by decide), hs]
      have t1 := loop_step1 (A := radMat la 1 0 0) (K := 1) (s := [0]) (n := 1) (lamX := 0) (i := 0) (lam := 2.5) (lam' := 2.5) (acc := none)
        (Mat := one1 √2.5) (P := one1 √2.5) (sp := 0)
        (by rw [show ∀ A : RadAlg ℝ Arr, bS_DS_select A 1 [0] 1 2.5 = (do let x ← A.b2_sqrt 2.5; pure (A.scale (-1) x, 1)) from fun _ => rfl]; rw [s1]; exact sel_ok (rad_scale _ _ _))
        rfl rfl (by norm_num)
      exact bsds_run (t1) (by decide)
    · ring
    · linarith
    · linarith
  refine all_cons ?_ ?_
  · refine ⟨(5 / 2), ?_, isClose_val (v := (5 / 2)) (d := (1 / 400000000)) ?_ (by norm_num) (by norm_num [abs_of_pos, abs_of_neg]) ?_ ?_⟩
    · have hs : Lambda_Splits 2 0 0 = .ok [0, 0] := by decide +kernel
      unfold RepRadial_bS_DS
      rw [if_neg (by norm_num), if_neg (by decide), hs]
      have t1 := loop_step2 (A := radMat la 1 0 0) (K := 2) (s := [0, 0]) (n := 2) (lamX := 0) (i := 0) (lam := 2.5) (lam' := 2.5) (acc := none)
        (Mat := one1 (5 / 2)) (P := one1 (5 / 2)) (sp := 0)
        (by rw [show ∀ A : RadAlg ℝ Arr, bS_DS_select A 2 [0, 0] 2 2.5 = (do let x ← A.rep .b2 2.5; pure (A.scale (-2) x, 2)) from fun _ => rfl]; rw [b1]; exact sel_ok (rad_scale _ _ _))
        rfl rfl (by norm_num)
      exact bsds_run (t1) (by decide)
    · ring
    · norm_num
    · norm_num
  refine all_cons ?_ ?_
  · refine ⟨(√2.5 * (5 / 2)), ?_, isClose_val (v := (5 / 2) * √2.5) (d := (158113883 / 40000000000000000)) ?_ (by norm_num) (by norm_num [abs_of_pos, abs_of_neg]) ?_ ?_⟩
    · have hs : Lambda_Splits 3 0 0 = .ok [0, 0, 0] := by decide +kernel
      unfold RepRadial_bS_DS
      rw [if_neg (by norm_num), if_neg (by decide), hs]
      have t1 := loop_step2 (A := radMat la 1 0 0) (K := 3) (s := [0, 0, 0]) (n := 3) (lamX := 0) (i := 1) (lam := 2.5) (lam' := 2.5) (acc := none)
        (Mat := one1 (5 / 2)) (P := one1 (5 / 2)) (sp := 0)
        (by rw [show ∀ A : RadAlg ℝ Arr, bS_DS_select A 3 [0, 0, 0] 3 2.5 = (do let x ← A.rep .b2 2.5; pure (A.scale (-2) x, 2)) from fun _ => rfl]; rw [b1]; exact sel_ok (rad_scale _ _ _))
        rfl rfl (by norm_num)
      have t2 := loop_step1 (A := radMat la 1 0 0) (K := 3) (s := [0, 0, 0]) (n := 3) (lamX := 0) (i := 0) (lam := 2.5) (lam' := 2.5) (acc := some (one1 (5 / 2)))
        (Mat := one1 √2.5) (P := one1 (√2.5 * (5 / 2))) (sp := 0)
        (by rw [show ∀ A : RadAlg ℝ Arr, bS_DS_select A 3 [0, 0, 0] 1 2.5 = (do let x ← A.b2_sqrt 2.5; pure (A.scale (-1) x, 1)) from fun _ => rfl]; rw [s1]; exact sel_ok (rad_scale _ _ _))
        (upd_ok (by decide) (rad_mul _ _ _)) rfl (by norm_num)
      exact bsds_run (t1.trans (t2)) (by decide)
    · ring
    · linarith
    · linarith
  refine all_cons ?_ ?_
  · refine ⟨((5 / 2) * (5 / 2)), ?_, isClose_val (v := (25 / 4)) (d := (1 / 160000000)) ?_ (by norm_num) (by norm_num [abs_of_pos, abs_of_neg]) ?_ ?_⟩
    · have hs : Lambda_Splits 4 0 0 = .ok [0, 0, 0, 0] := by decide +kernel
      unfold RepRadial_bS_DS
      rw [if_neg (by norm_num), if_neg (by decide), hs]
      have t1 := loop_step2 (A := radMat la 1 0 0) (K := 4) (s := [0, 0, 0, 0]) (n := 4) (lamX := 0) (i := 2) (lam := 2.5) (lam' := 2.5) (acc := none)
        (Mat := one1 (5 / 2)) (P := one1 (5 / 2)) (sp := 0)
        (by rw [show ∀ A : RadAlg ℝ Arr, bS_DS_select A 4 [0, 0, 0, 0] 4 2.5 = (do let x ← A.rep .b2 2.5; pure (A.scale (-2) x, 2)) from fun _ => rfl]; rw [b1]; exact sel_ok (rad_scale _ _ _))
        rfl rfl (by norm_num)
      have t2 := loop_step2 (A := radMat la 1 0 0) (K := 4) (s := [0, 0, 0, 0]) (n := 4) (lamX := 0) (i := 0) (lam := 2.5) (lam' := 2.5) (acc := some (one1 (5 / 2)))
        (Mat := one1 (5 / 2)) (P := one1 ((5 / 2) * (5 / 2))) (sp := 0)
        (by rw [show ∀ A : RadAlg ℝ Arr, bS_DS_select A 4 [0, 0, 0, 0] 2 2.5 = (do let x ← A.rep .b2 2.5; pure (A.scale (-2) x, 2)) from fun _ => rfl]; rw [b1]; exact sel_ok (rad_scale _ _ _))
        (upd_ok (by decide) (rad_mul _ _ _)) rfl (by norm_num)
      exact bsds_run (t1.trans (t2)) (by decide)
    · ring
    · norm_num
    · norm_num
  refine all_cons ?_ ?_
  · refine ⟨((2 / 5 * √2.5) * (-1 / 2)), ?_, isClose_val (v := (-1 / 5) * √2.5) (d := (158113883 / 500000000000000000)) ?_ (by norm_num) (by norm_num [abs_of_pos, abs_of_neg]) ?_ ?_⟩
    · have hs : Lambda_Splits 0 1 0 = .ok [0] := by decide +kernel
      unfold RepRadial_bS_DS
      rw [if_neg (by norm_num), if_neg (by decide), hs]
      have t1 := loop_step1 (A := radMat la 1 0 0) (K := 0) (s := [0]) (n := 1) (lamX := 0) (i := 0) (lam := 2.5) (lam' := 2.5) (acc := none)
        (Mat := one1 ((2 / 5 * √2.5) * (-1 / 2))) (P := one1 ((2 / 5 * √2.5) * (-1 / 2))) (sp := 0)
        (by rw [show ∀ A : RadAlg ℝ Arr, bS_DS_select A 0 [0] 1 2.5 = (do let x ← A.b2_sqrtInv 2.5; let y ← A.rep .bDb 2.5; pure (A.scale 1 (A.mul x y), 1)) from fun _ => rfl]; rw [s2, b3, py_bind_ok, py_bind_ok, rad_mul]; exact sel_ok (rad_scale _ _ _))
        rfl rfl (by norm_num)
      exact bsds_run (t1) (by decide)
    · ring
    · linarith
    · linarith
  refine all_cons ?_ ?_
  · refine ⟨(-7 / 6), ?_, isClose_val (v := (-7 / 6)) (d := (7 / 6000000000)) ?_ (by norm_num) (by norm_num [abs_of_pos, abs_of_neg]) ?_ ?_⟩
    · have hs : Lambda_Splits 0 2 0 = .ok [0, 0] := by decide +kernel
      unfold RepRadial_bS_DS
      rw [if_neg (by norm_num), if_neg (by decide), hs]
      have t1 := loop_step2 (A := radMat la 1 0 0) (K := 0) (s := [0, 0]) (n := 2) (lamX := 0) (i := 0) (lam := 2.5) (lam' := 2.5) (acc := none)
        (Mat := one1 (-7 / 6)) (P := one1 (-7 / 6)) (sp := 0)
        (by rw [show ∀ A : RadAlg ℝ Arr, bS_DS_select A 0 [0, 0] 2 2.5 = (do let x ← A.rep .D2b 2.5; pure (A.scale (2) x, 2)) from fun _ => rfl]; rw [b4]; exact sel_ok (rad_scale _ _ _))
        rfl rfl (by norm_num)
      exact bsds_run (t1) (by decide)
    · ring
    · norm_num
    · norm_num
  refine all_cons ?_ ?_
  · refine ⟨(((2 / 5 * √2.5) * (-1 / 2)) * (-7 / 6)), ?_, isClose_val (v := (7 / 30) * √2.5) (d := (3689323937 / 10000000000000000000)) ?_ (by norm_num) (by norm_num [abs_of_pos, abs_of_neg]) ?_ ?_⟩
    · have hs : Lambda_Splits 0 3 0 = .ok [0, 0, 0] := by decide +kernel
      unfold RepRadial_bS_DS
      rw [if_neg (by norm_num), if_neg (by decide), hs]
      have t1 := loop_step2 (A := radMat la 1 0 0) (K := 0) (s := [0, 0, 0]) (n := 3) (lamX := 0) (i := 1) (lam := 2.5) (lam' := 2.5) (acc := none)
        (Mat := one1 (-7 / 6)) (P := one1 (-7 / 6)) (sp := 0)
        (by rw [show ∀ A : RadAlg ℝ Arr, bS_DS_select A 0 [0, 0, 0] 3 2.5 = (do let x ← A.rep .D2b 2.5; pure (A.scale (2) x, 2)) from fun _ => rfl]; rw [b4]; exact sel_ok (rad_scale _ _ _))
        rfl rfl (by norm_num)
      have t2 := loop_step1 (A := radMat la 1 0 0) (K := 0) (s := [0, 0, 0]) (n := 3) (lamX := 0) (i := 0) (lam := 2.5) (lam' := 2.5) (acc := some (one1 (-7 / 6)))
        (Mat := one1 ((2 / 5 * √2.5) * (-1 / 2))) (P := one1 (((2 / 5 * √2.5) * (-1 / 2)) * (-7 / 6))) (sp := 0)
        (by rw [show ∀ A : RadAlg ℝ Arr, bS_DS_select A 0 [0, 0, 0] 1 2.5 = (do let x ← A.b2_sqrtInv 2.5; let y ← A.rep .bDb 2.5; pure (A.scale 1 (A.mul x y), 1)) from fun _ => rfl]; rw [s2, b3, py_bind_ok, py_bind_ok, rad_mul]; exact sel_ok (rad_scale _ _ _))
        (upd_ok (by decide) (rad_mul _ _ _)) rfl (by norm_num)
      exact bsds_run (t1.trans (t2)) (by decide)
    · ring
    · linarith
    · linarith
  refine all_cons ?_ ?_
  · refine ⟨((-7 / 6) * (-7 / 6)), ?_, isClose_val (v := (49 / 36)) (d := (49 / 36000000000)) ?_ (by norm_num) (by norm_num [abs_of_pos, abs_of_neg]) ?_ ?_⟩
    · have hs : Lambda_Splits 0 4 0 = .ok [0, 0, 0, 0] := by decide +kernel
      unfold RepRadial_bS_DS
      rw [if_neg (by norm_num), if_neg (by decide), hs]
      have t1 := loop_step2 (A := radMat la 1 0 0) (K := 0) (s := [0, 0, 0, 0]) (n := 4) (lamX := 0) (i := 2) (lam := 2.5) (lam' := 2.5) (acc := none)
        (Mat := one1 (-7 / 6)) (P := one1 (-7 / 6)) (sp := 0)
        (by rw [show ∀ A : RadAlg ℝ Arr, bS_DS_select A 0 [0, 0, 0, 0] 4 2.5 = (do let x ← A.rep .D2b 2.5; pure (A.scale (2) x, 2)) from fun _ => rfl]; rw [b4]; exact sel_ok (rad_scale _ _ _))
        rfl rfl (by norm_num)
      have t2 := loop_step2 (A := radMat la 1 0 0) (K := 0) (s := [0, 0, 0, 0]) (n := 4) (lamX := 0) (i := 0) (lam := 2.5) (lam' := 2.5) (acc := some (one1 (-7 / 6)))
        (Mat := one1 (-7 / 6)) (P := one1 ((-7 / 6) * (-7 / 6))) (sp := 0)
        (by rw [show ∀ A : RadAlg ℝ Arr, bS_DS_select A 0 [0, 0, 0, 0] 2 2.5 = (do let x ← A.rep .D2b 2.5; pure (A.scale (2) x, 2)) from fun _ => rfl]; rw [b4]; exact sel_ok (rad_scale _ _ _))
        (upd_ok (by decide) (rad_mul _ _ _)) rfl (by norm_num)
      exact bsds_run (t1.trans (t2)) (by decide)
    · ring
    · norm_num
    · norm_num
  refine all_cons ?_ ?_
  · refine ⟨(2 / 5 * √2.5), ?_, isClose_val (v := (2 / 5) * √2.5) (d := (158113883 / 250000000000000000)) ?_ (by norm_num) (by norm_num [abs_of_pos, abs_of_neg]) ?_ ?_⟩
    · have hs : Lambda_Splits (-1) 0 0 = .ok [0] := by decide +kernel
      unfold RepRadial_bS_DS
      rw [if_neg (by norm_num), if_neg (by decide), hs]
      have t1 := loop_step1 (A := radMat la 1 0 0) (K := (-1)) (s := [0]) (n := 1) (lamX := 0) (i := 0) (lam := 2.5) (lam' := 2.5) (acc := none)
        (Mat := one1 (2 / 5 * √2.5)) (P := one1 (2 / 5 * √2.5)) (sp := 0)
        (by rw [show ∀ A : RadAlg ℝ Arr, bS_DS_select A (-1) [0] 1 2.5 = (do let x ← A.b2_sqrtInv 2.5; pure (A.scale (1) x, 1)) from fun _ => rfl]; rw [s2]; exact sel_ok (rad_scale _ _ _))
        rfl rfl (by norm_num)
      exact bsds_run (t1) (by decide)
    · ring
    · linarith
    · linarith
  refine all_cons ?_ ?_
  · refine ⟨(2 / 3), ?_, isClose_val (v := (2 / 3)) (d := (1 / 1500000000)) ?_ (by norm_num) (by norm_num [abs_of_pos, abs_of_neg]) ?_ ?_⟩
    · have hs : Lambda_Splits (-2) 0 0 = .ok [0, 0] := by decide +kernel
      unfold RepRadial_bS_DS
      rw [if_neg (by norm_num), if_neg (by decide), hs]
      have t1 := loop_step2 (A := radMat la 1 0 0) (K := (-2)) (s := [0, 0]) (n := 2) (lamX := 0) (i := 0) (lam := 2.5) (lam' := 2.5) (acc := none)
        (Mat := one1 (2 / 3)) (P := one1 (2 / 3)) (sp := 0)
        (by rw [show ∀ A : RadAlg ℝ Arr, bS_DS_select A (-2) [0, 0] 2 2.5 = (do let x ← A.rep .bm2 2.5; pure (A.scale (2) x, 2)) from fun _ => rfl]; rw [b2]; exact sel_ok (rad_scale _ _ _))
        rfl rfl (by norm_num)
      exact bsds_run (t1) (by decide)
    · ring
    · norm_num
    · norm_num
  refine all_cons ?_ ?_
  · refine ⟨((2 / 5 * √2.5) * (2 / 3)), ?_, isClose_val (v := (4 / 15) * √2.5) (d := (2108185107 / 5000000000000000000)) ?_ (by norm_num) (by norm_num [abs_of_pos, abs_of_neg]) ?_ ?_⟩
    · have hs : Lambda_Splits (-3) 0 0 = .ok [0, 0, 0] := by decide +kernel
      unfold RepRadial_bS_DS
      rw [if_neg (by norm_num), if_neg (by decide), hs]
      have t1 := loop_step2 (A := radMat la 1 0 0) (K := (-3)) (s := [0, 0, 0]) (n := 3) (lamX := 0) (i := 1) (lam := 2.5) (lam' := 2.5) (acc := none)
        (Mat := one1 (2 / 3)) (P := one1 (2 / 3)) (sp := 0)
        (by rw [show ∀ A : RadAlg ℝ Arr, bS_DS_select A (-3) [0, 0, 0] 3 2.5 = (do let x ← A.rep .bm2 2.5; pure (A.scale (2) x, 2)) from fun _ => rfl]; rw [b2]; exact sel_ok (rad_scale _ _ _))
        rfl rfl (by norm_num)
      have t2 := loop_step1 (A := radMat la 1 0 0) (K := (-3)) (s := [0, 0, 0]) (n := 3) (lamX := 0) (i := 0) (lam := 2.5) (lam' := 2.5) (acc := some (one1 (2 / 3)))
        (Mat := one1 (2 / 5 * √2.5)) (P := one1 ((2 / 5 * √2.5) * (2 / 3))) (sp := 0)
        (by rw [show ∀ A : RadAlg ℝ Arr, bS_DS_select A (-3) [0, 0, 0] 1 2.5 = (do let x ← A.b2_sqrtInv 2.5; pure (A.scale (1) x, 1)) from fun _ => rfl]; rw [s2]; exact sel_ok (rad_scale _ _ _))
        (upd_ok (by decide) (rad_mul _ _ _)) rfl (by norm_num)
      exact bsds_run (t1.trans (t2)) (by decide)
    · ring
    · linarith
    · linarith
  refine all_cons ?_ ?_
  · refine ⟨((2 / 3) * (2 / 3)), ?_, isClose_val (v := (4 / 9)) (d := (1 / 2250000000)) ?_ (by norm_num) (by norm_num [abs_of_pos, abs_of_neg]) ?_ ?_⟩
    · have hs : Lambda_Splits (-4) 0 0 = .ok [0, 0, 0, 0] := by decide +kernel
      unfold RepRadial_bS_DS
      rw [if_neg (by norm_num), if_neg (by decide), hs]
      have t1 := loop_step2 (A := radMat la 1 0 0) (K := (-4)) (s := [0, 0, 0, 0]) (n := 4) (lamX := 0) (i := 2) (lam := 2.5) (lam' := 2.5) (acc := none)
        (Mat := one1 (2 / 3)) (P := one1 (2 / 3)) (sp := 0)
        (by rw [show ∀ A : RadAlg ℝ Arr, bS_DS_select A (-4) [0, 0, 0, 0] 4 2.5 = (do let x ← A.rep .bm2 2.5; pure (A.scale (2) x, 2)) from fun _ => rfl]; rw [b2]; exact sel_ok (rad_scale _ _ _))
        rfl rfl (by norm_num)
      have t2 := loop_step2 (A := radMat la 1 0 0) (K := (-4)) (s := [0, 0, 0, 0]) (n := 4) (lamX := 0) (i := 0) (lam := 2.5) (lam' := 2.5) (acc := some (one1 (2 / 3)))
        (Mat := one1 (2 / 3)) (P := one1 ((2 / 3) * (2 / 3))) (sp := 0)
        (by rw [show ∀ A : RadAlg ℝ Arr, bS_DS_select A (-4) [0, 0, 0, 0] 2 2.5 = (do let x ← A.rep .bm2 2.5; pure (A.scale (2) x, 2)) from fun _ => rfl]; rw [b2]; exact sel_ok (rad_scale _ _ _))
        (upd_ok (by decide) (rad_mul _ _ _)) rfl (by norm_num)
      exact bsds_run (t1.trans (t2)) (by decide)
    · ring
    · norm_num
    · norm_num
  refine all_cons ?_ ?_
  · refine ⟨(-1 / 2), ?_, isClose_val (v := (-1 / 2)) (d := (1 / 2000000000)) ?_ (by norm_num) (by norm_num [abs_of_pos, abs_of_neg]) ?_ ?_⟩
    · have hs : Lambda_Splits 1 1 0 = .ok [0, 0] := by decide +kernel
      unfold RepRadial_bS_DS
      rw [if_neg (by norm_num), if_neg (by decide), hs]
      have t1 := loop_step2 (A := radMat la 1 0 0) (K := 1) (s := [0, 0]) (n := 2) (lamX := 0) (i := 0) (lam := 2.5) (lam' := 2.5) (acc := none)
        (Mat := one1 (-1 / 2)) (P := one1 (-1 / 2)) (sp := 0)
        (by rw [show ∀ A : RadAlg ℝ Arr, bS_DS_select A 1 [0, 0] 2 2.5 = (do let x ← A.rep .bDb 2.5; pure (x, 2)) from fun _ => rfl]; rw [b3]; exact sel_ok rfl)
        rfl rfl (by norm_num)
      exact bsds_run (t1) (by decide)
    · ring
    · norm_num
    · norm_num
  refine all_cons ?_ ?_
  · refine ⟨((5 / 2) * (-7 / 6)), ?_, isClose_val (v := (-35 / 12)) (d := (7 / 2400000000)) ?_ (by norm_num) (by norm_num [abs_of_pos, abs_of_neg]) ?_ ?_⟩
    · have hs : Lambda_Splits 2 2 0 = .ok [0, 0, 0, 0] := by decide +kernel
      unfold RepRadial_bS_DS
      rw [if_neg (by norm_num), if_neg (by decide), hs]
      have t1 := loop_step2 (A := radMat la 1 0 0) (K := 2) (s := [0, 0, 0, 0]) (n := 4) (lamX := 0) (i := 2) (lam := 2.5) (lam' := 2.5) (acc := none)
        (Mat := one1 (-7 / 6)) (P := one1 (-7 / 6)) (sp := 0)
        (by rw [show ∀ A : RadAlg ℝ Arr, bS_DS_select A 2 [0, 0, 0, 0] 4 2.5 = (do let x ← A.rep .D2b 2.5; pure (A.scale (2) x, 2)) from fun _ => rfl]; rw [b4]; exact sel_ok (rad_scale _ _ _))
        rfl rfl (by norm_num)
      have t2 := loop_step2 (A := radMat la 1 0 0) (K := 2) (s := [0, 0, 0, 0]) (n := 4) (lamX := 0) (i := 0) (lam := 2.5) (lam' := 2.5) (acc := some (one1 (-7 / 6)))
        (Mat := one1 (5 / 2)) (P := one1 ((5 / 2) * (-7 / 6))) (sp := 0)
        (by rw [show ∀ A : RadAlg ℝ Arr, bS_DS_select A 2 [0, 0, 0, 0] 2 2.5 = (do let x ← A.rep .b2 2.5; pure (A.scale (-2) x, 2)) from fun _ => rfl]; rw [b1]; exact sel_ok (rad_scale _ _ _))
        (upd_ok (by decide) (rad_mul _ _ _)) rfl (by norm_num)
      exact bsds_run (t1.trans (t2)) (by decide)
    · ring
    · norm_num
    · norm_num
  refine all_cons ?_ ?_
  · refine ⟨((5 / 2) * ((-1 / 2) * (-7 / 6))), ?_, isClose_val (v := (35 / 24)) (d := (7 / 4800000000)) ?_ (by norm_num) (by norm_num [abs_of_pos, abs_of_neg]) ?_ ?_⟩
    · have hs : Lambda_Splits 3 3 0 = .ok [0, 0, 0, 0, 0, 0] := by decide +kernel
      unfold RepRadial_bS_DS
      rw [if_neg (by norm_num), if_neg (by decide), hs]
      have t1 := loop_step2 (A := radMat la 1 0 0) (K := 3) (s := [0, 0, 0, 0, 0, 0]) (n := 6) (lamX := 0) (i := 4) (lam := 2.5) (lam' := 2.5) (acc := none)
        (Mat := one1 (-7 / 6)) (P := one1 (-7 / 6)) (sp := 0)
        (by rw [show ∀ A : RadAlg ℝ Arr, bS_DS_select A 3 [0, 0, 0, 0, 0, 0] 6 2.5 = (do let x ← A.rep .D2b 2.5; pure (A.scale (2) x, 2)) from fun _ => rfl]; rw [b4]; exact sel_ok (rad_scale _ _ _))
        rfl rfl (by norm_num)
      have t2 := loop_step2 (A := radMat la 1 0 0) (K := 3) (s := [0, 0, 0, 0, 0, 0]) (n := 6) (lamX := 0) (i := 2) (lam := 2.5) (lam' := 2.5) (acc := some (one1 (-7 / 6)))
        (Mat := one1 (-1 / 2)) (P := one1 ((-1 / 2) * (-7 / 6))) (sp := 0)
        (by rw [show ∀ A : RadAlg ℝ Arr, bS_DS_select A 3 [0, 0, 0, 0, 0, 0] 4 2.5 = (do let x ← A.rep .bDb 2.5; pure (x, 2)) from fun _ => rfl]; rw [b3]; exact sel_ok rfl)
        (upd_ok (by decide) (rad_mul _ _ _)) rfl (by norm_num)
      have t3 := loop_step2 (A := radMat la 1 0 0) (K := 3) (s := [0, 0, 0, 0, 0, 0]) (n := 6) (lamX := 0) (i := 0) (lam := 2.5) (lam' := 2.5) (acc := some (one1 ((-1 / 2) * (-7 / 6))))
        (Mat := one1 (5 / 2)) (P := one1 ((5 / 2) * ((-1 / 2) * (-7 / 6)))) (sp := 0)
        (by rw [show ∀ A : RadAlg ℝ Arr, bS_DS_select A 3 [0, 0, 0, 0, 0, 0] 2 2.5 = (do let x ← A.rep .b2 2.5; pure (A.scale (-2) x, 2)) from fun _ => rfl]; rw [b1]; exact sel_ok (rad_scale _ _ _))
        (upd_ok (by decide) (rad_mul _ _ _)) rfl (by norm_num)
      exact bsds_run (t1.trans (t2.trans (t3))) (by decide)
    · ring
    · norm_num
    · norm_num
  refine all_cons ?_ ?_
  · refine ⟨((5 / 2) * ((5 / 2) * ((-7 / 6) * (-7 / 6)))), ?_, isClose_val (v := (1225 / 144)) (d := (49 / 5760000000)) ?_ (by norm_num) (by norm_num [abs_of_pos, abs_of_neg]) ?_ ?_⟩
    · have hs : Lambda_Splits 4 4 0 = .ok [0, 0, 0, 0, 0, 0, 0, 0] := by decide +kernel
      unfold RepRadial_bS_DS
      rw [if_neg (by norm_num), if_neg (by decide), hs]
      have t1 := loop_step2 (A := radMat la 1 0 0) (K := 4) (s := [0, 0, 0, 0, 0, 0, 0, 0]) (n := 8) (lamX := 0) (i := 6) (lam := 2.5) (lam' := 2.5) (acc := none)
        (Mat := one1 (-7 / 6)) (P := one1 (-7 / 6)) (sp := 0)
        (by rw [show ∀ A : RadAlg ℝ Arr, bS_DS_select A 4 [0, 0, 0, 0, 0, 0, 0, 0] 8 2.5 = (do let x ← A.rep .D2b 2.5; pure (A.scale (2) x, 2)) from fun _ => rfl]; rw [b4]; exact sel_ok (rad_scale _ _ _))
        rfl rfl (by norm_num)
      have t2 := loop_step2 (A := radMat la 1 0 0) (K := 4) (s := [0, 0, 0, 0, 0, 0, 0, 0]) (n := 8) (lamX := 0) (i := 4) (lam := 2.5) (lam' := 2.5) (acc := some (one1 (-7 / 6)))
        (Mat := one1 (-7 / 6)) (P := one1 ((-7 / 6) * (-7 / 6))) (sp := 0)
        (by rw [show ∀ A : RadAlg ℝ Arr, bS_DS_select A 4 [0, 0, 0, 0, 0, 0, 0, 0] 6 2.5 = (do let x ← A.rep .D2b 2.5; pure (A.scale (2) x, 2)) from fun _ => rfl]; rw [b4]; exact sel_ok (rad_scale _ _ _))
        (upd_ok (by decide) (rad_mul _ _ _)) rfl (by norm_num)
      have t3 := loop_step2 (A := radMat la 1 0 0) (K := 4) (s := [0, 0, 0, 0, 0, 0, 0, 0]) (n := 8) (lamX := 0) (i := 2) (lam := 2.5) (lam' := 2.5) (acc := some (one1 ((-7 / 6) * (-7 / 6))))
        (Mat := one1 (5 / 2)) (P := one1 ((5 / 2) * ((-7 / 6) * (-7 / 6)))) (sp := 0)
        (by rw [show ∀ A : RadAlg ℝ Arr, bS_DS_select A 4 [0, 0, 0, 0, 0, 0, 0, 0] 4 2.5 = (do let x ← A.rep .b2 2.5; pure (A.scale (-2) x, 2)) from fun _ => rfl]; rw [b1]; exact sel_ok (rad_scale _ _ _))
        (upd_ok (by decide) (rad_mul _ _ _)) rfl (by norm_num)
      have t4 := loop_step2 (A := radMat la 1 0 0) (K := 4) (s := [0, 0, 0, 0, 0, 0, 0, 0]) (n := 8) (lamX := 0) (i := 0) (lam := 2.5) (lam' := 2.5) (acc := some (one1 ((5 / 2) * ((-7 / 6) * (-7 / 6)))))
        (Mat := one1 (5 / 2)) (P := one1 ((5 / 2) * ((5 / 2) * ((-7 / 6) * (-7 / 6))))) (sp := 0)
        (by rw [show ∀ A : RadAlg ℝ Arr, bS_DS_select A 4 [0, 0, 0, 0, 0, 0, 0, 0] 2 2.5 = (do let x ← A.rep .b2 2.5; pure (A.scale (-2) x, 2)) from fun _ => rfl]; rw [b1]; exact sel_ok (rad_scale _ _ _))
        (upd_ok (by decide) (rad_mul _ _ _)) rfl (by norm_num)
      exact bsds_run (t1.trans (t2.trans (t3.trans (t4)))) (by decide)
    · ring
    · norm_num
    · norm_num
  refine all_cons ?_ ?_
  · refine ⟨((2 / 3 * √1.5) * (1 / 3 * √1.5)), ?_, isClose_val (v := (1 / 3)) (d := (1 / 3000000000)) ?_ (by norm_num) (by norm_num [abs_of_pos, abs_of_neg]) ?_ ?_⟩
    · have hs : Lambda_Splits (-1) 1 0 = .ok [1, -1] := by decide +kernel
      unfold RepRadial_bS_DS
      rw [if_neg (by norm_num), if_neg (by decide), hs]
      have t1 := loop_step1 (A := radMat la 1 0 0) (K := (-1)) (s := [1, -1]) (n := 2) (lamX := 0) (i := 1) (lam := 2.5) (lam' := 1.5) (acc := none)
        (Mat := one1 (1 / 3 * √1.5)) (P := one1 (1 / 3 * √1.5)) (sp := -1)
        (by rw [show ∀ A : RadAlg ℝ Arr, bS_DS_select A (-1) [1, -1] 2 2.5 = (do let x ← A.rep .Db_ml 2.5; pure (A.scale (1) x, 1)) from fun _ => rfl]; rw [b6]; exact sel_ok (rad_scale _ _ _))
        rfl rfl (by norm_num)
      have t2 := loop_step1 (A := radMat la 1 0 0) (K := (-1)) (s := [1, -1]) (n := 2) (lamX := 0) (i := 0) (lam := 1.5) (lam' := 2.5) (acc := some (one1 (1 / 3 * √1.5)))
        (Mat := one1 (2 / 3 * √1.5)) (P := one1 ((2 / 3 * √1.5) * (1 / 3 * √1.5))) (sp := 1)
        (by rw [show ∀ A : RadAlg ℝ Arr, bS_DS_select A (-1) [1, -1] 1 1.5 = (do let x ← A.rep .bm_pl 1.5; pure (A.scale (1) x, 1)) from fun _ => rfl]; rw [b5]; exact sel_ok (rad_scale _ _ _))
        (upd_ok (by decide) (rad_mul _ _ _)) rfl (by norm_num)
      exact bsds_run (t1.trans (t2)) (by decide)
    · linear_combination (2 / 9 : ℝ) * (1) * ht
    · norm_num
    · norm_num
  refine all_cons ?_ ?_
  · refine ⟨((2 / 3) * (-7 / 6)), ?_, isClose_val (v := (-7 / 9)) (d := (7 / 9000000000)) ?_ (by norm_num) (by norm_num [abs_of_pos, abs_of_neg]) ?_ ?_⟩
    · have hs : Lambda_Splits (-2) 2 0 = .ok [0, 0, 0, 0] := by decide +kernel
      unfold RepRadial_bS_DS
      rw [if_neg (by norm_num), if_neg (by decide), hs]
      have t1 := loop_step2 (A := radMat la 1 0 0) (K := (-2)) (s := [0, 0, 0, 0]) (n := 4) (lamX := 0) (i := 2) (lam := 2.5) (lam' := 2.5) (acc := none)
        (Mat := one1 (-7 / 6)) (P := one1 (-7 / 6)) (sp := 0)
        (by rw [show ∀ A : RadAlg ℝ Arr, bS_DS_select A (-2) [0, 0, 0, 0] 4 2.5 = (do let x ← A.rep .D2b 2.5; pure (A.scale (2) x, 2)) from fun _ => rfl]; rw [b4]; exact sel_ok (rad_scale _ _ _))
        rfl rfl (by norm_num)
      have t2 := loop_step2 (A := radMat la 1 0 0) (K := (-2)) (s := [0, 0, 0, 0]) (n := 4) (lamX := 0) (i := 0) (lam := 2.5) (lam' := 2.5) (acc := some (one1 (-7 / 6)))
        (Mat := one1 (2 / 3)) (P := one1 ((2 / 3) * (-7 / 6))) (sp := 0)
        (by rw [show ∀ A : RadAlg ℝ Arr, bS_DS_select A (-2) [0, 0, 0, 0] 2 2.5 = (do let x ← A.rep .bm2 2.5; pure (A.scale (2) x, 2)) from fun _ => rfl]; rw [b2]; exact sel_ok (rad_scale _ _ _))
        (upd_ok (by decide) (rad_mul _ _ _)) rfl (by norm_num)
      exact bsds_run (t1.trans (t2)) (by decide)
    · ring
    · norm_num
    · norm_num
  refine all_cons ?_ ?_
  · refine ⟨((2 / 3) * ((2 / 3 * √1.5) * ((1 / 3 * √1.5) * (-7 / 6)))), ?_, isClose_val (v := (-7 / 27)) (d := (7 / 27000000000)) ?_ (by norm_num) (by norm_num [abs_of_pos, abs_of_neg]) ?_ ?_⟩
    · have hs : Lambda_Splits (-3) 3 0 = .ok [0, 0, 1, -1, 0, 0] := by decide +kernel
      unfold RepRadial_bS_DS
      rw [if_neg (by norm_num), if_neg (by decide), hs]
      have t1 := loop_step2 (A := radMat la 1 0 0) (K := (-3)) (s := [0, 0, 1, -1, 0, 0]) (n := 6) (lamX := 0) (i := 4) (lam := 2.5) (lam' := 2.5) (acc := none)
        (Mat := one1 (-7 / 6)) (P := one1 (-7 / 6)) (sp := 0)
        (by rw [show ∀ A : RadAlg ℝ Arr, bS_DS_select A (-3) [0, 0, 1, -1, 0, 0] 6 2.5 = (do let x ← A.rep .D2b 2.5; pure (A.scale (2) x, 2)) from fun _ => rfl]; rw [b4]; exact sel_ok (rad_scale _ _ _))
        rfl rfl (by norm_num)
      have t2 := loop_step1 (A := radMat la 1 0 0) (K := (-3)) (s := [0, 0, 1, -1, 0, 0]) (n := 6) (lamX := 0) (i := 3) (lam := 2.5) (lam' := 1.5) (acc := some (one1 (-7 / 6)))
        (Mat := one1 (1 / 3 * √1.5)) (P := one1 ((1 / 3 * √1.5) * (-7 / 6))) (sp := -1)
        (by rw [show ∀ A : RadAlg ℝ Arr, bS_DS_select A (-3) [0, 0, 1, -1, 0, 0] 4 2.5 = (do let x ← A.rep .Db_ml 2.5; pure (A.scale (1) x, 1)) from fun _ => rfl]; rw [b6]; exact sel_ok (rad_scale _ _ _))
        (upd_ok (by decide) (rad_mul _ _ _)) rfl (by norm_num)
      have t3 := loop_step1 (A := radMat la 1 0 0) (K := (-3)) (s := [0, 0, 1, -1, 0, 0]) (n := 6) (lamX := 0) (i := 2) (lam := 1.5) (lam' := 2.5) (acc := some (one1 ((1 / 3 * √1.5) * (-7 / 6))))
        (Mat := one1 (2 / 3 * √1.5)) (P := one1 ((2 / 3 * √1.5) * ((1 / 3 * √1.5) * (-7 / 6)))) (sp := 1)
        (by rw [show ∀ A : RadAlg ℝ Arr, bS_DS_select A (-3) [0, 0, 1, -1, 0, 0] 3 1.5 = (do let x ← A.rep .bm_pl 1.5; pure (A.scale (1) x, 1)) from fun _ => rfl]; rw [b5]; exact sel_ok (rad_scale _ _ _))
        (upd_ok (by decide) (rad_mul _ _ _)) rfl (by norm_num)
      have t4 := loop_step2 (A := radMat la 1 0 0) (K := (-3)) (s := [0, 0, 1, -1, 0, 0]) (n := 6) (lamX := 0) (i := 0) (lam := 2.5) (lam' := 2.5) (acc := some (one1 ((2 / 3 * √1.5) * ((1 / 3 * √1.5) * (-7 / 6)))))
        (Mat := one1 (2 / 3)) (P := one1 ((2 / 3) * ((2 / 3 * √1.5) * ((1 / 3 * √1.5) * (-7 / 6))))) (sp := 0)
        (by rw [show ∀ A : RadAlg ℝ Arr, bS_DS_select A (-3) [0, 0, 1, -1, 0, 0] 2 2.5 = (do let x ← A.rep .bm2 2.5; pure (A.scale (2) x, 2)) from fun _ => rfl]; rw [b2]; exact sel_ok (rad_scale _ _ _))
        (upd_ok (by decide) (rad_mul _ _ _)) rfl (by norm_num)
      exact bsds_run (t1.trans (t2.trans (t3.trans (t4)))) (by decide)
    · linear_combination (2 / 9 : ℝ) * (-7/9) * ht
    · norm_num
    · norm_num
  refine all_cons ?_ ?_
  · refine ⟨((2 / 3) * ((2 / 3) * ((-7 / 6) * (-7 / 6)))), ?_, isClose_val (v := (49 / 81)) (d := (49 / 81000000000)) ?_ (by norm_num) (by norm_num [abs_of_pos, abs_of_neg]) ?_ ?_⟩
    · have hs : Lambda_Splits (-4) 4 0 = .ok [0, 0, 0, 0, 0, 0, 0, 0] := by decide +kernel
      unfold RepRadial_bS_DS
      rw [if_neg (by norm_num), if_neg (by decide), hs]
      have t1 := loop_step2 (A := radMat la 1 0 0) (K := (-4)) (s := [0, 0, 0, 0, 0, 0, 0, 0]) (n := 8) (lamX := 0) (i := 6) (lam := 2.5) (lam' := 2.5) (acc := none)
        (Mat := one1 (-7 / 6)) (P := one1 (-7 / 6)) (sp := 0)
        (by rw [show ∀ A : RadAlg ℝ Arr, bS_DS_select A (-4) [0, 0, 0, 0, 0, 0, 0, 0] 8 2.5 = (do let x ← A.rep .D2b 2.5; pure (A.scale (2) x, 2)) from fun _ => rfl]; rw [b4]; exact sel_ok (rad_scale _ _ _))
        rfl rfl (by norm_num)
      have t2 := loop_step2 (A := radMat la 1 0 0) (K := (-4)) (s := [0, 0, 0, 0, 0, 0, 0, 0]) (n := 8) (lamX := 0) (i := 4) (lam := 2.5) (lam' := 2.5) (acc := some (one1 (-7 / 6)))
        (Mat := one1 (-7 / 6)) (P := one1 ((-7 / 6) * (-7 / 6))) (sp := 0)
        (by rw [show ∀ A : RadAlg ℝ Arr, bS_DS_select A (-4) [0, 0, 0, 0, 0, 0, 0, 0] 6 2.5 = (do let x ← A.rep .D2b 2.5; pure (A.scale (2) x, 2)) from fun _ => rfl]; rw [b4]; exact sel_ok (rad_scale _ _ _))
        (upd_ok (by decide) (rad_mul _ _ _)) rfl (by norm_num)
      have t3 := loop_step2 (A := radMat la 1 0 0) (K := (-4)) (s := [0, 0, 0, 0, 0, 0, 0, 0]) (n := 8) (lamX := 0) (i := 2) (lam := 2.5) (lam' := 2.5) (acc := some (one1 ((-7 / 6) * (-7 / 6))))
        (Mat := one1 (2 / 3)) (P := one1 ((2 / 3) * ((-7 / 6) * (-7 / 6)))) (sp := 0)
        (by rw [show ∀ A : RadAlg ℝ Arr, bS_DS_select A (-4) [0, 0, 0, 0, 0, 0, 0, 0] 4 2.5 = (do let x ← A.rep .bm2 2.5; pure (A.scale (2) x, 2)) from fun _ => rfl]; rw [b2]; exact sel_ok (rad_scale _ _ _))
        (upd_ok (by decide) (rad_mul _ _ _)) rfl (by norm_num)
      have t4 := loop_step2 (A := radMat la 1 0 0) (K := (-4)) (s := [0, 0, 0, 0, 0, 0, 0, 0]) (n := 8) (lamX := 0) (i := 0) (lam := 2.5) (lam' := 2.5) (acc := some (one1 ((2 / 3) * ((-7 / 6) * (-7 / 6)))))
        (Mat := one1 (2 / 3)) (P := one1 ((2 / 3) * ((2 / 3) * ((-7 / 6) * (-7 / 6))))) (sp := 0)
        (by rw [show ∀ A : RadAlg ℝ Arr, bS_DS_select A (-4) [0, 0, 0, 0, 0, 0, 0, 0] 2 2.5 = (do let x ← A.rep .bm2 2.5; pure (A.scale (2) x, 2)) from fun _ => rfl]; rw [b2]; exact sel_ok (rad_scale _ _ _))
        (upd_ok (by decide) (rad_mul _ _ _)) rfl (by norm_num)
      exact bsds_run (t1.trans (t2.trans (t3.trans (t4)))) (by decide)
    · ring
    · norm_num
    · norm_num
  refine all_cons ?_ ?_
  · refine ⟨(√2.5 * ((-7 / 6) * (-7 / 6))), ?_, isClose_val (v := (49 / 36) * √2.5) (d := (215210563 / 100000000000000000)) ?_ (by norm_num) (by norm_num [abs_of_pos, abs_of_neg]) ?_ ?_⟩
    · have hs : Lambda_Splits 1 4 0 = .ok [0, 0, 0, 0, 0] := by decide +kernel
      unfold RepRadial_bS_DS
      rw [if_neg (by norm_num), if_neg (by decide), hs]
      have t1 := loop_step2 (A := radMat la 1 0 0) (K := 1) (s := [0, 0, 0, 0, 0]) (n := 5) (lamX := 0) (i := 3) (lam := 2.5) (lam' := 2.5) (acc := none)
        (Mat := one1 (-7 / 6)) (P := one1 (-7 / 6)) (sp := 0)
        (by rw [show ∀ A : RadAlg ℝ Arr, bS_DS_select A 1 [0, 0, 0, 0, 0] 5 2.5 = (do let x ← A.rep .D2b 2.5; pure (A.scale (2) x, 2)) from fun _ => rfl]; rw [b4]; exact sel_ok (rad_scale _ _ _))
        rfl rfl (by norm_num)
      have t2 := loop_step2 (A := radMat la 1 0 0) (K := 1) (s := [0, 0, 0, 0, 0]) (n := 5) (lamX := 0) (i := 1) (lam := 2.5) (lam' := 2.5) (acc := some (one1 (-7 / 6)))
        (Mat := one1 (-7 / 6)) (P := one1 ((-7 / 6) * (-7 / 6))) (sp := 0)
        (by rw [show ∀ A : RadAlg ℝ Arr, bS_DS_select A 1 [0, 0, 0, 0, 0] 3 2.5 = (do let x ← A.rep .D2b 2.5; pure (A.scale (2) x, 2)) from fun _ => rfl]; rw [b4]; exact sel_ok (rad_scale _ _ _))
        (upd_ok (by decide) (rad_mul _ _ _)) rfl (by norm_num)
      have t3 := loop_step1 (A := radMat la 1 0 0) (K := 1) (s := [0, 0, 0, 0, 0]) (n := 5) (lamX := 0) (i := 0) (lam := 2.5) (lam' := 2.5) (acc := some (one1 ((-7 / 6) * (-7 / 6))))
        (Mat := one1 √2.5) (P := one1 (√2.5 * ((-7 / 6) * (-7 / 6)))) (sp := 0)
        (by rw [show ∀ A : RadAlg ℝ Arr, bS_DS_select A 1 [0, 0, 0, 0, 0] 1 2.5 = (do let x ← A.b2_sqrt 2.5; pure (A.scale (-1) x, 1)) from fun _ => rfl]; rw [s1]; exact sel_ok (rad_scale _ _ _))
        (upd_ok (by decide) (rad_mul _ _ _)) rfl (by norm_num)
      exact bsds_run (t1.trans (t2.trans (t3))) (by decide)
    · ring
    · linarith
    · linarith
  refine all_cons ?_ ?_
  · refine ⟨(√2.5 * ((-1 / 2) * (-7 / 6))), ?_, isClose_val (v := (7 / 12) * √2.5) (d := (4611654921 / 5000000000000000000)) ?_ (by norm_num) (by norm_num [abs_of_pos, abs_of_neg]) ?_ ?_⟩
    · have hs : Lambda_Splits 2 3 0 = .ok [0, 0, 0, 0, 0] := by decide +kernel
      unfold RepRadial_bS_DS
      rw [if_neg (by norm_num), if_neg (by decide), hs]
      have t1 := loop_step2 (A := radMat la 1 0 0) (K := 2) (s := [0, 0, 0, 0, 0]) (n := 5) (lamX := 0) (i := 3) (lam := 2.5) (lam' := 2.5) (acc := none)
        (Mat := one1 (-7 / 6)) (P := one1 (-7 / 6)) (sp := 0)
        (by rw [show ∀ A : RadAlg ℝ Arr, bS_DS_select A 2 [0, 0, 0, 0, 0] 5 2.5 = (do let x ← A.rep .D2b 2.5; pure (A.scale (2) x, 2)) from fun _ => rfl]; rw [b4]; exact sel_ok (rad_scale _ _ _))
        rfl rfl (by norm_num)
      have t2 := loop_step2 (A := radMat la 1 0 0) (K := 2) (s := [0, 0, 0, 0, 0]) (n := 5) (lamX := 0) (i := 1) (lam := 2.5) (lam' := 2.5) (acc := some (one1 (-7 / 6)))
        (Mat := one1 (-1 / 2)) (P := one1 ((-1 / 2) * (-7 / 6))) (sp := 0)
        (by rw [show ∀ A : RadAlg ℝ Arr, bS_DS_select A 2 [0, 0, 0, 0, 0] 3 2.5 = (do let x ← A.rep .bDb 2.5; pure (x, 2)) from fun _ => rfl]; rw [b3]; exact sel_ok rfl)
        (upd_ok (by decide) (rad_mul _ _ _)) rfl (by norm_num)
      have t3 := loop_step1 (A := radMat la 1 0 0) (K := 2) (s := [0, 0, 0, 0, 0]) (n := 5) (lamX := 0) (i := 0) (lam := 2.5) (lam' := 2.5) (acc := some (one1 ((-1 / 2) * (-7 / 6))))
        (Mat := one1 √2.5) (P := one1 (√2.5 * ((-1 / 2) * (-7 / 6)))) (sp := 0)
        (by rw [show ∀ A : RadAlg ℝ Arr, bS_DS_select A 2 [0, 0, 0, 0, 0] 1 2.5 = (do let x ← A.b2_sqrt 2.5; pure (A.scale (-1) x, 1)) from fun _ => rfl]; rw [s1]; exact sel_ok (rad_scale _ _ _))
        (upd_ok (by decide) (rad_mul _ _ _)) rfl (by norm_num)
      exact bsds_run (t1.trans (t2.trans (t3))) (by decide)
    · ring
    · linarith
    · linarith
  refine all_cons ?_ ?_
  · refine ⟨(√2.5 * ((5 / 2) * (-7 / 6))), ?_, isClose_val (v := (-35 / 12) * √2.5) (d := (4611654921 / 1000000000000000000)) ?_ (by norm_num) (by norm_num [abs_of_pos, abs_of_neg]) ?_ ?_⟩
    · have hs : Lambda_Splits 3 2 0 = .ok [0, 0, 0, 0, 0] := by decide +kernel
      unfold RepRadial_bS_DS
      rw [if_neg (by norm_num), if_neg (by decide), hs]
      have t1 := loop_step2 (A := radMat la 1 0 0) (K := 3) (s := [0, 0, 0, 0, 0]) (n := 5) (lamX := 0) (i := 3) (lam := 2.5) (lam' := 2.5) (acc := none)
        (Mat := one1 (-7 / 6)) (P := one1 (-7 / 6)) (sp := 0)
        (by rw [show ∀ A : RadAlg ℝ Arr, bS_DS_select A 3 [0, 0, 0, 0, 0] 5 2.5 = (do let x ← A.rep .D2b 2.5; pure (A.scale (2) x, 2)) from fun _ => rfl]; rw [b4]; exact sel_ok (rad_scale _ _ _))
        rfl rfl (by norm_num)
      have t2 := loop_step2 (A := radMat la 1 0 0) (K := 3) (s := [0, 0, 0, 0, 0]) (n := 5) (lamX := 0) (i := 1) (lam := 2.5) (lam' := 2.5) (acc := some (one1 (-7 / 6)))
        (Mat := one1 (5 / 2)) (P := one1 ((5 / 2) * (-7 / 6))) (sp := 0)
        (by rw [show ∀ A : RadAlg ℝ Arr, bS_DS_select A 3 [0, 0, 0, 0, 0] 3 2.5 = (do let x ← A.rep .b2 2.5; pure (A.scale (-2) x, 2)) from fun _ => rfl]; rw [b1]; exact sel_ok (rad_scale _ _ _))
        (upd_ok (by decide) (rad_mul _ _ _)) rfl (by norm_num)
      have t3 := loop_step1 (A := radMat la 1 0 0) (K := 3) (s := [0, 0, 0, 0, 0]) (n := 5) (lamX := 0) (i := 0) (lam := 2.5) (lam' := 2.5) (acc := some (one1 ((5 / 2) * (-7 / 6))))
        (Mat := one1 √2.5) (P := one1 (√2.5 * ((5 / 2) * (-7 / 6)))) (sp := 0)
        (by rw [show ∀ A : RadAlg ℝ Arr, bS_DS_select A 3 [0, 0, 0, 0, 0] 1 2.5 = (do let x ← A.b2_sqrt 2.5; pure (A.scale (-1) x, 1)) from fun _ => rfl]; rw [s1]; exact sel_ok (rad_scale _ _ _))
        (upd_ok (by decide) (rad_mul _ _ _)) rfl (by norm_num)
      exact bsds_run (t1.trans (t2.trans (t3))) (by decide)
    · ring
    · linarith
    · linarith
  refine all_cons ?_ ?_
  · refine ⟨(√2.5 * ((5 / 2) * (-1 / 2))), ?_, isClose_val (v := (-5 / 4) * √2.5) (d := (988211769 / 500000000000000000)) ?_ (by norm_num) (by norm_num [abs_of_pos, abs_of_neg]) ?_ ?_⟩
    · have hs : Lambda_Splits 4 1 0 = .ok [0, 0, 0, 0, 0] := by decide +kernel
      unfold RepRadial_bS_DS
      rw [if_neg (by norm_num), if_neg (by decide), hs]
      have t1 := loop_step2 (A := radMat la 1 0 0) (K := 4) (s := [0, 0, 0, 0, 0]) (n := 5) (lamX := 0) (i := 3) (lam := 2.5) (lam' := 2.5) (acc := none)
        (Mat := one1 (-1 / 2)) (P := one1 (-1 / 2)) (sp := 0)
        (by rw [show ∀ A : RadAlg ℝ Arr, bS_DS_select A 4 [0, 0, 0, 0, 0] 5 2.5 = (do let x ← A.rep .bDb 2.5; pure (x, 2)) from fun _ => rfl]; rw [b3]; exact sel_ok rfl)
        rfl rfl (by norm_num)
      have t2 := loop_step2 (A := radMat la 1 0 0) (K := 4) (s := [0, 0, 0, 0, 0]) (n := 5) (lamX := 0) (i := 1) (lam := 2.5) (lam' := 2.5) (acc := some (one1 (-1 / 2)))
        (Mat := one1 (5 / 2)) (P := one1 ((5 / 2) * (-1 / 2))) (sp := 0)
        (by rw [show ∀ A : RadAlg ℝ Arr, bS_DS_select A 4 [0, 0, 0, 0, 0] 3 2.5 = (do let x ← A.rep .b2 2.5; pure (A.scale (-2) x, 2)) from fun _ => rfl]; rw [b1]; exact sel_ok (rad_scale _ _ _))
        (upd_ok (by decide) (rad_mul _ _ _)) rfl (by norm_num)
      have t3 := loop_step1 (A := radMat la 1 0 0) (K := 4) (s := [0, 0, 0, 0, 0]) (n := 5) (lamX := 0) (i := 0) (lam := 2.5) (lam' := 2.5) (acc := some (one1 ((5 / 2) * (-1 / 2))))
        (Mat := one1 √2.5) (P := one1 (√2.5 * ((5 / 2) * (-1 / 2)))) (sp := 0)
        (by rw [show ∀ A : RadAlg ℝ Arr, bS_DS_select A 4 [0, 0, 0, 0, 0] 1 2.5 = (do let x ← A.b2_sqrt 2.5; pure (A.scale (-1) x, 1)) from fun _ => rfl]; rw [s1]; exact sel_ok (rad_scale _ _ _))
        (upd_ok (by decide) (rad_mul _ _ _)) rfl (by norm_num)
      exact bsds_run (t1.trans (t2.trans (t3))) (by decide)
    · ring
    · linarith
    · linarith
  exact all_nil

/-- `Parse_RadialOp_List`. -/
theorem test_parse : Parse_RadialOp_List [.D2b] = .ok [.KT 0 2] ∧ ∀ t ∈ tests_parse, Parse_RadialOp_List t.1 = .ok [.KT t.2 0] := by
  decide +kernel

/-- `RepRadial_bS_DS(0, 2, 1.0, 2.5, 0, 0, 1)` is a 2x2 array with the expected entries (tests/test_radial_space.py lines
107-117); so `ME_Radial_D2b` has the values of tests/test_radial_me.py, `test_Expr`. -/
theorem test_KT001 (la : LinAlg) : ∃ A, RepRadial_bS_DS (radMat la 1 0 1) 0 2 2.5 0 = .ok A ∧ A.rows = 2 ∧ A.cols = 2 ∧
    A.e 0 0 = -7 / 6 ∧ A.e 0 1 = 7 * √10 / 30 ∧ A.e 1 0 = 7 * √10 / 30 ∧ A.e 1 1 = -19 / 6 := by
  have h1 := bS_DS_two (radMat la 1 0 1) (K := 0) (T := 2) (lam := 2.5) (by norm_num) (by decide) (by decide +kernel) (by decide) (m := .D2b) rfl
  have h2 : (radMat la 1 0 1).rep .D2b 2.5 = .ok (Arr.of 2 2 fun i j => vSp 2.5 (0 + i) (0 + j) + vSm 2.5 (0 + i) (0 + j) - 2 * vS0 2.5 (0 + i) (0 + j)
      + (2.5 - 3 / 2) * (2.5 - 1 / 2) * vbm2 2.5 (0 + i) (0 + j)) := by
    show RepRadial ME_Radial_D2b 2.5 0 1 = _
    unfold RepRadial
    exact ofM_eq fun i _ j _ => D2b_ok (by norm_num) (by norm_num) _ _
  rw [h1, h2, py_bind_ok]
  have v : ∀ i j q, _ → vbm2 2.5 i j = _ := fun i j q => vbm2_val (lam := 2.5) (by norm_num) i j (q := q)
  have r5 : √(5 / 2 : ℝ) = √10 / 2 := by
    rw [show (5 / 2 : ℝ) = 10 / 2 ^ 2 by norm_num, Real.sqrt_div (by norm_num), Real.sqrt_sq (by norm_num)]
  have r2 : √(2 / 5 : ℝ) = √10 / 5 := by
    rw [show (2 / 5 : ℝ) = 10 / 5 ^ 2 by norm_num, Real.sqrt_div (by norm_num), Real.sqrt_sq (by norm_num)]
  have v00 := v 0 0 1 (by norm_num [RisingFactorial, Finset.prod_range_succ])
  have v01 := v 0 1 (2 / 5) (by norm_num [RisingFactorial, Finset.prod_range_succ])
  have v10 := v 1 0 (2 / 5) (by norm_num [RisingFactorial, Finset.prod_range_succ])
  have v11 := v 1 1 1 (by norm_num [RisingFactorial, Finset.prod_range_succ])
  rw [show (2.5 : ℝ) = 5 / 2 by norm_num] at v00 v01 v10 v11
  refine ⟨_, rfl, rfl, rfl, ?_, ?_, ?_, ?_⟩
  · show (Arr.smul _ _).e 0 0 = _
    norm_num [Arr.smul, Arr.of, vSp, vSm, vS0, v00]
  · show (Arr.smul _ _).e 0 1 = _
    norm_num [Arr.smul, Arr.of, vSp, vSm, vS0, v01, r5, r2]
    ring
  · show (Arr.smul _ _).e 1 0 = _
    norm_num [Arr.smul, Arr.of, vSp, vSm, vS0, v10, r5, r2]
    ring
  · show (Arr.smul _ _).e 1 1 = _
    norm_num [Arr.smul, Arr.of, vSp, vSm, vS0, v11]

theorem allClose_of {rtol atol x e : ℝ} (hr : 0 ≤ rtol) (h1 : e - atol ≤ x) (h2 : x ≤ e + atol) : AllClose rtol atol x e :=
  le_trans (abs_le.2 ⟨by linarith, by linarith⟩) (le_add_of_nonneg_right (mul_nonneg hr (abs_nonneg _)))

/-- `RepRadial(ME_Radial_b2, lambda, 0, 2)`. -/
theorem test_rep_b2 : ∀ t ∈ tests_rep_b2, ∃ A, RepRadial ME_Radial_b2 t.1 0 2 = .ok A ∧ A.rows = 3 ∧ A.cols = 3 ∧
    ∀ i < 3, ∀ j < 3, AllClose 1e-5 1e-8 (A.e i j) ((t.2.getD i []).getD j 0) := by
  have key : ∀ (lam : ℝ) (T : List (List ℝ)), 0 < lam → (∀ i < 3, ∀ j < 3,
      AllClose 1e-5 1e-8 (vSp lam i j + vSm lam i j + 2 * vS0 lam i j) ((T.getD i []).getD j 0)) →
      ∃ A, RepRadial ME_Radial_b2 lam 0 2 = .ok A ∧ A.rows = 3 ∧ A.cols = 3 ∧
        ∀ i < 3, ∀ j < 3, AllClose 1e-5 1e-8 (A.e i j) ((T.getD i []).getD j 0) := by
    intro lam T h hT
    have e : RepRadial ME_Radial_b2 lam 0 2 = .ok (Arr.of 3 3 fun i j => vSp lam (0 + i) (0 + j) + vSm lam (0 + i) (0 + j) + 2 * vS0 lam (0 + i) (0 + j)) := by
      unfold RepRadial
      exact ofM_eq fun i _ j _ => b2_ok h _ _
    refine ⟨_, e, rfl, rfl, fun i hi j hj => ?_⟩
    have := hT i hi j hj
    simpa only [Arr.of, if_pos (And.intro hi hj), zero_add] using this
  refine all_cons (key _ _ (by norm_num) ?_) (all_cons (key _ _ (by norm_num) ?_) (all_cons (key _ _ (by norm_num) ?_) all_nil))
  · obtain ⟨a1, a2⟩ := root_bounds (q := 3 / 2) (l := 1224744871390e-12) (u := 1224744871393e-12) (by norm_num) (by norm_num) (by norm_num)
    obtain ⟨b1, b2⟩ := root_bounds (q := 5) (l := 2236067977498e-12) (u := 2236067977501e-12) (by norm_num) (by norm_num) (by norm_num)
    intro i hi j hj
    interval_cases i <;> interval_cases j <;> refine allClose_of (by norm_num) ?_ ?_ <;> norm_num [vSp, vSm, vS0] <;>
      first | linarith | (norm_num at *; linarith)
  · obtain ⟨a1, a2⟩ := root_bounds (q := 5 / 2) (l := 1581138830083e-12) (u := 1581138830086e-12) (by norm_num) (by norm_num) (by norm_num)
    obtain ⟨b1, b2⟩ := root_bounds (q := 7) (l := 2645751311063e-12) (u := 2645751311066e-12) (by norm_num) (by norm_num) (by norm_num)
    intro i hi j hj
    interval_cases i <;> interval_cases j <;> refine allClose_of (by norm_num) ?_ ?_ <;> norm_num [vSp, vSm, vS0] <;>
      first | linarith | (norm_num at *; linarith)
  · obtain ⟨a1, a2⟩ := root_bounds (q := 7 / 2) (l := 1870828693385e-12) (u := 1870828693388e-12) (by norm_num) (by norm_num) (by norm_num)
    obtain ⟨b1, b2⟩ := root_bounds (q := 9) (l := 2999999999999e-12) (u := 3000000000002e-12) (by norm_num) (by norm_num) (by norm_num)
    intro i hi j hj
    interval_cases i <;> interval_cases j <;> refine allClose_of (by norm_num) ?_ ?_ <;> norm_num [vSp, vSm, vS0] <;>
      first | linarith | (norm_num at *; linarith)

end Acm.Tests

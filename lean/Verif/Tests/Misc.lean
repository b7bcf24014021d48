import Verif.Model.CGFiles
import Verif.Model.CGData
import Verif.Model.CGSO3
import Verif.Model.CompatVal
import Verif.Model.FullSpace
import Verif.Lemmas.Radial
import Verif.Lemmas.CGData

/-!
# The model gives the values in the project's tests

`tests/test_so5cg.py`, `tests/test_compat.py`, `tests/test_globals.py`, `tests/test_so5_so3_cg.py` and the parts of
`tests/test_full_space.py` without eigenvalues.
-/

namespace Acm.Tests

open Acm.Spec

/-- tests/test_so5cg.py lines 43-73: the names of directories and files. -/
theorem test_names :
    parse_dir1_name "v2=2".toList = some 2 ∧ parse_dir1_name "v2=7".toList = some 7 ∧ parse_dir1_name "v2=42".toList = some 42 ∧
    parse_dir1_name "v2=xxx".toList = none ∧ parse_dir1_name "xxx".toList = none ∧
    parse_dir2_name "SO5CG_1_2_3".toList = some (1, 2, 3) ∧
    parse_datafile_name "SO5CG_1_2-1-2_3".toList = some (1, 2, 1, 2, 3) ∧
    parse_datafile_name "SO5CG_1_2-1-4_3".toList = some (1, 2, 1, 4, 3) := by
  decide +kernel

/-- tests/test_so5cg.py lines 23-31 and 76-82: the lines of a data file, for a `float` that reads the three numbers. -/
theorem test_lines (float : FloatSyntax) (h1 : float "+1.000000e+00".toList = some 1) (h2 : float "+8.451543e-01".toList = some 8.451543e-01)
    (h3 : float "+7.237469e-01".toList = some 7.237469e-01) :
    parse_line float " +1.000000e+00      1    1    2      2    1    2      3    1    0".toList = .ok (1, (1, 1, 2), (2, 1, 2), (3, 1, 0)) ∧
    parse_line float " +8.451543e-01      1    1    2      2    1    2      3    1    3".toList
      = .ok (8.451543e-01, (1, 1, 2), (2, 1, 2), (3, 1, 3)) ∧
    parse_line float " +7.237469e-01      1    1    2      2    1    2      3    1    4".toList
      = .ok (7.237469e-01, (1, 1, 2), (2, 1, 2), (3, 1, 4)) := by
  have key : ∀ ds : List (List Char), ∀ ns : List Int, ds.mapM pyInt = .ok ns → List.Forall₂ IntText ds ns := by
    intro ds ns h
    rw [mapM_ok_iff] at h
    exact h.imp fun s n hs => (pyInt_iff s n).1 hs
  refine ⟨?_, ?_, ?_⟩
  · exact (parse_line_ten (c := "+1.000000e+00".toList)
      (ds := ["1".toList, "1".toList, "2".toList, "2".toList, "1".toList, "2".toList, "3".toList, "1".toList, "0".toList])
      (by decide +kernel) rfl _ _).2 ⟨h1, key _ _ (by decide +kernel)⟩
  · exact (parse_line_ten (c := "+8.451543e-01".toList)
      (ds := ["1".toList, "1".toList, "2".toList, "2".toList, "1".toList, "2".toList, "3".toList, "1".toList, "3".toList])
      (by decide +kernel) rfl _ _).2 ⟨h2, key _ _ (by decide +kernel)⟩
  · exact (parse_line_ten (c := "+7.237469e-01".toList)
      (ds := ["1".toList, "1".toList, "2".toList, "2".toList, "1".toList, "2".toList, "3".toList, "1".toList, "4".toList])
      (by decide +kernel) rfl _ _).2 ⟨h3, key _ _ (by decide +kernel)⟩

/-- tests/test_full_space.py lines 172-186: the blocks of `LBlockFullSpace`. -/
theorem test_blocks :
    (do let s ← LBlockFullSpace.new 0 10 0 6 [0, 2, 3, 4, 5, 6]; [0, 2, 3, 4, 5, 6].mapM s.get_block_for_L)
      = .ok [(0, 33), (33, 77), (77, 99), (99, 154), (154, 176), (176, 231)] ∧
    (do let s ← LBlockFullSpace.new 0 18 0 6 [0, 2, 3, 4, 5, 6]; [0, 2, 3, 4, 5, 6].mapM s.get_block_for_L)
      = .ok [(0, 57), (57, 133), (133, 171), (171, 266), (266, 304), (304, 399)] := by
  decide +kernel

/-- tests/test_full_space.py lines 189-206. -/
theorem test_Lvals : validate_Lvals [0, 2, 3, 4, 5, 6] = .ok () ∧ validate_Lvals [] = .error .valueError ∧
    validate_Lvals [-1] = .error .valueError ∧ validate_Lvals [0, 0] = .error .valueError := by
  decide +kernel

/-- tests/test_globals.py lines 18-30: the shifts of `lambda` for `v = 0..10`, by `basis_type`. -/
theorem test_lambda (g : Glb) :
    (StPy.bind (ACM_set_basis_type 0 0 0) fun _ => ACM_show_lambda_fun 0 10) g
      = (.ok [0, 0, 0, 0, 0, 0, 0, 0, 0, 0, 0], { g with lam_fun := lambda_fix_fun }) ∧
    (StPy.bind (ACM_set_basis_type 1 0 0) fun _ => ACM_show_lambda_fun 0 10) g
      = (.ok [0, 1, 2, 3, 4, 5, 6, 7, 8, 9, 10], { g with lam_fun := lambda_sho_fun }) ∧
    (StPy.bind (ACM_set_basis_type 2 0 0) fun _ => ACM_show_lambda_fun 0 10) g
      = (.ok [0, 1, 0, 1, 0, 1, 0, 1, 0, 1, 0], { g with lam_fun := lambda_acm_fun }) ∧
    (StPy.bind (ACM_set_basis_type 3 0 0) fun _ => ACM_show_lambda_fun 0 10) g
      = (.ok [0, 1, 2, 3, 4, 5, 6, 7, 8, 9, 10], { g with lam_fun := lambda_davi_fun 0 }) := by
  refine ⟨rfl, rfl, rfl, ?_⟩
  have h : ∀ v : Int, 0 ≤ v → lambda_davi_fun 0 v = .ok v := by
    intro v hv
    have hv' : (0 : ℝ) ≤ v := by exact_mod_cast hv
    have e1 : pySqrt (((v : ℝ) + 1) ^ 2 + 0) = .ok ((v : ℝ) + 1) := by
      rw [pySqrt, if_neg (by nlinarith), add_zero, Real.sqrt_sq (by linarith)]
      rfl
    have e2 : pySqrt (2.25 + 0) = .ok 1.5 := by
      rw [pySqrt, if_neg (by norm_num), show (2.25 + 0 : ℝ) = 1.5 ^ 2 by norm_num, Real.sqrt_sq (by norm_num)]
      rfl
    have e3 : ⌊(v : ℝ) + 1 - 1.5⌋ = v - 1 := by
      rw [Int.floor_eq_iff]
      push_cast
      constructor <;> linarith
    unfold lambda_davi_fun
    rw [require_nonnegint_ok hv, py_bind_ok, e1, py_bind_ok, e2, py_bind_ok]
    simp only [e3]
    rw [if_pos (by simp [is_odd])]
    simp
  have z : (0 : ℝ) ^ 4 = 0 := by norm_num
  have e : (StPy.bind (ACM_set_basis_type 3 0 0) fun _ => ACM_show_lambda_fun 0 10) g
      = ([0, 1, 2, 3, 4, 5, 6, 7, 8, 9, 10].mapM (lambda_davi_fun (0 ^ 4)), { g with lam_fun := lambda_davi_fun (0 ^ 4) }) := rfl
  rw [e, z]
  simp only [List.mapM_cons, List.mapM_nil]
  simp [h, py_bind_ok]

/-- tests/test_so5_so3_cg.py. -/
theorem test_CG : Wigner_3j 0 0 0 0 0 0 = .ok 1 ∧ Wigner_3j 1 1 1 0 0 0 = .ok 0 ∧ CG_SO3 (1 / 3) 0 0 0 0 0 = .error .valueError ∧
    CG_SO3 0 0 0 0 0 0 = .ok 1 ∧ CG_SO3 (1 / 2) (1 / 2) 0 0 0 0 = .ok 0 := by
  have i : ∀ n : Int, ratIsInteger n = true := fun n => by simp [ratIsInteger]
  have f : ∀ n : Nat, symFact n = .ok (n.factorial : ℝ) := fun n => by
    simp [symFact, ratIsInteger]
  have f0 : symFact 0 = .ok 1 := by simpa using f 0
  have f1 : symFact 1 = .ok 1 := by simpa using f 1
  have f2 : symFact 2 = .ok 2 := by simpa using f 2
  have f4 : symFact 4 = .ok 24 := by simpa [Nat.factorial] using f 4
  have n : ∀ n : Int, negOnePow n = .ok ((-1 : ℝ) ^ n) := fun n => by
    simp [negOnePow, ratIsInteger]
  have n0 : negOnePow 0 = .ok 1 := by simpa using n 0
  have n1 : negOnePow 1 = .ok (-1) := by simpa using n 1
  have s0 : symIndex 0 = .ok 0 := rfl
  have s1 : symIndex 1 = .ok 1 := rfl
  have s2 : symIndex 2 = .ok 2 := rfl
  have w : Wigner_3j 0 0 0 0 0 0 = .ok 1 := by
    have t : Wigner_3j_term 0 0 0 0 0 0 = .ok 1 := by
      unfold Wigner_3j_term
      norm_num [f0, n0, py_bind_ok]
    have r : pyRange 0 1 = [0] := rfl
    unfold Wigner_3j
    norm_num [f0, f1, n0, s0, s1, py_bind_ok, r, t]
  refine ⟨w, ?_, ?_, ?_, ?_⟩
  · have t0 : Wigner_3j_term 1 1 1 0 0 0 = .ok 2 := by
      unfold Wigner_3j_term
      norm_num [f0, f1, f2, n0, py_bind_ok]
    have t1 : Wigner_3j_term 1 1 1 0 0 1 = .ok (-2) := by
      unfold Wigner_3j_term
      norm_num [f0, f1, f2, n1, py_bind_ok]
    have r : pyRange 0 2 = [0, 1] := rfl
    unfold Wigner_3j
    norm_num [f0, f1, f2, f4, n1, s0, s2, py_bind_ok, r, t0, t1]
  · unfold CG_SO3
    rw [if_pos (by decide +kernel)]
    rfl
  · have i0 : ratIsInteger 0 = true := rfl
    unfold CG_SO3
    norm_num [i0, n0, w, py_bind_ok]
  · unfold CG_SO3
    rw [if_neg (by decide +kernel), if_neg (by norm_num), if_neg (by decide +kernel), if_pos (by norm_num)]
    rfl

/-- tests/test_compat.py lines 12-60. -/
theorem test_require :
    [PyVal.int (-1), .int 0, .int 1, .float 1, .str "1"].map require_intV
      = [.ok (), .ok (), .ok (), .error .typeError, .error .typeError] ∧
    [PyVal.int 0, .int 1, .float 1, .str "1", .int (-1)].map require_nonnegintV
      = [.ok (), .ok (), .error .typeError, .error .typeError, .error .valueError] ∧
    [PyVal.int 1, .float 1, .str "1", .int (-1), .int 0].map require_posintV
      = [.ok (), .error .typeError, .error .typeError, .error .valueError, .error .valueError] := by
  refine ⟨rfl, rfl, rfl⟩

end Acm.Tests

import Verif.Spec.Globals
import Verif.Spec.CGSO5
import Verif.Lemmas.Globals
import Verif.Props.CGSO3
import Mathlib.Tactic.NormNum
import Mathlib.Tactic.Positivity
import Mathlib.Tactic.FieldSimp

/-!
# Basis functions, rates and amplitudes (C48-C50, C69)
-/

namespace Acm.Props

open Acm.Spec

/-! ### C48 -/

/-- C48.  The three elementary shift functions, and the one used for testing. -/
theorem C48_simple (v : ℕ) :
    lambda_fix_fun v = .ok 0 ∧ lambda_sho_fun v = .ok v ∧
    lambda_acm_fun v = .ok ((v % 2 : ℕ) : Int) ∧
    lambda_jig_fun v = .ok (if v = 0 then 0 else if v % 2 = 1 then 1 else 2) := by
  have hv : (0 : Int) ≤ v := Int.natCast_nonneg v
  refine ⟨?_, ?_, ?_, ?_⟩
  · unfold lambda_fix_fun; rw [require_nonnegint_ok hv]; rfl
  · unfold lambda_sho_fun; rw [require_nonnegint_ok hv]; rfl
  · unfold lambda_acm_fun; rw [require_nonnegint_ok hv, irem_ok hv (by decide)]; rfl
  · unfold lambda_jig_fun
    rw [require_nonnegint_ok hv, py_bind_ok]
    by_cases h : v = 0
    · subst h; rfl
    · rw [if_neg (by simpa using h), irem_ok hv (by decide), if_neg h]
      show Except.ok _ = _
      split_ifs with h2
      · congr 1; omega
      · congr 1; omega

/-- C48.  All shift functions reject a negative seniority. -/
theorem C48_rejects (v : Int) (hv : v < 0) (C : ℝ) :
    lambda_fix_fun v = .error .valueError ∧ lambda_sho_fun v = .error .valueError ∧
    lambda_acm_fun v = .error .valueError ∧ lambda_jig_fun v = .error .valueError ∧
    lambda_davi_fun C v = .error .valueError := by
  unfold lambda_fix_fun lambda_sho_fun lambda_acm_fun lambda_jig_fun lambda_davi_fun
  rw [require_nonnegint_err hv]
  exact ⟨rfl, rfl, rfl, rfl, rfl⟩

/-- The quantity that the code rounds: (v+1)^2 in place of the documented (v+3/2)^2. -/
noncomputable def daviCode (C : ℝ) (v : ℕ) : ℝ :=
  Real.sqrt (((v : ℝ) + 1) ^ 2 + C) - Real.sqrt (9 / 4 + C)

theorem nearest_unique {v : Int} {x : ℝ} {m n : Int} (hm : NearestOfParity v x m)
    (hn : NearestOfParity v x n) : m = n := by
  obtain ⟨p1, p2, p3⟩ := hm
  obtain ⟨q1, q2, q3⟩ := hn
  have h1 : ((m : ℝ)) < n + 2 := by linarith
  have h2 : ((n : ℝ)) < m + 2 := by linarith
  have h1' : m < n + 2 := by exact_mod_cast h1
  have h2' : n < m + 2 := by exact_mod_cast h2
  omega

theorem davi_value (C : ℝ) (hC : 0 ≤ C) (v : ℕ) :
    ∃ n, lambda_davi_fun C v = .ok n ∧ NearestOfParity v (daviCode C v) n := by
  have hv : (0 : Int) ≤ v := Int.natCast_nonneg v
  have e1 : pySqrt ((((v : ℤ) : ℝ) + 1) ^ 2 + C) = .ok (Real.sqrt (((v : ℝ) + 1) ^ 2 + C)) := by
    rw [pySqrt_ok (by positivity), Int.cast_natCast]
  have e2 : pySqrt (2.25 + C) = .ok (Real.sqrt (9 / 4 + C)) := by
    rw [pySqrt_ok (by positivity)]; norm_num
  unfold lambda_davi_fun
  rw [require_nonnegint_ok hv, py_bind_ok, e1, py_bind_ok, e2, py_bind_ok]
  show ∃ n, (if is_odd (⌊daviCode C v⌋ - v) = true then (.ok (⌊daviCode C v⌋ + 1) : Py Int)
    else .ok ⌊daviCode C v⌋) = .ok n ∧ _
  have f1 := Int.floor_le (daviCode C v)
  have f2 := Int.lt_floor_add_one (daviCode C v)
  by_cases h : is_odd (⌊daviCode C v⌋ - v) = true
  · rw [if_pos h]
    rw [is_odd_iff] at h
    refine ⟨_, rfl, by omega, ?_, ?_⟩ <;> push_cast <;> linarith
  · rw [if_neg h]
    rw [is_odd_iff] at h
    refine ⟨_, rfl, by omega, ?_, ?_⟩ <;> linarith

/-- C48 for the Davidson basis, for every parameter `C >= 0` (the code only uses
`C = (a beta_0)^4`): the shift is a non-negative integer of the parity of `v`, and 0 for `v = 0`;
so lambda stays positive.  Missing: negative `C`, see `C48_davi_fails`. -/
theorem C48_davi_partial (C : ℝ) (hC : 0 ≤ C) (v : ℕ) :
    ∃ n : ℕ, lambda_davi_fun C v = .ok n ∧ n % 2 = v % 2 ∧ (v = 0 → n = 0) ∧
      ∀ base : ℝ, 0 < base → 0 < base + n := by
  obtain ⟨n, h, hp, h1, h2⟩ := davi_value C hC v
  have hx : 0 ≤ n ∧ (v = 0 → n = 0) := by
    have hs : 0 ≤ Real.sqrt (9 / 4 + C) := Real.sqrt_nonneg _
    by_cases hv : v = 0
    · subst hv
      have a1 : Real.sqrt (9 / 4 + C) ≤ Real.sqrt (1 + C) + 1 / 2 := by
        rw [Real.sqrt_le_left (by positivity)]
        have t0 : 1 ≤ Real.sqrt (1 + C) := by
          rw [Real.le_sqrt' (by norm_num)]; linarith
        have := Real.sq_sqrt (show 0 ≤ 1 + C by positivity)
        nlinarith
      have a2 : Real.sqrt (1 + C) < Real.sqrt (9 / 4 + C) :=
        Real.sqrt_lt_sqrt (by positivity) (by linarith)
      have e : daviCode C 0 = Real.sqrt (1 + C) - Real.sqrt (9 / 4 + C) := by
        unfold daviCode; norm_num
      rw [e] at h1 h2
      have b1 : (n : ℝ) < 1 := by linarith
      have b2 : (-2 : ℝ) < n := by linarith
      have b1' : n < 1 := by exact_mod_cast b1
      have b2' : -2 < n := by exact_mod_cast b2
      simp only [Nat.cast_zero] at hp
      constructor
      · omega
      · intro _; omega
    · have hv1 : (1 : ℝ) ≤ v := by exact_mod_cast Nat.one_le_iff_ne_zero.2 hv
      have a2 : Real.sqrt (9 / 4 + C) < Real.sqrt (((v : ℝ) + 1) ^ 2 + C) :=
        Real.sqrt_lt_sqrt (by positivity) (by nlinarith)
      unfold daviCode at h1 h2
      have b : (-1 : ℝ) < n := by linarith
      have b' : -1 < n := by exact_mod_cast b
      exact ⟨by omega, fun h => absurd h hv⟩
  lift n to ℕ using hx.1
  exact ⟨n, h, by omega, fun h => by have := hx.2 h; omega, fun base hb => by positivity⟩

/-- A value of the Davidson shift: `C = 0` gives about `v - 1/2`, rounded to `v`. -/
example : ∃ n, lambda_davi_fun 0 (3 : ℕ) = .ok n ∧ n = 3 := by
  obtain ⟨n, h, hn⟩ := davi_value 0 le_rfl 3
  refine ⟨n, h, nearest_unique hn ?_⟩
  have e1 : Real.sqrt ((((3 : ℕ) : ℝ) + 1) ^ 2 + 0) = 4 := by
    rw [add_zero, Real.sqrt_sq (by norm_num)]; norm_num
  have e2 : Real.sqrt (9 / 4 + 0) = 3 / 2 := by
    rw [Real.sqrt_eq_iff_mul_self_eq (by norm_num) (by norm_num)]; norm_num
  unfold NearestOfParity daviCode
  rw [e1, e2]
  norm_num

/-- C48 fails for negative parameters that the code accepts: for `C = -1` the shift at `v = 0` is
-2 (with the documented `(v+3/2)^2` it would be 0). -/
theorem C48_davi_fails : lambda_davi_fun (-1) 0 = .ok (-2) := by
  have e1 : pySqrt ((((0 : ℤ) : ℝ) + 1) ^ 2 + -1) = .ok 0 := by
    rw [pySqrt_ok (by norm_num)]; norm_num
  have e2 : pySqrt (2.25 + -1) = .ok (Real.sqrt (5 / 4)) := by
    rw [pySqrt_ok (by norm_num)]; norm_num
  have b1 : Real.sqrt (5 / 4) ≤ 2 := by
    rw [Real.sqrt_le_left (by norm_num)]; norm_num
  have b2 : 1 < Real.sqrt (5 / 4) := by
    rw [Real.lt_sqrt (by norm_num)]; norm_num
  have hf : ⌊(0 : ℝ) - Real.sqrt (5 / 4)⌋ = -2 := by
    rw [Int.floor_eq_iff]; push_cast; constructor <;> linarith
  unfold lambda_davi_fun
  rw [require_nonnegint_ok (by decide), py_bind_ok, e1, py_bind_ok, e2, py_bind_ok]
  simp only [hf]
  rfl

/-! ### C49 -/

/-- C49, with the quantity that the code actually rounds: the result is the nearest integer of the
parity of `v` to `sqrt((v+1)^2+C) - sqrt(9/4+C)`; it is the documented one or two less. -/
theorem C49_nearest_partial (C : ℝ) (hC : 0 ≤ C) (v : ℕ) :
    ∃ n, lambda_davi_fun C v = .ok n ∧
      NearestOfParity v (Real.sqrt (((v : ℝ) + 1) ^ 2 + C) - Real.sqrt (9 / 4 + C)) n ∧
      (daviDoc C v < n + 1 → NearestOfParity v (daviDoc C v) n) ∧
      (n + 1 ≤ daviDoc C v → NearestOfParity v (daviDoc C v) (n + 2)) := by
  obtain ⟨n, h, hn⟩ := davi_value C hC v
  refine ⟨n, h, hn, ?_, ?_⟩
  · intro hd
    obtain ⟨h0, h1, h2⟩ := hn
    refine ⟨h0, ?_, hd⟩
    refine h1.trans (sub_le_sub_right (Real.sqrt_le_sqrt ?_) _)
    have : (0 : ℝ) ≤ v := Nat.cast_nonneg v
    nlinarith
  · intro hd
    obtain ⟨h0, h1, h2⟩ := hn
    have key : Real.sqrt (((v : ℝ) + 3 / 2) ^ 2 + C) ≤ Real.sqrt (((v : ℝ) + 1) ^ 2 + C) + 1 / 2 := by
      rw [Real.sqrt_le_left (by positivity)]
      have t0 : (v : ℝ) + 1 ≤ Real.sqrt (((v : ℝ) + 1) ^ 2 + C) := by
        rw [Real.le_sqrt' (by positivity)]; linarith
      have := Real.sq_sqrt (show 0 ≤ ((v : ℝ) + 1) ^ 2 + C by positivity)
      nlinarith
    refine ⟨by omega, ?_, ?_⟩
    · push_cast; linarith
    · push_cast
      unfold daviDoc at *
      unfold daviCode at h2
      linarith

/-- C49 fails: for `C = 16`, `v = 2` the code gives 0 while 2 is documented. -/
theorem C49_fails : lambda_davi_fun 16 (2 : ℕ) = .ok 0 ∧ NearestOfParity 2 (daviDoc 16 2) 2 := by
  obtain ⟨n, h, hn⟩ := davi_value 16 (by norm_num) 2
  have e5 : Real.sqrt ((((2 : ℕ) : ℝ) + 1) ^ 2 + 16) = 5 := by
    rw [Real.sqrt_eq_iff_mul_self_eq (by norm_num) (by norm_num)]; norm_num
  have b1 : (4 : ℝ) ≤ Real.sqrt (9 / 4 + 16) := by
    rw [Real.le_sqrt' (by norm_num)]; norm_num
  have b2 : Real.sqrt (9 / 4 + 16) ≤ 4.28 := by
    rw [Real.sqrt_le_left (by norm_num)]; norm_num
  have b2' : (4.27 : ℝ) ≤ Real.sqrt (9 / 4 + 16) := by
    rw [Real.le_sqrt' (by norm_num)]; norm_num
  have c1 : (5.3 : ℝ) ≤ Real.sqrt ((((2 : ℕ) : ℝ) + 3 / 2) ^ 2 + 16) := by
    rw [Real.le_sqrt' (by norm_num)]; norm_num
  have c2 : Real.sqrt ((((2 : ℕ) : ℝ) + 3 / 2) ^ 2 + 16) ≤ 5.4 := by
    rw [Real.sqrt_le_left (by norm_num)]; norm_num
  have hn0 : NearestOfParity (2 : ℕ) (daviCode 16 2) 0 := by
    unfold NearestOfParity daviCode
    rw [e5]
    refine ⟨by decide, ?_, ?_⟩ <;> push_cast <;> linarith
  have e := nearest_unique hn hn0
  refine ⟨e ▸ h, by decide, ?_, ?_⟩
  · unfold daviDoc
    rw [Int.cast_ofNat]
    linarith
  · unfold daviDoc
    rw [Int.cast_ofNat]
    linarith

/-! ### C50 -/

theorem testLambda_eq (f : LambdaFunction) (F : Int → Int) (a : Int) (n : ℕ)
    (hf : ∀ v, a < v → v ≤ a + n → f v = .ok (F v)) :
    ∃ r, testLambda f (F a) (pyRange (a + 1) (a + n + 1)) = .ok r ∧
      (r = true ↔ ∀ v, a ≤ v → v < a + n → |F (v + 1) - F v| = 1) := by
  induction n generalizing a with
  | zero =>
    rw [pyRange_empty (by simp)]
    refine ⟨true, rfl, ?_⟩
    simp only [true_iff]
    intro v h1 h2
    push_cast at h2
    omega
  | succ n ih =>
    rw [pyRange_cons (by push_cast; omega), testLambda, hf (a + 1) (by omega) (by push_cast; omega),
      py_bind_ok]
    have e : a + ((n + 1 : ℕ) : Int) + 1 = (a + 1) + (n : Int) + 1 := by push_cast; ring
    have habs : ∀ x : Int, |x| = 1 ↔ x = 1 ∨ x = -1 := fun x => abs_eq (by norm_num)
    by_cases h : F (a + 1) - F a = 1 ∨ F (a + 1) - F a = -1
    · obtain ⟨r, hr, hi⟩ := ih (a + 1) fun v h1 h2 => hf v (by omega) (by push_cast; omega)
      rw [if_pos h, e]
      refine ⟨r, hr, hi.trans ?_⟩
      constructor
      · intro hh v h1 h2
        rcases eq_or_lt_of_le h1 with h1 | h1
        · subst h1; exact (habs _).2 h
        · exact hh v (by omega) (by push_cast at h2; omega)
      · intro hh v h1 h2
        exact hh v (by omega) (by push_cast; omega)
    · rw [if_neg h]
      refine ⟨false, rfl, ?_⟩
      simp only [Bool.false_eq_true, false_iff]
      intro hh
      exact h ((habs _).1 (hh a le_rfl (by push_cast; omega)))

/-- C50.  With a current function that is defined on the range, the test returns true iff
successive values differ by exactly one, and changes nothing. -/
theorem C50_test (g : Glb) (F : Int → Int) (a b : ℕ)
    (hf : ∀ v : ℕ, a ≤ v → v ≤ max a b → g.lam_fun v = .ok (F v)) :
    ∃ r, ACM_test_lambda_fun a b g = (.ok r, g) ∧
      (r = true ↔ ∀ v : ℕ, a ≤ v → v < b → |F (v + 1) - F v| = 1) := by
  have ha := hf a le_rfl (le_max_left _ _)
  unfold ACM_test_lambda_fun
  rw [require_nonnegint_ok (Int.natCast_nonneg a), require_nonnegint_ok (Int.natCast_nonneg b),
    py_bind_ok, py_bind_ok, ha, py_bind_ok]
  have e : pyRange ((a : Int) + 1) ((b : Int) + 1) =
      pyRange ((a : Int) + 1) ((a : Int) + ((b - a : ℕ) : Int) + 1) := by
    by_cases h : a ≤ b
    · congr 1; omega
    · rw [pyRange_empty (by omega), pyRange_empty (by omega)]
  obtain ⟨r, hr, hi⟩ := testLambda_eq g.lam_fun F a (b - a) (by
    intro v h1 h2
    lift v to ℕ using (by omega)
    have h1' : a < v := by exact_mod_cast h1
    exact hf v h1'.le (by rcases le_total a b with h | h <;> omega))
  rw [e, hr]
  refine ⟨r, rfl, hi.trans ?_⟩
  constructor
  · intro h v h1 h2
    exact h v (by omega) (by omega)
  · intro h v h1 h2
    lift v to ℕ using (by omega)
    exact h v (by omega) (by omega)

/-- C50.  Of the basis types 0 to 2, the test is passed by types 1 and 2 on every range, and by
type 0 only on ranges with at most one value. -/
theorem C50_bases (g : Glb) (a b : ℕ) (x : ℝ) (s : Int) :
    (ACM_test_lambda_fun a b (ACM_set_basis_type 1 x s g).2).1 = .ok true ∧
    (ACM_test_lambda_fun a b (ACM_set_basis_type 2 x s g).2).1 = .ok true ∧
    (ACM_test_lambda_fun a b (ACM_set_basis_type 0 x s g).2).1 = .ok (decide (b ≤ a)) := by
  have h1 := C50_test (ACM_set_basis_type 1 x s g).2 (fun v => v) a b
    (by intro v _ _; rw [ACM_set_basis_type_eq]; exact (C48_simple v).2.1)
  have h2 := C50_test (ACM_set_basis_type 2 x s g).2 (fun v => v % 2) a b
    (by intro v _ _; rw [ACM_set_basis_type_eq]; exact (C48_simple v).2.2.1)
  have h0 := C50_test (ACM_set_basis_type 0 x s g).2 (fun _ => 0) a b
    (by intro v _ _; rw [ACM_set_basis_type_eq]; exact (C48_simple v).1)
  obtain ⟨r1, e1, i1⟩ := h1
  obtain ⟨r2, e2, i2⟩ := h2
  obtain ⟨r0, e0, i0⟩ := h0
  rw [e1, e2, e0]
  refine ⟨congrArg Except.ok ?_, congrArg Except.ok ?_, congrArg Except.ok ?_⟩
  · exact i1.2 fun v _ _ => by simp
  · refine i2.2 fun v _ _ => ?_
    rw [abs_eq (by norm_num)]
    omega
  · rw [Bool.eq_iff_iff, i0, decide_eq_true_iff]
    constructor
    · intro h
      by_contra hc
      have := h a le_rfl (by omega)
      simp at this
    · intro h v h1 h2
      omega

/-! ### C69 -/

/-- C69.  The three kinds of rates: never negative, and the documented multiples of the squared
matrix element. -/
theorem C69_rates (T : Int) (Li Lf : ℕ) (Mel : ℝ) :
    quad_rat_fun T Li Lf Mel = .ok ((2 * Lf + 1) / (2 * Li + 1) * Mel ^ 2) ∧
    mel_rat_fun T Li Lf Mel = .ok ((2 * Lf + 1) * Mel ^ 2) ∧
    unit_rat_fun T Li Lf Mel = .ok (Mel ^ 2) ∧
    0 ≤ (2 * (Lf : ℝ) + 1) / (2 * Li + 1) := by
  have hd : ∀ L : ℕ, dimSO3 L = .ok (2 * (L : Int) + 1) := by
    intro L
    unfold dimSO3
    rw [require_nonnegint_ok (Int.natCast_nonneg L)]; rfl
  refine ⟨?_, ?_, rfl, by positivity⟩
  · unfold quad_rat_fun
    rw [hd, hd]
    show Except.ok _ = _
    congr 1
    push_cast
    field_simp
  · unfold mel_rat_fun
    rw [hd]
    show Except.ok _ = _
    congr 1
    push_cast
    ring

/-- C69.  For the formats "mel" and "unit" the rate is the square of the amplitude. -/
theorem C69_squares (T : Int) (Li Lf : ℕ) (Mel : ℝ) :
    (∃ A, mel_amp_fun T Li Lf Mel = .ok A ∧ mel_rat_fun T Li Lf Mel = .ok (A ^ 2)) ∧
    (∃ A, unit_amp_fun T Li Lf Mel = .ok A ∧ unit_rat_fun T Li Lf Mel = .ok (A ^ 2)) := by
  obtain ⟨-, h2, h3, -⟩ := C69_rates T Li Lf Mel
  refine ⟨⟨Mel * Real.sqrt (2 * Lf + 1), ?_, ?_⟩, ⟨Mel, rfl, h3⟩⟩
  · unfold mel_amp_fun
    rw [show (2 * ((Lf : ℤ) : ℝ) + 1) = 2 * Lf + 1 by push_cast; ring, pySqrt_ok (by positivity)]
    rfl
  · rw [h2, mul_pow, Real.sq_sqrt (by positivity)]
    congr 1; ring

/-- C69.  For the format "quad" the squared amplitude is the rate times the documented factor: the
squared coefficient `(Li Li, T Lf-Li | Lf Lf)`, divided by the ratio of the dimensions.  Both
vanish with the matrix element; the amplitude has its sign if the triangle condition holds, and is
0 otherwise. -/
theorem C69_quad (T Li Lf : ℕ) (Mel : ℝ) :
    ∃ c A R, CG_SO3 Li Li T (Lf - Li) Lf Lf = .ok c ∧ quad_amp_fun T Li Lf Mel = .ok A ∧
      quad_rat_fun T Li Lf Mel = .ok R ∧ A = c * Mel ∧
      A ^ 2 = R * (c ^ 2 * (2 * Li + 1) / (2 * Lf + 1)) ∧
      (Triangle Li T Lf → 0 < c) ∧ (¬ Triangle Li T Lf → c = 0) := by
  have hi : ∀ n : ℤ, HalfInt (n : ℚ) := fun n => ⟨2 * n, by push_cast; ring⟩
  have hn : ∀ n : ℕ, HalfInt (n : ℚ) := fun n => ⟨2 * n, by push_cast; ring⟩
  have hsub : HalfInt ((Lf : ℚ) - Li) := by
    have := hi ((Lf : ℤ) - Li); push_cast at this; exact this
  obtain ⟨c, hc, hz⟩ := C57_CG_SO3_total Li Li T (Lf - Li) Lf Lf (hn _) (hn _) (hn _) hsub (hn _)
    (hn _)
  obtain ⟨h1, -, -, -⟩ := C69_rates T Li Lf Mel
  refine ⟨c, Mel * c, _, hc, ?_, h1, mul_comm _ _, ?_, ?_, ?_⟩
  · unfold quad_amp_fun
    push_cast
    rw [hc]
    rfl
  · field_simp
  · rintro ⟨t1, t2, t3⟩
    obtain ⟨x, hx, hpos⟩ := C58_maximal_pos Li T Lf (hn _) (hn _) (hn _)
      ⟨Li + T + Lf, by push_cast; ring⟩ (by exact_mod_cast t1) (by exact_mod_cast t2)
      (by exact_mod_cast t3)
    rw [hc] at hx
    cases hx
    exact hpos
  · intro ht
    apply hz
    rintro ⟨-, -, -, -, -, -, -, t1, t2, t3⟩
    apply ht
    have t1' : (Li : ℚ) ≤ T + Lf := by linarith
    have t2' : (T : ℚ) ≤ Lf + Li := by linarith
    exact ⟨by exact_mod_cast t1', by exact_mod_cast t2', by exact_mod_cast t3⟩

/-- C69.  The format "mix": between different angular momenta the amplitude is that of the format "mel" (its square is the
rate "mel"); for equal angular momenta it is the diagonal amplitude of the format "quad", the expectation value in the
state of maximal projection. -/
theorem C69_mix (T Li Lf : ℕ) (Mel : ℝ) :
    (Li ≠ Lf → ∃ A, mix_amp_fun T Li Lf Mel = .ok A ∧ mel_amp_fun T Li Lf Mel = .ok A ∧
      mel_rat_fun T Li Lf Mel = .ok (A ^ 2)) ∧
    (Li = Lf → ∃ c, CG_SO3 Lf Lf T 0 Lf Lf = .ok c ∧ mix_amp_fun T Li Lf Mel = .ok (Mel * c) ∧
      quad_amp_fun T Li Lf Mel = .ok (Mel * c) ∧ (0 < c ↔ T ≤ 2 * Lf) ∧ (c = 0 ↔ 2 * Lf < T)) := by
  constructor
  · intro h
    obtain ⟨⟨A, h1, h2⟩, -⟩ := C69_squares T Li Lf Mel
    refine ⟨A, ?_, h1, h2⟩
    rw [← h1]
    unfold mix_amp_fun gen_amp_mul mel_amp_fun
    rw [if_neg (by exact_mod_cast h)]
  · rintro rfl
    obtain ⟨c, A, R, hc, hA, -, e, -, hp, hz⟩ := C69_quad T Li Li Mel
    rw [sub_self] at hc
    have ht : Triangle Li T Li ↔ T ≤ 2 * Li := by unfold Triangle; omega
    rw [ht] at hp hz
    refine ⟨c, hc, ?_, by rw [hA, e, mul_comm], ⟨fun h => ?_, hp⟩, ⟨fun h => ?_, fun h => hz (by omega)⟩⟩
    · unfold mix_amp_fun gen_amp_mul
      rw [if_pos rfl]
      push_cast
      rw [hc]
      rfl
    · by_contra hh
      rw [hz hh] at h
      exact lt_irrefl _ h
    · by_contra hh
      exact (hp (by omega)).ne' h

/-- The quadrupole transition 2 -> 0 meets the triangle condition, 4 -> 0 does not. -/
example : Triangle 2 2 0 ∧ ¬ Triangle 4 2 0 := by unfold Triangle; decide

end Acm.Props

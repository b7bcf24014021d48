import Verif.Spec.Operators
import Verif.Lemmas.Py
import Mathlib.Tactic.Module
import Mathlib.Tactic.NoncommRing
import Mathlib.Tactic.FieldSimp
import Mathlib.Tactic.FinCases

/-!
# Properties C59-C63: the internal representation of operators
-/

namespace Acm.Props

open Acm Acm.Spec

section
variable {R : Type} [Ring R] [Algebra ℝ R]

theorem denote_nil (I : OpInterp R) : I.denote [] = 0 := rfl

theorem denote_append (I : OpInterp R) (a b : OperatorSum) :
    I.denote (a ++ b) = I.denote a + I.denote b := by simp [OpInterp.denote]

theorem denote_cons (I : OpInterp R) (c : Coeff) (w : OperatorProduct) (b : OperatorSum) :
    I.denote ((c, w) :: b) = (w.map I.sym).prod * I.coef c + I.denote b := by
  simp [OpInterp.denote]

theorem denote_addTerm (I : OpInterp R) (a : OperatorSum) (c c2 : Coeff) (w : OperatorProduct)
    (h : c = 0 → c2 = 0) :
    I.denote (addTerm a c c2 w) = I.denote a + (w.map I.sym).prod * I.coef c2 := by
  unfold addTerm
  split_ifs with h0
  · rw [denote_append, denote_cons, denote_nil, add_zero]
  · rw [h (not_not.mp h0)]; simp

theorem coef_kC (I : OpInterp R) (k : ℝ) : I.coef (kC k) = algebraMap ℝ R k :=
  I.coef.commutes k

theorem coef_mul_kC (I : OpInterp R) (c : Coeff) (k : ℝ) : I.coef (c * kC k) = k • I.coef c := by
  rw [map_mul, coef_kC, Algebra.smul_def, Algebra.commutes]

theorem kC_pow (k : ℝ) (n : ℕ) : kC k ^ n = kC (k ^ n) := rfl

theorem kC_mul (k l : ℝ) : kC k * kC l = kC (k * l) := rfl

theorem mem_addTerm {a : OperatorSum} {c c2 : Coeff} {w : OperatorProduct}
    {P : Coeff × OperatorProduct → Prop} (h : c ≠ 0 → P (c2, w)) (ha : ∀ t ∈ a, P t) :
    ∀ t ∈ addTerm a c c2 w, P t := by
  unfold addTerm
  split_ifs with h0
  · intro t ht
    rcases List.mem_append.mp ht with h1 | h1
    · exact ha t h1
    · rw [List.mem_singleton.mp h1]; exact h h0
  · exact ha

theorem mul_kC_ne_zero {c : Coeff} {k : ℝ} (hk : k ≠ 0) (hc : c ≠ 0) : c * kC k ≠ 0 := by
  intro h
  apply hc
  funext x
  have := congrFun h x
  simpa [kC, hk] using this

theorem convert_310_ne : Convert_310 ≠ 0 := by
  unfold Convert_310 FourPi
  have := Real.pi_pos
  positivity

theorem convert_610_ne : Convert_610 ≠ 0 := by
  unfold Convert_610 FourPi
  have := Real.pi_pos
  positivity

/-! ## C59 -/

/-- C59: in every interpretation, the sum returned by `ACM_Hamiltonian` denotes the documented
Hamiltonian. -/
theorem C59_hamiltonian (I : OpInterp R)
    (c11 c20 c21 c22 c23 c30 c31 c32 c33 c40 c41 c42 c43 c50 : Coeff) :
    I.denote (ACM_Hamiltonian c11 c20 c21 c22 c23 c30 c31 c32 c33 c40 c41 c42 c43 c50) =
      I.laplacian * I.coef c11 + I.coef c20 + I.b ^ 2 * I.coef c21 + I.b ^ 4 * I.coef c22
      + I.binv ^ 2 * I.coef c23
      + I.b * I.cos3g * I.coef c30 + I.b ^ 3 * I.cos3g * I.coef c31
      + I.b ^ 5 * I.cos3g * I.coef c32 + I.binv * I.cos3g * I.coef c33
      + I.cos3g ^ 2 * I.coef c40 + I.b ^ 2 * I.cos3g ^ 2 * I.coef c41
      + I.b ^ 4 * I.cos3g ^ 2 * I.coef c42 + I.binv ^ 2 * I.cos3g ^ 2 * I.coef c43
      + I.PiqPi * I.coef c50 := by
  have h11 : I.denote (open Classical in
      if c11 = 0 then []
      else [(c11, [.rad .D2b]), (-c11 * (2 + SENIORITY * (SENIORITY + 3)), [.rad .bm2])]) =
      I.laplacian * I.coef c11 := by
    have e : (fun x => 2 + x.2.1 * (x.2.1 + 3) : Coeff) = 2 + SENIORITY * (SENIORITY + 3) := rfl
    split_ifs with h0
    · rw [h0]; simp [denote_nil]
    · rw [denote_cons, denote_cons, denote_nil]
      simp only [OpInterp.laplacian, e, List.map_cons, List.map_nil, List.prod_cons, List.prod_nil,
        OpInterp.sym, symWord, OpInterp.binv, mul_one, map_mul, map_neg, sub_mul, add_zero]
      rw [mul_assoc _ (I.coef (2 + _)), ← map_mul I.coef _ c11, mul_comm _ c11, map_mul]
      noncomm_ring
  unfold ACM_Hamiltonian
  simp only []
  repeat rw [denote_addTerm _ _ _ _ _ (by intro h; simp [h])]
  rw [h11]
  simp only [kC_pow, coef_mul_kC, List.map_cons, List.map_nil, List.prod_cons, List.prod_nil,
    OpInterp.sym, symWord, OpInterp.cos3g, OpInterp.b, OpInterp.binv, Convert_310, FourPi]
  simp only [mul_smul_comm, smul_mul_assoc, smul_pow, mul_one, one_mul]
  simp only [pow_succ, pow_zero, one_mul, mul_assoc]

/-- C59: every term returned by `ACM_Hamiltonian` has a non-zero coefficient if the coefficient
of the Laplacian is constant: zero coefficients contribute no term. -/
theorem C59_no_zero_terms (c11 : ℝ)
    (c20 c21 c22 c23 c30 c31 c32 c33 c40 c41 c42 c43 c50 : Coeff) :
    ∀ t ∈ ACM_Hamiltonian (kC c11) c20 c21 c22 c23 c30 c31 c32 c33 c40 c41 c42 c43 c50,
      t.1 ≠ 0 := by
  unfold ACM_Hamiltonian
  simp only [kC_pow]
  have hk := convert_310_ne
  have hk2 := pow_ne_zero 2 convert_310_ne
  repeat' first
    | (refine mem_addTerm (P := fun t => t.1 ≠ 0) (fun h => mul_kC_ne_zero hk h) ?_)
    | (refine mem_addTerm (P := fun t => t.1 ≠ 0) (fun h => mul_kC_ne_zero hk2 h) ?_)
    | (refine mem_addTerm (P := fun t => t.1 ≠ 0) (fun h => h) ?_)
  split_ifs with h0
  · simp
  · have h1 : c11 ≠ 0 := by rintro rfl; exact h0 rfl
    intro t ht
    simp only [List.mem_cons, List.not_mem_nil, or_false] at ht
    rcases ht with rfl | rfl
    · exact h0
    · intro h
      have := congrFun h (0, 0, 0, 0)
      simp [kC, SENIORITY, h1] at this

/-- The scalar interpretation: beta is the number `x`, d/dbeta is 0, cos(3 gamma) is the number
`z`, and coefficients are evaluated at the labels `(0, 1, 1, 2)`. -/
noncomputable def scalarInterp (x z : ℝ) (hx : x ≠ 0) : OpInterp ℝ where
  rad := ⟨Units.mk0 x hx, 0, 0, 0, 0⟩
  harm h := if h = .y310 then z / Convert_310 else if h = .y610 then (3 * z ^ 2 - 1) / Convert_610
    else 0
  sqLdim := 1
  sqLdiv := 1
  Pi := 0
  PiPi2 := 0
  PiPi4 := 0
  PiqPi := 5
  unknown _ := 0
  coef := Pi.evalAlgHom ℝ (fun _ => ℝ) (0, 1, 1, 2)

/-- The hypotheses of C59 are met by a concrete interpretation, in which the Hamiltonian with
`c11 = 1`, `c30 = L`, `c43 = 3` has the value `-(2+4)/4 + 2*(1/2)*2 + 3/16`. -/
example : (scalarInterp 2 (1 / 2) (by norm_num)).denote
    (ACM_Hamiltonian (c11 := kC 1) (c30 := ANGMOM) (c43 := kC 3)) = 11 / 16 := by
  have hc : (scalarInterp 2 (1 / 2) (by norm_num)).cos3g = 1 / 2 := by
    have := convert_310_ne
    change Convert_310 • (1 / 2 / Convert_310) = _
    simp only [smul_eq_mul]
    field_simp
  rw [C59_hamiltonian, hc]
  simp only [map_zero, mul_zero, add_zero]
  simp [scalarInterp, OpInterp.laplacian, OpInterp.b, OpInterp.binv, ANGMOM, kC]
  norm_num

/-- C59: with all coefficients 0 the sum is empty. -/
theorem C59_zero : ACM_Hamiltonian = [] := by
  simp [ACM_Hamiltonian, addTerm]

/-! ## C60 -/

/-- C60: `ACM_HamSH3` denotes the polynomial in cos(3 gamma) with the given coefficients. -/
theorem C60_SH3 (I : OpInterp R) (c0 c1 c2 c3 c4 c5 c6 c7 c8 : Coeff) :
    I.denote (ACM_HamSH3 c0 c1 c2 c3 c4 c5 c6 c7 c8) =
      I.cosPoly [c0, c1, c2, c3, c4, c5, c6, c7, c8] := by
  unfold ACM_HamSH3
  simp only [ACM_HamSH3_loop]
  repeat rw [denote_addTerm _ _ _ _ _ (by intro h; simp [h])]
  simp only [OpInterp.cosPoly, List.zipIdx_cons, List.zipIdx_nil, List.map_cons, List.map_nil, List.sum_cons,
    List.sum_nil, kC_pow, coef_mul_kC, List.map_replicate, List.prod_replicate, OpInterp.sym,
    OpInterp.cos3g, Convert_310, FourPi, smul_pow, mul_smul_comm, smul_mul_assoc, denote_nil,
    List.prod_nil]
  simp only [pow_zero, one_mul, one_smul, zero_add, add_zero]
  abel

/-- C60: `ACM_HamSH6` denotes the same polynomial, given Convert_610 Y_610 = 3 cos^2(3 gamma) - 1
(the defining relation of the harmonic Y_610). -/
theorem C60_SH6 (I : OpInterp R)
    (h6 : Convert_610 • I.harm .y610 = (3 : ℝ) • I.cos3g ^ 2 - 1)
    (c0 c1 c2 c3 c4 c5 c6 c7 c8 : Coeff) :
    I.denote (ACM_HamSH6 c0 c1 c2 c3 c4 c5 c6 c7 c8) =
      I.cosPoly [c0, c1, c2, c3, c4, c5, c6, c7, c8] := by
  have hz : Convert_310 • I.harm .y310 = I.cos3g := rfl
  have hp : ∀ n, Convert_610 ^ n • I.harm .y610 ^ n = ((3 : ℝ) • I.cos3g ^ 2 - 1) ^ n := by
    intro n; rw [← smul_pow, h6]
  have hq : ∀ n, (Convert_610 ^ n * Convert_310) • (I.harm .y610 ^ n * I.harm .y310)
      = ((3 : ℝ) • I.cos3g ^ 2 - 1) ^ n * I.cos3g := by
    intro n
    rw [← hp, ← hz, smul_mul_smul_comm]
  have dv : ∀ (c : Coeff) (n : ℕ) [n.AtLeastTwo],
      c / (OfNat.ofNat n : Coeff) = ((OfNat.ofNat n : ℝ)⁻¹) • c := by
    intro c n _
    funext x
    simp [div_eq_inv_mul]
  have ml : ∀ (c : Coeff) (n : ℕ) [n.AtLeastTwo],
      c * (OfNat.ofNat n : Coeff) = ((OfNat.ofNat n : ℝ)) • c := by
    intro c n _
    funext x
    simp [mul_comm]
  unfold ACM_HamSH6
  simp only []
  repeat rw [denote_addTerm _ _ _ _ _ (by intro h; first | exact h | simp only [h, zero_mul])]
  have q1 := hp 1
  have q2 := hp 2
  have q3 := hp 3
  have q4 := hp 4
  have r1 := hq 1
  have r2 := hq 2
  have r3 := hq 3
  have r0 := hz
  simp only [pow_one] at q1 r1
  simp only [List.map_append, List.map_replicate, List.prod_append, List.prod_replicate,
    List.map_cons, List.map_nil, List.prod_cons, List.prod_nil, mul_one, OpInterp.sym,
    mul_assoc _ (kC _) (kC _), kC_pow, kC_mul, coef_mul_kC, denote_nil, zero_add, one_mul]
  have t2 : I.harm .y610 * I.harm .y610 = I.harm .y610 ^ 2 := (pow_two _).symm
  rw [t2]
  have mv : ∀ (k : ℝ) (a b : R), a * k • b = (k • a) * b := by
    intro k a b; rw [mul_smul_comm, smul_mul_assoc]
  simp only [mv, q1, q2, q3, q4, r1, r2, r3, r0]
  simp only [dv, ml, map_add, map_smul, OpInterp.cosPoly, List.zipIdx_cons, List.zipIdx_nil, List.map_cons,
    List.map_nil, List.sum_cons, List.sum_nil]
  generalize I.cos3g = z
  have e2 : ((3 : ℝ) • z ^ 2 - 1) ^ 2 = (9 : ℝ) • z ^ 4 - (6 : ℝ) • z ^ 2 + 1 := by
    simp only [pow_succ, pow_zero, one_mul, sub_mul, mul_sub, smul_mul_assoc, mul_smul_comm,
      mul_assoc, mul_one]
    module
  have e3 : ((3 : ℝ) • z ^ 2 - 1) ^ 3 = (27 : ℝ) • z ^ 6 - (27 : ℝ) • z ^ 4 + (9 : ℝ) • z ^ 2 - 1 := by
    rw [pow_succ, e2]
    simp only [pow_succ, pow_zero, one_mul, sub_mul, add_mul, mul_sub, smul_mul_assoc,
      mul_smul_comm, mul_assoc, mul_one]
    module
  have e4 : ((3 : ℝ) • z ^ 2 - 1) ^ 4 = (81 : ℝ) • z ^ 8 - (108 : ℝ) • z ^ 6 + (54 : ℝ) • z ^ 4
      - (12 : ℝ) • z ^ 2 + 1 := by
    rw [pow_succ, e3]
    simp only [pow_succ, pow_zero, one_mul, sub_mul, add_mul, mul_sub, smul_mul_assoc,
      mul_smul_comm, mul_assoc, mul_one]
    module
  rw [e2, e3, e4]
  have p1 : ∀ n, z ^ n * z = z ^ (n + 1) := fun n => (pow_succ z n).symm
  simp only [sub_mul, add_mul, mul_add, smul_mul_assoc, mul_smul_comm, one_mul, p1, pow_zero,
    Nat.reduceAdd, zero_add, pow_one]
  module

/-- C60: both encodings denote the same operator. -/
theorem C60_same (I : OpInterp R)
    (h6 : Convert_610 • I.harm .y610 = (3 : ℝ) • I.cos3g ^ 2 - 1)
    (c0 c1 c2 c3 c4 c5 c6 c7 c8 : Coeff) :
    I.denote (ACM_HamSH3 c0 c1 c2 c3 c4 c5 c6 c7 c8) =
      I.denote (ACM_HamSH6 c0 c1 c2 c3 c4 c5 c6 c7 c8) := by
  rw [C60_SH3, C60_SH6 I h6]

/-- C60: for both flags `ACM_HamRigidBeta` denotes the SO(5) Casimir operator times `cas` plus
the polynomial in cos(3 gamma). -/
theorem C60_rigid (I : OpInterp R)
    (h6 : Convert_610 • I.harm .y610 = (3 : ℝ) • I.cos3g ^ 2 - 1)
    (cas con c1 c2 c3 c4 c5 c6 : Coeff) (flag : Int) (hf : flag = 0 ∨ flag = 1) :
    ∃ op, ACM_HamRigidBeta cas con c1 c2 c3 c4 c5 c6 flag = .ok op ∧
      I.denote op = I.coef (fun x => cas x * (x.2.1 * (x.2.1 + 3)))
        + I.cosPoly [con, c1, c2, c3, c4, c5, c6] := by
  have hpoly : I.denote (if flag = 0 then ACM_HamSH3 con c1 c2 c3 c4 c5 c6
      else ACM_HamSH6 con c1 c2 c3 c4 c5 c6) = I.cosPoly [con, c1, c2, c3, c4, c5, c6] := by
    have e : I.cosPoly [con, c1, c2, c3, c4, c5, c6, 0, 0] =
        I.cosPoly [con, c1, c2, c3, c4, c5, c6] := by simp [OpInterp.cosPoly]
    split_ifs
    · rw [C60_SH3, e]
    · rw [C60_SH6 I h6, e]
  have ecas : (fun x => cas x * (x.2.1 * (x.2.1 + 3)) : Coeff) =
      cas * SENIORITY * (SENIORITY + 3) := by
    funext x; simp [SENIORITY, mul_assoc]
  unfold ACM_HamRigidBeta
  rw [if_neg (not_not.mpr hf), ecas]
  simp only []
  by_cases h0 : cas = 0
  · refine ⟨_, by rw [if_neg (not_not.mpr h0)]; rfl, ?_⟩
    rw [hpoly, h0]; simp
  · rw [if_pos h0]
    split_ifs with h1 h2
    all_goals first
      | (refine ⟨_, rfl, ?_⟩
         rw [List.singleton_append, denote_cons]
         first
           | (rw [if_pos (by assumption)] at hpoly; rw [hpoly]; simp)
           | (rw [if_neg (by assumption)] at hpoly; rw [hpoly]; simp))
      | (refine ⟨_, rfl, ?_⟩
         have hn := List.length_eq_zero_iff.mp (Nat.eq_zero_of_not_pos (by assumption))
         first
           | rw [if_pos (by assumption), hn] at hpoly
           | rw [if_neg (by assumption), hn] at hpoly
         rw [denote_cons, ← hpoly]; simp)

/-- The hypothesis of C60 holds in a concrete interpretation. -/
example : Convert_610 • (scalarInterp 2 (1 / 2) (by norm_num)).harm .y610 =
    (3 : ℝ) • (scalarInterp 2 (1 / 2) (by norm_num)).cos3g ^ 2 - 1 := by
  have := convert_310_ne
  have := convert_610_ne
  change Convert_610 • ((3 * (1 / 2) ^ 2 - 1) / Convert_610)
    = (3 : ℝ) • (Convert_310 • (1 / 2 / Convert_310)) ^ 2 - 1
  simp only [smul_eq_mul]
  field_simp

/-- C60: any other flag is rejected. -/
theorem C60_flag (cas con c1 c2 c3 c4 c5 c6 : Coeff) (flag : Int) (hf : flag ≠ 0) (hf1 : flag ≠ 1) :
    ACM_HamRigidBeta cas con c1 c2 c3 c4 c5 c6 flag = .error .valueError := by
  unfold ACM_HamRigidBeta
  rw [if_pos (by tauto)]; rfl

/-! ## C61 -/

/-- C61: `RWC_Ham` denotes the Rowe-Welsh-Caprio Hamiltonian (for `B = 0` SymPy's division gives
`zoo`, hence the hypothesis). -/
theorem C61_rwc (I : OpInterp R) (B c1 c2 chi kappa : ℝ) (_hB : B ≠ 0) :
    I.denote (RWC_Ham (kC B) (kC c1) (kC c2) (kC chi) (kC kappa)) =
      -(1 / (2 * B)) • I.laplacian + (B / 2) • (c1 • I.b ^ 2 + c2 • I.b ^ 4)
      - chi • (I.b * I.cos3g) + kappa • I.cos3g ^ 2 := by
  have e1 : (-1 / (2 * kC B) : Coeff) = kC (-(1 / (2 * B))) := by
    funext x; simp [kC]; ring
  have e2 : (kC B * kC c1 / 2 : Coeff) = kC (B / 2 * c1) := by funext x; simp [kC]; ring
  have e3 : (kC B * kC c2 / 2 : Coeff) = kC (B / 2 * c2) := by funext x; simp [kC]; ring
  have e4 : (-kC chi : Coeff) = kC (-chi) := by funext x; simp [kC]
  unfold RWC_Ham
  rw [C59_hamiltonian, e1, e2, e3, e4]
  simp only [coef_kC, map_zero, mul_zero, add_zero, ← Algebra.commutes, ← Algebra.smul_def]
  module

/-! ## C71 -/

/-- C71: the predefined `laplacian_op` denotes the Laplacian. -/
theorem C71_laplacian_op (I : OpInterp R) : I.denote laplacian_op = I.laplacian := by
  have e : (fun x => 2 + x.2.1 * (x.2.1 + 3) : Coeff) = 2 + SENIORITY * (SENIORITY + 3) := rfl
  simp only [laplacian_op, denote_cons, denote_nil, OpInterp.laplacian, e, List.map_cons,
    List.map_nil, List.prod_cons, List.prod_nil, OpInterp.sym, symWord, OpInterp.binv, mul_one,
    map_one, map_neg, mul_neg, add_zero, sub_eq_add_neg]

/-- C71: `comm_su11_op` denotes [S-, S+] - 2 S0; it is 0 iff the su(1,1) relation holds. -/
theorem C71_comm_su11 (I : OpInterp R) :
    I.denote comm_su11_op = (I.rad.sm * I.rad.sp - I.rad.sp * I.rad.sm) - 2 * I.rad.s0 ∧
    (I.denote comm_su11_op = 0 ↔
      I.rad.sm * I.rad.sp - I.rad.sp * I.rad.sm = 2 * I.rad.s0) := by
  have e : I.denote comm_su11_op
      = (I.rad.sm * I.rad.sp - I.rad.sp * I.rad.sm) - 2 * I.rad.s0 := by
    have h2 : I.coef (-2) = -2 := by rw [map_neg, map_ofNat]
    simp only [comm_su11_op, denote_cons, denote_nil, List.map_cons, List.map_nil, List.prod_cons,
      List.prod_nil, OpInterp.sym, symWord, map_one, map_neg, h2]
    noncomm_ring
  exact ⟨e, by rw [e, sub_eq_zero]⟩

/-- C71: `comm_bdb_op` denotes [d/dbeta, beta] - 1; it is 0 iff that commutator is 1. -/
theorem C71_comm_bdb (I : OpInterp R) :
    I.denote comm_bdb_op = (I.rad.D * I.b - I.b * I.rad.D) - 1 ∧
    (I.denote comm_bdb_op = 0 ↔ I.rad.D * I.b - I.b * I.rad.D = 1) := by
  have e : I.denote comm_bdb_op = (I.rad.D * I.b - I.b * I.rad.D) - 1 := by
    simp only [comm_bdb_op, denote_cons, denote_nil, List.map_cons, List.map_nil, List.prod_cons,
      List.prod_nil, OpInterp.sym, symWord, map_one, map_neg, OpInterp.b]
    noncomm_ring
  exact ⟨e, by rw [e, sub_eq_zero]⟩

/-- C71: `quad_op` and `quadRigid_op` denote (4 pi / sqrt 15) beta Y_112 and
(4 pi / sqrt 15) Y_112. -/
theorem C71_quad (I : OpInterp R) :
    I.denote quad_op = (4 * Real.pi / Real.sqrt 15) • (I.b * I.harm .y112) ∧
    I.denote quadRigid_op = (4 * Real.pi / Real.sqrt 15) • I.harm .y112 := by
  have ek : I.coef (kC Convert_112) = algebraMap ℝ R (4 * Real.pi / Real.sqrt 15) := coef_kC _ _
  simp only [quad_op, quadRigid_op, denote_cons, denote_nil, List.map_cons, List.map_nil,
    List.prod_cons, List.prod_nil, mul_one, add_zero, ek, OpInterp.sym, symWord, OpInterp.b,
    ← Algebra.commutes, ← Algebra.smul_def, and_self]

/-- C71: both are tensors of angular momentum 2. -/
theorem C71_quad_AM : Op_AM quad_op = 2 ∧ Op_AM quadRigid_op = 2 := by
  constructor <;> rfl

end

/-! ## C62 -/

theorem op_AM_term (w : OperatorProduct) (a : Int) : Op_AM_term w a = a + termAM w := by
  induction w generalizing a with
  | nil => simp [Op_AM_term, termAM]
  | cons t w ih =>
    have key : Op_AM_term (t :: w) a = Op_AM_term w (a + (symAM t : Int)) := by
      cases t with
      | harm h => cases h <;> rfl
      | _ => simp [symAM, Op_AM_term]
    rw [key, ih]
    simp [termAM, add_assoc]

/-- The largest angular momentum of the terms. -/
def maxAM (ws : List OperatorProduct) : ℕ := (ws.map termAM).foldr max 0

theorem op_AM_loop_neg (ws : List OperatorProduct) (i : ℕ) (hi : 2 ≤ i) (m : ℕ) (hm : 0 < m) :
    Op_AM_loop ws i (-(m : Int)) = -(max m (maxAM ws) : ℕ) := by
  induction ws generalizing i m with
  | nil => simp [Op_AM_loop, maxAM]
  | cons w ws ih =>
    have e : maxAM (w :: ws) = max (termAM w) (maxAM ws) := rfl
    simp only [Op_AM_loop, op_AM_term, zero_add]
    rw [if_neg (by omega), if_neg (by omega), e]
    split_ifs with h
    · rw [ih (i + 1) (by omega) _ (by omega)]; congr 2; omega
    · rw [ih (i + 1) (by omega) _ hm]; congr 2; omega

theorem op_AM_loop_pos (ws : List OperatorProduct) (i : ℕ) (hi : 2 ≤ i) (m : ℕ) :
    Op_AM_loop ws i (m : Int) = if ∀ w ∈ ws, termAM w = m then (m : Int)
      else -(max m (maxAM ws) : ℕ) := by
  induction ws generalizing i with
  | nil => simp [Op_AM_loop]
  | cons w ws ih =>
    have e : maxAM (w :: ws) = max (termAM w) (maxAM ws) := rfl
    simp only [Op_AM_loop, op_AM_term, zero_add, List.forall_mem_cons]
    rw [if_neg (by omega)]
    by_cases h : termAM w = m
    · rw [if_neg (by omega), if_neg (by omega), ih (i + 1) (by omega), e]
      simp only [h, true_and]
      split_ifs
      · rfl
      · congr 2; omega
    · rw [if_pos (by omega), if_neg (by tauto), e]
      have e2 : -(max (m : Int) (termAM w)) = -((max m (termAM w) : ℕ) : Int) := by omega
      rw [e2, op_AM_loop_neg ws (i + 1) (by omega) _ (by omega)]
      congr 2; omega

/-- C62: the empty sum has angular momentum 0. -/
theorem C62_empty : Op_AM [] = 0 := rfl

/-- C62: if every term has angular momentum `a`, that is the result. -/
theorem C62_definite (op : OperatorSum) (hne : op ≠ []) (a : ℕ) (h : ∀ t ∈ op, termAM t.2 = a) :
    Op_AM op = a := by
  obtain ⟨t, ts, rfl⟩ := List.exists_cons_of_ne_nil hne
  rw [Op_AM, if_neg (by simp), List.map_cons, Op_AM_loop]
  simp only [op_AM_term, zero_add, if_true, h t (by simp)]
  rw [op_AM_loop_pos _ _ (by omega), if_pos]
  intro w hw
  obtain ⟨s, hs, rfl⟩ := List.mem_map.mp hw
  exact h s (by simp [hs])

/-- Concrete sums meet the hypotheses of `C62_definite` and `C62_indefinite`. -/
example : Op_AM [(1, [.harm .y112, .rad .b]), (1, [.Pi])] = 2 :=
  C62_definite _ (by simp) 2 (by simp [termAM, symAM, SpHarm.table])
example : Op_AM [(1, [.harm .y214, .rad .b]), (1, [.PiPi2]), (1, [.harm .y316])] = -6 := by rfl

/-- C62: if two terms differ, the result is minus the largest angular momentum. -/
theorem C62_indefinite (op : OperatorSum) (s t : Coeff × OperatorProduct) (hs : s ∈ op) (ht : t ∈ op)
    (hst : termAM s.2 ≠ termAM t.2) :
    ∃ r ∈ op, Op_AM op = -(termAM r.2 : Int) ∧ ∀ q ∈ op, termAM q.2 ≤ termAM r.2 := by
  have mx : ∀ ws : List OperatorProduct, (∀ w ∈ ws, termAM w ≤ maxAM ws) ∧
      (ws ≠ [] → ∃ w ∈ ws, termAM w = maxAM ws) := by
    intro ws
    induction ws with
    | nil => simp
    | cons w ws ih =>
      have e : maxAM (w :: ws) = max (termAM w) (maxAM ws) := rfl
      rw [e]
      refine ⟨fun x hx => ?_, fun _ => ?_⟩
      · rcases List.mem_cons.mp hx with rfl | h
        · exact le_max_left _ _
        · exact le_trans (ih.1 x h) (le_max_right _ _)
      · rcases le_total (maxAM ws) (termAM w) with h | h
        · exact ⟨w, by simp, (max_eq_left h).symm⟩
        · by_cases hws : ws = []
          · subst hws; exact ⟨w, by simp, by simp [maxAM]⟩
          · obtain ⟨x, hx, hx2⟩ := ih.2 hws
            exact ⟨x, by simp [hx], by rw [hx2, max_eq_right h]⟩
  have hne : op ≠ [] := List.ne_nil_of_mem hs
  obtain ⟨w, hw, hw2⟩ := (mx (op.map (·.2))).2 (by simpa using hne)
  obtain ⟨r, hr, rfl⟩ := List.mem_map.mp hw
  refine ⟨r, hr, ?_, fun q hq => by rw [hw2]; exact (mx _).1 _ (List.mem_map_of_mem hq)⟩
  obtain ⟨p, ps, rfl⟩ := List.exists_cons_of_ne_nil hne
  rw [Op_AM, if_neg (by simp), hw2, List.map_cons, Op_AM_loop]
  simp only [op_AM_term, zero_add, if_true]
  rw [op_AM_loop_pos _ _ (by omega), if_neg]
  · rfl
  · intro hall
    have : ∀ q ∈ p :: ps, termAM q.2 = termAM p.2 := by
      intro q hq
      rcases List.mem_cons.mp hq with rfl | h
      · rfl
      · exact hall _ (List.mem_map_of_mem h)
    exact hst ((this s hs).trans (this t ht).symm)

/-! ## C63 -/

theorem mem_oddSyms (t : OpSym) : (if t ∈ oddSyms then (1 : Int) else 0) = symParity t := by
  cases t with
  | rad r => cases r <;> decide
  | harm h => cases h <;> decide
  | unknown n => simp [oddSyms, symParity]
  | _ => decide

theorem op_Parity_term (w : OperatorProduct) (a : Int) :
    Op_Parity_term w a = a + ((w.map symParity).sum : ℕ) := by
  induction w generalizing a with
  | nil => simp [Op_Parity_term]
  | cons t w ih =>
    have := mem_oddSyms t
    rw [Op_Parity_term, ih]
    simp only [List.map_cons, List.sum_cons, Nat.cast_add, ← this]
    split_ifs <;> ring

theorem op_Parity_loop (ws : List OperatorProduct) (i : ℕ) (hi : 2 ≤ i) (m : ℕ) (hm : m < 2) :
    Op_Parity_loop ws i (m : Int) = if ∀ w ∈ ws, termParity w = m then (m : Int) else -1 := by
  induction ws generalizing i with
  | nil => simp [Op_Parity_loop]
  | cons w ws ih =>
    simp only [Op_Parity_loop, op_Parity_term, zero_add, List.forall_mem_cons]
    rw [if_neg (by omega), Int.fmod_eq_emod_of_nonneg _ (by norm_num)]
    by_cases h : termParity w = m
    · have h' := h
      unfold termParity at h'
      rw [if_neg (by omega), ih (i + 1) (by omega)]
      simp only [h, true_and]
    · have h' := h
      unfold termParity at h'
      rw [if_pos (by omega), if_neg (by tauto)]

/-- C63: the empty sum has parity 0. -/
theorem C63_parity_empty : Op_Parity [] = 0 := rfl

/-- C63: the parity of a non-empty sum is the common parity of its terms, or -1. -/
theorem C63_parity (op : OperatorSum) (hne : op ≠ []) :
    (∀ p : ℕ, (∀ t ∈ op, termParity t.2 = p) → Op_Parity op = p) ∧
    (∀ s ∈ op, ∀ t ∈ op, termParity s.2 ≠ termParity t.2 → Op_Parity op = -1) := by
  obtain ⟨t, ts, rfl⟩ := List.exists_cons_of_ne_nil hne
  have e : Op_Parity (t :: ts) = if ∀ w ∈ ts.map (·.2), termParity w = termParity t.2 then
      (termParity t.2 : Int) else -1 := by
    rw [Op_Parity, if_neg (by simp), List.map_cons, Op_Parity_loop]
    simp only [op_Parity_term, zero_add, if_true]
    rw [Int.fmod_eq_emod_of_nonneg _ (by norm_num)]
    have e1 : (((t.2.map symParity).sum : ℕ) : Int) % 2 = (termParity t.2 : Int) := by
      unfold termParity; omega
    rw [e1, op_Parity_loop _ _ (by omega) _ (by unfold termParity; omega)]
  rw [e]
  refine ⟨fun p h => ?_, fun s hs r hr hsr => ?_⟩
  · have ht := h t (by simp)
    rw [if_pos, ht]
    intro w hw
    obtain ⟨q, hq, rfl⟩ := List.mem_map.mp hw
    rw [h q (by simp [hq]), ht]
  · rw [if_neg]
    intro hall
    have : ∀ q ∈ t :: ts, termParity q.2 = termParity t.2 := by
      intro q hq
      rcases List.mem_cons.mp hq with rfl | h
      · rfl
      · exact hall _ (List.mem_map_of_mem h)
    exact hsr ((this s hs).trans (this r hr).symm)

/-- Concrete sums for both halves of C63. -/
example : Op_Parity [(1, [.rad .b, .harm .y112]), (1, [.harm .y212])] = 0 ∧
    Op_Parity [(1, [.rad .b]), (1, [.harm .y212])] = -1 ∧ Op_Parity [(1, [.Pi])] = 1 :=
  ⟨(C63_parity _ (by simp)).1 0 (by simp [termParity, symParity, SpHarm.table]),
    (C63_parity _ (by simp)).2 (1, [.rad .b]) (by simp) (1, [.harm .y212]) (by simp) (by decide), by rfl⟩

/-- C63: an operator is tame iff no term contains a momentum tensor. -/
theorem C63_tame (op : OperatorSum) :
    Op_Tame op = true ↔ ∀ t ∈ op, .Pi ∉ t.2 ∧ .PiPi2 ∉ t.2 ∧ .PiPi4 ∉ t.2 := by
  unfold Op_Tame
  split_ifs with h
  · simp [List.length_eq_zero_iff.mp h]
  · simp only [List.all_eq_true, List.mem_map, forall_exists_index, and_imp,
      forall_apply_eq_imp_iff₂, Bool.not_eq_true', List.contains_eq_mem, decide_eq_false_iff_not,
      List.mem_cons, List.not_mem_nil, or_false, not_or]
    constructor
    · intro H t ht
      exact ⟨fun h => (H t ht _ h).1 rfl, fun h => (H t ht _ h).2.1 rfl,
        fun h => (H t ht _ h).2.2 rfl⟩
    · intro H t ht x hx
      refine ⟨?_, ?_, ?_⟩ <;> rintro rfl
      · exact (H t ht).1 hx
      · exact (H t ht).2.1 hx
      · exact (H t ht).2.2 hx

/-- C63: `NumSO5r3_Prod` counts the harmonics of a product. -/
theorem C63_count (ys : List YSym) : NumSO5r3_Prod ys = ys.countP IsHarm := by
  have key : ∀ (ys : List YSym) (a : Int), ys.foldl (fun ct y => match y with
      | .triple _ => ct + 1
      | .sym (.harm _) => ct + 1
      | .sym _ => ct) a = a + ys.countP IsHarm := by
    intro ys
    induction ys with
    | nil => simp
    | cons y ys ih =>
      intro a
      rw [List.foldl_cons, ih, List.countP_cons]
      rcases y with s | t
      · cases s <;> (simp [IsHarm]; try ring)
      · simp [IsHarm]; ring
  exact (key ys 0).trans (zero_add _)

end Acm.Props

import Verif.Lemmas.RadialWindow
import Verif.Lemmas.RadialComp
import Mathlib.LinearAlgebra.Matrix.Block
import Mathlib.Analysis.Matrix.Spectrum
import Mathlib.Data.Fin.Tuple.Sort

/-! Positive definiteness of beta^2 and its square roots. -/

namespace Acm

open Acm.Spec Matrix

/-! ## Arrays and matrices -/

theorem mat_mul {n : ℕ} {A B : Arr} (h1 : A.rows = n) (h2 : A.cols = n) (h3 : B.cols = n) :
    mat n (A.mul B) = mat n A * mat n B := by
  ext i j
  simp only [mat, Matrix.of_apply, Matrix.mul_apply, Arr.mul, Arr.of, h1, h2, h3]
  rw [if_pos ⟨i.2, j.2⟩, Finset.sum_range]

theorem mat_diag (n : ℕ) (v : ℕ → ℝ) :
    mat n (Arr.diag n v) = Matrix.diagonal fun i : Fin n => v i := by
  ext i j
  simp only [mat, Matrix.of_apply, Arr.diag, Arr.of, Matrix.diagonal_apply]
  rw [if_pos ⟨i.2, j.2⟩]
  simp only [Fin.ext_iff]

theorem mat_inj {n : ℕ} {A B : Arr} (hA : Square n A) (hB : Square n B) (h : mat n A = mat n B) :
    A = B := by
  obtain ⟨a1, a2, a3⟩ := hA
  obtain ⟨b1, b2, b3⟩ := hB
  ext i j
  · rw [a1, b1]
  · rw [a2, b2]
  · by_cases hij : i < n ∧ j < n
    · have := congrFun (congrFun h ⟨i, hij.1⟩) ⟨j, hij.2⟩
      simpa [mat] using this
    · rw [a3 i j hij, b3 i j hij]

/-! ## The linear algebra contract -/

theorem sym_mat {n : ℕ} {A : Arr} (h1 : A.rows = n) (h2 : A.cols = n) (hs : (mat n A).IsSymm) :
    mat n (Arr.of A.rows A.cols fun i j => (A.e i j + A.T.e i j) / 2) = mat n A := by
  ext i j
  have h := hs.apply i j
  simp only [mat, Matrix.of_apply] at h
  simp only [mat, Matrix.of_apply, Arr.of, Arr.T, h1, h2]
  rw [if_pos ⟨i.2, j.2⟩, h]
  ring

/-- What `Eigenfiddle` returns for a symmetric matrix. -/
theorem eigenfiddle_ok {la : LinAlg} (hla : LinAlgOk la) {n : ℕ} {A : Arr} (h1 : A.rows = n)
    (h2 : A.cols = n) (hs : (mat n A).IsSymm) :
    ∃ v P, Eigenfiddle la A = .ok (v, P) ∧ P.rows = n ∧ P.cols = n ∧
      (mat n P)ᵀ * mat n P = 1 ∧ mat n P * (mat n P)ᵀ = 1 ∧
      mat n A * mat n P = mat n P * Matrix.diagonal (fun i : Fin n => v i) ∧
      (∀ i j, i ≤ j → j < n → v i ≤ v j) := by
  unfold Eigenfiddle
  rw [if_neg (by rw [h1, h2]; simp)]
  have hm := sym_mat h1 h2 hs
  set H := Arr.of A.rows A.cols fun i j => (A.e i j + A.T.e i j) / 2 with hH
  have r1 : H.rows = n := by simp [hH, Arr.of, h1]
  have r2 : H.cols = n := by simp [hH, Arr.of, h2]
  have hs' : (mat n H).IsSymm := by rw [hm]; exact hs
  have hsh := hla.eigh_shape n H r1 r2
  have ho := hla.eigh_orthonormal n H r1 r2 hs'
  refine ⟨(la.eigh H).1, (la.eigh H).2, rfl, hsh.1, hsh.2, ho, mul_eq_one_comm.1 ho, ?_,
    hla.eigh_sorted n H r1 r2 hs'⟩
  rw [← hm]
  exact hla.eigh_eigen n H r1 r2 hs'

theorem posDef_symm {n : ℕ} {M : Matrix (Fin n) (Fin n) ℝ} (h : M.PosDef) : M.IsSymm := by
  have := h.isHermitian
  rw [Matrix.IsHermitian, Matrix.conjTranspose_eq_transpose_of_trivial] at this
  exact this

theorem mulVec_inj {n : ℕ} {P Q : Matrix (Fin n) (Fin n) ℝ} (h : Q * P = 1) :
    Function.Injective P.mulVec := by
  intro x y hxy
  have : Q *ᵥ (P *ᵥ x) = Q *ᵥ (P *ᵥ y) := by rw [hxy]
  simpa [Matrix.mulVec_mulVec, h] using this

theorem eig_pos {n : ℕ} {A P : Matrix (Fin n) (Fin n) ℝ} {v : ℕ → ℝ} (hA : A.PosDef)
    (h1 : Pᵀ * P = 1) (h2 : A * P = P * Matrix.diagonal (fun i : Fin n => v i)) :
    ∀ i < n, 0 < v i := by
  have h3 : Pᴴ * A * P = Matrix.diagonal (fun i : Fin n => v i) := by
    rw [Matrix.conjTranspose_eq_transpose_of_trivial, Matrix.mul_assoc, h2, ← Matrix.mul_assoc, h1,
      Matrix.one_mul]
  have h4 := hA.conjTranspose_mul_mul_same (mulVec_inj h1)
  rw [h3] at h4
  intro i hi
  have := h4.diag_pos (i := ⟨i, hi⟩)
  simpa using this

theorem conj_posDef {n : ℕ} {P : Matrix (Fin n) (Fin n) ℝ} {v : Fin n → ℝ} (hv : ∀ i, 0 < v i)
    (h1 : P * Pᵀ = 1) : (P * Matrix.diagonal v * Pᵀ).PosDef := by
  have hd : (Matrix.diagonal v).PosDef := Matrix.PosDef.diagonal hv
  have := hd.conjTranspose_mul_mul_same (B := Pᵀ) (mulVec_inj (Q := P) h1)
  rwa [Matrix.conjTranspose_eq_transpose_of_trivial, Matrix.transpose_transpose] at this

theorem Matrix_sqrt_ok {la : LinAlg} (hla : LinAlgOk la) {n : ℕ} {A : Arr} (h1 : A.rows = n)
    (h2 : A.cols = n) (hA : (mat n A).PosDef) :
    ∃ R S, Matrix_sqrt la A = .ok R ∧ Matrix_sqrtInv la A = .ok S ∧ Square n R ∧ Square n S ∧
      mat n R * mat n R = mat n A ∧ (mat n R).PosDef ∧ mat n R * mat n S = 1 ∧
      (mat n S).PosDef := by
  obtain ⟨v, P, e, p1, p2, p3, p4, p5, _⟩ := eigenfiddle_ok hla h1 h2 (posDef_symm hA)
  have hv := eig_pos hA p3 p5
  have hu : IsUnit (mat n P) := IsUnit.of_mul_eq_one _ p4
  obtain ⟨q1, q2⟩ := hla.inv_shape n P p1 p2
  have hinv : mat n (la.inv P) = (mat n P)ᵀ := by
    have := hla.inv_inverse n P p1 p2 hu
    calc mat n (la.inv P) = (mat n P)ᵀ * mat n P * mat n (la.inv P) := by
          rw [p3, Matrix.one_mul]
      _ = (mat n P)ᵀ := by rw [Matrix.mul_assoc, this, Matrix.mul_one]
  have val : ∀ w : ℕ → ℝ, mat n ((P.mul (Arr.diag n w)).mul (la.inv P))
      = mat n P * Matrix.diagonal (fun i : Fin n => w i) * (mat n P)ᵀ := by
    intro w
    rw [mat_mul (by simp [Arr.mul, Arr.of, p1]) (by simp [Arr.mul, Arr.of, Arr.diag]) q2,
      mat_mul p1 p2 (by simp [Arr.diag, Arr.of]), mat_diag, hinv]
  have prod : ∀ w w' : Fin n → ℝ, mat n P * Matrix.diagonal w * (mat n P)ᵀ *
      (mat n P * Matrix.diagonal w' * (mat n P)ᵀ)
      = mat n P * Matrix.diagonal (fun i => w i * w' i) * (mat n P)ᵀ := by
    intro w w'
    calc mat n P * Matrix.diagonal w * (mat n P)ᵀ * (mat n P * Matrix.diagonal w' * (mat n P)ᵀ)
        = mat n P * Matrix.diagonal w * ((mat n P)ᵀ * mat n P) * Matrix.diagonal w' * (mat n P)ᵀ := by
          simp only [Matrix.mul_assoc]
      _ = _ := by
          rw [p3, Matrix.mul_one, Matrix.mul_assoc (mat n P) (Matrix.diagonal w),
            Matrix.diagonal_mul_diagonal]
  refine ⟨(P.mul (Arr.diag n fun i => Real.sqrt (v i))).mul (la.inv P),
    (P.mul (Arr.diag n fun i => 1 / Real.sqrt (v i))).mul (la.inv P), ?_, ?_,
    square_mul p1 q2, square_mul p1 q2, ?_, ?_, ?_, ?_⟩
  · unfold Matrix_sqrt
    rw [e]
    simp only [py_bind_ok, h1]
    rw [if_neg (fun h => h fun i hi => (hv i hi).le)]
    rfl
  · unfold Matrix_sqrtInv
    rw [e]
    simp only [py_bind_ok, h1]
    rw [if_neg (fun h => h fun i hi => hv i hi)]
    rfl
  · rw [val, prod]
    have : (fun i : Fin n => Real.sqrt (v i) * Real.sqrt (v i)) = fun i : Fin n => v i := by
      funext i
      exact Real.mul_self_sqrt (hv i i.2).le
    rw [this, ← p5, Matrix.mul_assoc, p4, Matrix.mul_one]
  · rw [val]
    exact conj_posDef (fun i => Real.sqrt_pos.2 (hv i i.2)) p4
  · rw [val, val, prod]
    have : (fun i : Fin n => Real.sqrt (v i) * (1 / Real.sqrt (v i))) = fun _ => 1 := by
      funext i
      have := (Real.sqrt_pos.2 (hv i i.2)).ne'
      field_simp
    rw [this, Matrix.diagonal_one, Matrix.mul_one, p4]
  · rw [val]
    exact conj_posDef (fun i => one_div_pos.2 (Real.sqrt_pos.2 (hv i i.2))) p4

/-! ## beta^2 -/

/-- beta^2 on the labels `0..N-1`. -/
noncomputable def b2Mat (lam : ℝ) (N : ℕ) : Matrix (Fin N) (Fin N) ℝ :=
  Matrix.of fun i j => vSp lam i j + vSm lam i j + 2 * vS0 lam i j

theorem b2Mat_posDef {lam : ℝ} (h : 0 < lam) (N : ℕ) : (b2Mat lam N).PosDef := by
  let B : Matrix (Fin N) (Fin N) ℝ := Matrix.of fun i j => vb_pl lam i j
  have hB : b2Mat lam N = Bᴴ * B := by
    ext i j
    rw [Matrix.conjTranspose_eq_transpose_of_trivial, Matrix.mul_apply]
    simp only [b2Mat, Matrix.of_apply, Matrix.transpose_apply, B]
    have hs := hasSum_sum_of_ne_finset_zero (L := .unconditional ℕ)
      (f := fun k => vb_pl lam k i * vb_pl lam k j) (s := Finset.range N) (by
        intro k hk
        rw [Finset.mem_range] at hk
        have := i.2
        rw [vb_pl_off k i (by omega) (by omega), zero_mul])
    rw [← Finset.sum_range (fun k => vb_pl lam k i * vb_pl lam k j)]
    exact (b_ml_b_pl h i j).unique hs
  rw [hB]
  apply Matrix.PosDef.conjTranspose_mul_self
  have hdet : B.det ≠ 0 := by
    rw [Matrix.det_of_isUpperTriangular]
    · refine Finset.prod_ne_zero_iff.2 fun i _ => ?_
      simp only [B, Matrix.of_apply, vb_pl, if_true]
      exact (Real.sqrt_pos.2 (by positivity)).ne'
    · intro i j hij
      simp only [id] at hij
      have : (j : ℕ) < i := hij
      exact vb_pl_off i j (by omega) (by omega)
  exact Matrix.mulVec_injective_of_isUnit ((Matrix.isUnit_iff_isUnit_det _).2 (isUnit_iff_ne_zero.2 hdet))

/-- The truncated matrix of beta^2. -/
theorem RepRadial_b2_ok {lam : ℝ} (h : 0 < lam) (lo hi : ℕ) :
    ∃ B, RepRadial ME_Radial_b2 lam lo hi = .ok B ∧ Square (hi + 1 - lo) B ∧
      (∀ i < hi + 1 - lo, ∀ j < hi + 1 - lo, ME_Radial_b2 lam (lo + i) (lo + j) = .ok (B.e i j)) ∧
      (mat (hi + 1 - lo) B).PosDef := by
  have e : RepRadial ME_Radial_b2 lam lo hi = .ok (Arr.of (hi + 1 - lo) (hi + 1 - lo) fun i j =>
      vSp lam (lo + i) (lo + j) + vSm lam (lo + i) (lo + j) + 2 * vS0 lam (lo + i) (lo + j)) := by
    unfold RepRadial
    simp only
    rw [show ((hi : Int) - lo + 1).toNat = hi + 1 - lo by omega]
    exact ofM_eq fun i _ j _ => b2_ok h _ _
  refine ⟨_, e, (RepRadial_ok e).1, (RepRadial_ok e).2, ?_⟩
  have hsub : mat (hi + 1 - lo) (Arr.of (hi + 1 - lo) (hi + 1 - lo) fun i j =>
      vSp lam (lo + i) (lo + j) + vSm lam (lo + i) (lo + j) + 2 * vS0 lam (lo + i) (lo + j))
      = (b2Mat lam (hi + 1)).submatrix (fun i : Fin (hi + 1 - lo) => ⟨lo + i, by omega⟩)
          (fun i : Fin (hi + 1 - lo) => ⟨lo + i, by omega⟩) := by
    ext i j
    simp only [mat, Matrix.of_apply, Arr.of, b2Mat, Matrix.submatrix_apply]
    rw [if_pos ⟨i.2, j.2⟩]
  rw [hsub]
  refine (b2Mat_posDef h _).submatrix ?_
  intro i j hij
  simp only [Fin.mk.injEq, Nat.add_left_cancel_iff] at hij
  exact Fin.ext hij

/-! ## The contract can be met -/

theorem exists_eigh (n : ℕ) (A : Matrix (Fin n) (Fin n) ℝ) (hA : A.IsSymm) :
    ∃ (v : ℕ → ℝ) (P : Arr), P.rows = n ∧ P.cols = n ∧ (mat n P)ᵀ * mat n P = 1 ∧
      A * mat n P = mat n P * Matrix.diagonal (fun i : Fin n => v i) ∧
      ∀ i j, i ≤ j → j < n → v i ≤ v j := by
  have hH : A.IsHermitian := by
    rw [Matrix.IsHermitian, Matrix.conjTranspose_eq_transpose_of_trivial]; exact hA
  let σ := Tuple.sort hH.eigenvalues
  let U : Matrix (Fin n) (Fin n) ℝ := hH.eigenvectorUnitary
  let Q : Matrix (Fin n) (Fin n) ℝ := U.submatrix id σ
  have hU : Uᵀ * U = 1 := by
    have := Matrix.UnitaryGroup.star_mul_self hH.eigenvectorUnitary
    rwa [Matrix.star_eq_conjTranspose, Matrix.conjTranspose_eq_transpose_of_trivial] at this
  have hE : A * U = U * Matrix.diagonal hH.eigenvalues := by
    ext i j
    have := congrFun (hH.mulVec_eigenvectorBasis j) i
    rw [Matrix.mul_diagonal, Matrix.mul_apply]
    simp only [Matrix.mulVec, dotProduct, Pi.smul_apply, smul_eq_mul] at this
    have hUa : ∀ i j, U i j = (hH.eigenvectorBasis j).ofLp i := fun i j =>
      hH.eigenvectorUnitary_apply i j
    simp only [hUa]
    rw [mul_comm]
    exact this
  refine ⟨fun i => if hi : i < n then hH.eigenvalues (σ ⟨i, hi⟩) else 0,
    ⟨n, n, fun i j => if h : i < n ∧ j < n then Q ⟨i, h.1⟩ ⟨j, h.2⟩ else 0⟩, rfl, rfl, ?_, ?_, ?_⟩
  all_goals
    have hQ : mat n ⟨n, n, fun i j => if h : i < n ∧ j < n then Q ⟨i, h.1⟩ ⟨j, h.2⟩ else 0⟩ = Q := by
      ext i j
      simp [mat]
  · rw [hQ]
    ext i j
    have := congrFun (congrFun hU (σ i)) (σ j)
    simp only [Matrix.mul_apply, Matrix.transpose_apply] at this ⊢
    simp only [Q, Matrix.submatrix_apply, id]
    rw [this]
    simp [Matrix.one_apply]
  · rw [hQ]
    ext i j
    have := congrFun (congrFun hE i) (σ j)
    rw [Matrix.mul_diagonal] at this ⊢
    simp only [Matrix.mul_apply] at this ⊢
    simp only [Q, Matrix.submatrix_apply, id, Fin.is_lt, dif_pos, Fin.eta]
    exact this
  · intro i j hij hj
    beta_reduce
    rw [dif_pos (by omega), dif_pos hj]
    exact Tuple.monotone_sort hH.eigenvalues (show (⟨i, by omega⟩ : Fin n) ≤ ⟨j, hj⟩ from hij)

theorem exists_inv (n : ℕ) (A : Matrix (Fin n) (Fin n) ℝ) (hA : IsUnit A) :
    ∃ B : Arr, B.rows = n ∧ B.cols = n ∧ A * mat n B = 1 := by
  refine ⟨⟨n, n, fun i j => if h : i < n ∧ j < n then A⁻¹ ⟨i, h.1⟩ ⟨j, h.2⟩ else 0⟩, rfl, rfl, ?_⟩
  have : mat n ⟨n, n, fun i j => if h : i < n ∧ j < n then A⁻¹ ⟨i, h.1⟩ ⟨j, h.2⟩ else 0⟩ = A⁻¹ := by
    ext i j
    simp [mat]
  rw [this]
  exact Matrix.mul_nonsing_inv _ ((Matrix.isUnit_iff_isUnit_det _).1 hA)

open Classical in
/-- Routines that meet the contract exist. -/
theorem linAlg_exists : ∃ la, LinAlgOk la := by
  have he : ∀ A : Arr, ∃ r : (ℕ → ℝ) × Arr, ∀ n, A.rows = n → A.cols = n →
      (r.2.rows = n ∧ r.2.cols = n) ∧ ((mat n A).IsSymm → (mat n r.2)ᵀ * mat n r.2 = 1 ∧
        mat n A * mat n r.2 = mat n r.2 * Matrix.diagonal (fun i : Fin n => r.1 i) ∧
        ∀ i j, i ≤ j → j < n → r.1 i ≤ r.1 j) := by
    intro A
    by_cases hs : (mat A.rows A).IsSymm
    · obtain ⟨v, P, a, b, c, d, e⟩ := exists_eigh A.rows (mat A.rows A) hs
      refine ⟨(v, P), ?_⟩
      rintro n rfl _
      exact ⟨⟨a, b⟩, fun _ => ⟨c, d, e⟩⟩
    · refine ⟨(fun _ => 0, ⟨A.rows, A.cols, fun _ _ => 0⟩), ?_⟩
      rintro n rfl h
      exact ⟨⟨rfl, h⟩, fun h' => absurd h' hs⟩
  have hi : ∀ A : Arr, ∃ B : Arr, ∀ n, A.rows = n → A.cols = n →
      (B.rows = n ∧ B.cols = n) ∧ (IsUnit (mat n A) → mat n A * mat n B = 1) := by
    intro A
    by_cases hu : IsUnit (mat A.rows A)
    · obtain ⟨B, a, b, c⟩ := exists_inv A.rows (mat A.rows A) hu
      refine ⟨B, ?_⟩
      rintro n rfl _
      exact ⟨⟨a, b⟩, fun _ => c⟩
    · refine ⟨⟨A.rows, A.cols, fun _ _ => 0⟩, ?_⟩
      rintro n rfl h
      exact ⟨⟨rfl, h⟩, fun h' => absurd h' hu⟩
  choose f hf using he
  choose g hg using hi
  refine ⟨⟨f, g⟩, ?_, ?_, ?_, ?_, ?_, ?_⟩
  · intro n A h1 h2; exact (hf A n h1 h2).1
  · intro n A h1 h2 h3; exact ((hf A n h1 h2).2 h3).1
  · intro n A h1 h2 h3; exact ((hf A n h1 h2).2 h3).2.1
  · intro n A h1 h2 h3; exact ((hf A n h1 h2).2 h3).2.2
  · intro n A h1 h2; exact (hg A n h1 h2).1
  · intro n A h1 h2 h3; exact (hg A n h1 h2).2 h3

end Acm

import Verif.Lemmas.Interlace
import Mathlib.LinearAlgebra.Matrix.Trace

/-!
# The eigenvalues of a sum of two matrices
-/

namespace Acm

open Matrix

theorem norm_rot {n : ℕ} {Q : Matrix (Fin n) (Fin n) ℝ} (h : Q.transpose * Q = 1) (x : Fin n → ℝ) :
    (Q *ᵥ x) ⬝ᵥ (Q *ᵥ x) = ∑ i, x i ^ 2 := by
  have := quad_diag (A := 1) (Q := Q) (α := 1) (by rw [Matrix.mul_one, h]; exact diagonal_one.symm) x
  rw [one_mulVec] at this
  rw [this]
  simp

/-- Weyl's inequalities: eigenvalues in ascending order. -/
theorem weyl {n : ℕ} {A B C P Q R : Matrix (Fin n) (Fin n) ℝ} {α β γ : ℕ → ℝ} (hC : C = A + B)
    (hP : P.transpose * P = 1) (hPA : P.transpose * A * P = diagonal fun i : Fin n => α i)
    (hQ : Q.transpose * Q = 1) (hQB : Q.transpose * B * Q = diagonal fun i : Fin n => β i)
    (hR : R.transpose * R = 1) (hRC : R.transpose * C * R = diagonal fun i : Fin n => γ i)
    (hα : ∀ i j, i ≤ j → j < n → α i ≤ α j) (hβ : ∀ i j, i ≤ j → j < n → β i ≤ β j)
    (hγ : ∀ i j, i ≤ j → j < n → γ i ≤ γ j) {i j : ℕ} (hij : i + j < n) : α i + β j ≤ γ (i + j) := by
  let inc : (Fin (i + j + 1) → ℝ) →ₗ[ℝ] (Fin n → ℝ) :=
    { toFun := fun x k => if h : k.1 < i + j + 1 then x ⟨k.1, h⟩ else 0
      map_add' := fun x y => by funext i; simp only [Pi.add_apply]; split_ifs <;> simp
      map_smul' := fun c x => by funext i; simp only [Pi.smul_apply, smul_eq_mul, RingHom.id_apply]; split_ifs <;> simp }
  let T : (Fin (i + j + 1) → ℝ) →ₗ[ℝ] (Fin i → ℝ) × (Fin j → ℝ) :=
    { toFun := fun x => (fun k => (P.transpose *ᵥ (R *ᵥ inc x)) ⟨k.1, by omega⟩, fun k => (Q.transpose *ᵥ (R *ᵥ inc x)) ⟨k.1, by omega⟩)
      map_add' := fun x y => by ext k <;> simp [mulVec_add]
      map_smul' := fun c x => by ext k <;> simp [mulVec_smul] }
  have hker : LinearMap.ker T ≠ ⊥ := by
    apply LinearMap.ker_ne_bot_of_finrank_lt
    rw [Module.finrank_prod]
    simp only [Module.finrank_fin_fun]
    omega
  obtain ⟨x, hx, hx0⟩ := (Submodule.ne_bot_iff _).1 hker
  set u := inc x with hu
  set y := P.transpose *ᵥ (R *ᵥ u) with hy
  set z := Q.transpose *ᵥ (R *ᵥ u) with hz
  have hPy : P *ᵥ y = R *ᵥ u := by rw [hy, mulVec_mulVec, mul_eq_one_comm.1 hP, one_mulVec]
  have hQz : Q *ᵥ z = R *ᵥ u := by rw [hz, mulVec_mulVec, mul_eq_one_comm.1 hQ, one_mulVec]
  have hTy : ∀ k : Fin n, k.1 < i → y k = 0 := fun k hk =>
    congrFun (congrArg Prod.fst (LinearMap.mem_ker.1 hx)) ⟨k.1, hk⟩
  have hTz : ∀ k : Fin n, k.1 < j → z k = 0 := fun k hk =>
    congrFun (congrArg Prod.snd (LinearMap.mem_ker.1 hx)) ⟨k.1, hk⟩
  have hsy : ∑ k, y k ^ 2 = ∑ k, u k ^ 2 := by rw [← norm_rot hP, ← norm_rot hR, hPy]
  have hsz : ∑ k, z k ^ 2 = ∑ k, u k ^ 2 := by rw [← norm_rot hQ, ← norm_rot hR, hQz]
  have hpos : 0 < ∑ k, u k ^ 2 := by
    obtain ⟨k, hk⟩ := Function.ne_iff.1 hx0
    refine Finset.sum_pos' (fun i _ => sq_nonneg _) ⟨⟨k.1, by omega⟩, Finset.mem_univ _, ?_⟩
    have : u ⟨k.1, by omega⟩ = x k := dif_pos k.2
    rw [this]
    exact sq_pos_of_ne_zero hk
  have h1 := quad_diag hPA y
  have h2 := quad_diag hQB z
  have h3 := quad_diag hRC u
  rw [hPy] at h1
  rw [hQz] at h2
  rw [hC, add_mulVec, dotProduct_add, h1, h2] at h3
  have k1 : α i * ∑ k, y k ^ 2 ≤ ∑ k : Fin n, α k * y k ^ 2 := by
    rw [Finset.mul_sum]
    refine Finset.sum_le_sum fun k _ => ?_
    by_cases hk : k.1 < i
    · rw [hTy k hk]; simp
    · exact mul_le_mul_of_nonneg_right (hα _ _ (by omega) k.2) (sq_nonneg _)
  have k2 : β j * ∑ k, z k ^ 2 ≤ ∑ k : Fin n, β k * z k ^ 2 := by
    rw [Finset.mul_sum]
    refine Finset.sum_le_sum fun k _ => ?_
    by_cases hk : k.1 < j
    · rw [hTz k hk]; simp
    · exact mul_le_mul_of_nonneg_right (hβ _ _ (by omega) k.2) (sq_nonneg _)
  have k3 : ∑ k : Fin n, γ k * u k ^ 2 ≤ γ (i + j) * ∑ k, u k ^ 2 := by
    rw [Finset.mul_sum]
    refine Finset.sum_le_sum fun k _ => ?_
    by_cases hk : k.1 < i + j + 1
    · exact mul_le_mul_of_nonneg_right (hγ _ _ (by omega) hij) (sq_nonneg _)
    · have : u k = 0 := dif_neg hk
      rw [this]; simp
  rw [hsy] at k1
  rw [hsz] at k2
  exact le_of_mul_le_mul_right (by linarith) hpos

/-- Eigenvalues of the negative matrix, in ascending order again. -/
theorem neg_eig {n : ℕ} {A P : Matrix (Fin n) (Fin n) ℝ} {α : ℕ → ℝ} (hP : P.transpose * P = 1)
    (hPA : P.transpose * A * P = diagonal fun i : Fin n => α i) (hα : ∀ i j, i ≤ j → j < n → α i ≤ α j) (c : ℝ) (hc : c ≤ 0) :
    ∃ Q : Matrix (Fin n) (Fin n) ℝ, Q.transpose * Q = 1 ∧ Q.transpose * (c • A) * Q = diagonal (fun i : Fin n => c * α (n - 1 - i)) ∧
      ∀ i j, i ≤ j → j < n → c * α (n - 1 - i) ≤ c * α (n - 1 - j) := by
  have key : ∀ X, (P.submatrix id Fin.rev).transpose * X * P.submatrix id Fin.rev = (P.transpose * X * P).submatrix Fin.rev Fin.rev :=
    fun X => by ext i j; simp [mul_apply]
  refine ⟨P.submatrix id Fin.rev, ?_, ?_, fun i j h1 h2 => mul_le_mul_of_nonpos_left (hα _ _ (by omega) (by omega)) hc⟩
  · have := key 1
    rw [Matrix.mul_one, Matrix.mul_one, hP] at this
    rw [this]
    exact submatrix_one _ Fin.rev_injective
  · rw [key, Matrix.mul_smul, Matrix.smul_mul, hPA]
    ext i j
    rw [submatrix_apply, Matrix.smul_apply, smul_eq_mul]
    by_cases hij : i = j
    · subst hij
      rw [diagonal_apply_eq, diagonal_apply_eq, Fin.val_rev]
      congr 2
      omega
    · rw [diagonal_apply_ne _ hij, diagonal_apply_ne _ fun h => hij (Fin.rev_injective h), mul_zero]

/-- The eigenvalues of a multiple, in ascending order. -/
theorem times_eig {n : ℕ} {A P : Matrix (Fin n) (Fin n) ℝ} {α : ℕ → ℝ}
    (hPA : P.transpose * A * P = diagonal fun i : Fin n => α i) (hα : ∀ i j, i ≤ j → j < n → α i ≤ α j) (c : ℝ) (hc : 0 ≤ c) :
    P.transpose * (c • A) * P = diagonal (fun i : Fin n => c * α i) ∧ ∀ i j, i ≤ j → j < n → c * α i ≤ c * α j := by
  refine ⟨?_, fun i j h1 h2 => mul_le_mul_of_nonneg_left (hα _ _ h1 h2) hc⟩
  rw [Matrix.mul_smul, Matrix.smul_mul, hPA]
  ext i j
  rw [Matrix.smul_apply, smul_eq_mul]
  by_cases hij : i = j
  · subst hij
    rw [diagonal_apply_eq, diagonal_apply_eq]
  · rw [diagonal_apply_ne _ hij, diagonal_apply_ne _ hij, mul_zero]

/-- The other half of Weyl's inequalities. -/
theorem weyl_upper {n : ℕ} {A B C P Q R : Matrix (Fin n) (Fin n) ℝ} {α β γ : ℕ → ℝ} (hC : C = A + B)
    (hP : P.transpose * P = 1) (hPA : P.transpose * A * P = diagonal fun i : Fin n => α i)
    (hQ : Q.transpose * Q = 1) (hQB : Q.transpose * B * Q = diagonal fun i : Fin n => β i)
    (hR : R.transpose * R = 1) (hRC : R.transpose * C * R = diagonal fun i : Fin n => γ i)
    (hα : ∀ i j, i ≤ j → j < n → α i ≤ α j) (hβ : ∀ i j, i ≤ j → j < n → β i ≤ β j)
    (hγ : ∀ i j, i ≤ j → j < n → γ i ≤ γ j) {i j : ℕ} (hij : i + j < n) : γ i ≤ α (i + j) + β (n - 1 - j) := by
  obtain ⟨S, s1, s2, s3⟩ := neg_eig hQ hQB hβ (-1) (by norm_num)
  have := weyl (A := C) (B := (-1 : ℝ) • B) (C := A) (by rw [hC]; simp) hR hRC s1 s2 hP hPA hγ s3 hα hij
  linarith

/-- The sum of the eigenvalues and that of their squares. -/
theorem trace_eig {n : ℕ} {A P : Matrix (Fin n) (Fin n) ℝ} {α : ℕ → ℝ} (hP : P.transpose * P = 1)
    (hPA : P.transpose * A * P = diagonal fun i : Fin n => α i) :
    ∑ i : Fin n, α i = ∑ i, A i i ∧ ∑ i : Fin n, α i ^ 2 = ∑ i, ∑ j, A i j * A j i := by
  have hP' := mul_eq_one_comm.1 hP
  have h1 : ∀ X : Matrix (Fin n) (Fin n) ℝ, (P.transpose * X * P).trace = X.trace := fun X => by
    rw [Matrix.mul_assoc, trace_mul_comm, Matrix.mul_assoc, hP', Matrix.mul_one]
  constructor
  · have := h1 A
    rw [hPA, trace_diagonal] at this
    exact this
  · have := h1 (A * A)
    rw [show P.transpose * (A * A) * P = (P.transpose * A * P) * (P.transpose * A * P) by
      rw [Matrix.mul_assoc (P.transpose * A) P, ← Matrix.mul_assoc P, ← Matrix.mul_assoc P, hP', Matrix.one_mul]
      simp only [Matrix.mul_assoc], hPA, diagonal_mul_diagonal, trace_diagonal] at this
    simp only [← sq] at this
    rw [this, sq]
    simp only [trace, diag_apply, mul_apply]

end Acm
